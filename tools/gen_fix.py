#!/usr/bin/env python3
"""Translate the repaired source: apply repairs/*.patch to a copy of /repo/src, run rust2lean.py on
it and write the definitions that differ from lean/Verif/Gen, with those that use them, to
lean/Verif/Gen/Fix.lean and, for the tests, FixTests.lean. Inside the namespace Ed448.Gen.Fix all other names are those of Ed448.Gen.
The same is done for the translations with leakage (FixLeak.lean) and with wrapping arithmetic (FixRel.lean).
Scalar::random is in FixRandom.lean, in all three translations."""
import glob
import os
import re
import shutil
import subprocess
import tempfile

ROOT = os.path.dirname(os.path.dirname(os.path.abspath(__file__)))
GEN = os.path.join(ROOT, "lean/Verif/Gen")
MODULES = ["Scalar", "U32", "Fiat", "Curve", "Tests", "Random"]

HEADER = """%s
/-!
# Mechanical translation of %s of the repaired source

Generated by tools/gen_fix.py; do not edit. These are the translations of %s
of /repo/src after the patches in repairs/ that differ from those of the source as it is, and of those
that use them. All other names are those of `Ed448.Gen`. The lines cited are those of the
patched files.
-/

set_option linter.all false

namespace Ed448.Gen.Fix
open Ed448.Model FieldBackend

"""


def items(path):
    """The definitions of a generated file: name -> (doc, body)."""
    text = open(path).read()
    text = text[text.index("\nnamespace"):text.rindex("\nend Ed448.")]
    res = {}
    for part in re.split(r"\n(?=/-- )", text)[1:]:
        doc, body = part.split("-/\n", 1)
        name = re.search(r"\b(?:def|theorem|abbrev|structure)\s+(\S+)", body).group(1)
        res[name] = (doc + "-/", body.strip("\n"))
    return res


PASSES = {
    "Leak": ("with leakage", "import Verif.Gen.LeakCurve\nimport Verif.Gen.Fix",
             "variable {F L : Type} [FieldBackend F L] [LeakBackend F L]\n\n"),
    "Rel": ("in a release build", "import Verif.Gen.RelCurve\nimport Verif.Gen.Fix",
            "variable {F L : Type} [FieldBackend F L]\n\n")}


def uses(body, names, prefix):
    return any(re.search(r"(?<![\w.])" + re.escape(prefix + c) + r"(?![\w'])", body) for c in names)


def other_pass(tmp, p, gen_changed):
    """The translations of the pass p that differ, or use a changed function of either pass."""
    what, imports, variables = PASSES[p]
    new = {}
    changed = set()
    for m in ("Scalar", "Curve", "Random"):
        a = items(os.path.join(GEN, p + m + ".lean"))
        b = items(os.path.join(tmp, "lean/Verif/Gen", p + m + ".lean"))
        for n, (doc, body) in b.items():
            new[n] = (m, doc, body)
            if n not in a or a[n][1] != body or uses(body, gen_changed, "Gen."):
                changed.add(n)
    direct = set(changed)
    while True:
        more = {n for n, (_, _, body) in new.items() if n not in changed and uses(body, changed, "")}
        if not more:
            break
        changed |= more
    out = (HEADER % (imports, "the functions", "the functions")).replace("Ed448.Gen.Fix", "Ed448.%s.Fix" % p)
    out = out.replace("of the repaired source", "of the repaired source " + what)
    out = out.replace("`Ed448.Gen`", "`Ed448.%s`" % p)
    seen = False
    random = ""
    for n, (m, doc, body) in new.items():
        if n not in changed:
            continue
        if m == "Curve" and not seen:
            seen = True
            out += variables
        for c in gen_changed:
            body = re.sub(r"(?<![\w.])Gen\." + re.escape(c) + r"(?![\w'])", "Gen.Fix." + c, body)
        doc = doc.replace("/repo/src/", "Patched src/" if n in direct else "Uses a patched function. Patched src/")
        if m == "Random":
            random += "\nnamespace Ed448.%s.Fix\nopen Ed448.Model FieldBackend\n\n%s\n%s\n\nend Ed448.%s.Fix\n" % (
                p, doc, body, p)
        else:
            out += doc + "\n" + body + "\n\n"
    with open(os.path.join(GEN, "Fix%s.lean" % p), "w") as h:
        h.write(out + "end Ed448.%s.Fix\n" % p)
    print(p, "changed", sorted(direct), "affected", sorted(changed - direct))
    return random


def main():
    tmp = tempfile.mkdtemp()
    shutil.copytree("/repo/src", os.path.join(tmp, "src"))
    for f in sorted(glob.glob(os.path.join(ROOT, "repairs/*.patch"))):
        subprocess.run(["git", "apply", "--unsafe-paths", "--directory=" + tmp, f], check=True, cwd=tmp)
    os.makedirs(os.path.join(tmp, "tools"))
    shutil.copy(os.path.join(ROOT, "tools/rust2lean.py"), os.path.join(tmp, "tools"))
    subprocess.run(["python3", os.path.join(tmp, "tools/rust2lean.py")], check=True, cwd=tmp,
                   env=dict(os.environ, REPO_SRC=os.path.join(tmp, "src")))
    new = {}
    changed = set()
    for m in MODULES:
        a = items(os.path.join(GEN, m + ".lean"))
        b = items(os.path.join(tmp, "lean/Verif/Gen", m + ".lean"))
        for n, (doc, body) in b.items():
            new[n] = (m, doc, body)
            if n not in a or a[n][1] != body:
                changed.add(n)
    direct = set(changed)
    while True:
        more = {n for n, (_, _, body) in new.items() if n not in changed and
                any(re.search(r"(?<![\w.])" + re.escape(c) + r"(?![\w'])", body) for c in changed)}
        if not more:
            break
        changed |= more
    out = {False: HEADER % ("import Verif.Gen.U32\nimport Verif.Gen.Fiat\nimport Verif.Gen.Curve",
                            "the functions", "the functions and constants"),
           "Random": HEADER % ("import Verif.Gen.FixLeak\nimport Verif.Gen.FixRel\nimport Verif.Gen.LeakRandom\n"
                               "import Verif.Gen.RelRandom", "Scalar::random", "the functions"),
           True: HEADER % ("import Verif.Gen.Tests\nimport Verif.Gen.Fix", "the tests", "the tests")}
    seen = set()
    for n, (m, doc, body) in new.items():
        if n not in changed:
            continue
        if m in ("Curve", "Tests") and m not in seen:
            seen.add(m)
            out[m == "Tests"] += "variable {F L : Type} [FieldBackend F L]\n\n"
        doc = doc.replace("/repo/src/", "Patched src/" if n in direct else "Uses a patched function. Patched src/")
        out[m if m == "Random" else m == "Tests"] += doc + "\n" + body + "\n\n"
    for t, name in ((False, "Fix.lean"), (True, "FixTests.lean")):
        with open(os.path.join(GEN, name), "w") as h:
            h.write(out[t] + "end Ed448.Gen.Fix\n")
    random = out["Random"] + "end Ed448.Gen.Fix\n"
    for p in PASSES:
        random += other_pass(tmp, p, changed)
    with open(os.path.join(GEN, "FixRandom.lean"), "w") as h:
        h.write(random)
    shutil.rmtree(tmp)
    print("changed", sorted(direct))
    print("affected", sorted(changed - direct))


if __name__ == "__main__":
    main()
