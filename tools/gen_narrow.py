#!/usr/bin/env python3
"""Write lean/Verif/Gen/Narrow.lean: karatsuba::mul translated from a copy of the source in which i128 is
replaced by i64, and the same function with the width and the check of the signed type as parameters."""
import os
import re
import shutil
import subprocess
import tempfile

from gen_fix import GEN, ROOT, items

HEADER = """import Verif.Gen.U32

/-!
# Multiplication of field elements with narrower words

Generated by tools/gen_narrow.py; do not edit. `Gen.Narrow.karatsuba.mul` is the translation of `mul` in
src/field/u32/karatsuba.rs after replacing i128 by i64. `Gen.Wide.karatsuba.mul ck w` is the translation of the
source as it is, where the signed type has `w` bits and `ck` checks its results.
-/

set_option linter.all false

"""


def main():
    tmp = tempfile.mkdtemp()
    shutil.copytree("/repo/src", os.path.join(tmp, "src"))
    f = os.path.join(tmp, "src/field/u32/karatsuba.rs")
    text = open(f).read()
    open(f, "w").write(text.replace("i128", "i64"))
    os.makedirs(os.path.join(tmp, "tools"))
    shutil.copy(os.path.join(ROOT, "tools/rust2lean.py"), os.path.join(tmp, "tools"))
    subprocess.run(["python3", os.path.join(tmp, "tools/rust2lean.py")], check=True, cwd=tmp,
                   env=dict(os.environ, REPO_SRC=os.path.join(tmp, "src")))
    old = items(os.path.join(GEN, "U32.lean"))
    new = items(os.path.join(tmp, "lean/Verif/Gen/U32.lean"))
    names = [n for n in new if new[n][1] != old[n][1]]
    assert names and all(n.startswith("karatsuba.mul") for n in names), names
    out = HEADER + "namespace Ed448.Gen.Narrow\nopen Ed448.Model FieldBackend\n\n"
    for n in names:
        doc, body = new[n]
        out += doc.replace("/repo/src/", "With i64 for i128: src/") + "\n" + body + "\n\n"
    out += "end Ed448.Gen.Narrow\n\nnamespace Ed448.Gen.Wide\nopen Ed448.Model FieldBackend\n\n"
    for n in names:
        doc, body = old[n]
        body = re.sub(r"\bckI128\b", "ck", body).replace("Rt.andZ 128", "Rt.andZ w")
        for k in names:
            body = re.sub(r"(?<![\w.])" + re.escape(k) + r"(?= a b\b)", k + " ck w", body)
        body = body.replace("def %s " % n, "def %s (ck : ℤ → Option ℤ) (w : ℕ) " % n, 1)
        out += doc.replace("/repo/src/", "With any signed type: src/") + "\n" + body + "\n\n"
    with open(os.path.join(GEN, "Narrow.lean"), "w") as h:
        h.write(out + "end Ed448.Gen.Wide\n")
    print("narrow", names)


main()
