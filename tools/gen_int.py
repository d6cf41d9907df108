#!/usr/bin/env python3
"""Writes lean/Verif/Text/IntScalar.lean, IntField.lean and Bridge.lean: that the functions in the text
of src/field/scalar.rs and src/field/u32 compute what the parametric translation computes."""
import os
import re

OUT = os.path.join(os.path.dirname(os.path.abspath(__file__)), "..", "lean", "Verif", "Text")


def vs(p, n):
    return ["%s%d" % (p, i) for i in range(n)]


def lst(x):
    return "[" + ", ".join(x) + "]"


HEAD = """%s
/-!
# %s

Generated by tools/gen_int.py; do not edit. The comparisons are left to the kernel: the text is run, and
the translation is unfolded, on arrays of variables.%s
-/

set_option linter.all false
set_option maxRecDepth 100000

namespace Ed448.Text
"""


def length(n):
    v = vs("x", n)
    return """
theorem len%d {l : List ℕ} (h : l.length = %d) : ∃ %s : ℕ, l = %s := by
  refine ⟨%s, (getD_range h).trans ?_⟩
  krfl
""" % (n, n, " ".join(v), lst(v), ", ".join("l.getD %d 0" % i for i in range(n)))


def thm(name, run, head, fn, args, res, dec="decW", o="o", doc="", eqs=""):
    """args: (variable, length or 0, width)"""
    bs, cases, av = [], [], []
    for p, n, w in args:
        if n:
            bs.append("{%s : List ℕ} (h%s : %s.length = %d)" % (p, p, p, n))
            cases.append("  obtain ⟨%s, rfl⟩ := len%d h%s\n" % (", ".join(vs(p, n)), n, p))
            av.append("encW (.u %d) %s" % (w, p))
        else:
            bs.append("(%s : ℕ)" % p)
            av.append(".int (.u %d) (.n %s)" % (w, p))
    h = lst(['t! "%s"' % x for x in head.split()])
    return """
%stheorem %s %s%s :
    (%s %s %s (t! "%s") %s).bind %s =
      %s := by
%s  unfold %s
  rw [%s]
  krfl
""" % ("/-- %s -/\n" % doc if doc else "", name, "(o : Ops) " if o == "o" else "", " ".join(bs), run, o, h, fn, lst(av), dec, res,
       "".join(cases), run, eqs)


A, B, C = ("a", 14, 32), ("b", 14, 32), ("c", 0, 32)
out = HEAD % ("import Verif.Text.IntCrate\nimport Verif.Text.Files\nimport Verif.Gen.ParScalar\nimport Verif.Gen.RelScalar\n",
              "The text of src/field/scalar.rs", "")
out += """
theorem getD_range {n : ℕ} {l : List ℕ} (h : l.length = n) : l = (List.range n).map fun i => l.getD i 0 := by
  apply List.ext_getElem
  · simp [h]
  · intro i h1 h2
    simp [h1]
"""
out += length(14) + length(56)
S = lambda *a, **k: thm(*a, eqs="scalar_eq", **k)
T, TM = "scalarText", "scalarTextMut"
out += S("txt_sub_extra", T, "", "sub_extra", [A, B, C], "Par.scalar.sub_extra o a b c")
out += S("txt_add", T, "", "add", [A, B], "Par.scalar.add o a b")
out += S("txt_montgomery_multiply", T, "", "montgomery_multiply", [A, B], "Par.scalar.montgomery_multiply o a b")
out += S("txt_op_add", T, "Add Scalar for Scalar", "add", [A, B], "Par.Scalar.op_add o a b")
out += S("txt_op_sub", T, "Sub Scalar for Scalar", "sub", [A, B], "Par.Scalar.op_sub o a b")
out += S("txt_halve", T, "Scalar", "halve", [A], "Par.Scalar.halve o a")
out += S("txt_div_by_four", TM, "Scalar", "div_by_four", [A], "Par.Scalar.div_by_four o a")
out += S("txt_to_bytes", T, "Scalar", "to_bytes", [A], "Par.Scalar.to_bytes o a")
out += S("txt_to_bytes_rfc_8032", T, "Scalar", "to_bytes_rfc_8032", [A], "Par.Scalar.to_bytes_rfc_8032 o a")
out += S("txt_from_bytes", T, "Scalar", "from_bytes", [("a", 56, 8)], "Par.Scalar.from_bytes o a")
out += S("txt_to_radix_16", T, "Scalar", "to_radix_16", [A], "Par.Scalar.to_radix_16 o a", dec="decZ")
out += S("txt_bits", T, "Scalar", "bits", [A], "Par.Scalar.bits Ops.release a", dec="decB", o="Ops.release",
         doc="Here `1 << j` is computed without a type in the text, hence for `Ops.release`.")
out += """
/-- /repo/src/field/scalar.rs:18-21 -/
def R2words : List ℕ := [0x049b9b60, 0xe3539257, 0xc1b195d9, 0x7af32c4b, 0x88ea1859, 0x0d66de23,
  0x5ee4d838, 0xae17cf72, 0xa3c47c44, 0x1a9cc14b, 0xe4d070af, 0x2052bcb7, 0xf823b729, 0x3402a939]

/-- /repo/src/field/scalar.rs:22-25 -/
def Rwords : List ℕ := [0x529eec34, 0x721cf5b5, 0xc8e9c2ab, 0x7a4cf635, 0x44a725bf, 0xeec492d9,
  0xcd77058, 0x2, 0, 0, 0, 0, 0, 0]

theorem txt_op_mul (m s : List ℕ → List ℕ → List ℕ) (a b : List ℕ) :
    (icall Ast.scalar [t! "Mul", t! "Scalar", t! "for", t! "Scalar"] (t! "mul")
      (scalarObjCtx Ast.scalar m s) [.obj a, .obj b]).bind decW = some (m (m a b) R2words) := by
  krfl

theorem txt_square (m s : List ℕ → List ℕ → List ℕ) (a : List ℕ) :
    (icall Ast.scalar [t! "Scalar"] (t! "square") (scalarObjCtx Ast.scalar m s) [.obj a]).bind decW =
      some (m a a) := by
  krfl

theorem txt_wide_map (m s : List ℕ → List ℕ → List ℕ) (f : ℕ → ℕ) :
    (icall Ast.scalar [t! "Scalar"] (t! "from_bytes_mod_order_wide") (scalarObjCtx Ast.scalar m s)
      [encW (.u 8) ((List.range 114).map f)]).bind decW =
    some (s (s (m ((Rel.Scalar.from_bytes ((((List.range 114).map f).drop 0).take 56)).getD []) Rwords)
        (m ((Rel.Scalar.from_bytes ((((List.range 114).map f).drop 56).take 56)).getD []) R2words))
      (m (m ((Rel.Scalar.from_bytes (((List.range 114).map f).drop 112 ++ List.replicate 54 0)).getD [])
        R2words) R2words)) := by
  krfl

theorem txt_wide (m s : List ℕ → List ℕ → List ℕ) {b : List ℕ} (h : b.length = 114) :
    (icall Ast.scalar [t! "Scalar"] (t! "from_bytes_mod_order_wide") (scalarObjCtx Ast.scalar m s)
      [encW (.u 8) b]).bind decW =
    some (s (s (m ((Rel.Scalar.from_bytes ((b.drop 0).take 56)).getD []) Rwords)
        (m ((Rel.Scalar.from_bytes ((b.drop 56).take 56)).getD []) R2words))
      (m (m ((Rel.Scalar.from_bytes (b.drop 112 ++ List.replicate 54 0)).getD []) R2words) R2words)) := by
  have := txt_wide_map m s fun i => b.getD i 0
  rwa [← getD_range h] at this
"""
out += "\nend Ed448.Text\n"
open(os.path.join(OUT, "IntScalar.lean"), "w").write(out)

out = HEAD % ("import Verif.Text.IntCrate\nimport Verif.Text.Files\nimport Verif.Text.IntScalar\nimport Verif.Gen.ParU32\n",
              "The text of src/field/u32", "")
out += length(16)
S = lambda *a, **k: thm(*a, eqs="u32Field_eq, karatsuba_eq", **k)
T, TM, TK = "fieldText", "fieldTextMut", "karatsubaText"
H = "FieldElement28"
A, B = ("a", 16, 32), ("b", 16, 32)
out += S("txt_mul", TK, "", "mul", [A, B], "Par.karatsuba.mul o a b")
out += S("txt_ksquare", TK, "", "square", [A], "Par.karatsuba.square o a")
out += S("txt_fe_mul", T, "Mul FieldElement28 for FieldElement28", "mul", [A, B], "Par.FieldElement28.op_mul o a b")
out += S("txt_fe_add", T, "Add FieldElement28 for FieldElement28", "add", [A, B], "Par.FieldElement28.op_add o a b")
out += S("txt_fe_sub", T, "Sub FieldElement28 for FieldElement28", "sub", [A, B], "Par.FieldElement28.op_sub o a b")
out += S("txt_fe_square", T, H, "square", [A], "Par.FieldElement28.square o a")
out += S("txt_fe_negate", T, H, "negate", [A], "Par.FieldElement28.negate o a")
out += S("txt_fe_add_no_reduce", T, H, "add_no_reduce", [A, B], "Par.FieldElement28.add_no_reduce o a b")
out += S("txt_fe_sub_no_reduce", T, H, "sub_no_reduce", [A, B], "some (Par.FieldElement28.sub_no_reduce o a b)")
out += S("txt_fe_bias", T, H, "bias", [A, C], "Par.FieldElement28.bias o a c")
out += S("txt_fe_weak_reduce", TM, H, "weak_reduce", [A], "Par.FieldElement28.weak_reduce o a")
out += S("txt_fe_from_bytes", T, H, "from_bytes", [("a", 56, 8)], "Par.FieldElement28.from_bytes o a")
for c in ("zero", "one", "minus_one"):
    out += S("txt_fe_" + c, T, H, c, [], "some Gen.FieldElement28.%s" % c)
gen = open(os.path.join(OUT, "..", "Gen", "ParU32.lean")).read()
rest = gen.split("def FieldElement28.to_bytes")[1].split("let limbs := τ1\n")[1].split("  some res\n")[0]
a = lst(vs("a", 16))
out += """
/-- Runs the text of `strong_reduce`: what it asserts, the last first, and the new limbs. -/
def strongRun (o : Ops) (l : List ℕ) : List Bool × List ℕ :=
  match (fnOf [t! "FieldElement28"] (t! "strong_reduce") Ast.u32Field).bind fun f =>
    f.irun (fieldCtx Ast.u32Field Ast.karatsuba (conc o)) [encW (.u 32) l] with
  | some (c, _, x :: _) => ((decB (.arr c)).getD [], (decW x).getD [])
  | _ => ([], [])

theorem strong_par (o : Ops) (%(v)s : ℕ) :
    Par.FieldElement28.strong_reduce o %(a)s =
      (Gen.Rt.require ((strongRun o %(a)s).1.getD 1 false)).bind fun _ =>
      (Gen.Rt.require ((strongRun o %(a)s).1.getD 0 false)).bind fun _ =>
      some (strongRun o %(a)s).2 := by
  krfl

theorem strong_irun (o : Ops) (%(v)s : ℕ) :
    ((fnOf [t! "FieldElement28"] (t! "strong_reduce") Ast.u32Field).bind fun f =>
      (f.irun (fieldCtx Ast.u32Field Ast.karatsuba (conc o)) [encW (.u 32) %(a)s]).bind fun r =>
      some (r.1, r.2.2.head?)) =
    some ([.bool ((strongRun o %(a)s).1.getD 0 false), .bool ((strongRun o %(a)s).1.getD 1 false)],
      some (encW (.u 32) (strongRun o %(a)s).2)) := by
  krfl

theorem decW_encW (t : Ty) (l : List ℕ) : decW (encW t l) = some l := by
  unfold encW decW
  induction l with
  | nil => rfl
  | cons x l ih => simp only [List.map_cons, mapO, decNat, ih, Option.bind_some]

theorem txt_fe_strong_reduce (o : Ops) {a : List ℕ} (ha : a.length = 16) :
    (fieldTextMut o [t! "FieldElement28"] (t! "strong_reduce") [encW (.u 32) a]).bind decW =
      Par.FieldElement28.strong_reduce o a := by
  obtain ⟨%(c)s, rfl⟩ := len16 ha
  unfold fieldTextMut
  rw [u32Field_eq, karatsuba_eq, strong_par]
  have h := strong_irun o %(v)s
  have e : icallMut Ast.u32Field [t! "FieldElement28"] (t! "strong_reduce")
      (fieldCtx Ast.u32Field Ast.karatsuba (conc o)) [encW (.u 32) %(a)s] =
      (((fnOf [t! "FieldElement28"] (t! "strong_reduce") Ast.u32Field).bind fun f =>
        (f.irun (fieldCtx Ast.u32Field Ast.karatsuba (conc o)) [encW (.u 32) %(a)s]).bind fun r =>
        some (r.1, r.2.2.head?))).bind fun q => bif allTrue q.1 then q.2 else none := by
    unfold icallMut
    cases fnOf [t! "FieldElement28"] (t! "strong_reduce") Ast.u32Field with
    | none => rfl
    | some f =>
      simp only [Option.bind_some]
      cases f.irun (fieldCtx Ast.u32Field Ast.karatsuba (conc o)) [encW (.u 32) %(a)s] with
      | none => rfl
      | some r => rfl
  rw [e, h]
  simp only [Option.bind_some, allTrue]
  generalize strongRun o %(a)s = q
  cases q.1.getD 0 false <;> cases q.1.getD 1 false <;>
    simp [Gen.Rt.require, decW_encW]

/-- What `to_bytes` does after `strong_reduce`. /repo/src/field/u32/prime_field.rs:171-181 -/
def bytesOf (o : Ops) (limbs : List ℕ) : Option (List ℕ) :=
%(rest)s  some res

theorem to_bytes_par (o : Ops) (a : List ℕ) :
    Par.FieldElement28.to_bytes o a = (Par.FieldElement28.strong_reduce o a).bind (bytesOf o) := by
  krfl

theorem txt_fe_to_bytes (o : Ops) (s : List ℕ → List ℕ) (a : List ℕ) :
    (icall Ast.u32Field [t! "FieldElement28"] (t! "to_bytes") (fieldObjCtx o s) [.obj a]).bind decW =
      bytesOf o (ex16 (s a)) := by
  krfl

theorem ex16_eq {l : List ℕ} (h : l.length = 16) : ex16 l = l := by
  obtain ⟨%(c)s, rfl⟩ := len16 h
  rfl

end Ed448.Text
""" % {"v": " ".join(vs("a", 16)), "a": a, "c": ", ".join(vs("a", 16)), "rest": rest}
open(os.path.join(OUT, "IntField.lean"), "w").write(out)

out = ['''import Verif.Text.Parsed
import Verif.Gen.ParScalar
import Verif.Gen.ParU32
import Verif.Gen.RelScalar
import Verif.Gen.RelU32

/-!
# The parametric translation with the arithmetic of a release build

For `Ops.release` the definitions of `Ed448.Par` are those of `Ed448.Rel`.
-/

set_option linter.all false

namespace Ed448.Text
''']
for m in ("Scalar","U32"):
    par=re.findall(r"^def (\S+)",open(os.path.join(OUT, "..", "Gen", "Par%s.lean" % m)).read(),re.M)
    rel=set(re.findall(r"^def (\S+)",open(os.path.join(OUT, "..", "Gen", "Rel%s.lean" % m)).read(),re.M))
    for n in par:
        ns = "Rel" if n in rel else "Gen"
        out.append(f"theorem {n.replace('.','_')}_release : Par.{n} Ops.release = {ns}.{n} := by krfl")
out.append("\nend Ed448.Text")
open(os.path.join(OUT, "Bridge.lean"), "w").write("\n".join(out)+"\n")
