import Verif.Text.IntCrate
import Verif.Text.Files
import Verif.Gen.ParScalar
import Verif.Gen.RelScalar

/-!
# The text of src/field/scalar.rs

Generated by tools/gen_int.py; do not edit. The comparisons are left to the kernel: the text is run, and
the translation is unfolded, on arrays of variables.
-/

set_option linter.all false
set_option maxRecDepth 100000

namespace Ed448.Text

theorem getD_range {n : ℕ} {l : List ℕ} (h : l.length = n) : l = (List.range n).map fun i => l.getD i 0 := by
  apply List.ext_getElem
  · simp [h]
  · intro i h1 h2
    simp [h1]

theorem len14 {l : List ℕ} (h : l.length = 14) : ∃ x0 x1 x2 x3 x4 x5 x6 x7 x8 x9 x10 x11 x12 x13 : ℕ, l = [x0, x1, x2, x3, x4, x5, x6, x7, x8, x9, x10, x11, x12, x13] := by
  refine ⟨l.getD 0 0, l.getD 1 0, l.getD 2 0, l.getD 3 0, l.getD 4 0, l.getD 5 0, l.getD 6 0, l.getD 7 0, l.getD 8 0, l.getD 9 0, l.getD 10 0, l.getD 11 0, l.getD 12 0, l.getD 13 0, (getD_range h).trans ?_⟩
  krfl

theorem len56 {l : List ℕ} (h : l.length = 56) : ∃ x0 x1 x2 x3 x4 x5 x6 x7 x8 x9 x10 x11 x12 x13 x14 x15 x16 x17 x18 x19 x20 x21 x22 x23 x24 x25 x26 x27 x28 x29 x30 x31 x32 x33 x34 x35 x36 x37 x38 x39 x40 x41 x42 x43 x44 x45 x46 x47 x48 x49 x50 x51 x52 x53 x54 x55 : ℕ, l = [x0, x1, x2, x3, x4, x5, x6, x7, x8, x9, x10, x11, x12, x13, x14, x15, x16, x17, x18, x19, x20, x21, x22, x23, x24, x25, x26, x27, x28, x29, x30, x31, x32, x33, x34, x35, x36, x37, x38, x39, x40, x41, x42, x43, x44, x45, x46, x47, x48, x49, x50, x51, x52, x53, x54, x55] := by
  refine ⟨l.getD 0 0, l.getD 1 0, l.getD 2 0, l.getD 3 0, l.getD 4 0, l.getD 5 0, l.getD 6 0, l.getD 7 0, l.getD 8 0, l.getD 9 0, l.getD 10 0, l.getD 11 0, l.getD 12 0, l.getD 13 0, l.getD 14 0, l.getD 15 0, l.getD 16 0, l.getD 17 0, l.getD 18 0, l.getD 19 0, l.getD 20 0, l.getD 21 0, l.getD 22 0, l.getD 23 0, l.getD 24 0, l.getD 25 0, l.getD 26 0, l.getD 27 0, l.getD 28 0, l.getD 29 0, l.getD 30 0, l.getD 31 0, l.getD 32 0, l.getD 33 0, l.getD 34 0, l.getD 35 0, l.getD 36 0, l.getD 37 0, l.getD 38 0, l.getD 39 0, l.getD 40 0, l.getD 41 0, l.getD 42 0, l.getD 43 0, l.getD 44 0, l.getD 45 0, l.getD 46 0, l.getD 47 0, l.getD 48 0, l.getD 49 0, l.getD 50 0, l.getD 51 0, l.getD 52 0, l.getD 53 0, l.getD 54 0, l.getD 55 0, (getD_range h).trans ?_⟩
  krfl

theorem txt_sub_extra (o : Ops) {a : List ℕ} (ha : a.length = 14) {b : List ℕ} (hb : b.length = 14) (c : ℕ) :
    (scalarText o [] (t! "sub_extra") [encW (.u 32) a, encW (.u 32) b, .int (.u 32) (.n c)]).bind decW =
      Par.scalar.sub_extra o a b c := by
  obtain ⟨a0, a1, a2, a3, a4, a5, a6, a7, a8, a9, a10, a11, a12, a13, rfl⟩ := len14 ha
  obtain ⟨b0, b1, b2, b3, b4, b5, b6, b7, b8, b9, b10, b11, b12, b13, rfl⟩ := len14 hb
  unfold scalarText
  rw [scalar_eq]
  krfl

theorem txt_add (o : Ops) {a : List ℕ} (ha : a.length = 14) {b : List ℕ} (hb : b.length = 14) :
    (scalarText o [] (t! "add") [encW (.u 32) a, encW (.u 32) b]).bind decW =
      Par.scalar.add o a b := by
  obtain ⟨a0, a1, a2, a3, a4, a5, a6, a7, a8, a9, a10, a11, a12, a13, rfl⟩ := len14 ha
  obtain ⟨b0, b1, b2, b3, b4, b5, b6, b7, b8, b9, b10, b11, b12, b13, rfl⟩ := len14 hb
  unfold scalarText
  rw [scalar_eq]
  krfl

theorem txt_montgomery_multiply (o : Ops) {a : List ℕ} (ha : a.length = 14) {b : List ℕ} (hb : b.length = 14) :
    (scalarText o [] (t! "montgomery_multiply") [encW (.u 32) a, encW (.u 32) b]).bind decW =
      Par.scalar.montgomery_multiply o a b := by
  obtain ⟨a0, a1, a2, a3, a4, a5, a6, a7, a8, a9, a10, a11, a12, a13, rfl⟩ := len14 ha
  obtain ⟨b0, b1, b2, b3, b4, b5, b6, b7, b8, b9, b10, b11, b12, b13, rfl⟩ := len14 hb
  unfold scalarText
  rw [scalar_eq]
  krfl

theorem txt_op_add (o : Ops) {a : List ℕ} (ha : a.length = 14) {b : List ℕ} (hb : b.length = 14) :
    (scalarText o [t! "Add", t! "Scalar", t! "for", t! "Scalar"] (t! "add") [encW (.u 32) a, encW (.u 32) b]).bind decW =
      Par.Scalar.op_add o a b := by
  obtain ⟨a0, a1, a2, a3, a4, a5, a6, a7, a8, a9, a10, a11, a12, a13, rfl⟩ := len14 ha
  obtain ⟨b0, b1, b2, b3, b4, b5, b6, b7, b8, b9, b10, b11, b12, b13, rfl⟩ := len14 hb
  unfold scalarText
  rw [scalar_eq]
  krfl

theorem txt_op_sub (o : Ops) {a : List ℕ} (ha : a.length = 14) {b : List ℕ} (hb : b.length = 14) :
    (scalarText o [t! "Sub", t! "Scalar", t! "for", t! "Scalar"] (t! "sub") [encW (.u 32) a, encW (.u 32) b]).bind decW =
      Par.Scalar.op_sub o a b := by
  obtain ⟨a0, a1, a2, a3, a4, a5, a6, a7, a8, a9, a10, a11, a12, a13, rfl⟩ := len14 ha
  obtain ⟨b0, b1, b2, b3, b4, b5, b6, b7, b8, b9, b10, b11, b12, b13, rfl⟩ := len14 hb
  unfold scalarText
  rw [scalar_eq]
  krfl

theorem txt_halve (o : Ops) {a : List ℕ} (ha : a.length = 14) :
    (scalarText o [t! "Scalar"] (t! "halve") [encW (.u 32) a]).bind decW =
      Par.Scalar.halve o a := by
  obtain ⟨a0, a1, a2, a3, a4, a5, a6, a7, a8, a9, a10, a11, a12, a13, rfl⟩ := len14 ha
  unfold scalarText
  rw [scalar_eq]
  krfl

theorem txt_div_by_four (o : Ops) {a : List ℕ} (ha : a.length = 14) :
    (scalarTextMut o [t! "Scalar"] (t! "div_by_four") [encW (.u 32) a]).bind decW =
      Par.Scalar.div_by_four o a := by
  obtain ⟨a0, a1, a2, a3, a4, a5, a6, a7, a8, a9, a10, a11, a12, a13, rfl⟩ := len14 ha
  unfold scalarTextMut
  rw [scalar_eq]
  krfl

theorem txt_to_bytes (o : Ops) {a : List ℕ} (ha : a.length = 14) :
    (scalarText o [t! "Scalar"] (t! "to_bytes") [encW (.u 32) a]).bind decW =
      Par.Scalar.to_bytes o a := by
  obtain ⟨a0, a1, a2, a3, a4, a5, a6, a7, a8, a9, a10, a11, a12, a13, rfl⟩ := len14 ha
  unfold scalarText
  rw [scalar_eq]
  krfl

theorem txt_to_bytes_rfc_8032 (o : Ops) {a : List ℕ} (ha : a.length = 14) :
    (scalarText o [t! "Scalar"] (t! "to_bytes_rfc_8032") [encW (.u 32) a]).bind decW =
      Par.Scalar.to_bytes_rfc_8032 o a := by
  obtain ⟨a0, a1, a2, a3, a4, a5, a6, a7, a8, a9, a10, a11, a12, a13, rfl⟩ := len14 ha
  unfold scalarText
  rw [scalar_eq]
  krfl

theorem txt_from_bytes (o : Ops) {a : List ℕ} (ha : a.length = 56) :
    (scalarText o [t! "Scalar"] (t! "from_bytes") [encW (.u 8) a]).bind decW =
      Par.Scalar.from_bytes o a := by
  obtain ⟨a0, a1, a2, a3, a4, a5, a6, a7, a8, a9, a10, a11, a12, a13, a14, a15, a16, a17, a18, a19, a20, a21, a22, a23, a24, a25, a26, a27, a28, a29, a30, a31, a32, a33, a34, a35, a36, a37, a38, a39, a40, a41, a42, a43, a44, a45, a46, a47, a48, a49, a50, a51, a52, a53, a54, a55, rfl⟩ := len56 ha
  unfold scalarText
  rw [scalar_eq]
  krfl

theorem txt_to_radix_16 (o : Ops) {a : List ℕ} (ha : a.length = 14) :
    (scalarText o [t! "Scalar"] (t! "to_radix_16") [encW (.u 32) a]).bind decZ =
      Par.Scalar.to_radix_16 o a := by
  obtain ⟨a0, a1, a2, a3, a4, a5, a6, a7, a8, a9, a10, a11, a12, a13, rfl⟩ := len14 ha
  unfold scalarText
  rw [scalar_eq]
  krfl

/-- Here `1 << j` is computed without a type in the text, hence for `Ops.release`. -/
theorem txt_bits {a : List ℕ} (ha : a.length = 14) :
    (scalarText Ops.release [t! "Scalar"] (t! "bits") [encW (.u 32) a]).bind decB =
      Par.Scalar.bits Ops.release a := by
  obtain ⟨a0, a1, a2, a3, a4, a5, a6, a7, a8, a9, a10, a11, a12, a13, rfl⟩ := len14 ha
  unfold scalarText
  rw [scalar_eq]
  krfl

/-- /repo/src/field/scalar.rs:18-21 -/
def R2words : List ℕ := [0x049b9b60, 0xe3539257, 0xc1b195d9, 0x7af32c4b, 0x88ea1859, 0x0d66de23,
  0x5ee4d838, 0xae17cf72, 0xa3c47c44, 0x1a9cc14b, 0xe4d070af, 0x2052bcb7, 0xf823b729, 0x3402a939]

/-- /repo/src/field/scalar.rs:22-25 -/
def Rwords : List ℕ := [0x529eec34, 0x721cf5b5, 0xc8e9c2ab, 0x7a4cf635, 0x44a725bf, 0xeec492d9,
  0xcd77058, 0x2, 0, 0, 0, 0, 0, 0]

theorem txt_op_mul (m s : List ℕ → List ℕ → List ℕ) (a b : List ℕ) :
    (icall Ast.scalar [t! "Mul", t! "Scalar", t! "for", t! "Scalar"] (t! "mul")
      (scalarObjCtx Ast.scalar m s) [.obj a, .obj b]).bind decW = some (m (m a b) R2words) := by
  krfl

theorem txt_square (m s : List ℕ → List ℕ → List ℕ) (a : List ℕ) :
    (icall Ast.scalar [t! "Scalar"] (t! "square") (scalarObjCtx Ast.scalar m s) [.obj a]).bind decW =
      some (m a a) := by
  krfl

theorem txt_wide_map (m s : List ℕ → List ℕ → List ℕ) (f : ℕ → ℕ) :
    (icall Ast.scalar [t! "Scalar"] (t! "from_bytes_mod_order_wide") (scalarObjCtx Ast.scalar m s)
      [encW (.u 8) ((List.range 114).map f)]).bind decW =
    some (s (s (m ((Rel.Scalar.from_bytes ((((List.range 114).map f).drop 0).take 56)).getD []) Rwords)
        (m ((Rel.Scalar.from_bytes ((((List.range 114).map f).drop 56).take 56)).getD []) R2words))
      (m (m ((Rel.Scalar.from_bytes (((List.range 114).map f).drop 112 ++ List.replicate 54 0)).getD [])
        R2words) R2words)) := by
  krfl

theorem txt_wide (m s : List ℕ → List ℕ → List ℕ) {b : List ℕ} (h : b.length = 114) :
    (icall Ast.scalar [t! "Scalar"] (t! "from_bytes_mod_order_wide") (scalarObjCtx Ast.scalar m s)
      [encW (.u 8) b]).bind decW =
    some (s (s (m ((Rel.Scalar.from_bytes ((b.drop 0).take 56)).getD []) Rwords)
        (m ((Rel.Scalar.from_bytes ((b.drop 56).take 56)).getD []) R2words))
      (m (m ((Rel.Scalar.from_bytes (b.drop 112 ++ List.replicate 54 0)).getD []) R2words) R2words)) := by
  have := txt_wide_map m s fun i => b.getD i 0
  rwa [← getD_range h] at this

end Ed448.Text
