import Verif.Text.IntCrate
import Verif.Text.Files
import Verif.Text.IntScalar
import Verif.Gen.ParU32

/-!
# The text of src/field/u32

Generated by tools/gen_int.py; do not edit. The comparisons are left to the kernel: the text is run, and
the translation is unfolded, on arrays of variables.
-/

set_option linter.all false
set_option maxRecDepth 100000

namespace Ed448.Text

theorem len16 {l : List ℕ} (h : l.length = 16) : ∃ x0 x1 x2 x3 x4 x5 x6 x7 x8 x9 x10 x11 x12 x13 x14 x15 : ℕ, l = [x0, x1, x2, x3, x4, x5, x6, x7, x8, x9, x10, x11, x12, x13, x14, x15] := by
  refine ⟨l.getD 0 0, l.getD 1 0, l.getD 2 0, l.getD 3 0, l.getD 4 0, l.getD 5 0, l.getD 6 0, l.getD 7 0, l.getD 8 0, l.getD 9 0, l.getD 10 0, l.getD 11 0, l.getD 12 0, l.getD 13 0, l.getD 14 0, l.getD 15 0, (getD_range h).trans ?_⟩
  krfl

theorem txt_mul (o : Ops) {a : List ℕ} (ha : a.length = 16) {b : List ℕ} (hb : b.length = 16) :
    (karatsubaText o [] (t! "mul") [encW (.u 32) a, encW (.u 32) b]).bind decW =
      Par.karatsuba.mul o a b := by
  obtain ⟨a0, a1, a2, a3, a4, a5, a6, a7, a8, a9, a10, a11, a12, a13, a14, a15, rfl⟩ := len16 ha
  obtain ⟨b0, b1, b2, b3, b4, b5, b6, b7, b8, b9, b10, b11, b12, b13, b14, b15, rfl⟩ := len16 hb
  unfold karatsubaText
  rw [u32Field_eq, karatsuba_eq]
  krfl

theorem txt_ksquare (o : Ops) {a : List ℕ} (ha : a.length = 16) :
    (karatsubaText o [] (t! "square") [encW (.u 32) a]).bind decW =
      Par.karatsuba.square o a := by
  obtain ⟨a0, a1, a2, a3, a4, a5, a6, a7, a8, a9, a10, a11, a12, a13, a14, a15, rfl⟩ := len16 ha
  unfold karatsubaText
  rw [u32Field_eq, karatsuba_eq]
  krfl

theorem txt_fe_mul (o : Ops) {a : List ℕ} (ha : a.length = 16) {b : List ℕ} (hb : b.length = 16) :
    (fieldText o [t! "Mul", t! "FieldElement28", t! "for", t! "FieldElement28"] (t! "mul") [encW (.u 32) a, encW (.u 32) b]).bind decW =
      Par.FieldElement28.op_mul o a b := by
  obtain ⟨a0, a1, a2, a3, a4, a5, a6, a7, a8, a9, a10, a11, a12, a13, a14, a15, rfl⟩ := len16 ha
  obtain ⟨b0, b1, b2, b3, b4, b5, b6, b7, b8, b9, b10, b11, b12, b13, b14, b15, rfl⟩ := len16 hb
  unfold fieldText
  rw [u32Field_eq, karatsuba_eq]
  krfl

theorem txt_fe_add (o : Ops) {a : List ℕ} (ha : a.length = 16) {b : List ℕ} (hb : b.length = 16) :
    (fieldText o [t! "Add", t! "FieldElement28", t! "for", t! "FieldElement28"] (t! "add") [encW (.u 32) a, encW (.u 32) b]).bind decW =
      Par.FieldElement28.op_add o a b := by
  obtain ⟨a0, a1, a2, a3, a4, a5, a6, a7, a8, a9, a10, a11, a12, a13, a14, a15, rfl⟩ := len16 ha
  obtain ⟨b0, b1, b2, b3, b4, b5, b6, b7, b8, b9, b10, b11, b12, b13, b14, b15, rfl⟩ := len16 hb
  unfold fieldText
  rw [u32Field_eq, karatsuba_eq]
  krfl

theorem txt_fe_sub (o : Ops) {a : List ℕ} (ha : a.length = 16) {b : List ℕ} (hb : b.length = 16) :
    (fieldText o [t! "Sub", t! "FieldElement28", t! "for", t! "FieldElement28"] (t! "sub") [encW (.u 32) a, encW (.u 32) b]).bind decW =
      Par.FieldElement28.op_sub o a b := by
  obtain ⟨a0, a1, a2, a3, a4, a5, a6, a7, a8, a9, a10, a11, a12, a13, a14, a15, rfl⟩ := len16 ha
  obtain ⟨b0, b1, b2, b3, b4, b5, b6, b7, b8, b9, b10, b11, b12, b13, b14, b15, rfl⟩ := len16 hb
  unfold fieldText
  rw [u32Field_eq, karatsuba_eq]
  krfl

theorem txt_fe_square (o : Ops) {a : List ℕ} (ha : a.length = 16) :
    (fieldText o [t! "FieldElement28"] (t! "square") [encW (.u 32) a]).bind decW =
      Par.FieldElement28.square o a := by
  obtain ⟨a0, a1, a2, a3, a4, a5, a6, a7, a8, a9, a10, a11, a12, a13, a14, a15, rfl⟩ := len16 ha
  unfold fieldText
  rw [u32Field_eq, karatsuba_eq]
  krfl

theorem txt_fe_negate (o : Ops) {a : List ℕ} (ha : a.length = 16) :
    (fieldText o [t! "FieldElement28"] (t! "negate") [encW (.u 32) a]).bind decW =
      Par.FieldElement28.negate o a := by
  obtain ⟨a0, a1, a2, a3, a4, a5, a6, a7, a8, a9, a10, a11, a12, a13, a14, a15, rfl⟩ := len16 ha
  unfold fieldText
  rw [u32Field_eq, karatsuba_eq]
  krfl

theorem txt_fe_add_no_reduce (o : Ops) {a : List ℕ} (ha : a.length = 16) {b : List ℕ} (hb : b.length = 16) :
    (fieldText o [t! "FieldElement28"] (t! "add_no_reduce") [encW (.u 32) a, encW (.u 32) b]).bind decW =
      Par.FieldElement28.add_no_reduce o a b := by
  obtain ⟨a0, a1, a2, a3, a4, a5, a6, a7, a8, a9, a10, a11, a12, a13, a14, a15, rfl⟩ := len16 ha
  obtain ⟨b0, b1, b2, b3, b4, b5, b6, b7, b8, b9, b10, b11, b12, b13, b14, b15, rfl⟩ := len16 hb
  unfold fieldText
  rw [u32Field_eq, karatsuba_eq]
  krfl

theorem txt_fe_sub_no_reduce (o : Ops) {a : List ℕ} (ha : a.length = 16) {b : List ℕ} (hb : b.length = 16) :
    (fieldText o [t! "FieldElement28"] (t! "sub_no_reduce") [encW (.u 32) a, encW (.u 32) b]).bind decW =
      some (Par.FieldElement28.sub_no_reduce o a b) := by
  obtain ⟨a0, a1, a2, a3, a4, a5, a6, a7, a8, a9, a10, a11, a12, a13, a14, a15, rfl⟩ := len16 ha
  obtain ⟨b0, b1, b2, b3, b4, b5, b6, b7, b8, b9, b10, b11, b12, b13, b14, b15, rfl⟩ := len16 hb
  unfold fieldText
  rw [u32Field_eq, karatsuba_eq]
  krfl

theorem txt_fe_bias (o : Ops) {a : List ℕ} (ha : a.length = 16) (c : ℕ) :
    (fieldText o [t! "FieldElement28"] (t! "bias") [encW (.u 32) a, .int (.u 32) (.n c)]).bind decW =
      Par.FieldElement28.bias o a c := by
  obtain ⟨a0, a1, a2, a3, a4, a5, a6, a7, a8, a9, a10, a11, a12, a13, a14, a15, rfl⟩ := len16 ha
  unfold fieldText
  rw [u32Field_eq, karatsuba_eq]
  krfl

theorem txt_fe_weak_reduce (o : Ops) {a : List ℕ} (ha : a.length = 16) :
    (fieldTextMut o [t! "FieldElement28"] (t! "weak_reduce") [encW (.u 32) a]).bind decW =
      Par.FieldElement28.weak_reduce o a := by
  obtain ⟨a0, a1, a2, a3, a4, a5, a6, a7, a8, a9, a10, a11, a12, a13, a14, a15, rfl⟩ := len16 ha
  unfold fieldTextMut
  rw [u32Field_eq, karatsuba_eq]
  krfl

theorem txt_fe_from_bytes (o : Ops) {a : List ℕ} (ha : a.length = 56) :
    (fieldText o [t! "FieldElement28"] (t! "from_bytes") [encW (.u 8) a]).bind decW =
      Par.FieldElement28.from_bytes o a := by
  obtain ⟨a0, a1, a2, a3, a4, a5, a6, a7, a8, a9, a10, a11, a12, a13, a14, a15, a16, a17, a18, a19, a20, a21, a22, a23, a24, a25, a26, a27, a28, a29, a30, a31, a32, a33, a34, a35, a36, a37, a38, a39, a40, a41, a42, a43, a44, a45, a46, a47, a48, a49, a50, a51, a52, a53, a54, a55, rfl⟩ := len56 ha
  unfold fieldText
  rw [u32Field_eq, karatsuba_eq]
  krfl

theorem txt_fe_zero (o : Ops)  :
    (fieldText o [t! "FieldElement28"] (t! "zero") []).bind decW =
      some Gen.FieldElement28.zero := by
  unfold fieldText
  rw [u32Field_eq, karatsuba_eq]
  krfl

theorem txt_fe_one (o : Ops)  :
    (fieldText o [t! "FieldElement28"] (t! "one") []).bind decW =
      some Gen.FieldElement28.one := by
  unfold fieldText
  rw [u32Field_eq, karatsuba_eq]
  krfl

theorem txt_fe_minus_one (o : Ops)  :
    (fieldText o [t! "FieldElement28"] (t! "minus_one") []).bind decW =
      some Gen.FieldElement28.minus_one := by
  unfold fieldText
  rw [u32Field_eq, karatsuba_eq]
  krfl

/-- Runs the text of `strong_reduce`: what it asserts, the last first, and the new limbs. -/
def strongRun (o : Ops) (l : List ℕ) : List Bool × List ℕ :=
  match (fnOf [t! "FieldElement28"] (t! "strong_reduce") Ast.u32Field).bind fun f =>
    f.irun (fieldCtx Ast.u32Field Ast.karatsuba (conc o)) [encW (.u 32) l] with
  | some (c, _, x :: _) => ((decB (.arr c)).getD [], (decW x).getD [])
  | _ => ([], [])

theorem strong_par (o : Ops) (a0 a1 a2 a3 a4 a5 a6 a7 a8 a9 a10 a11 a12 a13 a14 a15 : ℕ) :
    Par.FieldElement28.strong_reduce o [a0, a1, a2, a3, a4, a5, a6, a7, a8, a9, a10, a11, a12, a13, a14, a15] =
      (Gen.Rt.require ((strongRun o [a0, a1, a2, a3, a4, a5, a6, a7, a8, a9, a10, a11, a12, a13, a14, a15]).1.getD 1 false)).bind fun _ =>
      (Gen.Rt.require ((strongRun o [a0, a1, a2, a3, a4, a5, a6, a7, a8, a9, a10, a11, a12, a13, a14, a15]).1.getD 0 false)).bind fun _ =>
      some (strongRun o [a0, a1, a2, a3, a4, a5, a6, a7, a8, a9, a10, a11, a12, a13, a14, a15]).2 := by
  krfl

theorem strong_irun (o : Ops) (a0 a1 a2 a3 a4 a5 a6 a7 a8 a9 a10 a11 a12 a13 a14 a15 : ℕ) :
    ((fnOf [t! "FieldElement28"] (t! "strong_reduce") Ast.u32Field).bind fun f =>
      (f.irun (fieldCtx Ast.u32Field Ast.karatsuba (conc o)) [encW (.u 32) [a0, a1, a2, a3, a4, a5, a6, a7, a8, a9, a10, a11, a12, a13, a14, a15]]).bind fun r =>
      some (r.1, r.2.2.head?)) =
    some ([.bool ((strongRun o [a0, a1, a2, a3, a4, a5, a6, a7, a8, a9, a10, a11, a12, a13, a14, a15]).1.getD 0 false), .bool ((strongRun o [a0, a1, a2, a3, a4, a5, a6, a7, a8, a9, a10, a11, a12, a13, a14, a15]).1.getD 1 false)],
      some (encW (.u 32) (strongRun o [a0, a1, a2, a3, a4, a5, a6, a7, a8, a9, a10, a11, a12, a13, a14, a15]).2)) := by
  krfl

theorem decW_encW (t : Ty) (l : List ℕ) : decW (encW t l) = some l := by
  unfold encW decW
  induction l with
  | nil => rfl
  | cons x l ih => simp only [List.map_cons, mapO, decNat, ih, Option.bind_some]

theorem txt_fe_strong_reduce (o : Ops) {a : List ℕ} (ha : a.length = 16) :
    (fieldTextMut o [t! "FieldElement28"] (t! "strong_reduce") [encW (.u 32) a]).bind decW =
      Par.FieldElement28.strong_reduce o a := by
  obtain ⟨a0, a1, a2, a3, a4, a5, a6, a7, a8, a9, a10, a11, a12, a13, a14, a15, rfl⟩ := len16 ha
  unfold fieldTextMut
  rw [u32Field_eq, karatsuba_eq, strong_par]
  have h := strong_irun o a0 a1 a2 a3 a4 a5 a6 a7 a8 a9 a10 a11 a12 a13 a14 a15
  have e : icallMut Ast.u32Field [t! "FieldElement28"] (t! "strong_reduce")
      (fieldCtx Ast.u32Field Ast.karatsuba (conc o)) [encW (.u 32) [a0, a1, a2, a3, a4, a5, a6, a7, a8, a9, a10, a11, a12, a13, a14, a15]] =
      (((fnOf [t! "FieldElement28"] (t! "strong_reduce") Ast.u32Field).bind fun f =>
        (f.irun (fieldCtx Ast.u32Field Ast.karatsuba (conc o)) [encW (.u 32) [a0, a1, a2, a3, a4, a5, a6, a7, a8, a9, a10, a11, a12, a13, a14, a15]]).bind fun r =>
        some (r.1, r.2.2.head?))).bind fun q => bif allTrue q.1 then q.2 else none := by
    unfold icallMut
    cases fnOf [t! "FieldElement28"] (t! "strong_reduce") Ast.u32Field with
    | none => rfl
    | some f =>
      simp only [Option.bind_some]
      cases f.irun (fieldCtx Ast.u32Field Ast.karatsuba (conc o)) [encW (.u 32) [a0, a1, a2, a3, a4, a5, a6, a7, a8, a9, a10, a11, a12, a13, a14, a15]] with
      | none => rfl
      | some r => rfl
  rw [e, h]
  simp only [Option.bind_some, allTrue]
  generalize strongRun o [a0, a1, a2, a3, a4, a5, a6, a7, a8, a9, a10, a11, a12, a13, a14, a15] = q
  cases q.1.getD 0 false <;> cases q.1.getD 1 false <;>
    simp [Gen.Rt.require, decW_encW]

/-- What `to_bytes` does after `strong_reduce`. /repo/src/field/u32/prime_field.rs:171-181 -/
def bytesOf (o : Ops) (limbs : List ℕ) : Option (List ℕ) :=
  let res : List ℕ := (List.replicate 56 (0 : ℕ))
  (List.foldlM (fun (τ2 : (List ℕ)) (i : ℕ) =>
  let res := τ2
  (Rel.wrU 32 ((2 : ℕ) * i)).bind fun τ3 =>
  (Gen.Rt.idx limbs τ3).bind fun τ4 =>
  (Rel.wrU 32 ((2 : ℕ) * i)).bind fun τ5 =>
  (Rel.wrU 32 (τ5 + (1 : ℕ))).bind fun τ6 =>
  (Gen.Rt.idx limbs τ6).bind fun τ7 =>
  (some (o.addU 64 τ4 (o.shlU 64 τ7 28))).bind fun τ8 =>
  let l : ℕ := τ8
  (List.foldlM (fun (τ9 : (List ℕ) × (ℕ)) (j : ℕ) =>
  let res := τ9.1
  let l := τ9.2
  (Rel.wrU 32 ((7 : ℕ) * i)).bind fun τ10 =>
  (Rel.wrU 32 (τ10 + j)).bind fun τ11 =>
  (Gen.Rt.put res τ11 (o.modU 8 l)).bind fun τ12 =>
  let res := τ12
  let l := (o.shrU l 8)
  some (res, l)) (res, l) (Gen.Rt.range (0 : ℕ) (7 : ℕ))).bind fun τ13 =>
  let res := τ13.1
  let l := τ13.2
  some (res)) (res) (Gen.Rt.range (0 : ℕ) (8 : ℕ))).bind fun τ14 =>
  let res := τ14
  some res

theorem to_bytes_par (o : Ops) (a : List ℕ) :
    Par.FieldElement28.to_bytes o a = (Par.FieldElement28.strong_reduce o a).bind (bytesOf o) := by
  krfl

theorem txt_fe_to_bytes (o : Ops) (s : List ℕ → List ℕ) (a : List ℕ) :
    (icall Ast.u32Field [t! "FieldElement28"] (t! "to_bytes") (fieldObjCtx o s) [.obj a]).bind decW =
      bytesOf o (ex16 (s a)) := by
  krfl

theorem ex16_eq {l : List ℕ} (h : l.length = 16) : ex16 l = l := by
  obtain ⟨a0, a1, a2, a3, a4, a5, a6, a7, a8, a9, a10, a11, a12, a13, a14, a15, rfl⟩ := len16 h
  rfl

end Ed448.Text
