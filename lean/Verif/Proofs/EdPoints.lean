import Verif.Proofs.Lawful
import Verif.Proofs.Isogeny
import Verif.Model.Edwards

/-!
# Extended points represent affine Edwards points
-/

namespace Ed448.Model

set_option exponentiation.threshold 1000
open FieldBackend FieldVal Edw
variable {F L : Type} [FieldBackend F L] [Lawful F]

/-- `P` is a projective representative of the affine point `R`. -/
structure Rep (P : EdPt F) (R : E) : Prop where
  z : val P.Z ≠ 0
  x : val P.X = R.x * val P.Z
  y : val P.Y = R.y * val P.Z
  t : val P.T = R.x * R.y * val P.Z

theorem Rep.unique {P : EdPt F} {R S : E} (h : Rep P R) (h' : Rep P S) : R = S := by
  ext
  · exact mul_right_cancel₀ h.z (h.x.symm.trans h'.x)
  · exact mul_right_cancel₀ h.z (h.y.symm.trans h'.y)

/-- The projective form of the curve equation characterises representatives. -/
theorem rep_iff_valid (P : EdPt F) : (∃ R, Rep P R) ↔ val P.Z ≠ 0 ∧
    val P.X * val P.Y = val P.Z * val P.T ∧
    val P.X ^ 2 + val P.Y ^ 2 = val P.Z ^ 2 + d * val P.T ^ 2 := by
  constructor
  · rintro ⟨R, h⟩
    refine ⟨h.z, ?_, ?_⟩
    · rw [h.x, h.y, h.t]; ring
    · rw [h.x, h.y, h.t]
      have := R.on; unfold OnCurve at this
      linear_combination val P.Z ^ 2 * this
  · rintro ⟨hz, hxy, hc⟩
    have ht : val P.T = val P.X * val P.Y / val P.Z := by rw [hxy]; field_simp
    refine ⟨⟨val P.X / val P.Z, val P.Y / val P.Z, ?_⟩, hz, ?_, ?_, ?_⟩
    · unfold OnCurve
      rw [ht] at hc
      field_simp at hc ⊢
      linear_combination hc
    · show _ = _ / _ * _
      field_simp
    · show _ = _ / _ * _
      field_simp
    · show _ = _ / _ * (_ / _) * _
      rw [ht]; field_simp

theorem rep_identity : Rep (EdPt.identity : EdPt F) 0 := by
  constructor <;> simp [EdPt.identity, Pt.zero_x, Pt.zero_y]

theorem rep_generator : Rep (EdPt.generator : EdPt F) G := by
  constructor <;> simp [EdPt.generator, G]

theorem rep_add {P Q : EdPt F} {R S : E} (h : Rep P R) (k : Rep Q S) : Rep (P.add Q) (R + S) := by
  have h1 := den_add R.on S.on
  have h2 := den_sub R.on S.on
  have hz : val (P.add Q).Z = (val P.Z * val Q.Z) ^ 2 * ((1 + d * R.x * S.x * R.y * S.y) *
      (1 - d * R.x * S.x * R.y * S.y)) := by
    simp only [EdPt.add, val_mul, val_mulC, Lawful.val_add, Lawful.val_sub, Lawful.lval_EDWARDS_D,
      h.t, k.t]
    ring
  have ex := Iso.add_x_mul R S
  have ey := Iso.add_y_mul R S
  refine ⟨?_, ?_, ?_, ?_⟩
  · rw [hz]
    exact mul_ne_zero (pow_ne_zero 2 (mul_ne_zero h.z k.z)) (mul_ne_zero h1 h2)
  · rw [hz, show (R + S).x * ((val P.Z * val Q.Z) ^ 2 * ((1 + d * R.x * S.x * R.y * S.y) *
      (1 - d * R.x * S.x * R.y * S.y))) = ((R + S).x * (1 + d * R.x * S.x * R.y * S.y)) *
      ((val P.Z * val Q.Z) ^ 2 * (1 - d * R.x * S.x * R.y * S.y)) by ring, ex]
    simp only [EdPt.add, val_mul, val_mulC, Lawful.val_add, Lawful.val_sub, Lawful.lval_EDWARDS_D,
      h.t, k.t, h.x, k.x, h.y, k.y]
    ring
  · rw [hz, show (R + S).y * ((val P.Z * val Q.Z) ^ 2 * ((1 + d * R.x * S.x * R.y * S.y) *
      (1 - d * R.x * S.x * R.y * S.y))) = ((R + S).y * (1 - d * R.x * S.x * R.y * S.y)) *
      ((val P.Z * val Q.Z) ^ 2 * (1 + d * R.x * S.x * R.y * S.y)) by ring, ey]
    simp only [EdPt.add, val_mul, val_mulC, Lawful.val_add, Lawful.val_sub, Lawful.lval_EDWARDS_D,
      h.t, k.t, h.x, k.x, h.y, k.y]
    ring
  · rw [hz, show (R + S).x * (R + S).y * ((val P.Z * val Q.Z) ^ 2 *
      ((1 + d * R.x * S.x * R.y * S.y) * (1 - d * R.x * S.x * R.y * S.y))) =
      ((R + S).x * (1 + d * R.x * S.x * R.y * S.y)) *
      ((R + S).y * (1 - d * R.x * S.x * R.y * S.y)) * ((val P.Z * val Q.Z) ^ 2) by ring, ex, ey]
    simp only [EdPt.add, val_mul, Lawful.val_add, Lawful.val_sub,
      h.x, k.x, h.y, k.y]
    ring

theorem rep_double {P : EdPt F} {R : E} (h : Rep P R) : Rep P.double (R + R) := rep_add h h

theorem rep_negate {P : EdPt F} {R : E} (h : Rep P R) : Rep P.negate (-R) := by
  refine ⟨h.z, ?_, ?_, ?_⟩
  · simp only [EdPt.negate, Lawful.val_negate, Pt.neg_x, h.x]; ring
  · simp only [EdPt.negate, Pt.neg_y, h.y]
  · simp only [EdPt.negate, Lawful.val_negate, Pt.neg_x, Pt.neg_y, h.t]; ring

theorem rep_sub {P Q : EdPt F} {R S : E} (h : Rep P R) (k : Rep Q S) : Rep (P.sub Q) (R - S) := by
  rw [sub_eq_add_neg]; exact rep_add h (rep_negate k)

theorem add_torsion2 (R : E) : (R + torsion2).x = -R.x ∧ (R + torsion2).y = -R.y := by
  constructor
  · rw [Pt.add_x]; simp [torsion2]
  · rw [Pt.add_y]; simp [torsion2]

theorem rep_torque {P : EdPt F} {R : E} (h : Rep P R) : Rep P.torque (R + torsion2) := by
  obtain ⟨ex, ey⟩ := add_torsion2 R
  refine ⟨h.z, ?_, ?_, ?_⟩
  · simp only [EdPt.torque, Lawful.val_negate, ex, h.x]; ring
  · simp only [EdPt.torque, Lawful.val_negate, ey, h.y]; ring
  · simp only [EdPt.torque, ex, ey, h.t]; ring

theorem rep_select {P Q : EdPt F} {R S : E} (h : Rep P R) (k : Rep Q S) (c : Bool) :
    Rep (P.select Q c) (if c then S else R) := by
  cases c
  · refine ⟨?_, ?_, ?_, ?_⟩ <;> simp [EdPt.select, h.z, h.x, h.y, h.t]
  · refine ⟨?_, ?_, ?_, ?_⟩ <;> simp [EdPt.select, k.z, k.x, k.y, k.t]

theorem rep_eq {P Q : EdPt F} {R S : E} (h : Rep P R) (k : Rep Q S) :
    P.eq Q = true ↔ R = S := by
  unfold EdPt.eq
  rw [Bool.and_eq_true, feq_iff, feq_iff]
  simp only [val_mul, h.x, h.y, k.x, k.y]
  have hz := h.z
  have kz := k.z
  constructor
  · rintro ⟨h1, h2⟩
    ext
    · apply mul_right_cancel₀ (mul_ne_zero hz kz); linear_combination h1
    · apply mul_right_cancel₀ (mul_ne_zero hz kz); linear_combination h2
  · rintro rfl; constructor <;> ring

theorem rep_sum {l : List (EdPt F)} {m : List E} (h : List.Forall₂ Rep l m) :
    Rep (EdPt.sum l) m.sum := by
  unfold EdPt.sum
  suffices ∀ (P : EdPt F) (R : E), Rep P R → Rep (l.foldl EdPt.add P) (R + m.sum) by
    simpa using this _ _ rep_identity
  induction h with
  | nil => intro P R h; simpa using h
  | cons h0 _ ih =>
    intro P R h
    rw [List.foldl_cons, List.sum_cons, ← add_assoc]
    exact ih _ _ (rep_add h h0)

theorem rep_toAffine {P : EdPt F} {R : E} (h : Rep P R) :
    val P.toAffine.x = R.x ∧ val P.toAffine.y = R.y := by
  have := h.z
  constructor
  · simp only [EdPt.toAffine, Lawful.val_strongReduce, val_mul, val_invert, h.x]; field_simp
  · simp only [EdPt.toAffine, Lawful.val_strongReduce, val_mul, val_invert, h.y]; field_simp

theorem rep_ofAffine {A : EdAff F} {R : E} (hx : val A.x = R.x) (hy : val A.y = R.y) :
    Rep A.toExtended R := by
  constructor <;> simp [EdAff.toExtended, hx, hy]

theorem isOnCurve_iff (P : EdPt F) : P.isOnCurve = true ↔
    val P.X * val P.Y = val P.Z * val P.T ∧
    val P.X ^ 2 + val P.Y ^ 2 = val P.Z ^ 2 + d * val P.T ^ 2 := by
  unfold EdPt.isOnCurve
  simp only [Bool.and_eq_true, feq_iff, val_mul, val_square, Lawful.val_add, val_mulR,
    Lawful.lval_EDWARDS_D]
  refine and_congr_right fun _ => ?_
  constructor <;> intro h <;> linear_combination h

theorem scalar_limb0_mod (s : Scalar) : Arr.get s 0 &&& 3 = s.val % 4 := by
  have h1 : Arr.get s 0 &&& 3 = Arr.get s 0 % 4 := Nat.and_two_pow_sub_one_eq_mod _ 2
  rw [h1]
  unfold Arr.get Arr.val
  rcases h : s.l with _ | ⟨a, l⟩
  · simp
  · rw [Nat.ofDigits_cons]
    simp only [List.getD_cons_zero]
    omega

theorem rep_scalarModFour {P : EdPt F} {R : E} (h : Rep P R) (s : Scalar) :
    Rep (P.scalarModFour s) ((s.val % 4) • R) := by
  unfold EdPt.scalarModFour
  rw [scalar_limb0_mod]
  have h2 := rep_double h
  have h3 := rep_add h2 h
  have i0 : Rep (EdPt.identity : EdPt F) 0 := rep_identity
  have r0 := rep_select i0 i0 (s.val % 4 == 0)
  have r1 := rep_select r0 h (s.val % 4 == 1)
  have r2 := rep_select r1 h2 (s.val % 4 == 2)
  have r3 := rep_select r2 h3 (s.val % 4 == 3)
  have hlt : s.val % 4 < 4 := Nat.mod_lt _ (by norm_num)
  convert r3 using 1
  generalize s.val % 4 = m at *
  interval_cases m
  · simp
  · simp
  · simp [two_nsmul]
  · simp [succ_nsmul]

end Ed448.Model
