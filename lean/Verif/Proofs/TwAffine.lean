import Verif.Proofs.Dual

/-!
# Twisted points in extended coordinates, on the whole affine curve
-/

namespace Ed448.Model

set_option exponentiation.threshold 1000
set_option linter.unusedSimpArgs false
open FieldBackend FieldVal Edw Iso
variable {F L : Type} [FieldBackend F L] [Lawful F]

/-- `Q` represents the affine point `(x, y)` of the twisted curve. -/
structure TwRep (Q : TwPt F) (a b : Fp) : Prop where
  on : TwOn a b
  z : val Q.Z ≠ 0
  x : val Q.X = a * val Q.Z
  y : val Q.Y = b * val Q.Z
  t : val Q.T = a * b * val Q.Z

theorem RepT.twRep {e : Fp} {Q : TwPt F} {R : E} (h : RepT e Q R) :
    TwRep Q (e * phiX R) (e * phiY R) := by
  refine ⟨?_, h.z, h.x, h.y, ?_⟩
  · have := phi_on R
    unfold TwOn at *
    have he := h.s
    have h4 : e ^ 4 = 1 := by rw [show e ^ 4 = (e ^ 2) ^ 2 by ring, he, one_pow]
    linear_combination (phiY R ^ 2 - phiX R ^ 2) * he + this
      - (d - 1) * phiX R ^ 2 * phiY R ^ 2 * h4
  · rw [h.t]; linear_combination -(phiX R * phiY R * val Q.Z) * h.s

theorem twRep_iff_valid (Q : TwPt F) : (∃ x y, TwRep Q x y) ↔ val Q.Z ≠ 0 ∧
    val Q.X * val Q.Y = val Q.Z * val Q.T ∧
    val Q.Y ^ 2 - val Q.X ^ 2 = val Q.Z ^ 2 + (d - 1) * val Q.T ^ 2 := by
  constructor
  · rintro ⟨x, y, h⟩
    refine ⟨h.z, ?_, ?_⟩
    · rw [h.x, h.y, h.t]; ring
    · rw [h.x, h.y, h.t]
      have := h.on; unfold TwOn at this
      linear_combination val Q.Z ^ 2 * this
  · rintro ⟨hz, hxy, hc⟩
    have ht : val Q.T = val Q.X * val Q.Y / val Q.Z := by rw [hxy]; field_simp
    refine ⟨val Q.X / val Q.Z, val Q.Y / val Q.Z, ?_, hz, ?_, ?_, ?_⟩
    · unfold TwOn
      rw [ht] at hc
      generalize d - 1 = c at *
      field_simp at hc ⊢
      linear_combination hc
    · field_simp
    · field_simp
    · rw [ht]; field_simp

theorem tw_isOnCurve_iff (Q : TwPt F) : Q.isOnCurve = true ↔
    val Q.X * val Q.Y = val Q.Z * val Q.T ∧
    val Q.Y ^ 2 - val Q.X ^ 2 = val Q.Z ^ 2 + (d - 1) * val Q.T ^ 2 := by
  unfold TwPt.isOnCurve
  rw [Bool.and_eq_true, feq_iff, feq_iff]
  simp only [val_mul, val_mulR, val_square, Lawful.val_add, Lawful.val_sub,
    Lawful.lval_TWISTED_D]
  rw [mul_comm (val Q.T ^ 2)]

theorem TwRep.toAffine {Q : TwPt F} {x y : Fp} (h : TwRep Q x y) :
    val Q.toAffine.x = x ∧ val Q.toAffine.y = y := by
  have := h.z
  constructor
  · simp only [TwPt.toAffine, Lawful.val_strongReduce, val_mul, val_invert, h.x]; field_simp
  · simp only [TwPt.toAffine, Lawful.val_strongReduce, val_mul, val_invert, h.y]; field_simp

theorem TwRep.toUntwisted {Q : TwPt F} {x y : Fp} (h : TwRep Q x y) :
    Rep Q.toUntwisted (psi h.on) := by
  obtain ⟨hx, hy⟩ := h.toAffine
  have vx : val Q.toUntwisted.X = (psi h.on).x := by
    show _ = psiX x y
    simp only [TwPt.toUntwisted, TwPt.edwardsIsogeny, val_mul, val_invert, val_mulC, val_square,
      Lawful.val_add, Lawful.val_sub, Lawful.lval_minusOne, hx, hy, psiX]
    rw [div_eq_mul_inv]
    congr 1
    · ring
    · congr 1; ring
  have vy : val Q.toUntwisted.Y = (psi h.on).y := by
    show _ = psiY x y
    simp only [TwPt.toUntwisted, TwPt.edwardsIsogeny, val_mul, val_invert, val_mulC, val_square,
      Lawful.val_add, Lawful.val_sub, Lawful.lval_minusOne, Lawful.val_one, hx, hy, psiY]
    rw [div_eq_mul_inv]
    congr 1
    · ring
    · congr 1; ring
  have vz : val Q.toUntwisted.Z = 1 := by
    simp only [TwPt.toUntwisted, TwPt.edwardsIsogeny, Lawful.val_one]
  have vt : val Q.toUntwisted.T = val Q.toUntwisted.X * val Q.toUntwisted.Y := by
    simp only [TwPt.toUntwisted, TwPt.edwardsIsogeny, val_mul]
  refine ⟨?_, ?_, ?_, ?_⟩
  · rw [vz]; exact one_ne_zero
  · rw [vx, vz]; ring
  · rw [vy, vz]; ring
  · rw [vt, vx, vy, vz]; ring

/-- The value of the `Z` coordinate of a sum: it vanishes exactly when a denominator of the affine
law does. -/
theorem TwRep.add_Z {P Q : TwPt F} {x1 y1 x2 y2 : Fp} (h : TwRep P x1 y1) (k : TwRep Q x2 y2) :
    val (P.add Q).Z = (val P.Z * val Q.Z) ^ 2 * (1 - (d - 1) * x1 * x2 * y1 * y2) *
      (1 + (d - 1) * x1 * x2 * y1 * y2) := by
  simp only [TwPt.add, TwPt.toExtensible, TwExt.addExtended, TwExt.toExtended, val_mul, val_mulR,
    Lawful.val_add, Lawful.val_sub, Lawful.lval_TWISTED_D, Lawful.val_one, h.t, k.t]
  ring

theorem TwRep.add {P Q : TwPt F} {x1 y1 x2 y2 : Fp} (h : TwRep P x1 y1) (k : TwRep Q x2 y2)
    (dp : 1 + (d - 1) * x1 * x2 * y1 * y2 ≠ 0) (dm : 1 - (d - 1) * x1 * x2 * y1 * y2 ≠ 0) :
    TwRep (P.add Q) ((x1 * y2 + y1 * x2) / (1 + (d - 1) * x1 * x2 * y1 * y2))
      ((y1 * y2 + x1 * x2) / (1 - (d - 1) * x1 * x2 * y1 * y2)) := by
  have hz := h.add_Z k
  have z1 := h.z
  have z2 := k.z
  have X3 : val (P.add Q).X = (val P.Z * val Q.Z) ^ 2 * (x1 * y2 + y1 * x2) *
      (1 - (d - 1) * x1 * x2 * y1 * y2) := by
    simp only [TwPt.add, TwPt.toExtensible, TwExt.addExtended, TwExt.toExtended, val_mul, val_mulR,
      Lawful.val_add, Lawful.val_sub, Lawful.lval_TWISTED_D, Lawful.val_one, h.t, k.t, h.x, h.y,
      k.x, k.y]
    ring
  have Y3 : val (P.add Q).Y = (val P.Z * val Q.Z) ^ 2 * (y1 * y2 + x1 * x2) *
      (1 + (d - 1) * x1 * x2 * y1 * y2) := by
    simp only [TwPt.add, TwPt.toExtensible, TwExt.addExtended, TwExt.toExtended, val_mul, val_mulR,
      Lawful.val_add, Lawful.val_sub, Lawful.lval_TWISTED_D, Lawful.val_one, h.t, k.t, h.x, h.y,
      k.x, k.y]
    ring
  have T3 : val (P.add Q).T = (val P.Z * val Q.Z) ^ 2 * (x1 * y2 + y1 * x2) *
      (y1 * y2 + x1 * x2) := by
    simp only [TwPt.add, TwPt.toExtensible, TwExt.addExtended, TwExt.toExtended, val_mul, val_mulR,
      Lawful.val_add, Lawful.val_sub, Lawful.lval_TWISTED_D, Lawful.val_one, h.t, k.t, h.x, h.y,
      k.x, k.y]
    ring
  refine ⟨?_, ?_, ?_, ?_, ?_⟩
  · have h1 := h.on
    have h2 := k.on
    unfold TwOn at *
    clear hz X3 Y3 T3
    generalize d - 1 = c at *
    have key : (y1 * y2 + x1 * x2) ^ 2 * (1 + c * x1 * x2 * y1 * y2) ^ 2 -
        (x1 * y2 + y1 * x2) ^ 2 * (1 - c * x1 * x2 * y1 * y2) ^ 2 =
        (1 + c * x1 * x2 * y1 * y2) ^ 2 * (1 - c * x1 * x2 * y1 * y2) ^ 2 +
        c * (x1 * y2 + y1 * x2) ^ 2 * (y1 * y2 + x1 * x2) ^ 2 := by
      clear dp dm z1 z2 h k
      grind
    generalize 1 + c * x1 * x2 * y1 * y2 = A at *
    generalize 1 - c * x1 * x2 * y1 * y2 = B at *
    field_simp
    linear_combination key
  · rw [hz]
    exact mul_ne_zero (mul_ne_zero (pow_ne_zero 2 (mul_ne_zero z1 z2)) dm) dp
  all_goals
    simp only [X3, Y3, T3, hz]
    generalize 1 + (d - 1) * x1 * x2 * y1 * y2 = A at *
    generalize 1 - (d - 1) * x1 * x2 * y1 * y2 = B at *
    field_simp

theorem TwRep.double {P : TwPt F} {x y : Fp} (h : TwRep P x y) :
    TwRep P.double (dblX x y) (dblY x y) := by
  have z1 := h.z
  have hB := h.on.B_ne
  have hM := h.on.M_ne
  have hon := h.on
  unfold TwOn at hon
  have Z3 : val P.double.Z = -(val P.Z ^ 4 * (1 - (d - 1) * (x * y) ^ 2) *
      (1 + (d - 1) * (x * y) ^ 2)) := by
    simp only [TwPt.double, TwPt.toExtensible, TwExt.double, TwExt.toExtended, val_mul, val_square,
      Lawful.val_add, Lawful.val_sub, Lawful.val_negate, h.x, h.y]
    linear_combination (val P.Z ^ 4 * (y ^ 2 - x ^ 2 - 2 + (1 + (d - 1) * x ^ 2 * y ^ 2))) * hon
  have X3 : val P.double.X = -(val P.Z ^ 4 * (2 * (x * y)) * (1 - (d - 1) * (x * y) ^ 2)) := by
    simp only [TwPt.double, TwPt.toExtensible, TwExt.double, TwExt.toExtended, val_mul, val_square,
      Lawful.val_add, Lawful.val_sub, Lawful.val_negate, h.x, h.y]
    linear_combination (val P.Z ^ 4 * (2 * x * y)) * hon
  have Y3 : val P.double.Y = -(val P.Z ^ 4 * (y ^ 2 + x ^ 2) * (1 + (d - 1) * (x * y) ^ 2)) := by
    simp only [TwPt.double, TwPt.toExtensible, TwExt.double, TwExt.toExtended, val_mul, val_square,
      Lawful.val_add, Lawful.val_sub, Lawful.val_negate, h.x, h.y]
    linear_combination (-val P.Z ^ 4 * (y ^ 2 + x ^ 2)) * hon
  have T3 : val P.double.T = -(val P.Z ^ 4 * (2 * (x * y)) * (y ^ 2 + x ^ 2)) := by
    simp only [TwPt.double, TwPt.toExtensible, TwExt.double, TwExt.toExtended, val_mul, val_square,
      Lawful.val_add, Lawful.val_sub, Lawful.val_negate, h.x, h.y]
    ring
  refine ⟨h.on.dbl, ?_, ?_, ?_, ?_⟩
  · rw [Z3]
    exact neg_ne_zero.2 (mul_ne_zero (mul_ne_zero (pow_ne_zero 4 z1) hM) hB)
  all_goals
    simp only [X3, Y3, T3, Z3, dblX, dblY]
    generalize 1 + (d - 1) * (x * y) ^ 2 = A at *
    generalize 1 - (d - 1) * (x * y) ^ 2 = B at *
    field_simp

theorem TwRep.eq_iff {P Q : TwPt F} {x y x' y' : Fp} (h : TwRep P x y) (k : TwRep Q x' y') :
    P.eq Q = true ↔ x = x' ∧ y = y' := by
  unfold TwPt.eq
  rw [Bool.and_eq_true, feq_iff, feq_iff]
  simp only [val_mul, h.x, h.y, k.x, k.y]
  have hz := mul_ne_zero h.z k.z
  constructor
  · rintro ⟨h1, h2⟩
    constructor
    · apply mul_right_cancel₀ hz; linear_combination h1
    · apply mul_right_cancel₀ hz; linear_combination h2
  · rintro ⟨h1, h2⟩
    constructor
    · linear_combination val P.Z * val Q.Z * h1
    · linear_combination val P.Z * val Q.Z * h2

theorem TwRep.negate {P : TwPt F} {x y : Fp} (h : TwRep P x y) : TwRep P.negate (-x) y := by
  refine ⟨?_, h.z, ?_, h.y, ?_⟩
  · have := h.on; unfold TwOn at *; rw [neg_sq]; exact this
  · simp only [TwPt.negate, Lawful.val_negate, h.x]; ring
  · simp only [TwPt.negate, Lawful.val_negate, h.t]; ring

theorem TwRep.torque {P : TwPt F} {x y : Fp} (h : TwRep P x y) : TwRep P.torque (-x) (-y) := by
  refine ⟨?_, h.z, ?_, ?_, ?_⟩
  · have := h.on; unfold TwOn at *; rw [neg_sq, neg_sq]; exact this
  · simp only [TwPt.torque, Lawful.val_negate, h.x]; ring
  · simp only [TwPt.torque, Lawful.val_negate, h.y]; ring
  · simp only [TwPt.torque, h.t]; ring

/-- The twisted base point is the image of the base point. -/
theorem phi_G : phiX G = (TGx : Fp) ∧ phiY G = (TGy : Fp) := by
  obtain ⟨ex, ey⟩ := phi_alt G
  have hx : 2 * (Gx * Gy) + TGx * Gx ^ 2 ≡ TGx * Gy ^ 2 [MOD p] := by
    unfold Nat.ModEq; rw [p_lit]; decide +kernel
  have hy : (Gx ^ 2 + Gy ^ 2) + TGy * (Gx ^ 2 + Gy ^ 2) ≡ 2 * TGy [MOD p] := by
    unfold Nat.ModEq; rw [p_lit]; decide +kernel
  have hx' := (ZMod.natCast_eq_natCast_iff _ _ _).2 hx
  have hy' := (ZMod.natCast_eq_natCast_iff _ _ _).2 hy
  push_cast at hx' hy'
  have n1 : (Gy : Fp) ^ 2 - (Gx : Fp) ^ 2 ≠ 0 := N_ne G
  have n2 : (2 : Fp) - (Gy : Fp) ^ 2 - (Gx : Fp) ^ 2 ≠ 0 := by
    intro h
    apply Iso.M_ne G
    have := sum_eq G
    change (Gx : Fp) ^ 2 + (Gy : Fp) ^ 2 = _ at this
    linear_combination h + this
  constructor
  · rw [ex]
    change 2 * ((Gx : Fp) * (Gy : Fp)) / ((Gy : Fp) ^ 2 - (Gx : Fp) ^ 2) = _
    rw [div_eq_iff n1]; linear_combination hx'
  · rw [ey]
    change ((Gy : Fp) ^ 2 + (Gx : Fp) ^ 2) / ((2 : Fp) - (Gy : Fp) ^ 2 - (Gx : Fp) ^ 2) = _
    rw [div_eq_iff n2]; linear_combination hy'

theorem repT_generator : RepT 1 (TwPt.generator : TwPt F) G := by
  obtain ⟨ex, ey⟩ := phi_G
  refine ⟨one_pow 2, ?_, ?_, ?_, ?_⟩
  · change val (TWISTED_EDWARDS_BASE_POINT : F × F × F × F).2.2.1 ≠ 0
    rw [Lawful.val_TGZ]; exact one_ne_zero
  · change val (TWISTED_EDWARDS_BASE_POINT : F × F × F × F).1 =
      1 * phiX G * val (TWISTED_EDWARDS_BASE_POINT : F × F × F × F).2.2.1
    rw [Lawful.val_TGZ, Lawful.val_TGX, ex]; ring
  · change val (TWISTED_EDWARDS_BASE_POINT : F × F × F × F).2.1 =
      1 * phiY G * val (TWISTED_EDWARDS_BASE_POINT : F × F × F × F).2.2.1
    rw [Lawful.val_TGZ, Lawful.val_TGY, ey]; ring
  · change val (TWISTED_EDWARDS_BASE_POINT : F × F × F × F).2.2.2 =
      phiX G * phiY G * val (TWISTED_EDWARDS_BASE_POINT : F × F × F × F).2.2.1
    rw [Lawful.val_TGZ, Lawful.val_TGT, ex, ey]; ring

end Ed448.Model
