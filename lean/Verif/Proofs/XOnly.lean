import Verif.Spec.Curve448
import Verif.Proofs.EdPoints
import Verif.Model.Montgomery
import Mathlib.FieldTheory.IsAlgClosed.AlgebraicClosure
import Mathlib.Tactic.FieldSimp
import Mathlib.Tactic.LinearCombination

/-!
# x-only arithmetic

`XMap G K` collects the identities that make differential addition and doubling correct for a map
from a group to the projective line. Two instances: Curve448 over any extension field, and the
Edwards curve through the 4-isogeny `u = y²/x²`. The Montgomery ladder is proved for any `XMap`.
-/

namespace Ed448.Model

set_option exponentiation.threshold 1000
open FieldBackend FieldVal Edw
open WeierstrassCurve

/-- A map `g ↦ (U g : W g)` with the x-only addition and doubling identities of
`v² = u³ + 156326 u² + u`. -/
structure XMap (G K : Type) [AddCommGroup G] [Field K] where
  U : G → K
  W : G → K
  ne : ∀ g, ¬ (U g = 0 ∧ W g = 0)
  zero : W 0 = 0
  neg_U : ∀ g, U (-g) = U g
  neg_W : ∀ g, W (-g) = W g
  ker : ∀ g h, W g = 0 → W h = 0 → W (g + h) = 0
  dbl : ∀ g, ∃ c, c ≠ 0 ∧ U (g + g) = c * (U g ^ 2 - W g ^ 2) ^ 2 ∧
    W (g + g) = c * (4 * U g * W g * (U g ^ 2 + 156326 * U g * W g + W g ^ 2))
  add : ∀ g h, ∃ c, c ≠ 0 ∧ U (g + h) * U (g - h) = c * (U g * U h - W g * W h) ^ 2 ∧
    W (g + h) * W (g - h) = c * (W g * U h - U g * W h) ^ 2

/-! ## The Edwards instance -/

theorem ed_xx (R S : E) : (R + S).x * (R - S).x * (1 - (d * R.x * S.x * R.y * S.y) ^ 2) =
    R.x ^ 2 * S.y ^ 2 - R.y ^ 2 * S.x ^ 2 := by
  have h1 : (R + S).x * (1 + d * R.x * S.x * R.y * S.y) = R.x * S.y + R.y * S.x := by
    rw [Pt.add_x, div_mul_cancel₀ _ (den_add R.on S.on)]
  have h2 : (R - S).x * (1 + d * R.x * (-S.x) * R.y * S.y) = R.x * S.y + R.y * (-S.x) := by
    rw [sub_eq_add_neg, Pt.add_x]
    exact div_mul_cancel₀ _ (den_add R.on (-S).on)
  have : (R + S).x * (R - S).x * (1 - (d * R.x * S.x * R.y * S.y) ^ 2) =
    ((R + S).x * (1 + d * R.x * S.x * R.y * S.y)) *
      ((R - S).x * (1 + d * R.x * (-S.x) * R.y * S.y)) := by ring
  rw [this, h1, h2]; ring

theorem ed_yy (R S : E) : (R + S).y * (R - S).y * (1 - (d * R.x * S.x * R.y * S.y) ^ 2) =
    R.y ^ 2 * S.y ^ 2 - R.x ^ 2 * S.x ^ 2 := by
  have h1 : (R + S).y * (1 - d * R.x * S.x * R.y * S.y) = R.y * S.y - R.x * S.x := by
    rw [Pt.add_y, div_mul_cancel₀ _ (den_sub R.on S.on)]
  have h2 : (R - S).y * (1 - d * R.x * (-S.x) * R.y * S.y) = R.y * S.y - R.x * (-S.x) := by
    rw [sub_eq_add_neg, Pt.add_y]
    exact div_mul_cancel₀ _ (den_sub R.on (-S).on)
  have : (R + S).y * (R - S).y * (1 - (d * R.x * S.x * R.y * S.y) ^ 2) =
    ((R + S).y * (1 - d * R.x * S.x * R.y * S.y)) *
      ((R - S).y * (1 - d * R.x * (-S.x) * R.y * S.y)) := by ring
  rw [this, h1, h2]; ring

theorem ed_xy_ne (R : E) : ¬ (R.y ^ 2 = 0 ∧ R.x ^ 2 = 0) := by
  rintro ⟨h1, h2⟩
  have := R.on
  unfold OnCurve at this
  rw [h1, h2] at this
  apply one_ne_zero (α := Fp)
  linear_combination -this

/-- `u = y²/x²` on the Edwards curve. -/
def edXMap : XMap E Fp where
  U R := R.y ^ 2
  W R := R.x ^ 2
  ne := ed_xy_ne
  zero := by show (0 : Fp) ^ 2 = 0; ring
  neg_U R := rfl
  neg_W R := by show (-R.x) ^ 2 = R.x ^ 2; ring
  ker R S h1 h2 := by
    rw [pow_eq_zero_iff two_ne_zero] at *
    rw [Pt.add_x, h1, h2]; simp
  dbl R := by
    have h1 := R.on
    unfold OnCurve at h1
    have hp := den_add R.on R.on
    have hm := den_sub R.on R.on
    have a1 := Pt.add_x R R
    have a2 := Pt.add_y R R
    refine ⟨1 / ((1 + d * R.x * R.x * R.y * R.y) * (1 - d * R.x * R.x * R.y * R.y)) ^ 2, ?_, ?_, ?_⟩
    · exact div_ne_zero one_ne_zero (pow_ne_zero 2 (mul_ne_zero hp hm))
    · rw [a2, div_pow, div_mul_eq_mul_div, div_eq_div_iff (pow_ne_zero 2 hm)
        (pow_ne_zero 2 (mul_ne_zero hp hm))]
      have e : 1 + d * R.x * R.x * R.y * R.y = R.x ^ 2 + R.y ^ 2 := by linear_combination -h1
      rw [e]
      ring
    · rw [a1, div_pow, div_mul_eq_mul_div, div_eq_div_iff (pow_ne_zero 2 hp)
        (pow_ne_zero 2 (mul_ne_zero hp hm))]
      have e : (R.y ^ 2) ^ 2 + 156326 * R.y ^ 2 * R.x ^ 2 + (R.x ^ 2) ^ 2 =
          (1 - d * R.x * R.x * R.y * R.y) ^ 2 := by
        have hd : (156326 : Fp) = 2 - 4 * d := by unfold d; ring
        rw [hd]
        linear_combination (R.x ^ 2 + R.y ^ 2 + 1 + d * R.x ^ 2 * R.y ^ 2) * h1
      rw [e]; ring
  add R S := by
    have hp := den_add R.on S.on
    have hm := den_sub R.on S.on
    have hD : 1 - (d * R.x * S.x * R.y * S.y) ^ 2 ≠ 0 := by
      intro e; apply mul_ne_zero hp hm; linear_combination e
    have a1 := ed_xx R S
    have a2 := ed_yy R S
    refine ⟨1 / (1 - (d * R.x * S.x * R.y * S.y) ^ 2) ^ 2, ?_, ?_, ?_⟩
    · exact div_ne_zero one_ne_zero (pow_ne_zero 2 hD)
    · rw [div_mul_eq_mul_div, eq_div_iff (pow_ne_zero 2 hD), one_mul, ← a2]; ring
    · rw [div_mul_eq_mul_div, eq_div_iff (pow_ne_zero 2 hD), one_mul]
      have : R.x ^ 2 * S.y ^ 2 - R.y ^ 2 * S.x ^ 2 = _ := a1.symm
      rw [this]; ring

/-! ## The Curve448 instance -/

section curve
variable {K : Type} [Field K] [DecidableEq K] [Algebra Fp K]

omit [DecidableEq K] in
theorem map_nat_ne (n : ℕ) (h0 : n ≠ 0) (h : n < 2 ^ 40) : (n : K) ≠ 0 := by
  have := smallNat_ne_zero n h0 h
  rw [← map_natCast (algebraMap Fp K)]
  exact (map_ne_zero _).2 this

omit [DecidableEq K] in
theorem K_two : (2 : K) ≠ 0 := by exact_mod_cast map_nat_ne (K := K) 2 (by norm_num) (by norm_num)
omit [DecidableEq K] in
theorem K_four : (4 : K) ≠ 0 := by exact_mod_cast map_nat_ne (K := K) 4 (by norm_num) (by norm_num)
omit [DecidableEq K] in
theorem K_Ap : (156328 : K) ≠ 0 := by
  exact_mod_cast map_nat_ne (K := K) 156328 (by norm_num) (by norm_num)
omit [DecidableEq K] in
theorem K_Am : (156324 : K) ≠ 0 := by
  exact_mod_cast map_nat_ne (K := K) 156324 (by norm_num) (by norm_num)

omit [DecidableEq K] in
/-- `x² ≠ 1` at a root of `x (x² + A x + 1)`. -/
theorem sq_sub_one_ne {x : K} (h : x ^ 3 + 156326 * x ^ 2 + x = 0) : x ^ 2 - 1 ≠ 0 := by
  intro e
  have h1 : x * x = 1 := by linear_combination e
  have hx : x ≠ 0 := by rintro rfl; simp at h1
  have h2 : x ^ 2 + 156326 * x + 1 = 0 := by
    apply mul_left_cancel₀ hx; linear_combination h
  have h3 : 156326 * x = -2 := by linear_combination h2 - e
  have h4 : (156326 : K) ^ 2 = 4 := by
    linear_combination (-(156326 : K) ^ 2) * h1 + (156326 * x - 2) * h3
  have h5 : (156328 : K) * 156324 = 0 := by linear_combination h4
  exact mul_ne_zero K_Ap K_Am h5

omit [DecidableEq K] [Algebra Fp K] in
theorem negY_eq (x y : K) : (curve448 K).negY x y = -y := by
  simp [Affine.negY, curve448]

/-- Projective first coordinate. -/
def cU : (curve448 K).Point → K
  | .zero => 1
  | .some x _ _ => x
/-- Projective second coordinate. -/
def cW : (curve448 K).Point → K
  | .zero => 0
  | .some _ _ _ => 1

omit [DecidableEq K] [Algebra Fp K] in
theorem cW_eq_zero (P : (curve448 K).Point) : cW P = 0 ↔ P = 0 := by
  cases P with
  | zero => exact ⟨fun _ => rfl, fun _ => rfl⟩
  | some x y h => exact ⟨fun e => absurd e one_ne_zero, fun e => absurd e (Affine.Point.some_ne_zero h)⟩

omit [DecidableEq K] [Algebra Fp K] in
theorem cU_neg (P : (curve448 K).Point) : cU (-P) = cU P := by cases P <;> rfl
omit [DecidableEq K] [Algebra Fp K] in
theorem cW_neg (P : (curve448 K).Point) : cW (-P) = cW P := by cases P <;> rfl

theorem c_dbl (P : (curve448 K).Point) : ∃ c, c ≠ 0 ∧ cU (P + P) = c * (cU P ^ 2 - cW P ^ 2) ^ 2 ∧
    cW (P + P) = c * (4 * cU P * cW P * (cU P ^ 2 + 156326 * cU P * cW P + cW P ^ 2)) := by
  cases P with
  | zero =>
    refine ⟨1, one_ne_zero, ?_, ?_⟩
    · show (1 : K) = 1 * (1 ^ 2 - 0 ^ 2) ^ 2; ring
    · show (0 : K) = 1 * (4 * 1 * 0 * (1 ^ 2 + 156326 * 1 * 0 + 0 ^ 2)); ring
  | some x y h =>
    have heq := (curve448_equation x y).1 h.1
    by_cases hy : y = 0
    · have h0 : x ^ 3 + 156326 * x ^ 2 + x = 0 := by rw [← heq, hy]; ring
      rw [Affine.Point.add_self_of_Y_eq (by rw [negY_eq, hy, neg_zero])]
      have hn := sq_sub_one_ne h0
      refine ⟨1 / (x ^ 2 - 1) ^ 2, div_ne_zero one_ne_zero (pow_ne_zero 2 hn), ?_, ?_⟩
      · show (1 : K) = 1 / (x ^ 2 - 1) ^ 2 * (x ^ 2 - 1 ^ 2) ^ 2
        rw [one_pow]; field_simp
      · show (0 : K) = 1 / (x ^ 2 - 1) ^ 2 * (4 * x * 1 * (x ^ 2 + 156326 * x * 1 + 1 ^ 2))
        have : 4 * x * 1 * (x ^ 2 + 156326 * x * 1 + 1 ^ 2) = 0 := by linear_combination 4 * h0
        rw [this, mul_zero]
    · have h2 := K_two (K := K)
      have hn : y ≠ (curve448 K).negY x y := by
        rw [negY_eq]; intro e
        have : 2 * y = 0 := by linear_combination e
        exact (mul_ne_zero h2 hy) this
      rw [Affine.Point.add_self_of_Y_ne hn]
      refine ⟨1 / (4 * y ^ 2), ?_, ?_, ?_⟩
      · exact div_ne_zero one_ne_zero (mul_ne_zero K_four (pow_ne_zero 2 hy))
      · show (curve448 K).addX x x ((curve448 K).slope x x y y) =
          1 / (4 * y ^ 2) * (x ^ 2 - 1 ^ 2) ^ 2
        rw [Affine.slope_of_Y_ne rfl hn, negY_eq, Affine.addX]
        have h4 := K_four (K := K)
        have e : y - -y = 2 * y := by ring
        rw [e]
        simp only [curve448]
        rw [eq_comm, div_mul_eq_mul_div, div_eq_iff (mul_ne_zero h4 (pow_ne_zero 2 hy))]
        field_simp
        linear_combination (16 * (156326 + 2 * x)) * heq
      · show (1 : K) = 1 / (4 * y ^ 2) * (4 * x * 1 * (x ^ 2 + 156326 * x * 1 + 1 ^ 2))
        have h4 := K_four (K := K)
        field_simp
        linear_combination heq

theorem c_add (P Q : (curve448 K).Point) : ∃ c, c ≠ 0 ∧
    cU (P + Q) * cU (P - Q) = c * (cU P * cU Q - cW P * cW Q) ^ 2 ∧
    cW (P + Q) * cW (P - Q) = c * (cW P * cU Q - cU P * cW Q) ^ 2 := by
  have U0 : cU (0 : (curve448 K).Point) = 1 := rfl
  have W0 : cW (0 : (curve448 K).Point) = 0 := rfl
  by_cases hP : P = 0
  · subst hP
    rw [zero_add, zero_sub, cU_neg, cW_neg, U0, W0]
    exact ⟨1, one_ne_zero, by ring, by ring⟩
  by_cases hQ : Q = 0
  · subst hQ
    rw [add_zero, sub_zero, U0, W0]
    exact ⟨1, one_ne_zero, by ring, by ring⟩
  by_cases hPQ : P = Q
  · subst hPQ
    rw [sub_self, U0, W0]
    obtain ⟨c, h1, h2, h3⟩ := c_dbl P
    exact ⟨c, h1, by rw [h2]; ring, by ring⟩
  by_cases hPQ' : P = -Q
  · subst hPQ'
    obtain ⟨c, h1, h2, h3⟩ := c_dbl (-Q)
    rw [neg_add_cancel, sub_eq_add_neg, h2, U0, W0, cU_neg, cW_neg]
    exact ⟨c, h1, by ring, by ring⟩
  cases P with
  | zero => exact absurd rfl hP
  | some x y h =>
    cases Q with
    | zero => exact absurd rfl hQ
    | some x' y' h' =>
      have hx : x ≠ x' := by
        intro e
        rcases Affine.Point.X_eq_iff.1 e with e | e
        · exact hPQ e
        · exact hPQ' e
      have e1 := (curve448_equation x y).1 h.1
      have e2 := (curve448_equation x' y').1 h'.1
      have hs : x - x' ≠ 0 := sub_ne_zero.2 hx
      refine ⟨1 / (x - x') ^ 2, div_ne_zero one_ne_zero (pow_ne_zero 2 hs), ?_, ?_⟩
      · rw [sub_eq_add_neg, Affine.Point.neg_some, Affine.Point.add_of_X_ne hx,
          Affine.Point.add_of_X_ne hx]
        show (curve448 K).addX x x' ((curve448 K).slope x x' y y') *
          (curve448 K).addX x x' ((curve448 K).slope x x' y ((curve448 K).negY x' y')) =
          1 / (x - x') ^ 2 * (x * x' - 1 * 1) ^ 2
        rw [Affine.slope_of_X_ne hx, Affine.slope_of_X_ne hx, negY_eq]
        simp only [Affine.addX, curve448]
        field_simp
        grind
      · rw [sub_eq_add_neg, Affine.Point.neg_some, Affine.Point.add_of_X_ne hx,
          Affine.Point.add_of_X_ne hx]
        show (1 : K) * 1 = 1 / (x - x') ^ 2 * (1 * x' - x * 1) ^ 2
        field_simp
        ring

/-- The `u`-coordinate on Curve448. -/
def cXMap (K : Type) [Field K] [DecidableEq K] [Algebra Fp K] : XMap (curve448 K).Point K where
  U := cU
  W := cW
  ne P := by
    cases P with
    | zero => exact fun h => one_ne_zero h.1
    | some x y h => exact fun h => one_ne_zero h.2
  zero := rfl
  neg_U := cU_neg
  neg_W := cW_neg
  ker P Q h1 h2 := by rw [cW_eq_zero] at *; rw [h1, h2, add_zero]
  dbl := c_dbl
  add := c_add

end curve
end Ed448.Model
