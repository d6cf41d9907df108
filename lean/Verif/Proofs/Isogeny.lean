import Verif.Spec.Curve
import Mathlib.Tactic.FieldSimp
import Mathlib.Tactic.LinearCombination

/-!
# The 4-isogeny between the Edwards curve and the twisted curve, on affine coordinates

For a point `R = (x, y)` put `t = xy`, `N = y² - x²`. Then `φ(R) = (2t/N, (1 + dt²)/(1 - dt²))`.
-/

namespace Ed448

set_option exponentiation.threshold 1000
open Edw

namespace Iso

/-- `xy`. -/
def t (R : E) : Fp := R.x * R.y
/-- `y² - x²`. -/
def N (R : E) : Fp := R.y ^ 2 - R.x ^ 2

theorem sum_eq (R : E) : R.x ^ 2 + R.y ^ 2 = 1 + d * t R ^ 2 := by
  have := R.on; unfold OnCurve at this; unfold t; linear_combination this

theorem rel (R : E) : N R ^ 2 = (1 + d * t R ^ 2) ^ 2 - 4 * t R ^ 2 := by
  rw [← sum_eq]; unfold N t; ring

theorem B_ne (R : E) : 1 + d * t R ^ 2 ≠ 0 := by
  have := den_add R.on R.on; unfold t; intro h; apply this; linear_combination h

theorem M_ne (R : E) : 1 - d * t R ^ 2 ≠ 0 := by
  have := den_sub R.on R.on; unfold t; intro h; apply this; linear_combination h

theorem D_ne (R S : E) : 1 - (d * t R * t S) ^ 2 ≠ 0 := by
  have h1 := den_add R.on S.on
  have h2 := den_sub R.on S.on
  unfold t; intro h
  apply mul_ne_zero h1 h2
  linear_combination h

theorem N_ne (R : E) : N R ≠ 0 := by
  intro h
  have h1 := R.on
  unfold OnCurve at h1
  unfold N at h
  apply n39082_nonsquare
  refine ⟨d * R.x ^ 2 - 1, ?_⟩
  have hy : R.y ^ 2 = R.x ^ 2 := by linear_combination h
  rw [hy] at h1
  have : (39082 : Fp) = 1 - d := by unfold d; ring
  rw [this]
  linear_combination d * h1

theorem t_zero : t 0 = 0 := by show (0 : Fp) * 1 = 0; ring
theorem N_zero : N 0 = 1 := by show (1 : Fp) ^ 2 - 0 ^ 2 = 1; ring
theorem t_neg (R : E) : t (-R) = -t R := by show -R.x * R.y = -(R.x * R.y); ring
theorem N_neg (R : E) : N (-R) = N R := by show R.y ^ 2 - (-R.x) ^ 2 = R.y ^ 2 - R.x ^ 2; ring

theorem add_x_mul (R S : E) :
    (R + S).x * (1 + d * R.x * S.x * R.y * S.y) = R.x * S.y + R.y * S.x := by
  rw [Pt.add_x, div_mul_cancel₀ _ (den_add R.on S.on)]

theorem add_y_mul (R S : E) :
    (R + S).y * (1 - d * R.x * S.x * R.y * S.y) = R.y * S.y - R.x * S.x := by
  rw [Pt.add_y, div_mul_cancel₀ _ (den_sub R.on S.on)]

theorem t_add (R S : E) : t (R + S) * (1 - (d * t R * t S) ^ 2) = t R * N S + t S * N R := by
  have h1 := add_x_mul R S
  have h2 := add_y_mul R S
  unfold t N
  rw [show (R + S).x * (R + S).y * (1 - (d * (R.x * R.y) * (S.x * S.y)) ^ 2) =
    ((R + S).x * (1 + d * R.x * S.x * R.y * S.y)) *
      ((R + S).y * (1 - d * R.x * S.x * R.y * S.y)) by ring, h1, h2]
  ring

theorem N_add (R S : E) : N (R + S) * (1 - (d * t R * t S) ^ 2) ^ 2 =
    (1 + (d * t R * t S) ^ 2) * (N R * N S - 4 * t R * t S) +
      2 * (d * t R * t S) * ((1 + d * t R ^ 2) * (1 + d * t S ^ 2)) := by
  have h1 := add_x_mul R S
  have h2 := add_y_mul R S
  rw [← sum_eq, ← sum_eq]
  unfold t N
  rw [show ((R + S).y ^ 2 - (R + S).x ^ 2) * (1 - (d * (R.x * R.y) * (S.x * S.y)) ^ 2) ^ 2 =
    ((R + S).y * (1 - d * R.x * S.x * R.y * S.y)) ^ 2 * (1 + d * R.x * S.x * R.y * S.y) ^ 2 -
      ((R + S).x * (1 + d * R.x * S.x * R.y * S.y)) ^ 2 * (1 - d * R.x * S.x * R.y * S.y) ^ 2 by ring,
    h1, h2]
  ring

/-- First coordinate of the isogeny. -/
def phiX (R : E) : Fp := 2 * t R / N R
/-- Second coordinate of the isogeny. -/
def phiY (R : E) : Fp := (1 + d * t R ^ 2) / (1 - d * t R ^ 2)

theorem phiX_zero : phiX 0 = 0 := by unfold phiX; rw [t_zero]; simp
theorem phiY_zero : phiY 0 = 1 := by unfold phiY; rw [t_zero]; simp
theorem phiX_neg (R : E) : phiX (-R) = -phiX R := by
  unfold phiX; rw [t_neg, N_neg]; ring
theorem phiY_neg (R : E) : phiY (-R) = phiY R := by
  unfold phiY; rw [t_neg]; ring
theorem phiY_ne (R : E) : phiY R ≠ 0 := div_ne_zero (B_ne R) (M_ne R)

theorem phi_curve (R : E) :
    phiY R ^ 2 - phiX R ^ 2 = 1 + (d - 1) * phiX R ^ 2 * phiY R ^ 2 := by
  have hN := N_ne R
  have hM := M_ne R
  have h := rel R
  unfold phiX phiY
  generalize t R = t at *
  generalize N R = N at *
  field_simp
  rw [h]
  ring

/-- Cross-multiplied denominator of the twisted addition law. -/
theorem den_key (R S : E) :
    (1 - (d * t R * t S) ^ 2) ^ 2 * (N R * N S * (1 - d * t R ^ 2) * (1 - d * t S ^ 2) +
      4 * (d - 1) * t R * t S * (1 + d * t R ^ 2) * (1 + d * t S ^ 2)) =
    ((1 + (d * t R * t S) ^ 2) * (N R * N S - 4 * t R * t S) +
      2 * (d * t R * t S) * ((1 + d * t R ^ 2) * (1 + d * t S ^ 2))) *
    ((1 - (d * t R * t S) ^ 2) ^ 2 - d * (t R * N S - t S * N R) ^ 2) := by
  have h1 := rel R
  have h2 := rel S
  generalize t R = a at *
  generalize t S = b at *
  generalize N R = m at *
  generalize N S = n at *
  generalize d = d at *
  grind

theorem x_key (R S : E) :
    (1 - (d * t R * t S) ^ 2) * (t R * N S * (1 + d * t S ^ 2) * (1 - d * t R ^ 2) +
      t S * N R * (1 + d * t R ^ 2) * (1 - d * t S ^ 2)) =
    (t R * N S + t S * N R) * ((1 - (d * t R * t S) ^ 2) ^ 2 - d * (t R * N S - t S * N R) ^ 2) := by
  have h1 := rel R
  have h2 := rel S
  generalize t R = a at *
  generalize t S = b at *
  generalize N R = m at *
  generalize N S = n at *
  generalize d = d at *
  grind

theorem y_key (R S : E) :
    (1 - (d * t R * t S) ^ 2) ^ 2 * ((1 + d * t R ^ 2) * (1 + d * t S ^ 2) * N R * N S +
      4 * t R * t S * (1 - d * t R ^ 2) * (1 - d * t S ^ 2)) =
    ((1 - (d * t R * t S) ^ 2) ^ 2 + d * (t R * N S + t S * N R) ^ 2) *
    ((1 + (d * t R * t S) ^ 2) * (N R * N S + 4 * t R * t S) -
      2 * (d * t R * t S) * ((1 + d * t R ^ 2) * (1 + d * t S ^ 2))) := by
  have h1 := rel R
  have h2 := rel S
  generalize t R = a at *
  generalize t S = b at *
  generalize N R = m at *
  generalize N S = n at *
  generalize d = d at *
  grind

theorem den_eq (R S : E) :
    N R * N S * (1 - d * t R ^ 2) * (1 - d * t S ^ 2) +
      4 * (d - 1) * t R * t S * (1 + d * t R ^ 2) * (1 + d * t S ^ 2) =
    (1 - (d * t R * t S) ^ 2) ^ 2 * N (R + S) * (1 - d * t (R - S) ^ 2) := by
  have h := den_key R S
  have hN := N_add R S
  have ht := t_add R (-S)
  rw [N_neg, t_neg, ← sub_eq_add_neg] at ht
  have hD := D_ne R S
  rw [← hN] at h
  have ht' : t (R - S) * (1 - (d * t R * t S) ^ 2) = t R * N S - t S * N R := by
    linear_combination ht
  rw [← ht'] at h
  apply mul_left_cancel₀ (pow_ne_zero 2 hD)
  rw [h]
  ring

/-- Denominator of the first coordinate of the twisted addition law. -/
theorem phi_den_add (R S : E) : 1 + (d - 1) * (phiX R * phiX S * phiY R * phiY S) ≠ 0 := by
  have h1 := N_ne R
  have h2 := N_ne S
  have h3 := M_ne R
  have h4 := M_ne S
  have key := den_eq R S
  intro h0
  have : N R * N S * (1 - d * t R ^ 2) * (1 - d * t S ^ 2) +
      4 * (d - 1) * t R * t S * (1 + d * t R ^ 2) * (1 + d * t S ^ 2) =
      (N R * N S * (1 - d * t R ^ 2) * (1 - d * t S ^ 2)) *
        (1 + (d - 1) * (phiX R * phiX S * phiY R * phiY S)) := by
    unfold phiX phiY
    generalize 1 - d * t R ^ 2 = a at *
    generalize 1 - d * t S ^ 2 = b at *
    field_simp
    ring
  rw [h0, mul_zero, key] at this
  exact mul_ne_zero (mul_ne_zero (pow_ne_zero 2 (D_ne R S)) (N_ne _)) (M_ne _) this

/-- Denominator of the second coordinate of the twisted addition law. -/
theorem phi_den_sub (R S : E) : 1 - (d - 1) * (phiX R * phiX S * phiY R * phiY S) ≠ 0 := by
  have := phi_den_add R (-S)
  rw [phiX_neg, phiY_neg] at this
  intro h; apply this; linear_combination h

theorem phi_add_x (R S : E) : phiX R * phiY S + phiY R * phiX S =
    phiX (R + S) * (1 + (d - 1) * (phiX R * phiX S * phiY R * phiY S)) := by
  have h1 := N_ne R
  have h2 := N_ne S
  have h3 := M_ne R
  have h4 := M_ne S
  have h5 := N_ne (R + S)
  have hD := D_ne R S
  have hN := N_add R S
  have ht := t_add R S
  have hx := x_key R S
  have hd := den_key R S
  rw [← hN] at hd
  rw [← ht] at hx
  unfold phiX phiY
  generalize hE : (1 - (d * t R * t S) ^ 2) ^ 2 - d * (t R * N S - t S * N R) ^ 2 = Q at *
  clear hE
  generalize 1 - (d * t R * t S) ^ 2 = D at *
  generalize 1 - d * t R ^ 2 = a at *
  generalize 1 - d * t S ^ 2 = b at *
  generalize 1 + d * t R ^ 2 = a' at *
  generalize 1 + d * t S ^ 2 = b' at *
  generalize t (R + S) = t3 at *
  generalize N (R + S) = n3 at *
  have e1 : t R * N S * b' * a + t S * N R * a' * b = t3 * Q :=
    mul_left_cancel₀ hD (by linear_combination hx)
  have e2 : N R * N S * a * b + 4 * (d - 1) * t R * t S * a' * b' = n3 * Q :=
    mul_left_cancel₀ (pow_ne_zero 2 hD) (by linear_combination hd)
  field_simp
  linear_combination 2 * n3 * e1 - 2 * t3 * e2

theorem phi_add_y (R S : E) : phiY R * phiY S + phiX R * phiX S =
    phiY (R + S) * (1 - (d - 1) * (phiX R * phiX S * phiY R * phiY S)) := by
  have h1 := N_ne R
  have h2 := N_ne S
  have h3 := M_ne R
  have h4 := M_ne S
  have h5 := M_ne (R + S)
  have hD := D_ne R S
  have hN := N_add R (-S)
  have ht := t_add R S
  have hy := y_key R S
  have hd := den_key R (-S)
  rw [t_neg, N_neg] at hd hN
  generalize hE : (1 + (d * t R * t S) ^ 2) * (N R * N S + 4 * t R * t S) -
      2 * (d * t R * t S) * ((1 + d * t R ^ 2) * (1 + d * t S ^ 2)) = Q at *
  have hd' : (1 - (d * t R * t S) ^ 2) ^ 2 * (N R * N S * (1 - d * t R ^ 2) * (1 - d * t S ^ 2) -
      4 * (d - 1) * t R * t S * (1 + d * t R ^ 2) * (1 + d * t S ^ 2)) =
    Q * ((1 - (d * t R * t S) ^ 2) ^ 2 - d * (t R * N S + t S * N R) ^ 2) := by
    rw [← hE]; linear_combination hd
  rw [← ht] at hy hd'
  clear hE hN hd ht
  unfold phiX phiY
  generalize hDD : 1 - (d * t R * t S) ^ 2 = D at *
  clear hDD
  generalize 1 - d * t R ^ 2 = a at *
  generalize 1 - d * t S ^ 2 = b at *
  generalize 1 + d * t R ^ 2 = a' at *
  generalize 1 + d * t S ^ 2 = b' at *
  generalize t (R + S) = t3 at *
  have e1 : a' * b' * N R * N S + 4 * t R * t S * a * b = (1 + d * t3 ^ 2) * Q :=
    mul_left_cancel₀ (pow_ne_zero 2 hD) (by linear_combination hy)
  have e2 : N R * N S * a * b - 4 * (d - 1) * t R * t S * a' * b' = (1 - d * t3 ^ 2) * Q :=
    mul_left_cancel₀ (pow_ne_zero 2 hD) (by linear_combination hd')
  generalize 1 - d * t3 ^ 2 = u at *
  generalize 1 + d * t3 ^ 2 = v at *
  field_simp
  linear_combination u * e1 - v * e2

/-- The isogeny determines the point up to the points with `xy = 0`. -/
theorem phi_eq_iff (R S : E) : (phiX R = phiX S ∧ phiY R = phiY S) ↔ t (R - S) = 0 := by
  constructor
  · rintro ⟨hx, hy⟩
    have h := phi_add_x R (-S)
    rw [phiX_neg, phiY_neg, ← sub_eq_add_neg, hx, hy] at h
    have h2 := phi_den_sub R S
    rw [hx, hy] at h2
    have h3 : phiX (R - S) * (1 - (d - 1) * (phiX S * phiX S * phiY S * phiY S)) = 0 := by
      linear_combination -h
    have h4 := (mul_eq_zero.mp h3).resolve_right h2
    unfold phiX at h4
    rcases div_eq_zero_iff.mp h4 with h5 | h5
    · exact (mul_eq_zero.mp h5).resolve_left two_ne
    · exact absurd h5 (N_ne _)
  · intro h
    have e : R = (R - S) + S := by abel
    have ex := phi_add_x (R - S) S
    have ey := phi_add_y (R - S) S
    rw [← e] at ex ey
    have hx0 : phiX (R - S) = 0 := by unfold phiX; rw [h]; simp
    have hy0 : phiY (R - S) = 1 := by unfold phiY; rw [h]; simp
    rw [hx0, hy0] at ex ey
    constructor
    · linear_combination -ex
    · linear_combination -ey

/-! ## The dual isogeny -/

theorem x_ne_of_y_zero {a b : Fp} (h : a ^ 2 + b ^ 2 = 0) : a = 0 ∧ b = 0 := by
  by_cases hb : b = 0
  · subst hb
    refine ⟨?_, rfl⟩
    have : a ^ 2 = 0 := by linear_combination h
    exact pow_eq_zero_iff (two_ne_zero) |>.mp this
  · exfalso
    apply neg_one_nonsquare
    refine ⟨a / b, ?_⟩
    field_simp
    linear_combination -h

theorem dual_x_den (R : E) : phiY R ^ 2 + phiX R ^ 2 ≠ 0 := fun h =>
  phiY_ne R (x_ne_of_y_zero h).1

theorem dual_y_den (R : E) : 2 - phiY R ^ 2 + phiX R ^ 2 ≠ 0 := by
  have h := phi_curve R
  have h2 := phi_den_sub R R
  intro h0; apply h2; linear_combination h0 + h

theorem two_x (R : E) : (R + R).x * (1 + d * t R ^ 2) = 2 * t R := by
  have := add_x_mul R R
  unfold t; linear_combination this

theorem two_y (R : E) : (R + R).y * (1 - d * t R ^ 2) = N R := by
  have := add_y_mul R R
  unfold t N; linear_combination this

theorem two_x' (R : E) : (R + R).x = 2 * t R / (1 + d * t R ^ 2) := by
  rw [eq_div_iff (B_ne R), two_x]

theorem two_y' (R : E) : (R + R).y = N R / (1 - d * t R ^ 2) := by
  rw [eq_div_iff (M_ne R), two_y]

/-- The dual isogeny after the isogeny is multiplication by four, first coordinate. -/
theorem dual_phi_x (R : E) :
    2 * (phiX R * phiY R) / (phiY R ^ 2 + phiX R ^ 2) = ((4 : ℕ) • R).x := by
  have h4 : (4 : ℕ) • R = (R + R) + (R + R) := by abel
  have hB := B_ne R
  have hM := M_ne R
  have hN := N_ne R
  have hB' := B_ne (R + R)
  have hr := rel R
  have hd := dual_x_den R
  rw [h4, two_x', div_eq_div_iff hd hB']
  unfold phiX phiY t at *
  rw [two_x', two_y'] at *
  unfold t at *
  generalize R.x * R.y = t at *
  generalize N R = n at *
  have e : (1 + d * t ^ 2) ^ 2 - 4 * d * t ^ 2 = (1 - d * t ^ 2) ^ 2 := by ring
  generalize 1 - d * t ^ 2 = M at *
  generalize 1 + d * t ^ 2 = B at *
  field_simp
  linear_combination -4 * t * M ^ 2 * hr - 4 * t * n ^ 2 * e

/-- The dual isogeny after the isogeny is multiplication by four, second coordinate. -/
theorem dual_phi_y (R : E) :
    (phiY R ^ 2 - phiX R ^ 2) / (2 - phiY R ^ 2 + phiX R ^ 2) = ((4 : ℕ) • R).y := by
  have h4 : (4 : ℕ) • R = (R + R) + (R + R) := by abel
  have hB := B_ne R
  have hM := M_ne R
  have hN := N_ne R
  have hB' := M_ne (R + R)
  have hr := rel R
  have hd := dual_y_den R
  rw [h4, two_y', div_eq_div_iff hd hB']
  have hN2 : N (R + R) = (R + R).y ^ 2 - (R + R).x ^ 2 := rfl
  rw [hN2]
  unfold phiX phiY t at *
  rw [two_x', two_y'] at *
  unfold t at *
  generalize R.x * R.y = t at *
  generalize N R = n at *
  have e : (1 + d * t ^ 2) ^ 2 - 4 * d * t ^ 2 = (1 - d * t ^ 2) ^ 2 := by ring
  generalize 1 - d * t ^ 2 = M at *
  generalize 1 + d * t ^ 2 = B at *
  field_simp
  linear_combination (B ^ 2 * n ^ 2 - 4 * t ^ 2 * M ^ 2) * (-M ^ 2 * hr + n ^ 2 * e)


end Iso
end Ed448
