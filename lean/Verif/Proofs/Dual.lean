import Verif.Proofs.TwPoints

/-!
# The dual isogeny on all affine points of the twisted curve

The image of the isogeny is only part of the twisted curve. The dual isogeny is nevertheless
defined on every affine point, lands on the Edwards curve, and is additive wherever the affine
addition law of the twisted curve is defined.
-/

namespace Ed448.Iso

set_option exponentiation.threshold 1000
open Edw Model

/-- `-x² + y² = 1 + (d - 1) x² y²`. -/
def TwOn (X Y : Fp) : Prop := Y ^ 2 - X ^ 2 = 1 + (d - 1) * X ^ 2 * Y ^ 2

theorem TwOn.y_ne {X Y : Fp} (h : TwOn X Y) : Y ≠ 0 := by
  rintro rfl
  unfold TwOn at h
  exact neg_one_nonsquare ⟨X, by linear_combination h⟩

theorem TwOn.N_ne {X Y : Fp} (h : TwOn X Y) : Y ^ 2 + X ^ 2 ≠ 0 := fun e =>
  h.y_ne (x_ne_of_y_zero e).1

theorem TwOn.M_ne {X Y : Fp} (h : TwOn X Y) : 1 - (d - 1) * (X * Y) ^ 2 ≠ 0 := by
  intro e
  have hx : X ≠ 0 := by rintro rfl; apply one_ne_zero (α := Fp); linear_combination e
  have hy := h.y_ne
  apply d_nonsquare
  refine ⟨(X ^ 2 + Y ^ 2) / (2 * X * Y), ?_⟩
  have h2 := two_ne
  unfold TwOn at h
  field_simp
  have h3 : Y ^ 2 - X ^ 2 = 2 := by linear_combination h - e
  linear_combination (-(Y ^ 2 - X ^ 2 + 2)) * h3 - 4 * e

theorem TwOn.B_ne {X Y : Fp} (h : TwOn X Y) : 1 + (d - 1) * (X * Y) ^ 2 ≠ 0 := by
  intro e
  have hx : X ≠ 0 := by rintro rfl; apply one_ne_zero (α := Fp); linear_combination e
  apply n39082_nonsquare
  refine ⟨1 / X ^ 2, ?_⟩
  unfold TwOn at h
  have h3 : Y ^ 2 = X ^ 2 := by linear_combination h + e
  have hd : (39082 : Fp) = -(d - 1) := by unfold d; ring
  rw [hd]
  field_simp
  have : (X * Y) ^ 2 = X ^ 4 := by rw [mul_pow, h3]; ring
  rw [this] at e
  linear_combination -e

theorem TwOn.rel {X Y : Fp} (h : TwOn X Y) :
    (Y ^ 2 + X ^ 2) ^ 2 = (1 + (d - 1) * (X * Y) ^ 2) ^ 2 + 4 * (X * Y) ^ 2 := by
  unfold TwOn at h
  have : 1 + (d - 1) * (X * Y) ^ 2 = Y ^ 2 - X ^ 2 := by linear_combination -h
  rw [this]; ring

/-- First coordinate of the dual isogeny. -/
def psiX (X Y : Fp) : Fp := 2 * (X * Y) / (Y ^ 2 + X ^ 2)
/-- Second coordinate of the dual isogeny. -/
def psiY (X Y : Fp) : Fp := (Y ^ 2 - X ^ 2) / (2 - Y ^ 2 + X ^ 2)

theorem TwOn.psiY_eq {X Y : Fp} (h : TwOn X Y) :
    psiY X Y = (1 + (d - 1) * (X * Y) ^ 2) / (1 - (d - 1) * (X * Y) ^ 2) := by
  unfold TwOn at h
  unfold psiY
  congr 1
  · linear_combination h
  · linear_combination -h

theorem TwOn.dual_den {X Y : Fp} (h : TwOn X Y) : 2 - Y ^ 2 + X ^ 2 ≠ 0 := by
  have := h.M_ne
  unfold TwOn at h
  intro e; apply this; linear_combination e + h

theorem TwOn.psi_on {X Y : Fp} (h : TwOn X Y) : OnCurve d (psiX X Y) (psiY X Y) := by
  rw [h.psiY_eq]
  have hr := h.rel
  have hN := h.N_ne
  have hM := h.M_ne
  unfold OnCurve psiX
  generalize X * Y = t at *
  generalize Y ^ 2 + X ^ 2 = N at *
  have e : (1 + (d - 1) * t ^ 2) ^ 2 - 4 * (d - 1) * t ^ 2 = (1 - (d - 1) * t ^ 2) ^ 2 := by ring
  have hc : d = (d - 1) + 1 := by ring
  generalize 1 - (d - 1) * t ^ 2 = M at *
  generalize 1 + (d - 1) * t ^ 2 = B at *
  generalize d - 1 = c at *
  rw [hc]
  field_simp
  linear_combination N ^ 2 * e + 4 * c * t ^ 2 * hr - 4 * t ^ 2 * e

/-- The dual isogeny. -/
def psi {X Y : Fp} (h : TwOn X Y) : E := ⟨psiX X Y, psiY X Y, h.psi_on⟩

section add
variable {X1 Y1 X2 Y2 X3 Y3 : Fp}

theorem psi_den_key {c a b m n : Fp} (h1 : m ^ 2 = (1 + c * a ^ 2) ^ 2 + 4 * a ^ 2)
    (h2 : n ^ 2 = (1 + c * b ^ 2) ^ 2 + 4 * b ^ 2) :
    (1 - (c * a * b) ^ 2) ^ 2 * (m * n * (1 - c * a ^ 2) * (1 - c * b ^ 2) +
      4 * (c + 1) * a * b * (1 + c * a ^ 2) * (1 + c * b ^ 2)) =
    ((1 + (c * a * b) ^ 2) * (m * n + 4 * a * b) +
      2 * (c * a * b) * ((1 + c * a ^ 2) * (1 + c * b ^ 2))) *
    ((1 - (c * a * b) ^ 2) ^ 2 - c * (a * n - b * m) ^ 2) := by
  grind

theorem psi_x_key {c a b m n : Fp} (h1 : m ^ 2 = (1 + c * a ^ 2) ^ 2 + 4 * a ^ 2)
    (h2 : n ^ 2 = (1 + c * b ^ 2) ^ 2 + 4 * b ^ 2) :
    (1 - (c * a * b) ^ 2) * (a * n * (1 + c * b ^ 2) * (1 - c * a ^ 2) +
      b * m * (1 + c * a ^ 2) * (1 - c * b ^ 2)) =
    (a * n + b * m) * ((1 - (c * a * b) ^ 2) ^ 2 - c * (a * n - b * m) ^ 2) := by
  grind

theorem psi_y_key {c a b m n : Fp} (h1 : m ^ 2 = (1 + c * a ^ 2) ^ 2 + 4 * a ^ 2)
    (h2 : n ^ 2 = (1 + c * b ^ 2) ^ 2 + 4 * b ^ 2) :
    (1 - (c * a * b) ^ 2) ^ 2 * ((1 + c * a ^ 2) * (1 + c * b ^ 2) * m * n -
      4 * a * b * (1 - c * a ^ 2) * (1 - c * b ^ 2)) =
    ((1 - (c * a * b) ^ 2) ^ 2 + c * (a * n + b * m) ^ 2) *
    ((1 + (c * a * b) ^ 2) * (m * n - 4 * a * b) -
      2 * (c * a * b) * ((1 + c * a ^ 2) * (1 + c * b ^ 2))) := by
  grind

/-- The dual isogeny sends affine sums to sums. -/
theorem psi_add (h1 : TwOn X1 Y1) (h2 : TwOn X2 Y2) (h3 : TwOn X3 Y3)
    (dp : 1 + (d - 1) * X1 * X2 * Y1 * Y2 ≠ 0) (dm : 1 - (d - 1) * X1 * X2 * Y1 * Y2 ≠ 0)
    (hx : X3 * (1 + (d - 1) * X1 * X2 * Y1 * Y2) = X1 * Y2 + Y1 * X2)
    (hy : Y3 * (1 - (d - 1) * X1 * X2 * Y1 * Y2) = Y1 * Y2 + X1 * X2) :
    psi h3 = psi h1 + psi h2 := by
  have hD : 1 - ((d - 1) * (X1 * Y1) * (X2 * Y2)) ^ 2 ≠ 0 := by
    intro e; apply mul_ne_zero dp dm; linear_combination e
  have ht : (X3 * Y3) * (1 - ((d - 1) * (X1 * Y1) * (X2 * Y2)) ^ 2) =
      (X1 * Y1) * (Y2 ^ 2 + X2 ^ 2) + (X2 * Y2) * (Y1 ^ 2 + X1 ^ 2) := by
    rw [show (X3 * Y3) * (1 - ((d - 1) * (X1 * Y1) * (X2 * Y2)) ^ 2) =
      (X3 * (1 + (d - 1) * X1 * X2 * Y1 * Y2)) * (Y3 * (1 - (d - 1) * X1 * X2 * Y1 * Y2)) by ring,
      hx, hy]
    ring
  have hN : (Y3 ^ 2 + X3 ^ 2) * (1 - ((d - 1) * (X1 * Y1) * (X2 * Y2)) ^ 2) ^ 2 =
      (1 + ((d - 1) * (X1 * Y1) * (X2 * Y2)) ^ 2) *
        ((Y1 ^ 2 + X1 ^ 2) * (Y2 ^ 2 + X2 ^ 2) + 4 * (X1 * Y1) * (X2 * Y2)) +
      2 * ((d - 1) * (X1 * Y1) * (X2 * Y2)) *
        ((1 + (d - 1) * (X1 * Y1) ^ 2) * (1 + (d - 1) * (X2 * Y2) ^ 2)) := by
    have e1 : 1 + (d - 1) * (X1 * Y1) ^ 2 = Y1 ^ 2 - X1 ^ 2 := by
      unfold TwOn at h1; linear_combination -h1
    have e2 : 1 + (d - 1) * (X2 * Y2) ^ 2 = Y2 ^ 2 - X2 ^ 2 := by
      unfold TwOn at h2; linear_combination -h2
    rw [e1, e2]
    rw [show (Y3 ^ 2 + X3 ^ 2) * (1 - ((d - 1) * (X1 * Y1) * (X2 * Y2)) ^ 2) ^ 2 =
      (X3 * (1 + (d - 1) * X1 * X2 * Y1 * Y2)) ^ 2 * (1 - (d - 1) * X1 * X2 * Y1 * Y2) ^ 2 +
      (Y3 * (1 - (d - 1) * X1 * X2 * Y1 * Y2)) ^ 2 * (1 + (d - 1) * X1 * X2 * Y1 * Y2) ^ 2 by ring,
      hx, hy]
    ring
  have kd := psi_den_key h1.rel h2.rel
  have kd' := psi_den_key (a := X1 * Y1) (b := -(X2 * Y2)) (n := Y2 ^ 2 + X2 ^ 2) h1.rel
    (by rw [neg_sq]; exact h2.rel)
  have kx := psi_x_key h1.rel h2.rel
  have ky := psi_y_key h1.rel h2.rel
  have q1 := h1.M_ne
  have q2 := h2.M_ne
  have q3 := h3.M_ne
  have n1 := h1.N_ne
  have n2 := h2.N_ne
  have nn3 := h3.N_ne
  have E1 := add_x_mul (psi h1) (psi h2)
  have E2 := add_y_mul (psi h1) (psi h2)
  have D1 := den_add (psi h1).on (psi h2).on
  have D2 := den_sub (psi h1).on (psi h2).on
  have p1 : (psi h1).y = _ := h1.psiY_eq
  have p2 : (psi h2).y = _ := h2.psiY_eq
  have p3 : (psi h3).y = _ := h3.psiY_eq
  have x1 : (psi h1).x = 2 * (X1 * Y1) / (Y1 ^ 2 + X1 ^ 2) := rfl
  have x2 : (psi h2).x = 2 * (X2 * Y2) / (Y2 ^ 2 + X2 ^ 2) := rfl
  have x3 : (psi h3).x = 2 * (X3 * Y3) / (Y3 ^ 2 + X3 ^ 2) := rfl
  rw [← hN] at kd
  rw [← ht] at kx
  ext
  · apply mul_right_cancel₀ D1
    rw [E1, x3, x1, x2, p1, p2]
    clear E1 E2 D1 D2 p1 p2 p3 x1 x2 x3 ky kd' hx hy dp dm h1 h2 h3 hN q3
    generalize X1 * Y1 = a at *
    generalize X2 * Y2 = b at *
    generalize X3 * Y3 = t3 at *
    generalize Y1 ^ 2 + X1 ^ 2 = m at *
    generalize Y2 ^ 2 + X2 ^ 2 = n at *
    generalize Y3 ^ 2 + X3 ^ 2 = n3 at *
    have hc : d = (d - 1) + 1 := by ring
    generalize d - 1 = c at *
    rw [hc]
    generalize hE : (1 - (c * a * b) ^ 2) ^ 2 - c * (a * n - b * m) ^ 2 = Q at *
    clear hE
    generalize 1 - (c * a * b) ^ 2 = D at *
    generalize 1 - c * a ^ 2 = A at *
    generalize 1 - c * b ^ 2 = B at *
    generalize 1 + c * a ^ 2 = A' at *
    generalize 1 + c * b ^ 2 = B' at *
    have e1 : a * n * B' * A + b * m * A' * B = t3 * Q :=
      mul_left_cancel₀ hD (by linear_combination kx)
    have e2 : m * n * A * B + 4 * (c + 1) * a * b * A' * B' = n3 * Q :=
      mul_left_cancel₀ (pow_ne_zero 2 hD) (by linear_combination kd)
    field_simp
    linear_combination 2 * t3 * e2 - 2 * n3 * e1
  · apply mul_right_cancel₀ D2
    rw [E2, p3, x1, x2, p1, p2]
    clear E1 E2 D1 D2 p1 p2 p3 x1 x2 x3 kx kd hx hy dp dm h1 h2 h3 hN nn3
    generalize X1 * Y1 = a at *
    generalize X2 * Y2 = b at *
    generalize X3 * Y3 = t3 at *
    generalize Y1 ^ 2 + X1 ^ 2 = m at *
    generalize Y2 ^ 2 + X2 ^ 2 = n at *
    have hc : d = (d - 1) + 1 := by ring
    generalize d - 1 = c at *
    rw [hc]
    generalize hE : (1 + (c * a * b) ^ 2) * (m * n - 4 * a * b) -
      2 * (c * a * b) * ((1 + c * a ^ 2) * (1 + c * b ^ 2)) = Q at *
    have hd' : (1 - (c * a * b) ^ 2) ^ 2 * (m * n * (1 - c * a ^ 2) * (1 - c * b ^ 2) -
        4 * (c + 1) * a * b * (1 + c * a ^ 2) * (1 + c * b ^ 2)) =
      Q * ((1 - (c * a * b) ^ 2) ^ 2 - c * (a * n + b * m) ^ 2) := by
      rw [← hE]; linear_combination kd'
    rw [← ht] at ky hd'
    clear hE kd' ht
    generalize hDD : 1 - (c * a * b) ^ 2 = D at *
    clear hDD
    generalize 1 - c * a ^ 2 = A at *
    generalize 1 - c * b ^ 2 = B at *
    generalize 1 + c * a ^ 2 = A' at *
    generalize 1 + c * b ^ 2 = B' at *
    have e1 : A' * B' * m * n - 4 * a * b * A * B = (1 + c * t3 ^ 2) * Q :=
      mul_left_cancel₀ (pow_ne_zero 2 hD) (by linear_combination ky)
    have e2 : m * n * A * B - 4 * (c + 1) * a * b * A' * B' = (1 - c * t3 ^ 2) * Q :=
      mul_left_cancel₀ (pow_ne_zero 2 hD) (by linear_combination hd')
    generalize 1 - c * t3 ^ 2 = u at *
    generalize 1 + c * t3 ^ 2 = v at *
    field_simp
    linear_combination v * e2 - u * e1

end add

theorem phi_on (R : E) : TwOn (phiX R) (phiY R) := phi_curve R

/-- The dual isogeny after the isogeny is multiplication by four. -/
theorem psi_phi (R : E) : psi (phi_on R) = (4 : ℕ) • R := by
  ext
  · exact dual_phi_x R
  · exact dual_phi_y R

/-- Kernel of the dual isogeny on affine points: `(0, ±1)`. -/
theorem psi_eq_zero {X Y : Fp} (h : TwOn X Y) : psi h = 0 ↔ X = 0 ∧ Y ^ 2 = 1 := by
  constructor
  · intro e
    have hx : (psi h).x = 0 := by rw [e]; rfl
    have hx' : 2 * (X * Y) / (Y ^ 2 + X ^ 2) = 0 := hx
    have h0 : X = 0 := by
      rcases div_eq_zero_iff.1 hx' with h1 | h1
      · rcases mul_eq_zero.1 h1 with h2 | h2
        · exact absurd h2 two_ne
        · exact (mul_eq_zero.1 h2).resolve_right h.y_ne
      · exact absurd h1 h.N_ne
    refine ⟨h0, ?_⟩
    unfold TwOn at h
    rw [h0] at h
    linear_combination h
  · rintro ⟨h0, h1⟩
    ext
    · show 2 * (X * Y) / _ = 0
      rw [h0]; simp
    · show (Y ^ 2 - X ^ 2) / (2 - Y ^ 2 + X ^ 2) = 1
      rw [h0, h1]; norm_num

/-- Affine doubling on the twisted curve, first coordinate (always defined). -/
def dblX (X Y : Fp) : Fp := 2 * (X * Y) / (1 + (d - 1) * (X * Y) ^ 2)
/-- Affine doubling on the twisted curve, second coordinate. -/
def dblY (X Y : Fp) : Fp := (Y ^ 2 + X ^ 2) / (1 - (d - 1) * (X * Y) ^ 2)

theorem TwOn.dbl {X Y : Fp} (h : TwOn X Y) : TwOn (dblX X Y) (dblY X Y) := by
  have h1 := h.B_ne
  have h2 := h.M_ne
  have hr := h.rel
  unfold TwOn dblX dblY
  generalize X * Y = t at *
  generalize Y ^ 2 + X ^ 2 = N at *
  have e : (1 + (d - 1) * t ^ 2) ^ 2 - 4 * (d - 1) * t ^ 2 = (1 - (d - 1) * t ^ 2) ^ 2 := by ring
  generalize 1 - (d - 1) * t ^ 2 = M at *
  generalize 1 + (d - 1) * t ^ 2 = B at *
  generalize d - 1 = c at *
  field_simp
  linear_combination (B ^ 2 - 4 * c * t ^ 2) * hr + B ^ 2 * e + 4 * t ^ 2 * e

/-- The isogeny after the dual isogeny is multiplication by four on the twisted curve. -/
theorem phi_psi_x {X Y : Fp} (h : TwOn X Y) :
    phiX (psi h) = dblX (dblX X Y) (dblY X Y) := by
  have h1 := h.B_ne
  have h2 := h.M_ne
  have h3 := h.N_ne
  have hr := h.rel
  have q1 := h.dbl.B_ne
  have q2 := N_ne (psi h)
  have p1 : (psi h).y = _ := h.psiY_eq
  have x1 : (psi h).x = 2 * (X * Y) / (Y ^ 2 + X ^ 2) := rfl
  unfold phiX
  show _ = 2 * (dblX X Y * dblY X Y) / (1 + (d - 1) * (dblX X Y * dblY X Y) ^ 2)
  rw [div_eq_div_iff q2 q1]
  unfold N t dblX dblY at *
  rw [p1, x1] at *
  clear p1 x1
  generalize X * Y = t at *
  generalize Y ^ 2 + X ^ 2 = N at *
  have e : (1 + (d - 1) * t ^ 2) ^ 2 - 4 * (d - 1) * t ^ 2 = (1 - (d - 1) * t ^ 2) ^ 2 := by ring
  generalize 1 - (d - 1) * t ^ 2 = M at *
  generalize 1 + (d - 1) * t ^ 2 = B at *
  generalize d - 1 = c at *
  field_simp
  linear_combination (-4 * t * M ^ 2 * hr - 4 * t * N ^ 2 * e)

theorem phi_psi_y {X Y : Fp} (h : TwOn X Y) :
    phiY (psi h) = dblY (dblX X Y) (dblY X Y) := by
  have h1 := h.B_ne
  have h2 := h.M_ne
  have h3 := h.N_ne
  have hr := h.rel
  have q1 := h.dbl.M_ne
  have q2 := M_ne (psi h)
  have p1 : (psi h).y = _ := h.psiY_eq
  have x1 : (psi h).x = 2 * (X * Y) / (Y ^ 2 + X ^ 2) := rfl
  have e2 : 1 - d * t (psi h) ^ 2 = 2 - (psi h).y ^ 2 - (psi h).x ^ 2 := by
    linear_combination sum_eq (psi h)
  rw [e2] at q2
  rw [(phi_alt (psi h)).2]
  show _ = (dblY X Y ^ 2 + dblX X Y ^ 2) / (1 - (d - 1) * (dblX X Y * dblY X Y) ^ 2)
  rw [div_eq_div_iff q2 q1]
  clear e2
  unfold dblX dblY at *
  rw [p1, x1] at *
  clear p1 x1
  generalize X * Y = t at *
  generalize Y ^ 2 + X ^ 2 = N at *
  have e : (1 + (d - 1) * t ^ 2) ^ 2 - 4 * (d - 1) * t ^ 2 = (1 - (d - 1) * t ^ 2) ^ 2 := by ring
  generalize 1 - (d - 1) * t ^ 2 = M at *
  generalize 1 + (d - 1) * t ^ 2 = B at *
  generalize d - 1 = c at *
  field_simp
  linear_combination (B ^ 2 * N ^ 2 + 4 * t ^ 2 * M ^ 2) * (N ^ 2 * e - M ^ 2 * hr)

end Ed448.Iso
