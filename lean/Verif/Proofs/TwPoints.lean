import Verif.Proofs.EdPoints

/-!
# Points of the twisted curve as images of Edwards points

`RepT e Q R` says that `Q` represents `e · φ(R)` with `e = ±1`: the sign only occurs for Decaf.
-/

namespace Ed448.Model

set_option exponentiation.threshold 1000
set_option linter.unusedSimpArgs false
open FieldBackend FieldVal Edw Iso
variable {F L : Type} [FieldBackend F L] [Lawful F]

/-- Extended twisted point `Q` represents `e φ(R)`. -/
structure RepT (e : Fp) (Q : TwPt F) (R : E) : Prop where
  s : e ^ 2 = 1
  z : val Q.Z ≠ 0
  x : val Q.X = e * phiX R * val Q.Z
  y : val Q.Y = e * phiY R * val Q.Z
  t : val Q.T = phiX R * phiY R * val Q.Z

/-- Extensible point `Q` represents `e φ(R)`. -/
structure RepX (e : Fp) (Q : TwExt F) (R : E) : Prop where
  s : e ^ 2 = 1
  z : val Q.Z ≠ 0
  x : val Q.X = e * phiX R * val Q.Z
  y : val Q.Y = e * phiY R * val Q.Z
  t : val Q.T1 * val Q.T2 = phiX R * phiY R * val Q.Z

/-- Projective Niels point `Q` represents `e φ(R)`. -/
structure RepN (e : Fp) (Q : PNiels F) (R : E) : Prop where
  s : e ^ 2 = 1
  z : val Q.Z ≠ 0
  p : 2 * val Q.YpX = e * (phiY R + phiX R) * val Q.Z
  m : 2 * val Q.YmX = e * (phiY R - phiX R) * val Q.Z
  t : val Q.Td = (d - 1) * (phiX R * phiY R) * val Q.Z

/-- The common core of all twisted addition formulas. -/
theorem tw_core {R S : E} {e1 e2 z A B C D : Fp} (h1 : e1 ^ 2 = 1) (h2 : e2 ^ 2 = 1) (hz : z ≠ 0)
    (hA : A = e1 * e2 * (phiX R * phiY S + phiY R * phiX S) * z)
    (hB : B = e1 * e2 * (phiY R * phiY S + phiX R * phiX S) * z)
    (hC : C = (1 - (d - 1) * (phiX R * phiX S * phiY R * phiY S)) * z)
    (hD : D = (1 + (d - 1) * (phiX R * phiX S * phiY R * phiY S)) * z) :
    C * D ≠ 0 ∧ A * C = e1 * e2 * phiX (R + S) * (C * D) ∧
      D * B = e1 * e2 * phiY (R + S) * (C * D) ∧ A * B = phiX (R + S) * phiY (R + S) * (C * D) := by
  have ha := phi_den_add R S
  have hs := phi_den_sub R S
  rw [phi_add_x] at hA
  rw [phi_add_y] at hB
  refine ⟨?_, ?_, ?_, ?_⟩
  · rw [hC, hD]; exact mul_ne_zero (mul_ne_zero hs hz) (mul_ne_zero ha hz)
  · rw [hA, hC, hD]; ring
  · rw [hB, hC, hD]; ring
  · rw [hA, hB, hC, hD]
    generalize 1 + (d - 1) * (phiX R * phiX S * phiY R * phiY S) = u
    generalize 1 - (d - 1) * (phiX R * phiX S * phiY R * phiY S) = v
    generalize phiX (R + S) = a
    generalize phiY (R + S) = b
    linear_combination (a * b * u * v * z ^ 2) * (e2 ^ 2 * h1 + h2)

theorem repX_identity : RepX 1 (TwExt.identity : TwExt F) 0 := by
  constructor <;> simp [TwExt.identity, phiX_zero, phiY_zero]

theorem repT_identity : RepT 1 (TwPt.identity : TwPt F) 0 := by
  constructor <;> simp [TwPt.identity, phiX_zero, phiY_zero]

theorem RepT.toX {e : Fp} {Q : TwPt F} {R : E} (h : RepT e Q R) : RepX e Q.toExtensible R :=
  ⟨h.s, h.z, h.x, h.y, by simp [TwPt.toExtensible, h.t]⟩

theorem RepX.toT {e : Fp} {Q : TwExt F} {R : E} (h : RepX e Q R) : RepT e Q.toExtended R :=
  ⟨h.s, h.z, h.x, h.y, by simp [TwExt.toExtended, h.t]⟩

theorem RepX.toN {e : Fp} {Q : TwExt F} {R : E} (h : RepX e Q R) :
    RepN e Q.toProjectiveNiels R := by
  refine ⟨h.s, ?_, ?_, ?_, ?_⟩
  · simp only [TwExt.toProjectiveNiels, Lawful.val_add]
    rw [← two_mul]; exact mul_ne_zero two_ne h.z
  · simp only [TwExt.toProjectiveNiels, Lawful.val_add, h.x, h.y]; ring
  · simp only [TwExt.toProjectiveNiels, Lawful.val_add, Lawful.val_sub, h.x, h.y]; ring
  · simp only [TwExt.toProjectiveNiels, Lawful.val_add, val_mul, val_mulR,
      Lawful.lval_TWO_TIMES_TWISTED_D, h.t]; ring

theorem repN_identity : RepN 1 (PNiels.identity : PNiels F) 0 := repX_identity.toN

theorem RepX.addExtended {e f : Fp} {P : TwExt F} {Q : TwPt F} {R S : E} (h : RepX e P R)
    (k : RepT f Q S) : RepX (e * f) (P.addExtended Q) (R + S) := by
  have hz := mul_ne_zero h.z k.z
  obtain ⟨c1, c2, c3, c4⟩ := tw_core (R := R) (S := S) h.s k.s hz rfl rfl rfl rfl
  have hA : val P.X * val Q.X = (e * phiX R * val P.Z) * (f * phiX S * val Q.Z) := by rw [h.x, k.x]
  refine ⟨by rw [mul_pow, h.s, k.s, one_mul], ?_, ?_, ?_, ?_⟩
  · convert c1 using 1
    simp only [TwExt.addExtended, Lawful.val_add, Lawful.val_sub, val_mul, val_mulR,
      Lawful.lval_TWISTED_D, h.t, k.t]
    ring
  · convert c2 using 1
    · simp only [TwExt.addExtended, Lawful.val_add, Lawful.val_sub, val_mul, val_mulR,
        Lawful.lval_TWISTED_D, h.t, k.t, h.x, h.y, k.x, k.y]
      ring
    · simp only [TwExt.addExtended, Lawful.val_add, Lawful.val_sub, val_mul, val_mulR,
        Lawful.lval_TWISTED_D, h.t, k.t]
      ring
  · convert c3 using 1
    · simp only [TwExt.addExtended, Lawful.val_add, Lawful.val_sub, val_mul, val_mulR,
        Lawful.lval_TWISTED_D, h.t, k.t, h.x, h.y, k.x, k.y]
      ring
    · simp only [TwExt.addExtended, Lawful.val_add, Lawful.val_sub, val_mul, val_mulR,
        Lawful.lval_TWISTED_D, h.t, k.t]
      ring
  · convert c4 using 1
    · simp only [TwExt.addExtended, Lawful.val_add, Lawful.val_sub, val_mul, h.x, h.y, k.x, k.y]
      ring
    · simp only [TwExt.addExtended, Lawful.val_add, Lawful.val_sub, val_mul, val_mulR,
        Lawful.lval_TWISTED_D, h.t, k.t]
      ring

theorem RepX.subExtended {e f : Fp} {P : TwExt F} {Q : TwPt F} {R S : E} (h : RepX e P R)
    (k : RepT f Q S) : RepX (e * f) (P.subExtended Q) (R - S) := by
  have hz := mul_ne_zero h.z k.z
  obtain ⟨c1, c2, c3, c4⟩ := tw_core (R := R) (S := -S) h.s k.s hz rfl rfl rfl rfl
  rw [sub_eq_add_neg]
  simp only [phiX_neg, phiY_neg] at c1 c2 c3 c4
  refine ⟨by rw [mul_pow, h.s, k.s, one_mul], ?_, ?_, ?_, ?_⟩
  · convert c1 using 1
    simp only [TwExt.subExtended, Lawful.val_add, Lawful.val_sub, val_mul, val_mulR,
      Lawful.lval_TWISTED_D, h.t, k.t]
    ring
  · convert c2 using 1
    · simp only [TwExt.subExtended, Lawful.val_add, Lawful.val_sub, val_mul, val_mulR,
        Lawful.lval_TWISTED_D, h.t, k.t, h.x, h.y, k.x, k.y]
      ring
    · simp only [TwExt.subExtended, Lawful.val_add, Lawful.val_sub, val_mul, val_mulR,
        Lawful.lval_TWISTED_D, h.t, k.t]
      ring
  · convert c3 using 1
    · simp only [TwExt.subExtended, Lawful.val_add, Lawful.val_sub, val_mul, val_mulR,
        Lawful.lval_TWISTED_D, h.t, k.t, h.x, h.y, k.x, k.y]
      ring
    · simp only [TwExt.subExtended, Lawful.val_add, Lawful.val_sub, val_mul, val_mulR,
        Lawful.lval_TWISTED_D, h.t, k.t]
      ring
  · convert c4 using 1
    · simp only [TwExt.subExtended, Lawful.val_add, Lawful.val_sub, val_mul, h.x, h.y, k.x, k.y]
      ring
    · simp only [TwExt.subExtended, Lawful.val_add, Lawful.val_sub, val_mul, val_mulR,
        Lawful.lval_TWISTED_D, h.t, k.t]
      ring

theorem RepX.addProjectiveNiels {e f : Fp} {P : TwExt F} {Q : PNiels F} {R S : E} (h : RepX e P R)
    (k : RepN f Q S) : RepX (e * f) (P.addProjectiveNiels Q) (R + S) := by
  have hz := mul_ne_zero h.z k.z
  have hA : (val P.Y + val P.X) * val Q.YpX - (val P.Y - val P.X) * val Q.YmX =
      e * f * (phiX R * phiY S + phiY R * phiX S) * (val P.Z * val Q.Z) := by
    apply mul_left_cancel₀ two_ne
    rw [h.x, h.y]
    linear_combination (e * phiY R * val P.Z + e * phiX R * val P.Z) * k.p -
      (e * phiY R * val P.Z - e * phiX R * val P.Z) * k.m
  have hB : (val P.Y + val P.X) * val Q.YpX + (val P.Y - val P.X) * val Q.YmX =
      e * f * (phiY R * phiY S + phiX R * phiX S) * (val P.Z * val Q.Z) := by
    apply mul_left_cancel₀ two_ne
    rw [h.x, h.y]
    linear_combination (e * phiY R * val P.Z + e * phiX R * val P.Z) * k.p +
      (e * phiY R * val P.Z - e * phiX R * val P.Z) * k.m
  have ht : val Q.Td * val P.T1 * val P.T2 =
      (d - 1) * (phiX R * phiX S * phiY R * phiY S) * (val P.Z * val Q.Z) := by
    rw [mul_assoc, h.t, k.t]; ring
  have hC : val P.Z * val Q.Z - val Q.Td * val P.T1 * val P.T2 =
      (1 - (d - 1) * (phiX R * phiX S * phiY R * phiY S)) * (val P.Z * val Q.Z) := by
    rw [ht]; ring
  have hD : val P.Z * val Q.Z + val Q.Td * val P.T1 * val P.T2 =
      (1 + (d - 1) * (phiX R * phiX S * phiY R * phiY S)) * (val P.Z * val Q.Z) := by
    rw [ht]; ring
  obtain ⟨c1, c2, c3, c4⟩ := tw_core (R := R) (S := S) h.s k.s hz hA hB hC hD
  refine ⟨by rw [mul_pow, h.s, k.s, one_mul], ?_, ?_, ?_, ?_⟩
  · simpa only [TwExt.addProjectiveNiels, Lawful.val_add, Lawful.val_sub, val_mul] using c1
  · simpa only [TwExt.addProjectiveNiels, Lawful.val_add, Lawful.val_sub, val_mul] using c2
  · simpa only [TwExt.addProjectiveNiels, Lawful.val_add, Lawful.val_sub, val_mul] using c3
  · simpa only [TwExt.addProjectiveNiels, Lawful.val_add, Lawful.val_sub, val_mul] using c4

theorem RepX.double {e : Fp} {P : TwExt F} {R : E} (h : RepX e P R) :
    RepX 1 P.double (R + R) := by
  have hz : -val P.Z ^ 2 ≠ 0 := neg_ne_zero.mpr (pow_ne_zero 2 h.z)
  have hc := phi_curve R
  have he := h.s
  have hA : val P.double.T1 = (-1) * 1 * (phiX R * phiY R + phiY R * phiX R) * (-val P.Z ^ 2) := by
    simp only [TwExt.double, Lawful.val_add, Lawful.val_sub, val_square, h.x, h.y]
    linear_combination 2 * phiX R * phiY R * val P.Z ^ 2 * he
  have hB : val P.double.T2 = 1 * 1 * (phiY R * phiY R + phiX R * phiX R) * (-val P.Z ^ 2) := by
    simp only [TwExt.double, Lawful.val_sub, Lawful.val_negate, val_square, h.x, h.y]
    linear_combination -(phiX R ^ 2 + phiY R ^ 2) * val P.Z ^ 2 * he
  have hG : -(val P.X) ^ 2 + val P.Y ^ 2 =
      -((1 + (d - 1) * (phiX R * phiX R * phiY R * phiY R)) * (-val P.Z ^ 2)) := by
    rw [h.x, h.y]
    linear_combination val P.Z ^ 2 * hc + (phiY R ^ 2 - phiX R ^ 2) * val P.Z ^ 2 * he
  have hF : -(val P.X) ^ 2 + val P.Y ^ 2 - (val P.Z ^ 2 + val P.Z ^ 2) =
      (1 - (d - 1) * (phiX R * phiX R * phiY R * phiY R)) * (-val P.Z ^ 2) := by
    rw [hG]; ring
  obtain ⟨c1, c2, c3, c4⟩ := tw_core (R := R) (S := R) (e1 := 1) (e2 := 1) (by ring) (by ring) hz
    rfl rfl rfl rfl
  have hA' : val P.double.T1 = -(1 * 1 * (phiX R * phiY R + phiY R * phiX R) * (-val P.Z ^ 2)) := by
    rw [hA]; ring
  have eX : val P.double.X = val P.double.T1 * (-(val P.X) ^ 2 + val P.Y ^ 2 -
      (val P.Z ^ 2 + val P.Z ^ 2)) := by
    simp only [TwExt.double, val_mul, Lawful.val_add, Lawful.val_sub, Lawful.val_negate, val_square]
  have eY : val P.double.Y = (-(val P.X) ^ 2 + val P.Y ^ 2) * val P.double.T2 := by
    simp only [TwExt.double, val_mul, Lawful.val_add, Lawful.val_sub, Lawful.val_negate, val_square]
  have eZ : val P.double.Z = (-(val P.X) ^ 2 + val P.Y ^ 2 - (val P.Z ^ 2 + val P.Z ^ 2)) *
      (-(val P.X) ^ 2 + val P.Y ^ 2) := by
    simp only [TwExt.double, val_mul, Lawful.val_add, Lawful.val_sub, Lawful.val_negate, val_square]
  refine ⟨by ring, ?_, ?_, ?_, ?_⟩
  · rw [eZ, hF, hG]
    intro h0; apply c1; linear_combination -h0
  · rw [eX, eZ, hF, hG, hA']; linear_combination -c2
  · rw [eY, eZ, hF, hG, hB]; linear_combination -c3
  · rw [eZ, hF, hG, hA', hB]; linear_combination -c4

theorem RepT.double {e : Fp} {P : TwPt F} {R : E} (h : RepT e P R) : RepT 1 P.double (R + R) :=
  h.toX.double.toT

theorem RepT.add {e f : Fp} {P Q : TwPt F} {R S : E} (h : RepT e P R) (k : RepT f Q S) :
    RepT (e * f) (P.add Q) (R + S) := (h.toX.addExtended k).toT

theorem RepT.negate {e : Fp} {P : TwPt F} {R : E} (h : RepT e P R) : RepT e P.negate (-R) := by
  refine ⟨h.s, h.z, ?_, ?_, ?_⟩
  · simp only [TwPt.negate, Lawful.val_negate, phiX_neg, h.x]; ring
  · simp only [TwPt.negate, phiY_neg, h.y]
  · simp only [TwPt.negate, Lawful.val_negate, phiX_neg, phiY_neg, h.t]; ring

theorem RepT.torque {e : Fp} {P : TwPt F} {R : E} (h : RepT e P R) : RepT (-e) P.torque R := by
  refine ⟨by rw [neg_sq, h.s], h.z, ?_, ?_, h.t⟩
  · simp only [TwPt.torque, Lawful.val_negate, h.x]; ring
  · simp only [TwPt.torque, Lawful.val_negate, h.y]; ring

theorem RepN.select {e f : Fp} {P Q : PNiels F} {R S : E} (h : RepN e P R) (k : RepN f Q S)
    (c : Bool) : RepN (if c then f else e) (P.select Q c) (if c then S else R) := by
  cases c
  · refine ⟨?_, ?_, ?_, ?_, ?_⟩ <;> simp [PNiels.select, h.s, h.z, h.p, h.m, h.t]
  · refine ⟨?_, ?_, ?_, ?_, ?_⟩ <;> simp [PNiels.select, k.s, k.z, k.p, k.m, k.t]

theorem RepT.select {e f : Fp} {P Q : TwPt F} {R S : E} (h : RepT e P R) (k : RepT f Q S)
    (c : Bool) : RepT (if c then f else e) (P.select Q c) (if c then S else R) := by
  cases c
  · refine ⟨?_, ?_, ?_, ?_, ?_⟩ <;> simp [TwPt.select, h.s, h.z, h.x, h.y, h.t]
  · refine ⟨?_, ?_, ?_, ?_, ?_⟩ <;> simp [TwPt.select, k.s, k.z, k.x, k.y, k.t]

theorem RepN.condNegate {e : Fp} {P : PNiels F} {R : E} (h : RepN e P R) (c : Bool) :
    RepN e (P.condNegate c) (if c then -R else R) := by
  cases c
  · refine ⟨h.s, h.z, ?_, ?_, ?_⟩ <;> simp [PNiels.condNegate, h.p, h.m, h.t]
  · refine ⟨h.s, h.z, ?_, ?_, ?_⟩
    · simp [PNiels.condNegate, h.m, phiX_neg, phiY_neg]; left; left; ring
    · simp [PNiels.condNegate, h.p, phiX_neg, phiY_neg]
    · simp [PNiels.condNegate, h.t, phiX_neg, phiY_neg]

/-- `ProjectiveNielsPoint::to_extended` is a faithful conversion. -/
theorem RepN.toT {e : Fp} {P : PNiels F} {R : E} (h : RepN e P R) : RepT e P.toExtended R := by
  have hA : val P.YpX - val P.YmX = e * phiX R * val P.Z := by
    apply mul_left_cancel₀ two_ne; linear_combination h.p - h.m
  have hB : val P.YpX + val P.YmX = e * phiY R * val P.Z := by
    apply mul_left_cancel₀ two_ne; linear_combination h.p + h.m
  refine ⟨h.s, ?_, ?_, ?_, ?_⟩
  · simp only [PNiels.toExtended, val_square]; exact pow_ne_zero 2 h.z
  · simp only [PNiels.toExtended, val_square, val_mul, Lawful.val_sub, hA]; ring
  · simp only [PNiels.toExtended, val_square, val_mul, Lawful.val_add, hB]; ring
  · simp only [PNiels.toExtended, val_square, val_mul, Lawful.val_sub, Lawful.val_add, hA, hB]
    linear_combination phiX R * phiY R * val P.Z ^ 2 * h.s

theorem RepT.toAffine {e : Fp} {P : TwPt F} {R : E} (h : RepT e P R) :
    val P.toAffine.x = e * phiX R ∧ val P.toAffine.y = e * phiY R := by
  have := h.z
  constructor
  · simp only [TwPt.toAffine, Lawful.val_strongReduce, val_mul, val_invert, h.x]; field_simp
  · simp only [TwPt.toAffine, Lawful.val_strongReduce, val_mul, val_invert, h.y]; field_simp

theorem phi_alt (R : E) : phiX R = 2 * (R.x * R.y) / (R.y ^ 2 - R.x ^ 2) ∧
    phiY R = (R.y ^ 2 + R.x ^ 2) / (2 - R.y ^ 2 - R.x ^ 2) := by
  refine ⟨rfl, ?_⟩
  have := sum_eq R
  unfold phiY
  congr 1
  · linear_combination -this
  · linear_combination this

/-- `to_twisted` computes the isogeny. -/
theorem rep_toTwisted {P : EdPt F} {R : E} (h : Rep P R) : RepT 1 P.toTwisted R := by
  obtain ⟨hx, hy⟩ := rep_toAffine h
  obtain ⟨ex, ey⟩ := phi_alt R
  have vx : val P.toTwisted.X = phiX R := by
    rw [ex]
    simp only [EdPt.toTwisted, EdPt.edwardsIsogeny, val_mul, val_invert, val_mulC, val_square,
      Lawful.val_add, Lawful.val_sub, Lawful.lval_relax, Lawful.val_one, hx, hy]
    rw [div_eq_mul_inv, one_mul, two_mul]
  have vy : val P.toTwisted.Y = phiY R := by
    rw [ey]
    simp only [EdPt.toTwisted, EdPt.edwardsIsogeny, val_mul, val_invert, val_mulC, val_square,
      Lawful.val_add, Lawful.val_sub, Lawful.lval_relax, Lawful.val_one, hx, hy]
    rw [div_eq_mul_inv, one_mul, one_add_one_eq_two]
  have vz : val P.toTwisted.Z = 1 := by
    simp only [EdPt.toTwisted, EdPt.edwardsIsogeny, Lawful.val_one]
  have vt : val P.toTwisted.T = val P.toTwisted.X * val P.toTwisted.Y := by
    simp only [EdPt.toTwisted, EdPt.edwardsIsogeny, val_mul]
  refine ⟨by ring, ?_, ?_, ?_, ?_⟩
  · rw [vz]; exact one_ne_zero
  · rw [vx, vz]; ring
  · rw [vy, vz]; ring
  · rw [vt, vx, vy, vz]; ring

/-- `to_untwisted` computes the dual isogeny. -/
theorem RepT.toUntwisted {e : Fp} {Q : TwPt F} {R : E} (h : RepT e Q R) :
    Rep Q.toUntwisted ((4 : ℕ) • R) := by
  obtain ⟨hx, hy⟩ := h.toAffine
  have he := h.s
  have vx : val Q.toUntwisted.X = ((4 : ℕ) • R).x := by
    rw [← dual_phi_x]
    simp only [TwPt.toUntwisted, TwPt.edwardsIsogeny, val_mul, val_invert, val_mulC, val_square,
      Lawful.val_add, Lawful.val_sub, Lawful.lval_minusOne, hx, hy]
    rw [div_eq_mul_inv]
    congr 1
    · linear_combination 2 * phiX R * phiY R * he
    · congr 1
      linear_combination (phiX R ^ 2 + phiY R ^ 2) * he
  have vy : val Q.toUntwisted.Y = ((4 : ℕ) • R).y := by
    rw [← dual_phi_y]
    simp only [TwPt.toUntwisted, TwPt.edwardsIsogeny, val_mul, val_invert, val_mulC, val_square,
      Lawful.val_add, Lawful.val_sub, Lawful.lval_minusOne, Lawful.val_one, hx, hy]
    rw [div_eq_mul_inv]
    congr 1
    · linear_combination (phiY R ^ 2 - phiX R ^ 2) * he
    · congr 1
      linear_combination (phiX R ^ 2 - phiY R ^ 2) * he
  have vz : val Q.toUntwisted.Z = 1 := by
    simp only [TwPt.toUntwisted, TwPt.edwardsIsogeny, Lawful.val_one]
  have vt : val Q.toUntwisted.T = val Q.toUntwisted.X * val Q.toUntwisted.Y := by
    simp only [TwPt.toUntwisted, TwPt.edwardsIsogeny, val_mul]
  refine ⟨?_, ?_, ?_, ?_⟩
  · rw [vz]; exact one_ne_zero
  · rw [vx, vz]; ring
  · rw [vy, vz]; ring
  · rw [vt, vx, vy, vz]; ring

/-- Equality of twisted points. -/
theorem RepT.eq_iff {e f : Fp} {P Q : TwPt F} {R S : E} (h : RepT e P R) (k : RepT f Q S) :
    P.eq Q = true ↔ e * phiX R = f * phiX S ∧ e * phiY R = f * phiY S := by
  unfold TwPt.eq
  rw [Bool.and_eq_true, feq_iff, feq_iff]
  simp only [val_mul, h.x, h.y, k.x, k.y]
  have hz := mul_ne_zero h.z k.z
  constructor
  · rintro ⟨h1, h2⟩
    constructor
    · apply mul_right_cancel₀ hz; linear_combination h1
    · apply mul_right_cancel₀ hz; linear_combination h2
  · rintro ⟨h1, h2⟩
    constructor
    · linear_combination val P.Z * val Q.Z * h1
    · linear_combination val P.Z * val Q.Z * h2

end Ed448.Model
