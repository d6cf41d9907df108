import Verif.Model.Decaf
import Verif.Proofs.TwAffine
import Verif.Proofs.MulPoints
import Verif.Proofs.Order

/-!
# Decaf encoding

A Decaf point `± φ(R)` is encoded as `|x/y|` or `|y/x|`, whichever belongs to the representative
`R` or `R + (1, 0)` for which `2 x y DECAF_FACTOR / (1 - d x² y²)` is non-negative.
-/

namespace Ed448.Model

set_option exponentiation.threshold 1000
open FieldBackend FieldVal Edw Iso
variable {F L : Type} [FieldBackend F L] [Lawful F]

/-- Non-negative one of `±a`. -/
def absv (a : Fp) : Fp := if negv a then -a else a

theorem absv_neg (a : Fp) : absv (-a) = absv a := by
  by_cases h : a = 0
  · simp [h]
  · unfold absv
    rw [negv_neg h]
    cases negv a <;> simp

theorem absv_nonneg (a : Fp) : negv (absv a) = false := by
  by_cases h : a = 0
  · simp [h, absv]
  · unfold absv
    cases hn : negv a
    · simpa using hn
    · simp [negv_neg h, hn]

theorem absv_of_nonneg {a : Fp} (h : negv a = false) : absv a = a := by simp [absv, h]

theorem absv_cases (a : Fp) : absv a = a ∨ absv a = -a := by
  unfold absv; cases negv a <;> simp

theorem absv_sq (a : Fp) : absv a ^ 2 = a ^ 2 := by
  rcases absv_cases a with h | h <;> rw [h]; ring

theorem absv_eq_iff (a b : Fp) : absv a = absv b ↔ a ^ 2 = b ^ 2 := by
  constructor
  · intro h; rw [← absv_sq a, h, absv_sq]
  · intro h
    rcases sq_eq_sq_iff_eq_or_eq_neg.1 h with h | h
    · rw [h]
    · rw [h, absv_neg]

theorem absv_zero : absv 0 = 0 := by simp [absv]

/-- The sign deciding between the two representatives. -/
noncomputable def rotSign (R : E) : Bool := negv (2 * t R / (1 - d * t R ^ 2) * decafFactor)

/-- The value encoded for `R`. -/
noncomputable def encS (R : E) : Fp := absv (if rotSign R then R.y / R.x else R.x / R.y)

theorem decafFactor_ne : (decafFactor : Fp) ≠ 0 := by
  have := natCast_ne_of_mod (a := decafFactor) (b := 0) (by rw [p_lit]; decide +kernel)
  simpa using this

theorem condneg_sign {a r c : Fp} (ha : a = r ∨ a = -r) (hr : r ≠ 0) (hc : c ≠ 0) :
    (if negv (a * c) then -a else a) = (if negv (r * c) then -r else r) := by
  rcases ha with rfl | rfl
  · rfl
  · rw [neg_mul, negv_neg (mul_ne_zero hr hc)]
    cases negv (r * c) <;> simp

theorem isr_unit {w : Fp} (hw : w ≠ 0) : (isr (w ^ 2) * w) ^ 2 = 1 := by
  rw [mul_pow]
  exact isr_sq_mul (pow_ne_zero 2 hw) ⟨w, sq w⟩

/-- The square under the inverse square root of `compress`. -/
theorem enc_arg (R : E) : (-d) * (1 - phiY R ^ 2) = (2 * d * t R / (1 - d * t R ^ 2)) ^ 2 := by
  unfold phiY
  have h := M_ne R
  rw [div_pow, div_pow]
  field_simp
  ring

theorem compressS_abs {e : Fp} {Q : TwPt F} {R : E} (h : RepT e Q R) :
    absv (val (DecafPt.compressS ⟨Q⟩)) = encS R := by
  have hs : val (DecafPt.compressS ⟨Q⟩) =
    ((if negv (isr (val Q.X ^ 2 * ((val Q.X + val Q.T) * (val Q.X - val Q.T)) * -d) *
            ((val Q.X + val Q.T) * (val Q.X - val Q.T)) * decafFactor) then
        -(isr (val Q.X ^ 2 * ((val Q.X + val Q.T) * (val Q.X - val Q.T)) * -d) *
            ((val Q.X + val Q.T) * (val Q.X - val Q.T)))
      else isr (val Q.X ^ 2 * ((val Q.X + val Q.T) * (val Q.X - val Q.T)) * -d) *
            ((val Q.X + val Q.T) * (val Q.X - val Q.T))) * val Q.Z - val Q.T) * -d *
      isr (val Q.X ^ 2 * ((val Q.X + val Q.T) * (val Q.X - val Q.T)) * -d) * val Q.X := by
    unfold DecafPt.compressS
    simp only [val_mul, Lawful.val_sub, Lawful.val_add, val_condNegate, isNegative_eq, val_isr,
      val_square, Lawful.val_NEG_EDWARDS_D, Lawful.val_DECAF_FACTOR]
  rw [hs]
  clear hs
  have hz := h.z
  have he := h.s
  have hM := M_ne R
  have hN := N_ne R
  rw [h.x, h.t]
  generalize val Q.Z = z at hz
  have hxx : (e * phiX R * z + phiX R * phiY R * z) * (e * phiX R * z - phiX R * phiY R * z) =
      z ^ 2 * phiX R ^ 2 * (1 - phiY R ^ 2) := by
    linear_combination (phiX R * z) ^ 2 * he
  rw [hxx]
  by_cases ht : t R = 0
  · have h0 : phiX R = 0 := by unfold phiX; rw [ht]; simp
    have e0 : encS R = 0 := by
      unfold encS rotSign
      rw [ht]
      simp only [mul_zero, zero_div, zero_mul, negv_zero, Bool.false_eq_true, if_false]
      unfold t at ht
      rcases mul_eq_zero.1 ht with h | h <;> rw [h] <;> simp [absv_zero]
    rw [e0, h0]
    simp [absv_zero]
  · have hX : phiX R ≠ 0 := div_ne_zero (mul_ne_zero two_ne ht) hN
    have hd : d ≠ 0 := fun h0 => d_nonsquare (by rw [h0]; exact ⟨0, by ring⟩)
    obtain ⟨w, hw⟩ : ∃ w, w = 2 * d * t R / (1 - d * t R ^ 2) * (z ^ 2 * phiX R ^ 2) := ⟨_, rfl⟩
    have hw0 : w ≠ 0 := by
      rw [hw]
      exact mul_ne_zero (div_ne_zero (mul_ne_zero (mul_ne_zero two_ne hd) ht) hM)
        (mul_ne_zero (pow_ne_zero 2 hz) (pow_ne_zero 2 hX))
    have harg : (e * phiX R * z) ^ 2 * (z ^ 2 * phiX R ^ 2 * (1 - phiY R ^ 2)) * -d = w ^ 2 := by
      rw [hw]
      have := enc_arg R
      generalize 2 * d * t R / (1 - d * t R ^ 2) = q at this ⊢
      linear_combination (phiX R ^ 4 * z ^ 4 * (1 - phiY R ^ 2) * -d) * he +
        (z ^ 2 * phiX R ^ 2) ^ 2 * this
    rw [harg]
    have hu := isr_unit hw0
    generalize isr (w ^ 2) = i at hu
    have hσ : i * w = 1 ∨ i * w = -1 := sq_eq_one' hu
    have hxt : z ^ 2 * phiX R ^ 2 * (1 - phiY R ^ 2) = -(w * (2 * t R / (1 - d * t R ^ 2))) := by
      apply mul_left_cancel₀ (neg_ne_zero.2 hd)
      have := enc_arg R
      rw [hw]
      generalize t R / (1 - d * t R ^ 2) = q at *
      linear_combination (z ^ 2 * phiX R ^ 2) * this
    rw [hxt]
    obtain ⟨r, hr⟩ : ∃ r, r = 2 * t R / (1 - d * t R ^ 2) := ⟨_, rfl⟩
    have hr0 : r ≠ 0 := by rw [hr]; exact div_ne_zero (mul_ne_zero two_ne ht) hM
    rw [← hr]
    have hor : i * -(w * r) = r ∨ i * -(w * r) = -r := by
      rcases hσ with h | h
      · right; linear_combination (-r) * h
      · left; linear_combination (-r) * h
    rw [condneg_sign hor hr0 decafFactor_ne]
    have hx0 : R.x ≠ 0 := fun h0 => ht (by unfold t; rw [h0, zero_mul])
    have hy0 : R.y ≠ 0 := fun h0 => ht (by unfold t; rw [h0, mul_zero])
    have hi : i = (i * w) / w := by field_simp
    obtain ⟨σ, hσd⟩ : ∃ σ, σ = i * w := ⟨_, rfl⟩
    rw [← hσd] at hi hu
    -- s times 2t
    have key : ∀ ρ : Fp, (ρ * r * z - phiX R * phiY R * z) * -d * i * (e * phiX R * z) * (2 * t R) =
        -(σ * e * (ρ * N R - (1 + d * t R ^ 2))) := by
      intro ρ
      have e1 : phiX R * N R = 2 * t R := by unfold phiX; exact div_mul_cancel₀ _ hN
      have e2 : phiY R * (1 - d * t R ^ 2) = 1 + d * t R ^ 2 := by
        unfold phiY; exact div_mul_cancel₀ _ hM
      have e3 : r * (1 - d * t R ^ 2) = 2 * t R := by rw [hr]; exact div_mul_cancel₀ _ hM
      have e4 : w * (1 - d * t R ^ 2) = 2 * d * t R * (z ^ 2 * phiX R ^ 2) := by
        rw [hw, mul_right_comm, div_mul_cancel₀ _ hM]
      rw [hi]
      have hwM : w * (1 - d * t R ^ 2) ≠ 0 := mul_ne_zero hw0 hM
      apply mul_right_cancel₀ hwM
      rw [show (ρ * r * z - phiX R * phiY R * z) * -d * (σ / w) * (e * phiX R * z) * (2 * t R) *
        (w * (1 - d * t R ^ 2)) = (ρ * (r * (1 - d * t R ^ 2)) -
          phiX R * (phiY R * (1 - d * t R ^ 2))) * -d * σ * (e * phiX R * z ^ 2) * (2 * t R) by
        field_simp, e2, e3, e4]
      linear_combination (2 * d * t R * σ * e * phiX R * z ^ 2 * ρ) * e1
    have hfin : ∀ s q : Fp, s * (2 * t R) = σ * e * q * (2 * t R) → absv s = absv q := by
      intro s q h
      have h2t : 2 * t R ≠ 0 := mul_ne_zero two_ne ht
      have := mul_right_cancel₀ h2t h
      rw [absv_eq_iff, this, mul_pow, mul_pow, hu, he]; ring
    have hB := sum_eq R
    unfold encS rotSign
    rw [← hr]
    cases negv (r * decafFactor)
    · simp only [Bool.false_eq_true, if_false]
      apply hfin
      have := key 1
      rw [one_mul] at this
      rw [this, ← hB]
      unfold N t
      field_simp
      ring
    · simp only [if_true]
      apply hfin
      have := key (-1)
      rw [neg_one_mul] at this
      rw [this, ← hB]
      unfold N t
      field_simp
      ring

theorem compress_decaf {e : Fp} {Q : TwPt F} {R : E} (h : RepT e Q R) :
    (DecafPt.compress ⟨Q⟩).val = (encS R).val := by
  unfold DecafPt.compress
  rw [Lawful.toBytes_val]
  simp only [val_condNegate, isNegative_eq]
  rw [← compressS_abs h]
  rfl

/-! ## Cosets of the 4-torsion -/

theorem rot_x (R : E) : (R + torsion4).x = R.y ∧ (R + torsion4).y = -R.x := by
  constructor
  · rw [Pt.add_x]; simp [torsion4]
  · rw [Pt.add_y]; simp [torsion4]

theorem encS_zero_of_t {R : E} (ht : t R = 0) : encS R = 0 := by
  unfold encS rotSign
  rw [ht]
  simp only [mul_zero, zero_div, zero_mul, negv_zero, Bool.false_eq_true, if_false]
  unfold t at ht
  rcases mul_eq_zero.1 ht with h | h <;> rw [h] <;> simp [absv_zero]

theorem encS_rot (R : E) : encS (R + torsion4) = encS R := by
  obtain ⟨hx, hy⟩ := rot_x R
  have ht : t (R + torsion4) = -t R := by unfold t; rw [hx, hy]; ring
  by_cases h0 : t R = 0
  · rw [encS_zero_of_t h0, encS_zero_of_t (by rw [ht, h0, neg_zero])]
  · have hM := M_ne R
    unfold encS
    have hr : rotSign (R + torsion4) = !rotSign R := by
      unfold rotSign
      rw [ht, neg_sq, mul_neg, neg_div, neg_mul, negv_neg]
      exact mul_ne_zero (div_ne_zero (mul_ne_zero two_ne h0) hM) decafFactor_ne
    rw [hr, hx, hy]
    cases rotSign R
    · simp only [Bool.not_false, if_true, Bool.false_eq_true, if_false]
      rw [neg_div, absv_neg]
    · simp only [Bool.not_true, if_true, Bool.false_eq_true, if_false]
      rw [div_neg, absv_neg]

theorem encS_coset {R S : E} (h : t (R - S) = 0) : encS R = encS S := by
  have h4 := four_iff.2 h
  have e : R = S + (R - S) := by abel
  have e2 : torsion2 = torsion4 + torsion4 := torsion4_two.symm
  rcases four_tors h4 with k | k | k | k <;> rw [e, k]
  · rw [add_zero]
  · rw [e2, ← add_assoc, encS_rot, encS_rot]
  · rw [encS_rot]
  · conv_rhs => rw [show S = S + -torsion4 + torsion4 by abel, encS_rot]

/-- Some representative of the coset has the right sign, and is encoded as `|x/y|`. -/
theorem exists_repr (R : E) : ∃ S : E, t (S - R) = 0 ∧ rotSign S = false := by
  cases h : rotSign R with
  | false => exact ⟨R, by rw [sub_self, t_zero], h⟩
  | true =>
    refine ⟨R + torsion4, ?_, ?_⟩
    · rw [add_sub_cancel_left]; exact four_iff.1 four_torsion4
    · obtain ⟨hx, hy⟩ := rot_x R
      have ht : t (R + torsion4) = -t R := by unfold t; rw [hx, hy]; ring
      by_cases h0 : t R = 0
      · unfold rotSign; rw [ht, h0]; simp
      · unfold rotSign at h ⊢
        rw [ht, neg_sq, mul_neg, neg_div, neg_mul, negv_neg, h]
        · rfl
        · exact mul_ne_zero (div_ne_zero (mul_ne_zero two_ne h0) (M_ne R)) decafFactor_ne

theorem encS_repr {S : E} (h : rotSign S = false) : encS S = absv (S.x / S.y) := by
  unfold encS; rw [h]; simp

theorem z_quad {S : E} (hy : S.y ≠ 0) {s2 : Fp} (hs : (S.x / S.y) ^ 2 = s2) :
    (1 / S.y ^ 2) ^ 2 - (1 + s2) * (1 / S.y ^ 2) + d * s2 = 0 := by
  rw [← hs]
  have := S.on
  unfold OnCurve at this
  field_simp
  linear_combination -this

/-- Encodings are equal only on cosets of the 4-torsion. -/
theorem encS_inj {R S : E} (h : encS R = encS S) : t (R - S) = 0 := by
  obtain ⟨R', r1, r2⟩ := exists_repr R
  obtain ⟨S', s1, s2⟩ := exists_repr S
  rw [← encS_coset r1, ← encS_coset s1, encS_repr r2, encS_repr s2, absv_eq_iff] at h
  have key : t (R' - S') = 0 := by
    by_cases hR : t R' = 0
    · -- then s = 0
      have hS : t S' = 0 := by
        have h0 : (R'.x / R'.y) ^ 2 = 0 := by
          unfold t at hR
          rcases mul_eq_zero.1 hR with k | k <;> rw [k] <;> simp
        rw [h0] at h
        have h1 : S'.x / S'.y = 0 := by simpa using h.symm
        unfold t
        rcases div_eq_zero_iff.1 h1 with k | k <;> rw [k] <;> ring
      have a := four_iff.2 hR
      have b := four_iff.2 hS
      apply four_iff.1
      rw [nsmul_sub, a, b, sub_zero]
    · have hx : R'.x ≠ 0 := fun h0 => hR (by unfold t; rw [h0, zero_mul])
      have hy : R'.y ≠ 0 := fun h0 => hR (by unfold t; rw [h0, mul_zero])
      have hs0 : (R'.x / R'.y) ^ 2 ≠ 0 := pow_ne_zero 2 (div_ne_zero hx hy)
      have hs1 : S'.x / S'.y ≠ 0 := by
        intro h0; rw [h0] at h; apply hs0; rw [h]; ring
      have hx' : S'.x ≠ 0 := fun h0 => hs1 (by rw [h0, zero_div])
      have hy' : S'.y ≠ 0 := fun h0 => hs1 (by rw [h0, div_zero])
      have q1 := z_quad hy rfl
      have q2 := z_quad hy' h.symm
      have hzz : 1 / R'.y ^ 2 = 1 / S'.y ^ 2 := by
        by_contra hne
        -- two different roots have product d s², which is not a square
        have hprod : 1 / R'.y ^ 2 * (1 / S'.y ^ 2) = d * (R'.x / R'.y) ^ 2 := by
          have hsub : 1 / R'.y ^ 2 - 1 / S'.y ^ 2 ≠ 0 := sub_ne_zero.2 hne
          apply mul_left_cancel₀ hsub
          generalize 1 / R'.y ^ 2 = z1 at *
          generalize 1 / S'.y ^ 2 = z2 at *
          generalize (R'.x / R'.y) ^ 2 = c at *
          linear_combination z2 * q1 - z1 * q2
        apply d_nonsquare
        refine ⟨1 / (R'.y * S'.y) / (R'.x / R'.y), ?_⟩
        field_simp at hprod ⊢
        linear_combination -hprod
      have hyy : R'.y ^ 2 = S'.y ^ 2 := by
        field_simp at hzz
        exact hzz.symm
      have hxx : R'.x ^ 2 = S'.x ^ 2 := by
        rw [div_pow, div_pow, hyy] at h
        have := pow_ne_zero 2 hy'
        field_simp at h
        exact h
      have htt : t R' = t S' := by
        have h2 : t R' ^ 2 = t S' ^ 2 := by unfold t; rw [mul_pow, mul_pow, hxx, hyy]
        rcases sq_eq_sq_iff_eq_or_eq_neg.1 h2 with k | k
        · exact k
        · exfalso
          unfold rotSign at r2 s2
          rw [k, neg_sq, mul_neg, neg_div, neg_mul, negv_neg, s2] at r2
          · simp at r2
          · have : t S' ≠ 0 := fun h0 => hR (by rw [k, h0, neg_zero])
            exact mul_ne_zero (div_ne_zero (mul_ne_zero two_ne this) (M_ne S')) decafFactor_ne
      -- R' = S' or R' = S' + (0,-1)
      rcases sq_eq_sq_iff_eq_or_eq_neg.1 hyy with k | k
      · have kx : R'.x = S'.x := by
          unfold t at htt; rw [k] at htt; exact mul_right_cancel₀ hy' htt
        have : R' = S' := by ext <;> assumption
        rw [this, sub_self, t_zero]
      · have kx : R'.x = -S'.x := by
          unfold t at htt; rw [k] at htt
          apply mul_right_cancel₀ hy'
          linear_combination -htt
        have : R' = S' + torsion2 := by
          ext
          · rw [(add_torsion2 S').1, kx]
          · rw [(add_torsion2 S').2, k]
        rw [this, add_sub_cancel_left]
        apply four_iff.1
        rw [show (4 : ℕ) = 2 + 2 from rfl, add_nsmul, two_nsmul, torsion2_two, add_zero]
  have a := four_iff.2 key
  have b := four_iff.2 r1
  have c := four_iff.2 s1
  apply four_iff.1
  have : R - S = (R' - S') - (R' - R) + (S' - S) := by abel
  rw [this, nsmul_add, nsmul_sub, a, b, c]; simp

theorem encS_eq_iff {R S : E} : encS R = encS S ↔ t (R - S) = 0 := ⟨encS_inj, encS_coset⟩

/-! ## Equality -/

theorem decaf_equals_iff {e f : Fp} {P Q : TwPt F} {R S : E} (h : RepT e P R) (k : RepT f Q S) :
    feq (P.X *ᶠ Q.Y) (P.Y *ᶠ Q.X) = true ↔ t (R - S) = 0 := by
  rw [feq_iff, val_mul, val_mul, h.x, h.y, k.x, k.y]
  have ha := phi_add_x R (-S)
  rw [phiX_neg, phiY_neg, ← sub_eq_add_neg] at ha
  have hd := phi_den_add R (-S)
  rw [phiX_neg, phiY_neg] at hd
  have he : e ≠ 0 := by intro h0; have := h.s; rw [h0] at this; simp at this
  have hf : f ≠ 0 := by intro h0; have := k.s; rw [h0] at this; simp at this
  have hz := mul_ne_zero (mul_ne_zero he hf) (mul_ne_zero h.z k.z)
  constructor
  · intro h0
    have h1 : phiX R * phiY S + phiY R * -phiX S = 0 := by
      apply mul_left_cancel₀ hz
      linear_combination h0
    rw [h1] at ha
    have h2 : phiX (R - S) = 0 := by
      rcases mul_eq_zero.1 ha.symm with h | h
      · exact h
      · exact absurd h hd
    unfold phiX at h2
    rcases div_eq_zero_iff.1 h2 with h | h
    · exact (mul_eq_zero.1 h).resolve_left two_ne
    · exact absurd h (N_ne _)
  · intro h0
    have h2 : phiX (R - S) = 0 := by unfold phiX; rw [h0]; simp
    rw [h2, zero_mul] at ha
    linear_combination (e * f * (val P.Z * val Q.Z)) * ha

end Ed448.Model
