import Verif.Proofs.Decaf

/-!
# Decaf decoding
-/

namespace Ed448.Model

set_option exponentiation.threshold 1000
open FieldBackend FieldVal Edw Iso
variable {F L : Type} [FieldBackend F L] [Lawful F]

/-- The discriminant of the decoding equation. -/
def decV (s : Fp) : Fp := (1 - s ^ 2) ^ 2 + 4 * 39082 * s ^ 2

theorem decV_eq (s : Fp) : decV s = (1 + s ^ 2) ^ 2 - 4 * d * s ^ 2 := by
  unfold decV d; ring

theorem decV_ne (s : Fp) : decV s ≠ 0 := by
  rw [decV_eq]
  intro h
  by_cases hs : s = 0
  · rw [hs] at h; apply one_ne_zero (α := Fp); linear_combination h
  · apply d_nonsquare
    have h2 := two_ne
    refine ⟨(1 + s ^ 2) / (2 * s), ?_⟩
    field_simp
    linear_combination -h

theorem one_sub_sq_ne {s : Fp} (h : IsSquare (decV s)) : 1 - s ^ 2 ≠ 0 := by
  intro h1
  apply n39082_nonsquare
  obtain ⟨r, hr⟩ := h
  unfold decV at hr
  have hs : s ^ 2 = 1 := by linear_combination -h1
  refine ⟨r / 2, ?_⟩
  have h2 := two_ne
  field_simp
  rw [h1, hs] at hr
  linear_combination hr

/-- The values in a successful decoding. -/
theorem decode_lift {s w χ : Fp} (hw : w ^ 2 * decV s = 1) (hχ : χ ^ 2 = 1)
    (hsign : negv (χ * (2 * s * w) * decafFactor) = false) (hs : negv s = false) :
    ∃ (e : Fp) (R : E), e ^ 2 = 1 ∧ e * phiX R = χ * (2 * s / (1 - s ^ 2)) ∧
      e * phiY R = w * (1 + s ^ 2) ∧ encS R = s := by
  have hw0 : w ≠ 0 := by rintro rfl; simp at hw
  have hsq : IsSquare (decV s) := ⟨1 / w, by field_simp; linear_combination hw⟩
  have hu1 := one_sub_sq_ne hsq
  have h2 := two_ne
  by_cases hs0 : s = 0
  · subst hs0
    have hw1 : w ^ 2 = 1 := by rw [decV_eq] at hw; linear_combination hw
    refine ⟨w, 0, hw1, ?_, ?_, ?_⟩
    · rw [phiX_zero]; ring
    · rw [phiY_zero]; ring
    · rw [encS_zero_of_t t_zero]
  -- one of the two roots of z² - (1+s²) z + d s² is a square
  have hroot : ∃ ρ y : Fp, ρ ^ 2 = 1 ∧ y ≠ 0 ∧ 2 * (1 / y ^ 2) = (1 + s ^ 2) + ρ / w := by
    have hds : d * s ^ 2 ≠ 0 :=
      mul_ne_zero (fun h0 => d_nonsquare (by rw [h0]; exact ⟨0, by ring⟩)) (pow_ne_zero 2 hs0)
    have hww : (1 / w) ^ 2 = (1 + s ^ 2) ^ 2 - 4 * d * s ^ 2 := by
      rw [← decV_eq]; field_simp; linear_combination -hw
    have hprod : ((1 + s ^ 2) + 1 / w) / 2 * (((1 + s ^ 2) + -1 / w) / 2) = d * s ^ 2 := by
      have e : (-1 : Fp) / w = -(1 / w) := by ring
      rw [e]
      generalize 1 / w = r at hww ⊢
      field_simp
      linear_combination -hww
    have key : ∀ ρ : Fp, ρ ^ 2 = 1 → IsSquare (((1 + s ^ 2) + ρ / w) / 2) →
        ((1 + s ^ 2) + ρ / w) / 2 ≠ 0 →
        ∃ ρ y : Fp, ρ ^ 2 = 1 ∧ y ≠ 0 ∧ 2 * (1 / y ^ 2) = (1 + s ^ 2) + ρ / w := by
      rintro ρ h1 ⟨r, hr⟩ h0
      have hr0 : r ≠ 0 := by rintro rfl; apply h0; rw [hr]; ring
      refine ⟨ρ, 1 / r, h1, div_ne_zero one_ne_zero hr0, ?_⟩
      have : (1 + s ^ 2) + ρ / w = 2 * (r * r) := by rw [← hr]; field_simp
      rw [this]; field_simp
    have hne := hds
    rw [← hprod] at hne
    by_cases h : IsSquare (((1 + s ^ 2) + 1 / w) / 2)
    · exact key 1 (by ring) h (left_ne_zero_of_mul hne)
    · refine key (-1) (by ring) ?_ (right_ne_zero_of_mul hne)
      by_contra hn
      have hsq2 := not_square_mul h hn
      rw [hprod] at hsq2
      apply d_nonsquare
      have : d = d * s ^ 2 / (s * s) := by field_simp
      rw [this]
      exact hsq2.div ⟨s, rfl⟩
  obtain ⟨ρ, y, hρ, hy, hz⟩ := hroot
  have hww : (ρ / w) ^ 2 = (1 + s ^ 2) ^ 2 - 4 * d * s ^ 2 := by
    rw [← decV_eq, div_pow, hρ]; field_simp; linear_combination -hw
  have hon : OnCurve d (χ * ρ * s * y) y := by
    unfold OnCurve
    have hq : (1 / y ^ 2) ^ 2 - (1 + s ^ 2) * (1 / y ^ 2) + d * s ^ 2 = 0 := by
      have h4 : (4 : Fp) ≠ 0 := by
        have : (4 : Fp) = 2 * 2 := by norm_num
        rw [this]; exact mul_ne_zero h2 h2
      apply mul_left_cancel₀ h4
      have hzz : ρ / w = 2 * (1 / y ^ 2) - (1 + s ^ 2) := by linear_combination -hz
      rw [hzz] at hww
      linear_combination hww
    field_simp at hq
    have e : (χ * ρ * s * y) ^ 2 = s ^ 2 * y ^ 2 := by
      linear_combination (ρ ^ 2 * s ^ 2 * y ^ 2) * hχ + (s ^ 2 * y ^ 2) * hρ
    rw [e]
    linear_combination -hq
  have ht : t (⟨χ * ρ * s * y, y, hon⟩ : E) = χ * ρ * s * y ^ 2 := by
    unfold t; ring
  have hN : N (⟨χ * ρ * s * y, y, hon⟩ : E) = y ^ 2 * (1 - s ^ 2) := by
    unfold N
    show y ^ 2 - (χ * ρ * s * y) ^ 2 = _
    linear_combination (-(ρ ^ 2 * s ^ 2 * y ^ 2)) * hχ - (s ^ 2 * y ^ 2) * hρ
  have hB : 1 + d * t (⟨χ * ρ * s * y, y, hon⟩ : E) ^ 2 = (1 + s ^ 2) * y ^ 2 := by
    rw [← sum_eq]
    show (χ * ρ * s * y) ^ 2 + y ^ 2 = _
    linear_combination (ρ ^ 2 * s ^ 2 * y ^ 2) * hχ + (s ^ 2 * y ^ 2) * hρ
  have hM : 1 - d * t (⟨χ * ρ * s * y, y, hon⟩ : E) ^ 2 = ρ / w * y ^ 2 := by
    have hzz : ρ / w = 2 * (1 / y ^ 2) - (1 + s ^ 2) := by linear_combination -hz
    rw [hzz, sub_mul, ← hB]
    field_simp
    ring
  have hρ0 : ρ ≠ 0 := by rintro rfl; simp at hρ
  refine ⟨ρ, ⟨χ * ρ * s * y, y, hon⟩, hρ, ?_, ?_, ?_⟩
  · unfold phiX
    rw [ht, hN]
    field_simp
    linear_combination χ * hρ
  · unfold phiY
    rw [hB, hM]
    field_simp
  · have hr : rotSign (⟨χ * ρ * s * y, y, hon⟩ : E) = false := by
      unfold rotSign
      rw [hM, ht, ← hsign]
      congr 2
      field_simp
    rw [encS_repr hr]
    show absv (χ * ρ * s * y / y) = s
    rw [mul_div_assoc, div_self hy, mul_one, ← absv_of_nonneg hs, absv_eq_iff, absv_of_nonneg hs]
    linear_combination (ρ ^ 2 * s ^ 2) * hχ + (s ^ 2) * hρ

theorem even_iff (s : Fp) : negv s = false ↔ s.val % 2 = 0 := by
  unfold negv
  rcases Nat.mod_two_eq_zero_or_one s.val with h | h <;> simp [h]

theorem canonical_iff (b : Bytes 56) : (toBytes (fromBytes b : F) == b) = true ↔ b.val < p := by
  rw [beq_iff_eq, ← Arr.val_inj_iff (by norm_num), Lawful.toBytes_val, Lawful.val_fromBytes,
    ZMod.val_natCast]
  constructor
  · intro h; rw [← h]; exact Nat.mod_lt _ p_prime.pos
  · exact fun h => Nat.mod_eq_of_lt h

theorem val_cast {n : ℕ} (h : n < p) : ((n : Fp)).val = n := by
  rw [ZMod.val_natCast, Nat.mod_eq_of_lt h]

/-- The argument of the inverse square root in `decompress`. -/
theorem dec_arg (s : F) :
    val ((square s *ᶠ NEG_FOUR_TIMES_TWISTED_D +ᶠ square (one -ᶠ square s)) *ᶠ
      square (one -ᶠ square s)) = decV (val s) * (1 - val s ^ 2) ^ 2 := by
  simp only [val_mul, Lawful.val_add, Lawful.val_sub, val_square, Lawful.val_one,
    Lawful.val_NEG_FOUR_TIMES_TWISTED_D]
  unfold decV d; ring

theorem dec_ok (s : F) : (inverseSquareRoot ((square s *ᶠ NEG_FOUR_TIMES_TWISTED_D +ᶠ
    square (one -ᶠ square s)) *ᶠ square (one -ᶠ square s))).2 = true ↔ IsSquare (decV (val s)) := by
  rw [isr_ok, dec_arg]
  constructor
  · rintro ⟨h0, h⟩
    have h1 : 1 - val s ^ 2 ≠ 0 := fun h1 => h0 (by rw [h1]; ring)
    have : decV (val s) = decV (val s) * (1 - val s ^ 2) ^ 2 / ((1 - val s ^ 2) * (1 - val s ^ 2)) := by
      field_simp
    rw [this]
    exact h.div ⟨_, rfl⟩
  · intro h
    refine ⟨mul_ne_zero (decV_ne _) (pow_ne_zero 2 (one_sub_sq_ne h)), h.mul ⟨_, sq _⟩⟩

theorem decaf_isSome (b : Bytes 56) : (decafDecompress F b).isSome = true ↔
    b.val < p ∧ b.val % 2 = 0 ∧ IsSquare (decV (b.val : Fp)) := by
  have hc := canonical_iff (F := F) b
  have ho := dec_ok (fromBytes b : F)
  rw [Lawful.val_fromBytes] at ho
  have hn : isNegative (fromBytes b : F) = negv (b.val : Fp) := by
    rw [isNegative_eq, Lawful.val_fromBytes]
  unfold decafDecompress
  simp only
  by_cases h1 : b.val < p
  · have hev := even_iff (b.val : Fp)
    rw [val_cast h1] at hev
    by_cases h2 : b.val % 2 = 0
    · rw [if_neg]
      · by_cases h3 : IsSquare (decV (b.val : Fp))
        · rw [if_neg]
          · simp [h1, h2, h3]
          · rw [ho.2 h3]; simp
        · rw [if_pos]
          · simp [h3]
          · rw [Bool.eq_false_iff]; exact fun h => h3 (ho.1 h)
      · rw [hn, hev.2 h2, hc.2 h1]; simp
    · rw [if_pos]
      · simp [h2]
      · right
        rw [hn]
        by_contra h
        exact h2 (hev.1 (by simpa using h))
  · rw [if_pos]
    · simp [h1]
    · left
      rw [Bool.eq_false_iff]
      exact fun h => h1 (hc.1 h)

theorem decaf_some (b : Bytes 56) {P : DecafPt F} (h : decafDecompress F b = some P) :
    ∃ (e : Fp) (R : E), RepT e P.pt R ∧ encS R = (b.val : Fp) := by
  have hsome := (decaf_isSome (F := F) b).1 (by rw [h]; rfl)
  obtain ⟨h1, h2, h3⟩ := hsome
  have hneg : negv (b.val : Fp) = false := (even_iff _).2 (by rw [val_cast h1]; exact h2)
  unfold decafDecompress at h
  simp only at h
  split at h
  · exact absurd h (by simp)
  split at h
  · exact absurd h (by simp)
  have hP := Option.some.inj h
  have hu1 := one_sub_sq_ne h3
  set s : Fp := (b.val : Fp) with hs
  have hvs : val (fromBytes b : F) = s := Lawful.val_fromBytes b
  -- the inverse square root
  have hI := isr_sq_mul (mul_ne_zero (decV_ne s) (pow_ne_zero 2 hu1)) (h3.mul ⟨_, sq (1 - s ^ 2)⟩)
  have hvI := val_isr ((square (fromBytes b : F) *ᶠ NEG_FOUR_TIMES_TWISTED_D +ᶠ
      square (one -ᶠ square (fromBytes b : F))) *ᶠ square (one -ᶠ square (fromBytes b : F)))
  rw [dec_arg, hvs] at hvI
  generalize isr (decV s * (1 - s ^ 2) ^ 2) = I at hI hvI
  have hw : (I * (1 - s ^ 2)) ^ 2 * decV s = 1 := by linear_combination hI
  have hv : val (square (fromBytes b : F) *ᶠ NEG_FOUR_TIMES_TWISTED_D +ᶠ
      square (one -ᶠ square (fromBytes b : F))) = decV s := by
    simp only [val_mul, Lawful.val_add, Lawful.val_sub, val_square, Lawful.val_one,
      Lawful.val_NEG_FOUR_TIMES_TWISTED_D, hvs]
    unfold decV d; ring
  have hX : val P.pt.X = (if negv ((s + s) * (I * (1 - s ^ 2)) * decafFactor) then
      -((s + s) * (I * (1 - s ^ 2)) * I * decV s) else (s + s) * (I * (1 - s ^ 2)) * I * decV s) := by
    rw [← hP]
    simp only [val_condNegate, isNegative_eq, val_mul, hvI, hv, Lawful.val_add, Lawful.val_sub,
      val_square, Lawful.val_one, hvs, Lawful.val_DECAF_FACTOR]
  have hY : val P.pt.Y = I * (1 - s ^ 2) * (1 + s ^ 2) := by
    rw [← hP]
    simp only [val_mul, hvI, Lawful.val_add, Lawful.val_sub, val_square, Lawful.val_one, hvs]
  have hZ : val P.pt.Z = 1 := by rw [← hP]; exact Lawful.val_one
  have hT : val P.pt.T = val P.pt.X * val P.pt.Y := by rw [← hP]; exact val_mul _ _
  have hXX : (s + s) * (I * (1 - s ^ 2)) * I * decV s = 2 * s / (1 - s ^ 2) := by
    rw [eq_div_iff hu1]
    linear_combination (2 * s) * hI
  rw [hXX] at hX
  set w := I * (1 - s ^ 2) with hwd
  obtain ⟨χ, hχ, hχX, hχs⟩ : ∃ χ : Fp, χ ^ 2 = 1 ∧ val P.pt.X = χ * (2 * s / (1 - s ^ 2)) ∧
      negv (χ * (2 * s * w) * decafFactor) = false := by
    cases hk : negv ((s + s) * w * decafFactor)
    · refine ⟨1, by ring, ?_, ?_⟩
      · rw [hX, hk]; simp
      · rw [← hk]; congr 1; ring
    · refine ⟨-1, by ring, ?_, ?_⟩
      · rw [hX, hk]; simp
      · have h0 : (s + s) * w * decafFactor ≠ 0 := by
          intro h0; rw [h0] at hk; simp at hk
        have : -1 * (2 * s * w) * (decafFactor : Fp) = -((s + s) * w * decafFactor) := by ring
        rw [this, negv_neg h0, hk]; rfl
  obtain ⟨e, R, he, ex, ey, hen⟩ := decode_lift hw hχ hχs hneg
  refine ⟨e, R, ⟨he, by rw [hZ]; exact one_ne_zero, ?_, ?_, ?_⟩, hen⟩
  · rw [hZ, mul_one, ex, hχX]
  · rw [hZ, mul_one, ey, hY]
  · rw [hT, hZ, mul_one, hχX, hY, ← ex, ← ey]
    linear_combination (phiX R * phiY R) * he

/-- Every encoding is accepted. -/
theorem encS_accept (R : E) : (encS R).val % 2 = 0 ∧ IsSquare (decV (encS R)) := by
  constructor
  · rw [← even_iff]; unfold encS; exact absv_nonneg _
  · obtain ⟨S, h1, h2⟩ := exists_repr R
    rw [← encS_coset h1, encS_repr h2, decV_eq, absv_sq]
    by_cases hy : S.y = 0
    · rw [hy]; exact ⟨1, by simp⟩
    · have hq := z_quad hy rfl
      refine ⟨2 * (1 / S.y ^ 2) - (1 + (S.x / S.y) ^ 2), ?_⟩
      generalize 1 / S.y ^ 2 = z at hq ⊢
      generalize (S.x / S.y) ^ 2 = c at hq ⊢
      linear_combination -4 * hq

end Ed448.Model
