import Verif.Spec.Rfc9496
import Verif.Proofs.DecafDecode

/-!
# decaf448 of RFC 9496 and the library's encoding

If the library represents an element by `± φ(R)` then the RFC represents it by `2 R` or `2 R + (0,-1)`.
-/

namespace Ed448.Model

set_option exponentiation.threshold 1000
open Edw Iso
open Rfc9496 (Ext Coord sqrtRatioM1 ctAbs)

theorem rfc_ctAbs (x : Fp) : ctAbs x = absv x := rfl

theorem rfc_S : Rfc9496.SQRT_MINUS_D = (decafFactor : Fp) := rfl

theorem rfc_SI : Rfc9496.SQRT_MINUS_D * Rfc9496.INVSQRT_MINUS_D = 1 := by
  unfold Rfc9496.SQRT_MINUS_D Rfc9496.INVSQRT_MINUS_D
  rw [← Nat.cast_mul, ← Nat.cast_one (R := Fp)]
  exact natCast_eq_of_mod (by rw [p_lit])

theorem rfc_sqrt (v : Fp) : sqrtRatioM1 1 v = (v * isr v ^ 2 == 1, absv (isr v)) := by
  unfold sqrtRatioM1 isr
  simp only [one_mul]
  rfl

theorem one_sub_two_y (R : E) : 1 - (R + R).y ^ 2 =
    (1 - d) * (2 * t R / (1 - d * t R ^ 2)) ^ 2 := by
  have hM := M_ne R
  rw [two_y', div_pow, div_pow, rel]
  field_simp
  ring

theorem rfc_encode_two {q : Ext} {R : E} (h : Coord q (R + R)) : Rfc9496.encodeS q = encS R := by
  unfold Rfc9496.encodeS
  simp only [rfc_sqrt, rfc_ctAbs]
  rw [rfc_S]
  have hz := h.z
  rw [h.x, h.t]
  have hxx : ((R + R).x * q.z0 + (R + R).x * (R + R).y * q.z0) *
      ((R + R).x * q.z0 - (R + R).x * (R + R).y * q.z0) =
      (q.z0 * (R + R).x) ^ 2 * ((1 - d) * (2 * t R / (1 - d * t R ^ 2)) ^ 2) := by
    rw [← one_sub_two_y]; ring
  rw [hxx]
  have hd1 : Rfc9496.ONE_MINUS_D = 1 - d := by unfold Rfc9496.ONE_MINUS_D d; ring
  rw [hd1]
  have hM := M_ne R
  have hB := B_ne R
  have hx := two_x' R
  have hy := two_y' R
  by_cases ht : t R = 0
  · rw [encS_zero_of_t ht, hx, ht]
    simp [absv_zero]
  have h1d : (1 - d : Fp) ≠ 0 := by
    rw [← hd1]
    exact_mod_cast smallNat_ne_zero 39082 (by norm_num) (by norm_num)
  generalize q.z0 = z at hz
  obtain ⟨r, hr⟩ : ∃ r, r = 2 * t R / (1 - d * t R ^ 2) := ⟨_, rfl⟩
  have hr0 : r ≠ 0 := by rw [hr]; exact div_ne_zero (mul_ne_zero two_ne ht) hM
  have hx0 : (R + R).x ≠ 0 := by rw [hx]; exact div_ne_zero (mul_ne_zero two_ne ht) hB
  have hrM : r * (1 - d * t R ^ 2) = 2 * t R := by rw [hr]; exact div_mul_cancel₀ _ hM
  rw [← hr]
  generalize hX : (R + R).x = x at *
  generalize hY : (R + R).y = y at *
  obtain ⟨w, hw⟩ : ∃ w, w = z ^ 2 * x ^ 2 * (1 - d) * r := ⟨_, rfl⟩
  have hw0 : w ≠ 0 := by
    rw [hw]
    exact mul_ne_zero (mul_ne_zero (mul_ne_zero (pow_ne_zero 2 hz) (pow_ne_zero 2 hx0)) h1d) hr0
  have harg : (z * x) ^ 2 * ((1 - d) * r ^ 2) * (1 - d) * (x * z) ^ 2 = w ^ 2 := by rw [hw]; ring
  rw [harg]
  have hu : (absv (isr (w ^ 2)) * w) ^ 2 = 1 := by
    rw [mul_pow, absv_sq, ← mul_pow]; exact isr_unit hw0
  generalize absv (isr (w ^ 2)) = i at hu
  obtain ⟨σ, hσ⟩ : ∃ σ, σ = i * w := ⟨_, rfl⟩
  rw [← hσ] at hu
  have hi : i = σ / w := by rw [hσ]; field_simp
  have hratio : absv (i * ((z * x) ^ 2 * ((1 - d) * r ^ 2)) * decafFactor) =
      absv (r * decafFactor) := by
    rw [absv_eq_iff, hi]
    have : σ / w * ((z * x) ^ 2 * ((1 - d) * r ^ 2)) = σ * r := by
      rw [hw]; field_simp
    rw [this, mul_pow, mul_pow, hu]; ring
  rw [hratio]
  have key : ∀ ρ : Fp, Rfc9496.INVSQRT_MINUS_D * absv (r * decafFactor) = ρ * r →
      absv ((1 - d) * i * (x * z) * (Rfc9496.INVSQRT_MINUS_D * absv (r * decafFactor) * z -
        x * y * z)) = absv ((ρ * (1 + d * t R ^ 2) - N R) / (2 * t R)) := by
    intro ρ hρ
    rw [absv_eq_iff, hρ, hi]
    have h2t : 2 * t R ≠ 0 := mul_ne_zero two_ne ht
    have e : (1 - d) * (σ / w) * (x * z) * (ρ * r * z - x * y * z) =
        σ * ((ρ * (1 + d * t R ^ 2) - N R) / (2 * t R)) := by
      have e1 : (1 - d) * (σ / w) * (x * z) * (ρ * r * z - x * y * z) =
          σ * ((ρ * r - x * y) / (x * r)) := by
        rw [hw]; field_simp
      have e2 : (ρ * r - x * y) / (x * r) = (ρ * (1 + d * t R ^ 2) - N R) / (2 * t R) := by
        have hxB : x * (1 + d * t R ^ 2) = 2 * t R := by rw [hx]; exact div_mul_cancel₀ _ hB
        have hyM : y * (1 - d * t R ^ 2) = N R := by rw [hy]; exact div_mul_cancel₀ _ hM
        rw [div_eq_div_iff (mul_ne_zero hx0 hr0) h2t]
        linear_combination (-ρ * r) * hxB + (x * y) * hrM - (x * r) * hyM
      rw [e1, e2]
    rw [e, mul_pow, hu, one_mul]
  have hSI := rfc_SI
  rw [rfc_S] at hSI
  have hsum := sum_eq R
  have hRx : R.x ≠ 0 := fun h0 => ht (by unfold t; rw [h0, zero_mul])
  have hRy : R.y ≠ 0 := fun h0 => ht (by unfold t; rw [h0, mul_zero])
  have h2 := two_ne
  unfold encS rotSign
  rw [← hr]
  cases hn : negv (r * decafFactor)
  · simp only [Bool.false_eq_true, if_false]
    rw [key 1 (by rw [absv_of_nonneg hn]; linear_combination r * hSI), one_mul, ← hsum]
    congr 1
    unfold N t
    field_simp
    ring
  · simp only [if_true]
    have ha : absv (r * decafFactor) = -(r * decafFactor) := by unfold absv; rw [hn]; simp
    rw [key (-1) (by rw [ha]; linear_combination (-r) * hSI), ← hsum, ← absv_neg]
    congr 1
    unfold N t
    field_simp
    ring

/-- The two representatives used by the RFC. -/
def IsTwice (Q R : E) : Prop := Q = R + R ∨ Q = R + R + torsion2

theorem isTwice_lift {Q R : E} (h : IsTwice Q R) : ∃ S, t (S - R) = 0 ∧ Q = S + S := by
  rcases h with rfl | rfl
  · exact ⟨R, by rw [sub_self, t_zero], rfl⟩
  · refine ⟨R + torsion4, ?_, ?_⟩
    · rw [add_sub_cancel_left]; exact four_iff.1 four_torsion4
    · rw [← torsion4_two]; abel

theorem rfc_encode {q : Ext} {Q R : E} (h : Coord q Q) (k : IsTwice Q R) :
    Rfc9496.encodeS q = encS R := by
  obtain ⟨S, h1, rfl⟩ := isTwice_lift k
  rw [rfc_encode_two h, encS_coset h1]

theorem rfc_ok (s : Fp) : ((decV s * (1 + s ^ 2) ^ 2) * isr (decV s * (1 + s ^ 2) ^ 2) ^ 2 == 1) = true ↔
    IsSquare (decV s) := by
  have h1 : 1 + s ^ 2 ≠ 0 := fun h => neg_one_nonsquare ⟨s, by linear_combination -h⟩
  rw [beq_iff_eq]
  constructor
  · intro h
    obtain ⟨i, hi⟩ : ∃ i, i = isr (decV s * (1 + s ^ 2) ^ 2) := ⟨_, rfl⟩
    rw [← hi] at h
    have hi0 : i ≠ 0 := by rintro rfl; simp at h
    refine ⟨1 / (i * (1 + s ^ 2)), ?_⟩
    field_simp
    linear_combination h
  · intro h
    have := isr_sq_mul (mul_ne_zero (decV_ne s) (pow_ne_zero 2 h1)) (h.mul ⟨_, sq (1 + s ^ 2)⟩)
    linear_combination this

theorem rfc_u2 (s : Fp) : (1 + s ^ 2) ^ 2 - 4 * Rfc9496.D * s ^ 2 = decV s := by
  rw [decV_eq]; rfl

theorem rfc_decode_isSome (b : Bytes 56) : (Rfc9496.decode b).isSome = true ↔
    b.val < p ∧ b.val % 2 = 0 ∧ IsSquare (decV (b.val : Fp)) := by
  unfold Rfc9496.decode
  simp only [rfc_sqrt, rfc_u2]
  by_cases h1 : b.val < p
  · rw [if_neg (by omega)]
    have hev := even_iff (b.val : Fp)
    rw [val_cast h1] at hev
    have hn : Rfc9496.isNegative (b.val : Fp) = negv (b.val : Fp) := rfl
    rw [hn]
    have hok := rfc_ok (b.val : Fp)
    cases h2 : negv (b.val : Fp)
    · simp only [Bool.false_eq_true, if_false]
      rw [← hok]
      by_cases h3 : ((decV (b.val : Fp) * (1 + (b.val : Fp) ^ 2) ^ 2) *
        isr (decV (b.val : Fp) * (1 + (b.val : Fp) ^ 2) ^ 2) ^ 2 == 1) = true
      · simp [h1, hev.1 h2, h3]
      · simp [h3]
    · have : ¬ b.val % 2 = 0 := fun h => by rw [hev.2 h] at h2; simp at h2
      simp [this]
  · rw [if_pos (by omega)]
    simp [h1]

/-- The point decoded by the RFC. -/
theorem rfc_decode {b : Bytes 56} {q : Ext} (h : Rfc9496.decode b = some q) {R : E}
    (hR : encS R = (b.val : Fp)) : ∃ Q, Coord q Q ∧ IsTwice Q R := by
  obtain ⟨S, hSR, hrot⟩ := exists_repr R
  rw [← encS_coset hSR, encS_repr hrot] at hR
  obtain ⟨c1, c2, c3⟩ := (rfc_decode_isSome b).1 (by rw [h]; rfl)
  unfold Rfc9496.decode at h
  simp only [rfc_sqrt, rfc_u2, rfc_ctAbs] at h
  split at h
  · simp at h
  split at h
  · simp at h
  split at h
  swap
  · simp at h
  rename_i hok
  rw [beq_iff_eq] at hok
  rw [Option.some_inj] at h
  rw [← h]
  clear h
  set s : Fp := (b.val : Fp) with hs
  have hsq : s ^ 2 = (S.x / S.y) ^ 2 := by rw [← hR, absv_sq]
  have h1 : 1 + s ^ 2 ≠ 0 := fun h => neg_one_nonsquare ⟨s, by linear_combination -h⟩
  rw [← absv_sq (isr _)] at hok
  generalize absv (isr (decV s * (1 + s ^ 2) ^ 2)) = i at hok ⊢
  have hSI := rfc_SI
  rw [rfc_S] at hSI ⊢
  -- everything up to a common sign
  suffices hsuff : ∃ ε : Fp, ε ^ 2 = 1 ∧
      absv (2 * s * i * (1 + s ^ 2) * decafFactor) * i * decV s * Rfc9496.INVSQRT_MINUS_D =
        ε * (S + S).x ∧ (1 - s ^ 2) * i * (1 + s ^ 2) = ε * (S + S).y by
    obtain ⟨ε, he, ex, ey⟩ := hsuff
    have hcos : ∀ Q, IsTwice Q S → IsTwice Q R := by
      intro Q hQ
      have h4 := four_iff.2 hSR
      have e : S = R + (S - R) := by abel
      have h2 : (S - R) + (S - R) = 0 ∨ (S - R) + (S - R) = torsion2 := by
        rcases four_tors h4 with k | k | k | k <;> rw [k]
        · left; rw [add_zero]
        · left; exact torsion2_two
        · right; exact torsion4_two
        · right
          rw [← neg_add, torsion4_two]
          exact neg_eq_of_add_eq_zero_left torsion2_two
      have e2 : S + S = R + R + ((S - R) + (S - R)) := by abel
      unfold IsTwice at *
      rw [e2] at hQ
      rcases h2 with k | k <;> rw [k] at hQ
      · simpa using hQ
      · rw [add_assoc (R + R), torsion2_two, add_zero] at hQ
        exact hQ.symm
    rcases sq_eq_one' he with rfl | rfl
    · refine ⟨S + S, ⟨one_ne_zero, ?_, ?_, ?_⟩, hcos _ (Or.inl rfl)⟩
      · rw [ex]; ring
      · rw [ey]; ring
      · show _ * _ = _
        rw [ex, ey]; ring
    · obtain ⟨tx, ty⟩ := add_torsion2 (S + S)
      refine ⟨S + S + torsion2, ⟨one_ne_zero, ?_, ?_, ?_⟩, hcos _ (Or.inr rfl)⟩
      · rw [ex, tx]; ring
      · rw [ey, ty]; ring
      · show _ * _ = _
        rw [ex, ey, tx, ty]; ring
  by_cases hy : S.y = 0
  · rw [hy, div_zero] at hsq hR
    have hs0 : s = 0 := by rw [← hR, absv_zero]
    rw [hs0, decV_eq] at hok
    have ht : t S = 0 := by unfold t; rw [hy, mul_zero]
    have hN := rel S
    rw [ht] at hN
    refine ⟨i * N S, ?_, ?_, ?_⟩
    · linear_combination hok * N S ^ 2 + hN
    · rw [hs0, two_x', ht]; simp [absv_zero]
    · rw [hs0, two_y', ht]
      linear_combination -i * hN
  · have hM := M_ne S
    have hB := B_ne S
    have hBs : 1 + d * t S ^ 2 = (1 + s ^ 2) * S.y ^ 2 := by
      rw [← sum_eq, hsq]; field_simp; ring
    have hNs : N S = (1 - s ^ 2) * S.y ^ 2 := by
      unfold N; rw [hsq]; field_simp
    have htt : t S ^ 2 = s ^ 2 * S.y ^ 4 := by
      unfold t; rw [hsq]; field_simp
    have hMs : (1 - d * t S ^ 2) ^ 2 = decV s * S.y ^ 4 := by
      rw [decV_eq]
      linear_combination (1 + d * t S ^ 2 + (1 + s ^ 2) * S.y ^ 2) * hBs - 4 * d * htt
    -- the sign
    obtain ⟨ε, hε⟩ : ∃ ε, ε = i * (1 + s ^ 2) * ((1 - d * t S ^ 2) / S.y ^ 2) := ⟨_, rfl⟩
    have he : ε ^ 2 = 1 := by
      rw [hε, mul_pow, div_pow, hMs]
      field_simp
      linear_combination hok
    have habs : absv (2 * s * i * (1 + s ^ 2) * decafFactor) =
        2 * t S / (1 - d * t S ^ 2) * decafFactor := by
      rw [← absv_of_nonneg hrot, absv_eq_iff]
      have e : 2 * s * i * (1 + s ^ 2) = ε * (2 * (s * S.y ^ 2) / (1 - d * t S ^ 2)) := by
        rw [hε]; field_simp
      rw [e, mul_pow, mul_pow, he, mul_pow, div_pow, div_pow, one_mul]
      congr 2
      linear_combination -4 * htt
    refine ⟨ε, he, ?_, ?_⟩
    · rw [habs, two_x']
      have : 2 * t S / (1 - d * t S ^ 2) * decafFactor * i * decV s * Rfc9496.INVSQRT_MINUS_D =
        2 * t S / (1 - d * t S ^ 2) * i * decV s := by
        linear_combination (2 * t S / (1 - d * t S ^ 2) * i * decV s) * hSI
      rw [this, hε, hBs]
      generalize 1 - d * t S ^ 2 = m at hM hMs
      field_simp
      linear_combination (-(2 * t S * i)) * hMs
    · rw [two_y', hε, hNs]
      field_simp

theorem rfc_equals {q r : Ext} {Q Q' R R' : E} (h : Coord q Q) (k : Coord r Q')
    (hQ : IsTwice Q R) (hQ' : IsTwice Q' R') :
    Rfc9496.equals q r = true ↔ t (R - R') = 0 := by
  obtain ⟨S, h1, rfl⟩ := isTwice_lift hQ
  obtain ⟨S', h2, rfl⟩ := isTwice_lift hQ'
  have e : t (R - R') = 0 ↔ t (S - S') = 0 := by
    have a := four_iff.2 h1
    have b := four_iff.2 h2
    rw [← four_iff, ← four_iff, show R - R' = (S - S') - (S - R) + (S' - R') by abel, nsmul_add,
      nsmul_sub, a, b, sub_zero, add_zero]
  rw [e]
  unfold Rfc9496.equals
  rw [beq_iff_eq, h.x, h.y, k.x, k.y]
  have hz := mul_ne_zero h.z k.z
  have hadd : ((S + S) + -(S' + S')).x = 0 ↔ t (S - S') = 0 := by
    rw [show (S + S) + -(S' + S') = (S - S') + (S - S') by abel, two_x', div_eq_zero_iff]
    have := B_ne (S - S')
    have h2 := two_ne
    simp [this, h2]
  rw [← hadd, Pt.add_x (S + S) (-(S' + S')), div_eq_zero_iff]
  have hden := den_add (d := d) (S + S).on (-(S' + S')).on
  simp only [Pt.neg_x, Pt.neg_y] at hden ⊢
  constructor
  · intro h0
    left
    apply mul_left_cancel₀ hz
    linear_combination h0
  · rintro (h0 | h0)
    · linear_combination (q.z0 * r.z0) * h0
    · exact absurd h0 (by simpa using hden)

end Ed448.Model
