import Verif.Model.Scalar
import Verif.Spec.Params

/-! # Ripple add / subtract loops of `scalar.rs` -/

namespace Ed448.Model

abbrev W : ℕ := 2 ^ 32

theorem addLoop_spec : ∀ (n chain : ℕ) (a b : List ℕ), a.length = n → b.length = n →
    (∀ x ∈ a, x < W) → (∀ x ∈ b, x < W) → chain ≤ 1 →
    ∃ r c, addLoop chain a b = some (r, c) ∧ r.length = n ∧ (∀ x ∈ r, x < W) ∧ c ≤ 1 ∧
      Nat.ofDigits W r + W ^ n * c = chain + Nat.ofDigits W a + Nat.ofDigits W b
  | 0, chain, a, b, ha, hb, _, _, hc => by
    obtain rfl := List.length_eq_zero_iff.mp ha
    obtain rfl := List.length_eq_zero_iff.mp hb
    exact ⟨[], chain, rfl, rfl, by simp, hc, by simp⟩
  | n + 1, chain, x :: a, y :: b, ha, hb, hA, hB, hc => by
    have hx : x < W := hA x (by simp)
    have hy : y < W := hB y (by simp)
    obtain ⟨r, c, h1, h2, h3, h4, h5⟩ := addLoop_spec n ((chain + (x + y)) / 2 ^ 32) a b
      (by simpa using ha) (by simpa using hb) (fun z hz => hA z (by simp [hz]))
      (fun z hz => hB z (by simp [hz])) (by unfold W at *; omega)
    refine ⟨asU32 (chain + (x + y)) :: r, c, ?_, by simp [h2], ?_, h4, ?_⟩
    · rw [addLoop, ckU64_eq (by unfold W at *; omega)]
      simp only [Option.bind_eq_bind, Option.bind_some]
      rw [ckU64_eq (by unfold W at *; omega)]
      simp only [Option.bind_some, h1]
    · intro z hz
      rcases List.mem_cons.mp hz with rfl | hz
      · exact Nat.mod_lt _ (by norm_num)
      · exact h3 z hz
    · simp only [Nat.ofDigits_cons, asU32]
      have hdm := Nat.mod_add_div (chain + (x + y)) (2 ^ 32)
      have : W * (Nat.ofDigits W r + W ^ n * c) = W * ((chain + (x + y)) / 2 ^ 32) +
        W * Nat.ofDigits W a + W * Nat.ofDigits W b := by rw [h5]; ring
      rw [pow_succ _ n]
      linarith

theorem asU32Z_cast (x : ℤ) : ((asU32Z x : ℕ) : ℤ) = x % 2 ^ 32 := by
  unfold asU32Z
  exact Int.toNat_of_nonneg (Int.emod_nonneg _ (by norm_num))

theorem asU32Z_lt (x : ℤ) : asU32Z x < W := by
  have h := asU32Z_cast x
  have := Int.emod_lt_of_pos x (b := 2 ^ 32) (by norm_num)
  unfold W
  omega

theorem subLoop_spec : ∀ (n : ℕ) (chain : ℤ) (a b : List ℕ), a.length = n → b.length = n →
    (∀ x ∈ a, x < W) → (∀ x ∈ b, x < W) → (chain = 0 ∨ chain = -1) →
    ∃ r c, subLoop chain a b = some (r, c) ∧ r.length = n ∧ (∀ x ∈ r, x < W) ∧ (c = 0 ∨ c = -1) ∧
      ((Nat.ofDigits W r : ℕ) : ℤ) + (W : ℤ) ^ n * c =
        chain + (Nat.ofDigits W a : ℕ) - (Nat.ofDigits W b : ℕ)
  | 0, chain, a, b, ha, hb, _, _, hc => by
    obtain rfl := List.length_eq_zero_iff.mp ha
    obtain rfl := List.length_eq_zero_iff.mp hb
    exact ⟨[], chain, rfl, rfl, by simp, hc, by simp⟩
  | n + 1, chain, x :: a, y :: b, ha, hb, hA, hB, hc => by
    have hx : x < W := hA x (by simp)
    have hy : y < W := hB y (by simp)
    unfold W at hx hy
    obtain ⟨r, c, h1, h2, h3, h4, h5⟩ := subLoop_spec n (sarZ (chain + ((x : ℤ) - y)) 32) a b
      (by simpa using ha) (by simpa using hb) (fun z hz => hA z (by simp [hz]))
      (fun z hz => hB z (by simp [hz])) (by unfold sarZ; omega)
    refine ⟨asU32Z (chain + ((x : ℤ) - y)) :: r, c, ?_, by simp [h2], ?_, h4, ?_⟩
    · rw [subLoop, ckI64_eq (by omega) (by omega)]
      simp only [Option.bind_eq_bind, Option.bind_some]
      rw [ckI64_eq (by omega) (by omega)]
      simp only [Option.bind_some, h1]
    · intro z hz
      rcases List.mem_cons.mp hz with rfl | hz
      · exact asU32Z_lt _
      · exact h3 z hz
    · simp only [Nat.ofDigits_cons, Nat.cast_add, Nat.cast_mul, asU32Z_cast]
      have hdm := Int.emod_add_mul_ediv (chain + ((x : ℤ) - y)) (2 ^ 32)
      unfold sarZ at h5
      have e : ((W : ℕ) : ℤ) = 2 ^ 32 := by norm_num
      rw [e] at h5 ⊢
      have : (2 ^ 32 : ℤ) * (((Nat.ofDigits W r : ℕ) : ℤ) + (2 ^ 32) ^ n * c) =
          2 ^ 32 * ((chain + ((x : ℤ) - y)) / 2 ^ 32) +
        2 ^ 32 * (Nat.ofDigits W a : ℕ) - 2 ^ 32 * (Nat.ofDigits W b : ℕ) := by rw [h5]; ring
      rw [pow_succ _ n]
      linarith

theorem landI64_zero (m : ℕ) : landI64 m 0 = 0 := by simp [landI64]

theorem landI64_neg_one (m : ℕ) (h : m < W) : landI64 m (-1) = m := by
  have : ((-1 : ℤ) % 2 ^ 64).toNat = 2 ^ 64 - 1 := by decide
  unfold landI64
  rw [this, Nat.and_two_pow_sub_one_eq_mod, Nat.mod_eq_of_lt]
  unfold W at h; omega

theorem landI64_one (m : ℕ) : landI64 m 1 = ((m % 2 : ℕ) : ℤ) := by
  have : ((1 : ℤ) % 2 ^ 64).toNat = 2 ^ 1 - 1 := by decide
  unfold landI64
  rw [this, Nat.and_two_pow_sub_one_eq_mod, pow_one]

/-- The masked addition adds the number whose limbs are `m & borrow`, modulo the word size. -/
theorem addMaskLoop_spec (borrow : ℤ) (hb : borrow = 0 ∨ borrow = -1 ∨ borrow = 1) :
    ∀ (n : ℕ) (chain : ℤ) (a m : List ℕ), a.length = n → m.length = n →
    (∀ x ∈ a, x < W) → (∀ x ∈ m, x < W) → (chain = 0 ∨ chain = 1) →
    ∃ r c, addMaskLoop borrow chain a m = some (r, c) ∧ r.length = n ∧ (∀ x ∈ r, x < W) ∧
      (c = 0 ∨ c = 1) ∧
      ((Nat.ofDigits W r : ℕ) : ℤ) + (W : ℤ) ^ n * c =
        chain + (Nat.ofDigits W a : ℕ) +
          (Nat.ofDigits W (m.map fun x => (landI64 x borrow).toNat) : ℕ)
  | 0, chain, a, b, ha, hb, _, _, hc => by
    obtain rfl := List.length_eq_zero_iff.mp ha
    obtain rfl := List.length_eq_zero_iff.mp hb
    exact ⟨[], chain, rfl, rfl, by simp, hc, by simp⟩
  | n + 1, chain, x :: a, y :: b, ha, hb', hA, hB, hc => by
    have hx : x < W := hA x (by simp)
    have hy : y < W := hB y (by simp)
    have hland : 0 ≤ landI64 y borrow ∧ landI64 y borrow < 2 ^ 32 := by
      unfold W at hx hy
      rcases hb with rfl | rfl | rfl
      · simp [landI64_zero]
      · rw [landI64_neg_one y hy]; omega
      · rw [landI64_one]; omega
    unfold W at hx hy
    obtain ⟨r, c, h1, h2, h3, h4, h5⟩ := addMaskLoop_spec borrow hb n
      (sarZ (chain + ((x : ℤ) + landI64 y borrow)) 32) a b
      (by simpa using ha) (by simpa using hb') (fun z hz => hA z (by simp [hz]))
      (fun z hz => hB z (by simp [hz])) (by unfold sarZ; omega)
    refine ⟨asU32Z (chain + ((x : ℤ) + landI64 y borrow)) :: r, c, ?_, by simp [h2], ?_, h4, ?_⟩
    · rw [addMaskLoop, ckI64_eq (by omega) (by omega)]
      simp only [Option.bind_eq_bind, Option.bind_some]
      rw [ckI64_eq (by omega) (by omega)]
      simp only [Option.bind_some, h1]
    · intro z hz
      rcases List.mem_cons.mp hz with rfl | hz
      · exact asU32Z_lt _
      · exact h3 z hz
    · simp only [List.map_cons, Nat.ofDigits_cons, Nat.cast_add, Nat.cast_mul,
        asU32Z_cast]
      rw [Int.toNat_of_nonneg hland.1]
      have hdm := Int.emod_add_mul_ediv (chain + ((x : ℤ) + landI64 y borrow)) (2 ^ 32)
      unfold sarZ at h5
      have e : ((W : ℕ) : ℤ) = 2 ^ 32 := by norm_num
      rw [e] at h5 ⊢
      have : (2 ^ 32 : ℤ) * (((Nat.ofDigits W r : ℕ) : ℤ) + (2 ^ 32) ^ n * c) =
          2 ^ 32 * ((chain + ((x : ℤ) + landI64 y borrow)) / 2 ^ 32) +
        2 ^ 32 * (Nat.ofDigits W a : ℕ) +
        2 ^ 32 * (Nat.ofDigits W (b.map fun x => (landI64 x borrow).toNat) : ℕ) := by rw [h5]; ring
      rw [pow_succ _ n]
      linarith

theorem modulusLimbs_len : modulusLimbs.length = 14 := rfl
theorem modulusLimbs_lt : ∀ x ∈ modulusLimbs, x < W := MODULUS.lt
theorem modulus_val : Nat.ofDigits W modulusLimbs = ell := by
  rw [ell_lit]; decide +kernel

theorem MODULUS_val : MODULUS.val = ell := modulus_val

/-- The size of the scalar representation, `2^448`. -/
abbrev RR : ℕ := W ^ 14

theorem ell_lt_RR : 4 * ell < RR := by rw [ell_lit]; decide +kernel
theorem RR_lt_ell : RR < 5 * ell := by rw [ell_lit]; decide +kernel

theorem map_land_zero (m : List ℕ) :
    Nat.ofDigits W (m.map fun x => (landI64 x 0).toNat) = 0 := by
  induction m with
  | nil => rfl
  | cons x m ih => simp [landI64_zero, Nat.ofDigits_cons] at *

theorem map_land_neg_one (m : List ℕ) (h : ∀ x ∈ m, x < W) :
    (m.map fun x => (landI64 x (-1)).toNat) = m := by
  conv_rhs => rw [← List.map_id m]
  refine List.map_congr_left fun x hx => ?_
  rw [landI64_neg_one x (h x hx)]; rfl

/-- What the code adds when `borrow = 1`: the number with limbs `MODULUS[i] & 1`. -/
def modulusAndOne : ℕ := Nat.ofDigits W (modulusLimbs.map fun x => (landI64 x 1).toNat)

/-- Exact effect of `sub_extra` for every input: with `δ = a - b`, the borrow is `-1` iff `δ < 0`,
and the result is `δ` (mod `2^448`) plus the masked modulus. -/
theorem subExtraRaw_spec (a b : List ℕ) (carry : ℕ) (ha : a.length = 14) (hb : b.length = 14)
    (hA : ∀ x ∈ a, x < W) (hB : ∀ x ∈ b, x < W) (hc : carry ≤ 1) :
    ∃ r, subExtraRaw a b carry = some r ∧ r.length = 14 ∧ (∀ x ∈ r, x < W) ∧
      ((Nat.ofDigits W r : ℕ) : ℤ) =
        ((Nat.ofDigits W a : ℕ) - (Nat.ofDigits W b : ℕ) +
          (if (Nat.ofDigits W a) < (Nat.ofDigits W b) then
            (if carry = 0 then (ell : ℤ) else 0)
           else (if carry = 0 then 0 else (modulusAndOne : ℤ)))) % (RR : ℤ) := by
  obtain ⟨r1, c1, h1, h2, h3, h4, h5⟩ := subLoop_spec 14 0 a b ha hb hA hB (Or.inl rfl)
  have hr1 : Nat.ofDigits W r1 < W ^ 14 := by
    have := Nat.ofDigits_lt_base_pow_length (b := W) (by norm_num) h3
    rwa [h2] at this
  have hborrow : c1 + (carry : ℤ) = 0 ∨ c1 + (carry : ℤ) = -1 ∨ c1 + (carry : ℤ) = 1 := by omega
  obtain ⟨r2, c2, g1, g2, g3, g4, g5⟩ := addMaskLoop_spec (c1 + (carry : ℤ)) hborrow 14 0 r1
    modulusLimbs h2 rfl h3 modulusLimbs_lt (Or.inl rfl)
  refine ⟨r2, ?_, g2, g3, ?_⟩
  · unfold subExtraRaw
    rw [h1]
    simp only [Option.bind_eq_bind, Option.bind_some]
    rw [ckI64_eq (by omega) (by omega)]
    simp only [Option.bind_some, g1]
  · have hr2 : Nat.ofDigits W r2 < W ^ 14 := by
      have := Nat.ofDigits_lt_base_pow_length (b := W) (by norm_num) g3
      rwa [g2] at this
    have hWc : ((W : ℕ) : ℤ) ^ 14 = (RR : ℤ) := by norm_num
    rw [hWc] at g5 h5
    have hRRpos : (0 : ℤ) < RR := by norm_num
    have hbr : (c1 = -1) ↔ Nat.ofDigits W a < Nat.ofDigits W b := by
      have : ((Nat.ofDigits W r1 : ℕ) : ℤ) < RR := by exact_mod_cast hr1
      constructor
      · rintro rfl; omega
      · intro h; rcases h4 with rfl | rfl <;> omega
    have hrhs : (((Nat.ofDigits W a : ℕ) : ℤ) - (Nat.ofDigits W b : ℕ) +
          (if (Nat.ofDigits W a) < (Nat.ofDigits W b) then
            (if carry = 0 then (ell : ℤ) else 0)
           else (if carry = 0 then 0 else (modulusAndOne : ℤ)))) =
           ((Nat.ofDigits W r2 : ℕ) : ℤ) + RR * (c1 + c2) := by
      have hm : ((Nat.ofDigits W (modulusLimbs.map fun x => (landI64 x (c1 + carry)).toNat) : ℕ) : ℤ)
          = (if (Nat.ofDigits W a) < (Nat.ofDigits W b) then
            (if carry = 0 then (ell : ℤ) else 0)
           else (if carry = 0 then 0 else (modulusAndOne : ℤ))) := by
        rcases h4 with rfl | rfl
        · rw [if_neg (by rw [← hbr]; norm_num)]
          split
          · next h => subst h; simp [map_land_zero]
          · next h =>
            obtain rfl : carry = 1 := by omega
            rfl
        · rw [if_pos (hbr.mp rfl)]
          split
          · next h =>
            subst h
            have e : (-1 + ((0 : ℕ) : ℤ)) = -1 := rfl
            rw [e, map_land_neg_one _ modulusLimbs_lt, modulus_val]
          · next h =>
            obtain rfl : carry = 1 := by omega
            have e : (-1 + ((1 : ℕ) : ℤ)) = 0 := rfl
            rw [e, map_land_zero]; rfl
      rw [← hm]
      linarith
    rw [hrhs, Int.add_mul_emod_self_left, Int.emod_eq_of_lt (Int.natCast_nonneg _) (Int.ofNat_lt.mpr hr2)]

theorem Scalar.val_lt (a : Scalar) : a.val < RR := Arr.val_lt (by norm_num) a

/-- Exact value of `sub_extra` for all scalars. -/
theorem subExtra_spec (a b : Scalar) (carry : ℕ) (hc : carry ≤ 1) :
    ∃ r, subExtra a b carry = some r ∧
      (r.val : ℤ) = ((a.val : ℤ) - b.val +
          (if a.val < b.val then (if carry = 0 then (ell : ℤ) else 0)
           else (if carry = 0 then 0 else (modulusAndOne : ℤ)))) % (RR : ℤ) := by
  obtain ⟨r, h1, h2, h3, h4⟩ := subExtraRaw_spec a.l b.l carry a.len b.len a.lt b.lt hc
  refine ⟨⟨r, h2, h3⟩, ?_, h4⟩
  unfold subExtra
  rw [h1, Option.bind_some, Arr.ofList?_eq r h2 h3]

/-- `sub_extra(x, MODULUS, carry)` where the number `T = x + carry*2^448` is below `2^448 + l`:
one conditional subtraction of `l`. -/
theorem subExtraRaw_reduce (a : List ℕ) (carry : ℕ) (ha : a.length = 14) (hA : ∀ x ∈ a, x < W)
    (hc : carry ≤ 1) (hT : Nat.ofDigits W a + RR * carry < RR + ell) :
    ∃ r : Scalar, (subExtraRaw a modulusLimbs carry).bind (Arr.ofList? 14 (2 ^ 32)) = some r ∧
      r.val = if Nat.ofDigits W a + RR * carry < ell then Nat.ofDigits W a + RR * carry
        else Nat.ofDigits W a + RR * carry - ell := by
  obtain ⟨r, h1, h2, h3, h4⟩ := subExtraRaw_spec a modulusLimbs carry ha rfl hA modulusLimbs_lt hc
  refine ⟨⟨r, h2, h3⟩, by rw [h1, Option.bind_some, Arr.ofList?_eq r h2 h3], ?_⟩
  show Nat.ofDigits W r = _
  rw [modulus_val] at h4
  have ha' : Nat.ofDigits W a < W ^ 14 := by
    have := Nat.ofDigits_lt_base_pow_length (b := W) (by norm_num) hA
    rwa [ha] at this
  have hl := ell_lt_RR
  generalize Nat.ofDigits W a = A at *
  generalize Nat.ofDigits W r = X at *
  have hRR : RR = W ^ 14 := rfl
  rw [← hRR] at ha'
  generalize RR = M at *
  generalize ell = l at *
  interval_cases carry
  · simp only [mul_zero, add_zero, if_true] at *
    split at h4
    · next h =>
      rw [if_pos h]
      rw [sub_add_cancel, Int.emod_eq_of_lt (Int.natCast_nonneg _) (Int.ofNat_lt.mpr ha')] at h4
      exact_mod_cast h4
    · next h =>
      rw [if_neg h]
      rw [add_zero, Int.emod_eq_of_lt (by omega) (by omega)] at h4
      omega
  · have h : A < l := by omega
    rw [if_pos h, if_neg one_ne_zero, add_zero] at h4
    rw [if_neg (by omega)]
    have e : ((A : ℤ) - l) % M = A - l + M := by
      rw [← Int.add_emod_right, Int.emod_eq_of_lt (by omega) (by omega)]
    rw [e] at h4
    omega

/-- Exact value of `a + b` as computed, for all (also unreduced) scalars. -/
theorem Scalar.add_spec (a b : Scalar) : ∃ r, Scalar.add a b = some r ∧
    (r.val : ℤ) = ((a.val + b.val) % RR - (ell : ℤ) +
      (if (a.val + b.val) % RR < ell then (if a.val + b.val < RR then (ell : ℤ) else 0)
       else (if a.val + b.val < RR then 0 else (modulusAndOne : ℤ)))) % (RR : ℤ) := by
  obtain ⟨s, c, h1, h2, h3, h4, h5⟩ := addLoop_spec 14 0 a.l b.l a.len b.len a.lt b.lt (by norm_num)
  obtain ⟨r, g1, g2, g3, g4⟩ := subExtraRaw_spec s modulusLimbs c h2 rfl h3 modulusLimbs_lt h4
  have hs : Nat.ofDigits W s < W ^ 14 := by
    have := Nat.ofDigits_lt_base_pow_length (b := W) (by norm_num) h3
    rwa [h2] at this
  have e1 : a.val + b.val = Nat.ofDigits W s + RR * c := by
    rw [show RR = W ^ 14 from rfl, h5, zero_add]; rfl
  have e2 : (a.val + b.val) % RR = Nat.ofDigits W s := by
    rw [e1, Nat.add_mul_mod_self_left, Nat.mod_eq_of_lt hs]
  have e3 : (a.val + b.val < RR) ↔ c = 0 := by
    rw [e1, show RR = W ^ 14 from rfl]
    constructor
    · intro h
      interval_cases c
      · rfl
      · omega
    · rintro rfl; simpa using hs
  refine ⟨⟨r, g2, g3⟩, ?_, ?_⟩
  · unfold Scalar.add
    rw [h1]
    simp only [Option.bind_eq_bind, Option.bind_some]
    rw [show asU32 c = c from Nat.mod_eq_of_lt (by omega), g1, Option.bind_some,
      Arr.ofList?_eq r g2 g3]
  · show ((Nat.ofDigits W r : ℕ) : ℤ) = _
    rw [g4, modulus_val]
    simp only [e3]
    have e2' : ((a.val : ℤ) + b.val) % RR = ((Nat.ofDigits W s : ℕ) : ℤ) := by
      rw [← e2]; push_cast; rfl
    rw [e2, e2']

end Ed448.Model
