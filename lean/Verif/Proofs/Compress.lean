import Verif.Proofs.EdPoints
import Verif.Proofs.ScalarMisc

/-!
# Compression and decompression of Edwards points
-/

namespace Ed448.Model

set_option exponentiation.threshold 1000
open FieldBackend FieldVal Edw
variable {F L : Type} [FieldBackend F L] [Lawful F]

/-- The RFC 8032 encoding of an affine point as a number below `2^456`: `y`, and the parity of `x`
in the most significant bit. -/
def encodeE (R : E) : ℕ := R.y.val + 2 ^ 455 * (negv R.x).toNat

theorem compress_val {P : EdPt F} {R : E} (h : Rep P R) : P.compress.val = encodeE R := by
  obtain ⟨hx, hy⟩ := rep_toAffine h
  change Nat.ofDigits 256 ((toBytes P.toAffine.y).l ++
    [(if isNegative P.toAffine.x then 1 else 0) <<< 7]) = _
  unfold encodeE
  rw [isNegative_eq, hx, Nat.ofDigits_append, Nat.ofDigits_singleton, (toBytes P.toAffine.y).len]
  have : Nat.ofDigits 256 (toBytes P.toAffine.y).l = R.y.val := by
    rw [← hy]; exact Lawful.toBytes_val _
  rw [this]
  cases negv R.x <;> norm_num [Nat.shiftLeft_eq]

theorem y_val_lt (R : E) : R.y.val < 2 ^ 448 :=
  (ZMod.val_lt R.y).trans (by rw [p_lit]; norm_num)

theorem eq_of_sq {a b : Fp} (h : a ^ 2 = b ^ 2) (hs : a = 0 ∨ negv a = negv b) : a = b := by
  rcases sq_eq_sq_iff_eq_or_eq_neg.mp h with e | e
  · exact e
  · by_cases hb : b = 0
    · rw [e, hb, neg_zero]
    · rcases hs with hs | hs
      · exact absurd (by rw [hs] at e; exact neg_eq_zero.mp e.symm) hb
      · rw [e, negv_neg hb] at hs; simp at hs

theorem one_sub_dy_ne (y : Fp) : 1 - d * y ^ 2 ≠ 0 := by
  intro h
  have hy : y ≠ 0 := by rintro rfl; simp at h
  apply d_nonsquare
  refine ⟨y⁻¹, ?_⟩
  field_simp
  linear_combination -h

theorem on_iff (x y : Fp) : OnCurve d x y ↔ x ^ 2 = (1 - y ^ 2) / (1 - d * y ^ 2) := by
  rw [eq_div_iff (one_sub_dy_ne y)]
  unfold OnCurve
  constructor <;> intro h <;> linear_combination h

theorem encodeE_inj {R S : E} : encodeE R = encodeE S ↔ R = S := by
  constructor
  · intro h
    unfold encodeE at h
    have h1 := y_val_lt R
    have h2 := y_val_lt S
    have hy : R.y = S.y := by
      apply ZMod.val_injective p
      have := congrArg (· % 2 ^ 455) h
      simp only [Nat.add_mul_mod_self_left] at this
      rwa [Nat.mod_eq_of_lt (by omega), Nat.mod_eq_of_lt (by omega)] at this
    have hx : negv R.x = negv S.x := by
      rw [hy] at h
      have h3 : (negv R.x).toNat = (negv S.x).toNat := by omega
      cases h4 : negv R.x <;> cases h5 : negv S.x <;> simp_all
    ext
    · refine eq_of_sq ?_ (Or.inr hx)
      rw [(on_iff _ _).1 R.on, (on_iff _ _).1 S.on, hy]
    · exact hy
  · rintro rfl; rfl

/-- The sign bit of a 57-byte encoding. -/
theorem signBit_eq (b : Bytes 57) : (Arr.get b 56 >>> 7 == 1) = decide (2 ^ 455 ≤ b.val) := by
  have hb := Arr.val_lt (by norm_num) b
  rw [bytes_get_eq b 56 (by norm_num), Nat.shiftRight_eq_div_pow]
  rw [Bool.eq_iff_iff, beq_iff_eq, decide_eq_true_iff]
  omega

theorem negv_fix (x : Fp) (s : Bool) :
    let x' := if xor s (negv x) then -x else x
    x' ^ 2 = x ^ 2 ∧ (x' = 0 ∨ negv x' = s) := by
  simp only
  by_cases h : x = 0
  · subst h; simp
  · have := negv_neg h
    cases s <;> cases hn : negv x <;> simp_all

section
variable (b : Bytes 57)

/-- The y-coordinate encoded by `b`. -/
def yOf : Fp := ((b.val % 2 ^ 448 : ℕ) : Fp)

theorem yOf_eq : val (fromBytes (Bytes.slice b 0 56 (by norm_num)) : F) = yOf b := by
  rw [Lawful.val_fromBytes, bytes_take_val]
  norm_num [yOf]

theorem edDecompress_spec :
    (edDecompress F b = none ∧ ¬ IsSquare ((1 - yOf b ^ 2) / (1 - d * yOf b ^ 2))) ∨
    ∃ P, edDecompress F b = some P ∧ ∃ R : E, Rep P R ∧ R.y = yOf b ∧
      (R.x = 0 ∨ negv R.x = decide (2 ^ 455 ≤ b.val)) := by
  unfold edDecompress
  simp only [signBit_eq]
  set y : F := fromBytes (Bytes.slice b 0 56 (by norm_num)) with hy
  have hyv : val y = yOf b := yOf_eq b
  have hu : val ((one : F) -ᶠ square y) = 1 - yOf b ^ 2 := by simp [hyv]
  have hv : val ((one : F) -ᶠ (EDWARDS_D F) *ˡ square y) = 1 - d * yOf b ^ 2 := by simp [hyv]
  have hv0 := hv ▸ one_sub_dy_ne (yOf b)
  generalize ((one : F) -ᶠ square y) = u at *
  generalize ((one : F) -ᶠ (EDWARDS_D F) *ˡ square y) = v at *
  have hs := sqrtRatio_isSquare u v hv0
  rw [hu, hv] at hs
  by_cases h : (sqrtRatio u v).2 = true
  · right
    have hsq := sqrtRatio_sq h hv0
    rw [hu, hv] at hsq
    rw [if_neg (by rw [h]; simp)]
    refine ⟨_, rfl, ?_⟩
    obtain ⟨h1, h2⟩ := negv_fix (val (sqrtRatio u v).1) (decide (2 ^ 455 ≤ b.val))
    set x' := if xor (decide (2 ^ 455 ≤ b.val)) (negv (val (sqrtRatio u v).1)) then
      -val (sqrtRatio u v).1 else val (sqrtRatio u v).1 with hx'
    refine ⟨⟨x', yOf b, (on_iff _ _).2 (h1.trans hsq)⟩, rep_ofAffine ?_ hyv, rfl, h2⟩
    show val (condNegate _ _) = x'
    rw [val_condNegate, isNegative_eq]
  · left
    exact ⟨by rw [if_pos (by simpa using h)], fun hc => h (hs.2 hc)⟩

/-- Acceptance. -/
theorem edDecompress_isSome : (edDecompress F b).isSome = true ↔ ∃ R : E, R.y = yOf b := by
  constructor
  · intro h
    rcases edDecompress_spec (F := F) b with ⟨e, -⟩ | ⟨P, -, R, -, hy, -⟩
    · rw [e] at h; simp at h
    · exact ⟨R, hy⟩
  · rintro ⟨R, hy⟩
    rcases edDecompress_spec (F := F) b with ⟨-, hn⟩ | ⟨P, e, -⟩
    · exact absurd ⟨R.x, by rw [← pow_two, (on_iff _ _).1 R.on, hy]⟩ hn
    · rw [e]; rfl

theorem edDecompress_some {P : EdPt F} (h : edDecompress F b = some P) :
    ∃ R : E, Rep P R ∧ R.y = yOf b ∧ (R.x = 0 ∨ negv R.x = decide (2 ^ 455 ≤ b.val)) := by
  rcases edDecompress_spec (F := F) b with ⟨e, -⟩ | ⟨P', e, hP⟩
  · rw [e] at h; cases h
  · rw [e] at h; cases h; exact hP

end

/-- Decoding the encoding of a point. -/
theorem edDecompress_of_encode {b : Bytes 57} {R : E} (h : b.val = encodeE R) :
    ∃ P, edDecompress F b = some P ∧ Rep P R := by
  have hlt := y_val_lt R
  have hy : R.y = yOf b := by
    unfold yOf
    rw [h, encodeE, show (2 : ℕ) ^ 455 = 2 ^ 448 * 2 ^ 7 by norm_num, mul_assoc,
      Nat.add_mul_mod_self_left, Nat.mod_eq_of_lt hlt]
    simp
  have hsome := (edDecompress_isSome (F := F) b).2 ⟨R, hy⟩
  obtain ⟨P, hP⟩ := Option.isSome_iff_exists.1 hsome
  obtain ⟨S, hS, hSy, hSx⟩ := edDecompress_some b hP
  refine ⟨P, hP, ?_⟩
  have hbit : decide (2 ^ 455 ≤ b.val) = negv R.x := by
    rw [h, encodeE]
    cases negv R.x
    · simp; omega
    · simp
  have : S = R := by
    have e : S.y = R.y := hSy.trans hy.symm
    ext
    · refine eq_of_sq ?_ ?_
      · rw [(on_iff _ _).1 S.on, (on_iff _ _).1 R.on, e]
      · rw [← hbit]; exact hSx
    · exact e
  rw [← this]; exact hS

end Ed448.Model
