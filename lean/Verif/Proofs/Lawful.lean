import Verif.Model.Field
import Verif.Spec.Curve

/-!
# The specification of a field backend, and the field algorithms of `field/mod.rs`
-/

namespace Ed448.Model

set_option exponentiation.threshold 1000
open FieldBackend

/-- The twisted base point's coordinates. -/
def TGx : ℕ := 363419362147803445274661903944002267176820680343659030140745099590279204136698235703403524834251253334370805086499278108045645398933504
/-- See `TGx`. -/
def TGy : ℕ := 377713777653347146236792104846100366848996148111932555478444627119325414592190554491942001387217559549253112485759360936941341741238884
/-- The Decaf constant, a square root of 39081. -/
def decafFactor : ℕ := 98944233647732219769177004876929019128417576295529901074099889598043702116001257856802131563896515373927712232092845883226922417596214

/-- The maps from the representations to `Fp`. -/
class FieldVal (F : Type) (L : outParam Type) where
  val : F → Fp
  lval : L → Fp

open FieldVal (val lval)

/-- A backend is lawful when there are maps `val`, `lval` to `Fp` commuting with all operations,
and `to_bytes` is the canonical encoding of `val`. -/
class Lawful (F : Type) {L : outParam Type} [FieldBackend F L] extends FieldVal F L where
  lval_relax : ∀ x : F, lval (relax x) = val x
  val_mulL : ∀ x y : L, val (mulL x y : F) = lval x * lval y
  val_squareL : ∀ x : L, val (squareL x : F) = lval x ^ 2
  val_add : ∀ x y : F, val (x +ᶠ y) = val x + val y
  val_sub : ∀ x y : F, val (x -ᶠ y) = val x - val y
  val_negate : ∀ x : F, val (negate x) = -val x
  val_select : ∀ (x y : F) (c : Bool), val (select x y c) = if c then val y else val x
  val_strongReduce : ∀ x : F, val (strongReduce x) = val x
  val_fromBytes : ∀ b : Bytes 56, val (fromBytes b : F) = (b.val : Fp)
  toBytes_val : ∀ x : F, (toBytes x).val = (val x).val
  val_zero : val (zero : F) = 0
  val_one : val (one : F) = 1
  lval_minusOne : lval (minusOne F) = -1
  lval_EDWARDS_D : lval (EDWARDS_D F) = d
  lval_TWISTED_D : lval (TWISTED_D F) = d - 1
  lval_TWO_TIMES_TWISTED_D : lval (TWO_TIMES_TWISTED_D F) = 2 * (d - 1)
  val_NEG_EDWARDS_D : val (NEG_EDWARDS_D : F) = -d
  val_NEG_FOUR_TIMES_TWISTED_D : val (NEG_FOUR_TIMES_TWISTED_D : F) = -4 * (d - 1)
  val_DECAF_FACTOR : val (DECAF_FACTOR : F) = (decafFactor : Fp)
  val_A_PLUS_TWO_OVER_FOUR : val (A_PLUS_TWO_OVER_FOUR : F) = 39082
  val_GX : val (GOLDILOCKS_BASE_POINT : F × F × F × F).1 = (Gx : Fp)
  val_GY : val (GOLDILOCKS_BASE_POINT : F × F × F × F).2.1 = (Gy : Fp)
  val_GZ : val (GOLDILOCKS_BASE_POINT : F × F × F × F).2.2.1 = 1
  val_GT : val (GOLDILOCKS_BASE_POINT : F × F × F × F).2.2.2 = (Gx : Fp) * (Gy : Fp)
  val_TGX : val (TWISTED_EDWARDS_BASE_POINT : F × F × F × F).1 = (TGx : Fp)
  val_TGY : val (TWISTED_EDWARDS_BASE_POINT : F × F × F × F).2.1 = (TGy : Fp)
  val_TGZ : val (TWISTED_EDWARDS_BASE_POINT : F × F × F × F).2.2.1 = 1
  val_TGT : val (TWISTED_EDWARDS_BASE_POINT : F × F × F × F).2.2.2 = (TGx : Fp) * (TGy : Fp)

attribute [simp] Lawful.lval_relax Lawful.val_mulL Lawful.val_squareL Lawful.val_add
  Lawful.val_sub Lawful.val_negate Lawful.val_select Lawful.val_strongReduce Lawful.val_fromBytes
  Lawful.val_zero Lawful.val_one Lawful.lval_minusOne Lawful.lval_EDWARDS_D Lawful.lval_TWISTED_D
  Lawful.lval_TWO_TIMES_TWISTED_D Lawful.val_NEG_EDWARDS_D Lawful.val_NEG_FOUR_TIMES_TWISTED_D
  Lawful.val_DECAF_FACTOR Lawful.val_A_PLUS_TWO_OVER_FOUR Lawful.val_GX Lawful.val_GY Lawful.val_GZ
  Lawful.val_GT Lawful.val_TGX Lawful.val_TGY Lawful.val_TGZ Lawful.val_TGT

variable {F L : Type} [FieldBackend F L] [Lawful F]

@[simp] theorem val_mul (a b : F) : val (a *ᶠ b) = val a * val b := by
  unfold mul; simp

@[simp] theorem val_mulC (c : L) (b : F) : val (c *ˡ b : F) = lval F c * val b := by
  unfold mulC; simp

@[simp] theorem val_mulR (a : F) (c : L) : val (a *ʳ c : F) = val a * lval F c := by
  unfold mulR; simp

@[simp] theorem val_square (a : F) : val (square a) = val a ^ 2 := by
  unfold square; simp

@[simp] theorem val_condNegate (a : F) (c : Bool) :
    val (condNegate a c) = if c then -val a else val a := by
  unfold condNegate; simp

theorem toBytes_inj {a b : F} : toBytes a = toBytes b ↔ val a = val b := by
  rw [← Arr.val_inj_iff (by norm_num), Lawful.toBytes_val, Lawful.toBytes_val]
  exact ⟨fun h => ZMod.val_injective p h, fun h => by rw [h]⟩

@[simp] theorem feq_iff (a b : F) : feq a b = true ↔ val a = val b := by
  unfold feq; rw [beq_iff_eq, toBytes_inj]

theorem feq_eq (a b : F) : feq a b = decide (val a = val b) := by
  rw [Bool.eq_iff_iff, feq_iff, decide_eq_true_iff]

/-- Sign convention: the parity of the canonical representative. -/
def negv (x : Fp) : Bool := x.val % 2 == 1

@[simp] theorem isNegative_eq (a : F) : isNegative a = negv (val a) := by
  unfold isNegative negv
  rw [← Lawful.toBytes_val, Arr.val]
  have hl := (toBytes a).len
  rcases h : (toBytes a).l with _ | ⟨b, l⟩
  · rw [h] at hl; simp at hl
  · rw [List.headD_cons, Nat.ofDigits_cons, Nat.and_one_is_mod]
    congr 1
    omega

theorem negv_neg {x : Fp} (h : x ≠ 0) : negv (-x) = !negv x := by
  unfold negv
  have : NeZero x := ⟨h⟩
  rw [ZMod.val_neg_of_ne_zero]
  have h1 := ZMod.val_lt x
  have h2 : p % 2 = 1 := by rw [p_lit]
  rw [Bool.eq_iff_iff]
  simp only [beq_iff_eq, Bool.not_eq_true', beq_eq_false_iff_ne]
  omega

@[simp] theorem negv_zero : negv 0 = false := by unfold negv; simp

/-! ## Powers -/

theorem val_squareLoop (n : ℕ) : ∀ r : F, val (squareLoop n r) = val r ^ 2 ^ n := by
  induction n with
  | zero => intro r; simp [squareLoop]
  | succ n ih => intro r; rw [squareLoop, ih, val_square, ← pow_mul, pow_succ', ]

theorem val_squareN (a : F) {n : ℕ} (h : n ≠ 0) : val (squareN a n) = val a ^ 2 ^ n := by
  unfold squareN
  rw [val_squareLoop, val_square, ← pow_mul, ← pow_succ']
  congr 2
  omega

section pw
variable {v : Fp} {a b : F} {m n : ℕ}

theorem pw_mul (ha : val a = v ^ m) (hb : val b = v ^ n) : val (a *ᶠ b) = v ^ (m + n) := by
  rw [val_mul, ha, hb, pow_add]

theorem pw_sq (ha : val a = v ^ m) : val (square a) = v ^ (m * 2) := by
  rw [val_square, ha, pow_mul]

theorem pw_sqN (k : ℕ) (hk : k ≠ 0) (ha : val a = v ^ m) :
    val (squareN a k) = v ^ (m * 2 ^ k) := by
  rw [val_squareN a hk, ha, pow_mul]
end pw

theorem val_invert_pow (x : F) : val (invert x) = val x ^ (p - 2) := by
  have h1 : val x = val x ^ 1 := (pow_one _).symm
  have h10 := pw_sq h1
  have h11 := pw_mul h1 h10
  have h110 := pw_sq h11
  have h111 := pw_mul h1 h110
  have h111000 := pw_sqN 3 (by decide) h111
  have h111111 := pw_mul h111 h111000
  have x12 := pw_mul (pw_sqN 6 (by decide) h111111) h111111
  have x24 := pw_mul (pw_sqN 12 (by decide) x12) x12
  have i34 := pw_sqN 6 (by decide) x24
  have x30 := pw_mul h111111 i34
  have x48 := pw_mul (pw_sqN 18 (by decide) i34) x24
  have x96 := pw_mul (pw_sqN 48 (by decide) x48) x48
  have x192 := pw_mul (pw_sqN 96 (by decide) x96) x96
  have x222 := pw_mul (pw_sqN 30 (by decide) x192) x30
  have x223 := pw_mul (pw_sq x222) h1
  have r := pw_mul (pw_sqN 2 (by decide) (pw_mul (pw_sqN 223 (by decide) x223) x222)) h1
  refine Eq.trans r ?_
  congr 1
  rw [p_lit]
  decide +kernel

@[simp] theorem val_invert (x : F) : val (invert x) = (val x)⁻¹ := by
  rw [val_invert_pow]
  have hp : p - 2 + 1 = p - 1 := by have := p_prime.two_le; omega
  by_cases h : val x = 0
  · rw [h, inv_zero, zero_pow]
    have : 2 < p := by rw [p_lit]; norm_num
    omega
  · apply eq_inv_of_mul_eq_one_left
    rw [← pow_succ, hp, ZMod.pow_card_sub_one_eq_one h]

theorem val_isrChain (x : F) :
    val (isrChain x).1 = val x ^ ((p - 3) / 4) ∧ val (isrChain x).2 = val x ^ (p / 2) := by
  have h1 : val x = val x ^ 1 := (pow_one _).symm
  have a1 := pw_sq h1
  have a2 := pw_mul a1 h1
  have b1 := pw_sq a2
  have b2 := pw_mul b1 h1
  have c1 := pw_sqN 3 (by decide) b2
  have c0 := pw_mul b2 c1
  have d1 := pw_sqN 3 (by decide) c0
  have d0 := pw_mul b2 d1
  have e2 := pw_sqN 9 (by decide) d0
  have e1 := pw_mul d0 e2
  have e0 := pw_mul e1 e1
  have f2 := pw_mul e0 h1
  have f0 := pw_sqN 18 (by decide) f2
  have g2 := pw_mul e1 f0
  have g0 := pw_sqN 37 (by decide) g2
  have g1 := pw_mul g2 g0
  have i0 := pw_sqN 37 (by decide) g1
  have i1 := pw_mul g2 i0
  have j0 := pw_sqN 111 (by decide) i1
  have j2 := pw_mul i1 j0
  have k0 := pw_sq j2
  have k1 := pw_mul k0 h1
  have l0 := pw_sqN 223 (by decide) k1
  have l1 := pw_mul j2 l0
  have m2 := pw_sq l1
  have m0 := pw_mul m2 h1
  constructor
  · refine Eq.trans l1 ?_
    congr 1
    rw [p_lit]
    decide +kernel
  · refine Eq.trans m0 ?_
    congr 1
    rw [p_lit]
    decide +kernel

/-- The value `x^((p-3)/4)` returned by `inverse_square_root`. -/
noncomputable def isr (x : Fp) : Fp := x ^ ((p - 3) / 4)

@[simp] theorem val_isr (x : F) : val (inverseSquareRoot x).1 = isr (val x) := (val_isrChain x).1

theorem isr_ok (x : F) :
    (inverseSquareRoot x).2 = true ↔ val x ≠ 0 ∧ IsSquare (val x) := by
  unfold inverseSquareRoot
  rw [feq_iff, (val_isrChain x).2, Lawful.val_one]
  by_cases h : val x = 0
  · rw [h]
    simp only [ne_eq, not_true_eq_false, false_and, iff_false]
    rw [zero_pow]
    · exact zero_ne_one
    · have : 2 ≤ p := p_prime.two_le
      omega
  · rw [← ZMod.euler_criterion p h]
    simp [h]

theorem isr_zero : isr 0 = 0 := by
  unfold isr
  apply zero_pow
  rw [p_lit]; decide +kernel

theorem isr_sq_mul {v : Fp} (h0 : v ≠ 0) (h : IsSquare v) : isr v ^ 2 * v = 1 := by
  unfold isr
  rw [← pow_mul, ← pow_succ]
  rw [ZMod.euler_criterion p h0] at h
  rw [← h]
  congr 1
  rw [p_lit]

theorem isr_isSquare {v : Fp} (h : IsSquare v) : IsSquare (isr v) := h.pow _

theorem isr_ne_zero {v : Fp} (h0 : v ≠ 0) : isr v ≠ 0 := pow_ne_zero _ h0

/-- Two squares with equal square are equal, because `-1` is not a square. -/
theorem square_unique {a b : Fp} (ha : IsSquare a) (hb : IsSquare b) (h : a ^ 2 = b ^ 2) : a = b := by
  rcases sq_eq_sq_iff_eq_or_eq_neg.mp h with h | h
  · exact h
  · by_cases hb0 : b = 0
    · rw [h, hb0, neg_zero]
    · exfalso
      apply neg_one_nonsquare
      have : (-1 : Fp) = a / b := by rw [h]; field_simp
      rw [this]
      exact ha.div hb

/-- Every element or its negative is a square. -/
theorem square_or_neg (a : Fp) : IsSquare a ∨ IsSquare (-a) := by
  by_cases h0 : a = 0
  · left; rw [h0]; exact ⟨0, by ring⟩
  by_contra hc
  push Not at hc
  have hn : -a ≠ 0 := neg_ne_zero.mpr h0
  have h1 := ZMod.pow_div_two_eq_neg_one_or_one p h0
  have h2 := ZMod.pow_div_two_eq_neg_one_or_one p hn
  rw [ZMod.euler_criterion p h0] at hc
  rw [ZMod.euler_criterion p hn] at hc
  have h3 := h1.resolve_left hc.1
  have h4 := h2.resolve_left hc.2
  have hodd : Odd (p / 2) := by rw [p_lit]; decide
  rw [hodd.neg_pow, h3, neg_neg] at h4
  have : (2 : Fp) = 0 := by linear_combination h4
  exact two_ne this

theorem not_square_mul {a b : Fp} (ha : ¬ IsSquare a) (hb : ¬ IsSquare b) : IsSquare (a * b) := by
  have h1 := (square_or_neg a).resolve_left ha
  have h2 := (square_or_neg b).resolve_left hb
  have := h1.mul h2
  rwa [neg_mul_neg] at this

@[simp] theorem val_sqrtRatio (u v : F) : val (sqrtRatio u v).1 = isr (val u * val v) * val u := by
  unfold sqrtRatio; simp

theorem sqrtRatio_ok (u v : F) : (sqrtRatio u v).2 = true ↔
    val u = 0 ∨ (val u * val v ≠ 0 ∧ IsSquare (val u * val v)) := by
  unfold sqrtRatio
  rw [Bool.or_eq_true, feq_iff, isr_ok, val_mul, Lawful.val_zero]

theorem sqrtRatio_isSquare (u v : F) (hv : val v ≠ 0) :
    (sqrtRatio u v).2 = true ↔ IsSquare (val u / val v) := by
  rw [sqrtRatio_ok]
  have e : val u / val v = val u * val v * ((val v)⁻¹ * (val v)⁻¹) := by field_simp
  have e' : val u * val v = val u / val v * (val v * val v) := by field_simp
  constructor
  · rintro (h | ⟨-, h⟩)
    · rw [h, zero_div]; exact ⟨0, by ring⟩
    · rw [e]; exact h.mul ⟨_, rfl⟩
  · intro h
    by_cases hu : val u = 0
    · exact Or.inl hu
    · exact Or.inr ⟨mul_ne_zero hu hv, by rw [e']; exact h.mul ⟨_, rfl⟩⟩

theorem sqrtRatio_sq {u v : F} (h : (sqrtRatio u v).2 = true) (hv : val v ≠ 0) :
    val (sqrtRatio u v).1 ^ 2 = val u / val v := by
  rw [eq_div_iff hv, val_sqrtRatio]
  rcases (sqrtRatio_ok u v).1 h with h | ⟨h0, hs⟩
  · rw [h]; ring
  · have := isr_sq_mul h0 hs
    linear_combination val u * this

end Ed448.Model
