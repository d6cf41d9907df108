import Verif.Proofs.Fast
import Verif.Proofs.U32Instance

/-!
# Properties of the field (C44, C45, C46)

C44 and C45 are about the limb-level model `Verif.Model.U32` of the 32-bit backend; `some` means
"returns without overflow panic and without a failed assertion". C46 is about the algorithms of
`field/mod.rs` over any lawful backend (`Lawful`), of which the 32-bit backend is an instance.
-/

namespace Ed448.Props
open Ed448.Model
open FieldVal (val)

set_option exponentiation.threshold 1000
set_option maxRecDepth 10000

/-- The number represented by sixteen limbs in radix `2^28`. -/
def limbVal (a : U32.Raw) : ℕ := Nat.ofDigits (2 ^ 28) a.l

/-- The limb bound: `2^28 + 2^8`. -/
def InBound (a : U32.Raw) : Prop := ∀ x ∈ a.l, x ≤ 2 ^ 28 + 2 ^ 8

/-! ## C44 -/

theorem C44_u32_arithmetic (a b : U32.Raw) (ha : InBound a) (hb : InBound b) :
    (∃ r, U32.add a b = some r ∧ InBound r ∧ (limbVal r : Fp) = limbVal a + limbVal b) ∧
    (∃ r, U32.sub a b = some r ∧ InBound r ∧ (limbVal r : Fp) = limbVal a - limbVal b) ∧
    (∃ r, U32.mul a b = some r ∧ InBound r ∧ (limbVal r : Fp) = limbVal a * limbVal b) ∧
    (∃ r, U32.square a = some r ∧ InBound r ∧ (limbVal r : Fp) = limbVal a ^ 2) ∧
    (∃ r, U32.negate a = some r ∧ InBound r ∧ (limbVal r : Fp) = -limbVal a) := by
  refine ⟨?_, ?_, U32.mul_spec ha hb, ?_, ?_⟩
  · obtain ⟨r, h1, h2, -⟩ := U32.add_spec ha hb
    have e := U32.ofOpt_V (h := ⟨r, h1, h2⟩) h1
    exact ⟨r, h1, h2, (congrArg (fun n : ℕ => (n : Fp)) e).symm.trans
      (Lawful.val_add (F := U32.Fe) ⟨a, ha⟩ ⟨b, hb⟩)⟩
  · obtain ⟨r, h1, h2, -⟩ := U32.sub_spec ha hb
    have e := U32.ofOpt_V (h := ⟨r, h1, h2⟩) h1
    exact ⟨r, h1, h2, (congrArg (fun n : ℕ => (n : Fp)) e).symm.trans
      (Lawful.val_sub (F := U32.Fe) ⟨a, ha⟩ ⟨b, hb⟩)⟩
  · obtain ⟨r, h1, h2, h3⟩ := U32.square_spec ha
    exact ⟨r, h1, h2, by rw [pow_two]; exact h3⟩
  · obtain ⟨r, h1, h2, -⟩ := U32.negate_spec ha
    have e := U32.ofOpt_V (h := ⟨r, h1, h2⟩) h1
    exact ⟨r, h1, h2, (congrArg (fun n : ℕ => (n : Fp)) e).symm.trans
      (Lawful.val_negate (F := U32.Fe) ⟨a, ha⟩)⟩

/-- The element with every limb at the bound, used as a witness: it is not reduced (its value
exceeds `p`). -/
def allMax : U32.Raw := ⟨List.replicate 16 (2 ^ 28 + 2 ^ 8), by simp, by
  intro x hx; rw [List.mem_replicate] at hx; rw [hx.2]; norm_num⟩

theorem allMax_inBound : InBound allMax := fun x hx => by
  rw [show allMax.l = List.replicate 16 (2 ^ 28 + 2 ^ 8) from rfl, List.mem_replicate] at hx
  exact hx.2.le

example : p < limbVal allMax ∧ InBound allMax :=
  ⟨by rw [p_lit]; decide +kernel, allMax_inBound⟩

/-- The arithmetic of the witness, evaluated: the product of `-1` and the largest element. -/
example : (do let r ← U32.mul U32.minusOne allMax; let n ← U32.negate allMax
              let x ← U32.toBytes r; let y ← U32.toBytes n; some (decide (x.l = y.l))) =
    some true := by decide +kernel

/-- The constants of the 32-bit backend. -/
def u32Constants : List U32.Raw :=
  [U32.zero, U32.one, U32.minusOne, U32.NEG_FOUR_TIMES_TWISTED_D, U32.EDWARDS_D, U32.NEG_EDWARDS_D,
    U32.TWISTED_D, U32.TWO_TIMES_TWISTED_D, U32.DECAF_FACTOR, U32.A_PLUS_TWO_OVER_FOUR, U32.G_X,
    U32.G_Y, U32.G_Z, U32.G_T, U32.TG_X, U32.TG_Y, U32.TG_Z, U32.TG_T]

/-- Field elements that can arise: constants, decoded bytes, and results of operations. -/
inductive U32Reach : U32.Raw → Prop
  | const {a} : a ∈ u32Constants → U32Reach a
  | bytes {b r} : U32.fromBytes b = some r → U32Reach r
  | add {a b r} : U32Reach a → U32Reach b → U32.add a b = some r → U32Reach r
  | sub {a b r} : U32Reach a → U32Reach b → U32.sub a b = some r → U32Reach r
  | mul {a b r} : U32Reach a → U32Reach b → U32.mul a b = some r → U32Reach r
  | square {a r} : U32Reach a → U32.square a = some r → U32Reach r
  | negate {a r} : U32Reach a → U32.negate a = some r → U32Reach r
  | strongReduce {a r} : U32Reach a → U32.strongReduce a = some r → U32Reach r
  | select {a b} (c : Bool) : U32Reach a → U32Reach b → U32Reach (U32.select a b c)

theorem C44_u32_reachable {a : U32.Raw} (h : U32Reach a) : InBound a := by
  have key : ∀ {o : Option U32.Raw} {r : U32.Raw} {P : U32.Raw → Prop}, o = some r →
      (∃ r, o = some r ∧ InBound r ∧ P r) → InBound r := by
    rintro o r P e ⟨r', h, hb, -⟩
    rw [e] at h; cases h; exact hb
  induction h with
  | const h =>
    have : ∀ a ∈ u32Constants, U32.Tight a := by decide +kernel
    exact this _ h
  | bytes e =>
    obtain ⟨r, h1, h2, -⟩ := U32.fromBytes_spec ‹_›
    rw [e] at h1; cases h1; exact U32.tight_of_lt h2
  | add _ _ e h1 h2 => exact key e (C44_u32_arithmetic _ _ h1 h2).1
  | sub _ _ e h1 h2 => exact key e (C44_u32_arithmetic _ _ h1 h2).2.1
  | mul _ _ e h1 h2 => exact key e (C44_u32_arithmetic _ _ h1 h2).2.2.1
  | square _ e h1 => exact key e (C44_u32_arithmetic _ _ h1 h1).2.2.2.1
  | negate _ e h1 => exact key e (C44_u32_arithmetic _ _ h1 h1).2.2.2.2
  | strongReduce _ e h =>
    obtain ⟨r, h1, h2, -⟩ := U32.strongReduce_spec h
    rw [e] at h1; cases h1; exact U32.tight_of_lt h2
  | select c _ _ h1 h2 =>
    rw [U32.select_l]; split
    · exact h2
    · exact h1

/-- No operation on elements that can arise panics. -/
theorem C44_u32_no_panic {a b : U32.Raw} (ha : U32Reach a) (hb : U32Reach b) :
    (U32.add a b).isSome ∧ (U32.sub a b).isSome ∧ (U32.mul a b).isSome ∧ (U32.square a).isSome ∧
      (U32.negate a).isSome ∧ (U32.strongReduce a).isSome ∧ (U32.toBytes a).isSome := by
  have h1 := C44_u32_reachable ha
  have h2 := C44_u32_reachable hb
  obtain ⟨⟨_, e1, -⟩, ⟨_, e2, -⟩, ⟨_, e3, -⟩, ⟨_, e4, -⟩, ⟨_, e5, -⟩⟩ := C44_u32_arithmetic a b h1 h2
  obtain ⟨_, e6, -⟩ := U32.strongReduce_spec h1
  obtain ⟨_, e7, -⟩ := U32.toBytes_spec h1
  simp [e1, e2, e3, e4, e5, e6, e7]

example : U32Reach U32.G_X ∧ (U32.mul U32.G_X U32.G_Y).isSome := by
  have h : U32Reach U32.G_X := .const (by simp [u32Constants])
  have h' : U32Reach U32.G_Y := .const (by simp [u32Constants])
  exact ⟨h, (C44_u32_no_panic h h').2.2.1⟩

/-! ## C45 -/

theorem C45_u32_codec (a : U32.Raw) (ha : InBound a) (b : Bytes 56) :
    (∃ r, U32.toBytes a = some r ∧ r.val = limbVal a % p) ∧
    (∃ r, U32.fromBytes b = some r ∧ InBound r ∧ (limbVal r : Fp) = (b.val : Fp)) := by
  obtain ⟨r, h1, h2, h3⟩ := U32.fromBytes_spec b
  exact ⟨U32.toBytes_spec ha, r, h1, U32.tight_of_lt h2, congrArg (fun n : ℕ => (n : Fp)) h3⟩

/-- `a == b` compares the encodings (`/repo/src/field/mod.rs:18-28`); it holds iff the elements are
congruent modulo `p`. -/
theorem C45_u32_eq (a b : U32.Raw) (ha : InBound a) (hb : InBound b) :
    U32.toBytes a = U32.toBytes b ↔ limbVal a ≡ limbVal b [MOD p] := by
  obtain ⟨r, h1, h2⟩ := U32.toBytes_spec ha
  obtain ⟨s, h3, h4⟩ := U32.toBytes_spec hb
  rw [h1, h3, Option.some_inj, ← Arr.val_inj_iff (by norm_num), h2, h4]
  rfl

/-- The element `2p - 1` (limbs above `2^28`) is encoded as `p - 1`; zero and `p` are equal. -/
example : (U32.toBytes (U32.lit [0x1ffffffd - 2 ^ 28, 2 ^ 28, 0xfffffff, 0xfffffff, 0xfffffff,
      0xfffffff, 0xfffffff, 0xfffffff, 0xffffffe, 0xfffffff, 0xfffffff, 0xfffffff, 0xfffffff,
      0xfffffff, 0xfffffff, 0xfffffff])).map (fun r => r.val) =
      some ((2 ^ 28 * 2 ^ 28 + 0xffffffd + (p - (2 ^ 56 - 1))) % p) ∧
    U32.toBytes (U32.lit U32.pLimbs) = U32.toBytes U32.zero := by
  rw [p_lit]; decide +kernel

/-! ## C46 -/

section
variable {F L : Type} [FieldBackend F L] [Lawful F]

theorem C46_invert (x : F) : val (invert x) = (val x)⁻¹ := val_invert x

theorem C46_inverse_square_root (x : F) :
    ((inverseSquareRoot x).2 = true ↔ val x ≠ 0 ∧ IsSquare (val x)) ∧
    ((inverseSquareRoot x).2 = true → val (inverseSquareRoot x).1 ^ 2 * val x = 1) := by
  refine ⟨isr_ok x, fun h => ?_⟩
  obtain ⟨h0, hs⟩ := (isr_ok x).1 h
  rw [val_isr]
  exact isr_sq_mul h0 hs

theorem C46_sqrt_ratio (u v : F) :
    ((sqrtRatio u v).2 = true ↔ val u = 0 ∨ (val u * val v ≠ 0 ∧ IsSquare (val u * val v))) ∧
    ((sqrtRatio u v).2 = true → val v ≠ 0 → val (sqrtRatio u v).1 ^ 2 * val v = val u) := by
  refine ⟨sqrtRatio_ok u v, fun h hv => ?_⟩
  rw [val_sqrtRatio]
  rcases (sqrtRatio_ok u v).1 h with h | ⟨h0, hs⟩
  · rw [h]; ring
  · have := isr_sq_mul h0 hs
    linear_combination val u * this
end

/-- In particular, for the 32-bit backend, `sqrt_ratio` finds a root whenever `u/v` is a square. -/
theorem C46_sqrt_ratio_complete {F L : Type} [FieldBackend F L] [Lawful F] (u v : F)
    (hv : val v ≠ 0) : (sqrtRatio u v).2 = true ↔ IsSquare (val u / val v) :=
  sqrtRatio_isSquare u v hv

/-- Evaluated on the exact field: 39081 is a square, its negative is not, and `2 * 2⁻¹ = 1`. -/
example : (inverseSquareRoot (FieldBackend.NEG_EDWARDS_D : Fast)).2 = true ∧
    (inverseSquareRoot (FieldBackend.EDWARDS_D Fast)).2 = false ∧
    (sqrtRatio (FieldBackend.zero : Fast) (FieldBackend.zero : Fast)).2 = true := by
  decide +kernel

example : feq (FieldBackend.mul (invert (FieldBackend.NEG_EDWARDS_D : Fast))
    (FieldBackend.NEG_EDWARDS_D : Fast)) (FieldBackend.one : Fast) = true := by
  decide +kernel

end Ed448.Props
