import Verif.Model.Fiat
import Verif.Proofs.Lawful

/-!
# The 64-bit backend is a lawful field backend

`Contract f` is what the fiat-crypto documentation promises about the functions `f`. `RelaxCopies f`
is an additional fact about the implementation of `relax`, on which the crate relies: see `C48`.
-/

namespace Ed448.Model.Fiat

set_option exponentiation.threshold 1000
open Ed448.Model

/-- The documented contract of `fiat_crypto::p448_solinas_64`. -/
structure Contract (f : Fns) : Prop where
  relax : ∀ a, Tight a → ∃ r, f.relax a = some r ∧ Loose r ∧ (V r : Fp) = V a
  carry : ∀ a, Loose a → ∃ r, f.carry a = some r ∧ Tight r ∧ (V r : Fp) = V a
  carryMul : ∀ a b, Loose a → Loose b → ∃ r, f.carryMul a b = some r ∧ Tight r ∧
    (V r : Fp) = V a * V b
  carrySquare : ∀ a, Loose a → ∃ r, f.carrySquare a = some r ∧ Tight r ∧ (V r : Fp) = V a * V a
  add : ∀ a b, Tight a → Tight b → ∃ r, f.add a b = some r ∧ Loose r ∧ (V r : Fp) = V a + V b
  sub : ∀ a b, Tight a → Tight b → ∃ r, f.sub a b = some r ∧ Loose r ∧ (V r : Fp) = V a - V b
  opp : ∀ a, Tight a → ∃ r, f.opp a = some r ∧ Loose r ∧ (V r : Fp) = -V a
  selectznz : ∀ c a b, c < 2 → f.selectznz c a b = some (if c = 0 then a else b)
  toBytes : ∀ a, Tight a → ∃ r, f.toBytes a = some r ∧ r.val = V a % p
  fromBytes : ∀ b, ∃ r, f.fromBytes b = some r ∧ Tight r ∧ (V r : Fp) = (b.val : Fp)

/-- `fiat_p448_relax` copies its argument, whatever the argument is. -/
def RelaxCopies (f : Fns) : Prop := ∀ a, f.relax a = some a

theorem Tight.loose {a : Limbs} (h : Tight a) : Loose a := fun x hx => (h x hx).trans (by norm_num)

section wrapper
variable {f : Fns} (hc : Contract f)
include hc

theorem mul_tight {a b : Limbs} (ha : Tight a) (hb : Tight b) :
    ∃ r, mul f a b = some r ∧ Tight r ∧ (V r : Fp) = V a * V b := by
  obtain ⟨a', h1, h2, h3⟩ := hc.relax a ha
  obtain ⟨b', k1, k2, k3⟩ := hc.relax b hb
  obtain ⟨r, r1, r2, r3⟩ := hc.carryMul a' b' h2 k2
  refine ⟨r, ?_, r2, by rw [r3, h3, k3]⟩
  simp only [mul, h1, k1, Option.bind_eq_bind, Option.bind_some, r1]

theorem mul_loose (hr : RelaxCopies f) {a b : Limbs} (ha : Loose a) (hb : Loose b) :
    ∃ r, mul f a b = some r ∧ Tight r ∧ (V r : Fp) = V a * V b := by
  obtain ⟨r, r1, r2, r3⟩ := hc.carryMul a b ha hb
  refine ⟨r, ?_, r2, r3⟩
  simp only [mul, hr a, hr b, Option.bind_eq_bind, Option.bind_some, r1]

theorem square_loose (hr : RelaxCopies f) {a : Limbs} (ha : Loose a) :
    ∃ r, square f a = some r ∧ Tight r ∧ (V r : Fp) = V a * V a := by
  obtain ⟨r, r1, r2, r3⟩ := hc.carrySquare a ha
  refine ⟨r, ?_, r2, r3⟩
  simp only [square, hr a, Option.bind_eq_bind, Option.bind_some, r1]

theorem square_tight {a : Limbs} (ha : Tight a) :
    ∃ r, square f a = some r ∧ Tight r ∧ (V r : Fp) = V a * V a := by
  obtain ⟨a', h1, h2, h3⟩ := hc.relax a ha
  obtain ⟨r, r1, r2, r3⟩ := hc.carrySquare a' h2
  refine ⟨r, ?_, r2, by rw [r3, h3]⟩
  simp only [square, h1, Option.bind_eq_bind, Option.bind_some, r1]

theorem add_spec {a b : Limbs} (ha : Tight a) (hb : Tight b) :
    ∃ r, add f a b = some r ∧ Tight r ∧ (V r : Fp) = V a + V b := by
  obtain ⟨s, h1, h2, h3⟩ := hc.add a b ha hb
  obtain ⟨r, r1, r2, r3⟩ := hc.carry s h2
  refine ⟨r, ?_, r2, by rw [r3, h3]⟩
  simp only [add, h1, Option.bind_eq_bind, Option.bind_some, r1]

theorem sub_spec {a b : Limbs} (ha : Tight a) (hb : Tight b) :
    ∃ r, sub f a b = some r ∧ Tight r ∧ (V r : Fp) = V a - V b := by
  obtain ⟨s, h1, h2, h3⟩ := hc.sub a b ha hb
  obtain ⟨r, r1, r2, r3⟩ := hc.carry s h2
  refine ⟨r, ?_, r2, by rw [r3, h3]⟩
  simp only [sub, h1, Option.bind_eq_bind, Option.bind_some, r1]

theorem negate_spec {a : Limbs} (ha : Tight a) :
    ∃ r, negate f a = some r ∧ Tight r ∧ (V r : Fp) = -V a := by
  obtain ⟨s, h1, h2, h3⟩ := hc.opp a ha
  obtain ⟨r, r1, r2, r3⟩ := hc.carry s h2
  refine ⟨r, ?_, r2, by rw [r3, h3]⟩
  simp only [negate, h1, Option.bind_eq_bind, Option.bind_some, r1]

theorem strongReduce_spec {a : Limbs} (ha : Tight a) :
    ∃ r, strongReduce f a = some r ∧ Tight r ∧ (V r : Fp) = V a := by
  obtain ⟨s, h1, h2, h3⟩ := hc.relax a ha
  obtain ⟨r, r1, r2, r3⟩ := hc.carry s h2
  refine ⟨r, ?_, r2, by rw [r3, h3]⟩
  simp only [strongReduce, h1, Option.bind_eq_bind, Option.bind_some, r1]

theorem select_spec (a b : Limbs) (c : Bool) : select f a b c = some (if c then b else a) := by
  unfold select
  cases c
  · exact hc.selectznz 0 a b (by norm_num)
  · exact hc.selectznz 1 a b (by norm_num)

end wrapper

/-! ## The instance -/

/-- Functions meeting the contract whose `relax` copies. -/
structure Impl where
  f : Fns
  contract : Contract f
  copies : RelaxCopies f

/-- `FieldElement56` within the tight bound. -/
@[ext] structure Fe (I : Impl) where
  a : Limbs
  h : Tight a

/-- `FieldElement56` within the loose bound. -/
@[ext] structure LFe (I : Impl) where
  a : Limbs
  h : Loose a

variable {I : Impl}

/-- The result of an operation that does not panic and returns a tight element. -/
def ofOpt (I : Impl) (o : Option Limbs) (h : ∃ r, o = some r ∧ Tight r) : Fe I :=
  ⟨o.get (by obtain ⟨r, h, -⟩ := h; rw [h]; rfl), by
    obtain ⟨r, h, ht⟩ := h
    have : o.get (by rw [h]; rfl) = r := by simp [h]
    rw [this]; exact ht⟩

theorem ofOpt_some (o : Option Limbs) (h : ∃ r, o = some r ∧ Tight r) :
    o = some (ofOpt I o h).a := by unfold ofOpt; simp

/-- The result of an operation that does not panic. -/
def ofOptB (o : Option (Bytes 56)) (h : ∃ r, o = some r) : Bytes 56 :=
  o.get (by obtain ⟨r, h⟩ := h; rw [h]; rfl)

theorem ofOptB_some (o : Option (Bytes 56)) (h : ∃ r, o = some r) : o = some (ofOptB o h) := by
  unfold ofOptB; simp

/-- A constant within the tight bound. -/
def cst (I : Impl) (a : Limbs) (h : Tight a := by decide) : Fe I := ⟨a, h⟩

/-- A constant within the loose bound. -/
def lcst (I : Impl) (a : Limbs) (h : Loose a := by decide) : LFe I := ⟨a, h⟩

instance : FieldBackend (Fe I) (LFe I) where
  relax x := ⟨x.a, x.h.loose⟩
  mulL x y := ofOpt I (mul I.f x.a y.a)
    (let ⟨r, h, t, _⟩ := mul_loose I.contract I.copies x.h y.h; ⟨r, h, t⟩)
  squareL x := ofOpt I (square I.f x.a)
    (let ⟨r, h, t, _⟩ := square_loose I.contract I.copies x.h; ⟨r, h, t⟩)
  add x y := ofOpt I (add I.f x.a y.a)
    (let ⟨r, h, t, _⟩ := add_spec I.contract x.h y.h; ⟨r, h, t⟩)
  sub x y := ofOpt I (sub I.f x.a y.a)
    (let ⟨r, h, t, _⟩ := sub_spec I.contract x.h y.h; ⟨r, h, t⟩)
  negate x := ofOpt I (negate I.f x.a) (let ⟨r, h, t, _⟩ := negate_spec I.contract x.h; ⟨r, h, t⟩)
  select x y c := ofOpt I (select I.f x.a y.a c)
    ⟨_, select_spec I.contract _ _ _, by split; exacts [y.h, x.h]⟩
  strongReduce x := ofOpt I (strongReduce I.f x.a)
    (let ⟨r, h, t, _⟩ := strongReduce_spec I.contract x.h; ⟨r, h, t⟩)
  fromBytes b := ofOpt I (fromBytes I.f b)
    (let ⟨r, h, t, _⟩ := I.contract.fromBytes b; ⟨r, h, t⟩)
  toBytes x := ofOptB (toBytes I.f x.a) (let ⟨r, h, _⟩ := I.contract.toBytes x.a x.h; ⟨r, h⟩)
  zero := cst I zero
  one := cst I one
  minusOne := lcst I minusOne
  EDWARDS_D := lcst I EDWARDS_D
  TWISTED_D := lcst I TWISTED_D
  TWO_TIMES_TWISTED_D := lcst I TWO_TIMES_TWISTED_D
  NEG_EDWARDS_D := cst I NEG_EDWARDS_D
  NEG_FOUR_TIMES_TWISTED_D := cst I NEG_FOUR_TIMES_TWISTED_D
  DECAF_FACTOR := cst I DECAF_FACTOR
  A_PLUS_TWO_OVER_FOUR := cst I A_PLUS_TWO_OVER_FOUR
  GOLDILOCKS_BASE_POINT := (cst I G_X, cst I G_Y, cst I G_Z, cst I G_T)
  TWISTED_EDWARDS_BASE_POINT := (cst I TG_X, cst I TG_Y, cst I TG_Z, cst I TG_T)

theorem spec_of_some {o : Option Limbs} {P : Limbs → Prop} {r : Limbs} (e : o = some r)
    (h : ∃ r, o = some r ∧ Tight r ∧ P r) : P r := by
  obtain ⟨r', h, -, hp⟩ := h
  rw [e] at h
  cases h
  exact hp

theorem V_cast_mod (a : Limbs) (n : ℕ) (h : V a % p = n % p) : (V a : Fp) = (n : Fp) := by
  rw [← ZMod.natCast_mod (V a) p, h, ZMod.natCast_mod]

instance : Lawful (Fe I) where
  val x := (V x.a : Fp)
  lval x := (V x.a : Fp)
  lval_relax _ := rfl
  val_mulL x y := spec_of_some (ofOpt_some (I := I) _ _) (mul_loose I.contract I.copies x.h y.h)
  val_squareL x := by
    rw [pow_two]
    exact spec_of_some (ofOpt_some (I := I) _ _) (square_loose I.contract I.copies x.h)
  val_add x y := spec_of_some (ofOpt_some (I := I) _ _) (add_spec I.contract x.h y.h)
  val_sub x y := spec_of_some (ofOpt_some (I := I) _ _) (sub_spec I.contract x.h y.h)
  val_negate x := spec_of_some (ofOpt_some (I := I) _ _) (negate_spec I.contract x.h)
  val_select x y c := by
    have h : ∃ r, select I.f x.a y.a c = some r ∧ Tight r ∧
        (V r : Fp) = if c then (V y.a : Fp) else V x.a :=
      ⟨_, select_spec I.contract _ _ _, by split; exacts [y.h, x.h], by split <;> rfl⟩
    exact spec_of_some (ofOpt_some (I := I) _ _) h
  val_strongReduce x := spec_of_some (ofOpt_some (I := I) _ _) (strongReduce_spec I.contract x.h)
  val_fromBytes b := spec_of_some (ofOpt_some (I := I) _ _) (I.contract.fromBytes b)
  toBytes_val x := by
    obtain ⟨r, h1, h2⟩ := I.contract.toBytes x.a x.h
    have e := h1.symm.trans (ofOptB_some (toBytes I.f x.a) ⟨r, h1⟩)
    injection e with e
    change (ofOptB (toBytes I.f x.a) ⟨r, h1⟩).val = _
    rw [← e, h2, ZMod.val_natCast]
  val_zero := by
    refine (V_cast_mod zero 0 ?_).trans (by push_cast; rfl)
    rw [p_lit]; decide +kernel
  val_one := by
    refine (V_cast_mod one 1 ?_).trans (by push_cast; rfl)
    rw [p_lit]; decide +kernel
  lval_minusOne := by
    refine (V_cast_mod minusOne (p - 1) ?_).trans
      ((neg_cast 1 (by rw [p_lit]; norm_num)).trans (by push_cast; rfl))
    rw [p_lit]; decide +kernel
  lval_EDWARDS_D := by
    refine (V_cast_mod EDWARDS_D (p - 39081) ?_).trans d_eq.symm
    rw [p_lit]; decide +kernel
  lval_TWISTED_D := by
    refine (V_cast_mod TWISTED_D (p - 39082) ?_).trans ?_
    · rw [p_lit]; decide +kernel
    · rw [neg_cast _ (by rw [p_lit]; norm_num), d]; push_cast; ring
  lval_TWO_TIMES_TWISTED_D := by
    refine (V_cast_mod TWO_TIMES_TWISTED_D (p - 78164) ?_).trans ?_
    · rw [p_lit]; decide +kernel
    · rw [neg_cast _ (by rw [p_lit]; norm_num), d]; push_cast; ring
  val_NEG_EDWARDS_D := by
    refine (V_cast_mod NEG_EDWARDS_D 39081 ?_).trans ?_
    · rw [p_lit]; decide +kernel
    · rw [d]; push_cast; ring
  val_NEG_FOUR_TIMES_TWISTED_D := by
    refine (V_cast_mod NEG_FOUR_TIMES_TWISTED_D 156328 ?_).trans ?_
    · rw [p_lit]; decide +kernel
    · rw [d]; push_cast; ring
  val_DECAF_FACTOR := by
    refine V_cast_mod DECAF_FACTOR decafFactor ?_
    rw [p_lit]; decide +kernel
  val_A_PLUS_TWO_OVER_FOUR := by
    refine (V_cast_mod A_PLUS_TWO_OVER_FOUR 39082 ?_).trans (by push_cast; rfl)
    rw [p_lit]; decide +kernel
  val_GX := by
    refine V_cast_mod G_X Gx ?_
    rw [p_lit]; decide +kernel
  val_GY := by
    refine V_cast_mod G_Y Gy ?_
    rw [p_lit]; decide +kernel
  val_GZ := by
    refine (V_cast_mod G_Z 1 ?_).trans (by push_cast; rfl)
    rw [p_lit]; decide +kernel
  val_GT := by
    refine (V_cast_mod G_T (Gx * Gy) ?_).trans (by push_cast; rfl)
    rw [p_lit]; decide +kernel
  val_TGX := by
    refine V_cast_mod TG_X TGx ?_
    rw [p_lit]; decide +kernel
  val_TGY := by
    refine V_cast_mod TG_Y TGy ?_
    rw [p_lit]; decide +kernel
  val_TGZ := by
    refine (V_cast_mod TG_Z 1 ?_).trans (by push_cast; rfl)
    rw [p_lit]; decide +kernel
  val_TGT := by
    refine (V_cast_mod TG_T (TGx * TGy) ?_).trans (by push_cast; rfl)
    rw [p_lit]; decide +kernel

end Ed448.Model.Fiat
