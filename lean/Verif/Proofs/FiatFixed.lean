import Verif.Proofs.FiatInstance
import Verif.Gen.Fix

/-!
# The 64-bit backend with the repaired constants

With the four constants of `repairs/C48-tight-constants.patch` every element is within the tight
bound, so the documented contract is enough: nothing is assumed about `relax` outside its bound.
-/

namespace Ed448.Model.Fiat

set_option exponentiation.threshold 1000
set_option maxRecDepth 10000
open Ed448.Model

/-- Functions meeting the contract. -/
structure Meets where
  f : Fns
  contract : Contract f

/-- `FieldElement56` within the tight bound. -/
@[ext] structure TFe (I : Meets) where
  a : Limbs
  h : Tight a

namespace TFe
variable {I : Meets}

/-- The result of an operation that does not panic and returns a tight element. -/
def ofOpt (I : Meets) (o : Option Limbs) (h : ∃ r, o = some r ∧ Tight r) : TFe I :=
  ⟨o.get (by obtain ⟨r, h, -⟩ := h; rw [h]; rfl), by
    obtain ⟨r, h, ht⟩ := h
    have : o.get (by rw [h]; rfl) = r := by simp [h]
    rw [this]; exact ht⟩

theorem ofOpt_some (o : Option Limbs) (h : ∃ r, o = some r ∧ Tight r) :
    o = some (TFe.ofOpt I o h).a := by unfold ofOpt; simp

/-- A constant within the tight bound. -/
def cst (I : Meets) (a : Limbs) (h : Tight a := by decide) : TFe I := ⟨a, h⟩

end TFe

/-- The repaired `minus_one`. Patched src/field/fiat_u64/prime_field.rs -/
def fixMinusOne : Limbs := ⟨Gen.Fix.FieldElement56.minus_one, by rfl, by decide⟩

/-- The repaired `EDWARDS_D`. Patched src/field/fiat_u64/constants.rs -/
def fixEDWARDS_D : Limbs := ⟨Gen.Fix.C.fiat_EDWARDS_D, by rfl, by decide⟩

/-- The repaired `TWISTED_D`. Patched src/field/fiat_u64/constants.rs -/
def fixTWISTED_D : Limbs := ⟨Gen.Fix.C.fiat_TWISTED_D, by rfl, by decide⟩

/-- The repaired `TWO_TIMES_TWISTED_D`. Patched src/field/fiat_u64/constants.rs -/
def fixTWO_TIMES_TWISTED_D : Limbs := ⟨Gen.Fix.C.fiat_TWO_TIMES_TWISTED_D, by rfl, by decide⟩

section
variable {I : Meets}

instance : FieldBackend (TFe I) (TFe I) where
  relax x := x
  mulL x y := TFe.ofOpt I (mul I.f x.a y.a)
    (let ⟨r, h, t, _⟩ := mul_tight I.contract x.h y.h; ⟨r, h, t⟩)
  squareL x := TFe.ofOpt I (square I.f x.a)
    (let ⟨r, h, t, _⟩ := square_tight I.contract x.h; ⟨r, h, t⟩)
  add x y := TFe.ofOpt I (add I.f x.a y.a)
    (let ⟨r, h, t, _⟩ := add_spec I.contract x.h y.h; ⟨r, h, t⟩)
  sub x y := TFe.ofOpt I (sub I.f x.a y.a)
    (let ⟨r, h, t, _⟩ := sub_spec I.contract x.h y.h; ⟨r, h, t⟩)
  negate x := TFe.ofOpt I (negate I.f x.a) (let ⟨r, h, t, _⟩ := negate_spec I.contract x.h; ⟨r, h, t⟩)
  select x y c := TFe.ofOpt I (select I.f x.a y.a c)
    ⟨_, select_spec I.contract _ _ _, by split; exacts [y.h, x.h]⟩
  strongReduce x := TFe.ofOpt I (strongReduce I.f x.a)
    (let ⟨r, h, t, _⟩ := strongReduce_spec I.contract x.h; ⟨r, h, t⟩)
  fromBytes b := TFe.ofOpt I (fromBytes I.f b)
    (let ⟨r, h, t, _⟩ := I.contract.fromBytes b; ⟨r, h, t⟩)
  toBytes x := ofOptB (toBytes I.f x.a) (let ⟨r, h, _⟩ := I.contract.toBytes x.a x.h; ⟨r, h⟩)
  zero := TFe.cst I zero
  one := TFe.cst I one
  minusOne := TFe.cst I fixMinusOne
  EDWARDS_D := TFe.cst I fixEDWARDS_D
  TWISTED_D := TFe.cst I fixTWISTED_D
  TWO_TIMES_TWISTED_D := TFe.cst I fixTWO_TIMES_TWISTED_D
  NEG_EDWARDS_D := TFe.cst I NEG_EDWARDS_D
  NEG_FOUR_TIMES_TWISTED_D := TFe.cst I NEG_FOUR_TIMES_TWISTED_D
  DECAF_FACTOR := TFe.cst I DECAF_FACTOR
  A_PLUS_TWO_OVER_FOUR := TFe.cst I A_PLUS_TWO_OVER_FOUR
  GOLDILOCKS_BASE_POINT := (TFe.cst I G_X, TFe.cst I G_Y, TFe.cst I G_Z, TFe.cst I G_T)
  TWISTED_EDWARDS_BASE_POINT := (TFe.cst I TG_X, TFe.cst I TG_Y, TFe.cst I TG_Z, TFe.cst I TG_T)

instance : Lawful (TFe I) where
  val x := (V x.a : Fp)
  lval x := (V x.a : Fp)
  lval_relax _ := rfl
  val_mulL x y := spec_of_some (TFe.ofOpt_some (I := I) _ _) (mul_tight I.contract x.h y.h)
  val_squareL x := by
    rw [pow_two]
    exact spec_of_some (TFe.ofOpt_some (I := I) _ _) (square_tight I.contract x.h)
  val_add x y := spec_of_some (TFe.ofOpt_some (I := I) _ _) (add_spec I.contract x.h y.h)
  val_sub x y := spec_of_some (TFe.ofOpt_some (I := I) _ _) (sub_spec I.contract x.h y.h)
  val_negate x := spec_of_some (TFe.ofOpt_some (I := I) _ _) (negate_spec I.contract x.h)
  val_select x y c := by
    have h : ∃ r, select I.f x.a y.a c = some r ∧ Tight r ∧
        (V r : Fp) = if c then (V y.a : Fp) else V x.a :=
      ⟨_, select_spec I.contract _ _ _, by split; exacts [y.h, x.h], by split <;> rfl⟩
    exact spec_of_some (TFe.ofOpt_some (I := I) _ _) h
  val_strongReduce x := spec_of_some (TFe.ofOpt_some (I := I) _ _) (strongReduce_spec I.contract x.h)
  val_fromBytes b := spec_of_some (TFe.ofOpt_some (I := I) _ _) (I.contract.fromBytes b)
  toBytes_val x := by
    obtain ⟨r, h1, h2⟩ := I.contract.toBytes x.a x.h
    have e := h1.symm.trans (ofOptB_some (toBytes I.f x.a) ⟨r, h1⟩)
    injection e with e
    change (ofOptB (toBytes I.f x.a) ⟨r, h1⟩).val = _
    rw [← e, h2, ZMod.val_natCast]
  val_zero := by
    refine (V_cast_mod zero 0 ?_).trans (by push_cast; rfl)
    rw [p_lit]; decide +kernel
  val_one := by
    refine (V_cast_mod one 1 ?_).trans (by push_cast; rfl)
    rw [p_lit]; decide +kernel
  lval_minusOne := by
    refine (V_cast_mod fixMinusOne (p - 1) ?_).trans
      ((neg_cast 1 (by rw [p_lit]; norm_num)).trans (by push_cast; rfl))
    rw [p_lit]; decide +kernel
  lval_EDWARDS_D := by
    refine (V_cast_mod fixEDWARDS_D (p - 39081) ?_).trans d_eq.symm
    rw [p_lit]; decide +kernel
  lval_TWISTED_D := by
    refine (V_cast_mod fixTWISTED_D (p - 39082) ?_).trans ?_
    · rw [p_lit]; decide +kernel
    · rw [neg_cast _ (by rw [p_lit]; norm_num), d]; push_cast; ring
  lval_TWO_TIMES_TWISTED_D := by
    refine (V_cast_mod fixTWO_TIMES_TWISTED_D (p - 78164) ?_).trans ?_
    · rw [p_lit]; decide +kernel
    · rw [neg_cast _ (by rw [p_lit]; norm_num), d]; push_cast; ring
  val_NEG_EDWARDS_D := by
    refine (V_cast_mod NEG_EDWARDS_D 39081 ?_).trans ?_
    · rw [p_lit]; decide +kernel
    · rw [d]; push_cast; ring
  val_NEG_FOUR_TIMES_TWISTED_D := by
    refine (V_cast_mod NEG_FOUR_TIMES_TWISTED_D 156328 ?_).trans ?_
    · rw [p_lit]; decide +kernel
    · rw [d]; push_cast; ring
  val_DECAF_FACTOR := by
    refine V_cast_mod DECAF_FACTOR decafFactor ?_
    rw [p_lit]; decide +kernel
  val_A_PLUS_TWO_OVER_FOUR := by
    refine (V_cast_mod A_PLUS_TWO_OVER_FOUR 39082 ?_).trans (by push_cast; rfl)
    rw [p_lit]; decide +kernel
  val_GX := by
    refine V_cast_mod G_X Gx ?_
    rw [p_lit]; decide +kernel
  val_GY := by
    refine V_cast_mod G_Y Gy ?_
    rw [p_lit]; decide +kernel
  val_GZ := by
    refine (V_cast_mod G_Z 1 ?_).trans (by push_cast; rfl)
    rw [p_lit]; decide +kernel
  val_GT := by
    refine (V_cast_mod G_T (Gx * Gy) ?_).trans (by push_cast; rfl)
    rw [p_lit]; decide +kernel
  val_TGX := by
    refine V_cast_mod TG_X TGx ?_
    rw [p_lit]; decide +kernel
  val_TGY := by
    refine V_cast_mod TG_Y TGy ?_
    rw [p_lit]; decide +kernel
  val_TGZ := by
    refine (V_cast_mod TG_Z 1 ?_).trans (by push_cast; rfl)
    rw [p_lit]; decide +kernel
  val_TGT := by
    refine (V_cast_mod TG_T (TGx * TGy) ?_).trans (by push_cast; rfl)
    rw [p_lit]; decide +kernel

end

end Ed448.Model.Fiat
