import Verif.Gen.Fiat
import Verif.Gen.U32
import Verif.Proofs.SourceScalar
import Verif.Model.U32Const

/-!
# The 64-bit backend: the model equals the translated source

`Gen.FieldElement56.*` is the mechanical translation of /repo/src/field/fiat_u64; the functions of the
external crate are the parameter `f` on both sides. Also the constant points of both backends.
-/

namespace Ed448.Proofs.Source
open Ed448.Model

/-- A list with the right length and bounds is accepted. -/
theorem ofList_l {n B : ℕ} (a : Arr n B) : Arr.ofList? n B a.l = some a := by
  rw [Arr.ofList?, dif_pos ⟨a.len, a.lt⟩]

theorem fiat1_eq (g : Fiat.Limbs → Option Fiat.Limbs) (a : Fiat.Limbs) :
    Gen.Rt.fiat1 g a.l = (g a).map (·.l) := by
  rw [Gen.Rt.fiat1, ofList_l]; rfl

theorem fiat2_eq (g : Fiat.Limbs → Fiat.Limbs → Option Fiat.Limbs) (a b : Fiat.Limbs) :
    Gen.Rt.fiat2 g a.l b.l = (g a b).map (·.l) := by
  rw [Gen.Rt.fiat2, ofList_l, ofList_l]; rfl

variable (f : Fiat.Fns)

theorem fiat_zero : Gen.FieldElement56.zero = Fiat.zero.l := rfl
theorem fiat_one : Gen.FieldElement56.one = Fiat.one.l := rfl
theorem fiat_default : Gen.FieldElement56.default = Fiat.zero.l := rfl
theorem fiat_minus_one : Gen.FieldElement56.minus_one = Fiat.minusOne.l := rfl
theorem fiat_from_raw_slice (a : Fiat.Limbs) : Gen.FieldElement56.from_raw_slice a.l = a.l := rfl

/-- `Mul`. -/
theorem fiat_mul (a b : Fiat.Limbs) :
    Gen.FieldElement56.op_mul f a.l b.l = (Fiat.mul f a b).map (·.l) := by
  unfold Gen.FieldElement56.op_mul Fiat.mul Gen.Rt.fiat_relax Gen.Rt.fiat_carry_mul
  rw [fiat1_eq, fiat1_eq]
  cases f.relax a with
  | none => rfl
  | some a' =>
    cases f.relax b with
    | none => rfl
    | some b' =>
      show (Gen.Rt.fiat2 f.carryMul a'.l b'.l).bind some = (f.carryMul a' b').map (·.l)
      rw [bind_id, fiat2_eq]

theorem fiat_mul2 (a b : Fiat.Limbs) :
    Gen.FieldElement56.op_mul2 f a.l b.l = (Fiat.mul f a b).map (·.l) := by
  rw [Gen.FieldElement56.op_mul2, bind_id, fiat_mul]

theorem fiat_mul3 (a b : Fiat.Limbs) :
    Gen.FieldElement56.op_mul3 f a.l b.l = (Fiat.mul f a b).map (·.l) := by
  rw [Gen.FieldElement56.op_mul3, bind_id, fiat_mul]

/-- `Add`. -/
theorem fiat_add (a b : Fiat.Limbs) :
    Gen.FieldElement56.op_add f a.l b.l = (Fiat.add f a b).map (·.l) := by
  unfold Gen.FieldElement56.op_add Fiat.add Gen.Rt.fiat_add Gen.Rt.fiat_carry
  rw [fiat2_eq]
  cases f.add a b with
  | none => rfl
  | some r =>
    show (Gen.Rt.fiat1 f.carry r.l).bind some = (f.carry r).map (·.l)
    rw [bind_id, fiat1_eq]

/-- `Sub`. -/
theorem fiat_sub (a b : Fiat.Limbs) :
    Gen.FieldElement56.op_sub f a.l b.l = (Fiat.sub f a b).map (·.l) := by
  unfold Gen.FieldElement56.op_sub Fiat.sub Gen.Rt.fiat_sub Gen.Rt.fiat_carry
  rw [fiat2_eq]
  cases f.sub a b with
  | none => rfl
  | some r =>
    show (Gen.Rt.fiat1 f.carry r.l).bind some = (f.carry r).map (·.l)
    rw [bind_id, fiat1_eq]

/-- `negate`. -/
theorem fiat_negate (a : Fiat.Limbs) :
    Gen.FieldElement56.negate f a.l = (Fiat.negate f a).map (·.l) := by
  unfold Gen.FieldElement56.negate Fiat.negate Gen.Rt.fiat_opp Gen.Rt.fiat_carry
  rw [fiat1_eq]
  cases f.opp a with
  | none => rfl
  | some r =>
    show (Gen.Rt.fiat1 f.carry r.l).bind some = (f.carry r).map (·.l)
    rw [bind_id, fiat1_eq]

/-- `square`. -/
theorem fiat_square (a : Fiat.Limbs) :
    Gen.FieldElement56.square f a.l = (Fiat.square f a).map (·.l) := by
  unfold Gen.FieldElement56.square Fiat.square Gen.Rt.fiat_relax Gen.Rt.fiat_carry_square
  rw [fiat1_eq]
  cases f.relax a with
  | none => rfl
  | some r =>
    show (Gen.Rt.fiat1 f.carrySquare r.l).bind some = (f.carrySquare r).map (·.l)
    rw [bind_id, fiat1_eq]

/-- `strong_reduce`. -/
theorem fiat_strong_reduce (a : Fiat.Limbs) :
    Gen.FieldElement56.strong_reduce f a.l = (Fiat.strongReduce f a).map (·.l) := by
  unfold Gen.FieldElement56.strong_reduce Fiat.strongReduce Gen.Rt.fiat_relax Gen.Rt.fiat_carry
  rw [fiat1_eq]
  cases f.relax a with
  | none => rfl
  | some r =>
    show (Gen.Rt.fiat1 f.carry r.l).bind some = (f.carry r).map (·.l)
    rw [bind_id, fiat1_eq]

/-- `conditional_select`. -/
theorem fiat_select (a b : Fiat.Limbs) (c : Bool) :
    Gen.FieldElement56.conditional_select f a.l b.l c = (Fiat.select f a b c).map (·.l) := by
  unfold Gen.FieldElement56.conditional_select Fiat.select Gen.Rt.fiat_selectznz
  show (Gen.Rt.fiat2 (f.selectznz (Bool.toNat c)) a.l b.l).bind some = _
  rw [bind_id, fiat2_eq]
  cases c <;> rfl

/-- `conditional_negate`. -/
theorem fiat_cond_negate (a : Fiat.Limbs) (c : Bool) :
    Gen.FieldElement56.conditional_negate f a.l c =
      ((Fiat.negate f a).bind fun n => Fiat.select f a n c).map (·.l) := by
  rw [Gen.FieldElement56.conditional_negate, fiat_negate]
  cases Fiat.negate f a with
  | none => rfl
  | some n =>
    show (Gen.FieldElement56.conditional_select f a.l n.l c).bind some = (Fiat.select f a n c).map (·.l)
    rw [bind_id, fiat_select]

/-- `to_bytes`. -/
theorem fiat_to_bytes (a : Fiat.Limbs) :
    Gen.FieldElement56.to_bytes f a.l = (Fiat.toBytes f a).map (·.l) := by
  show (Gen.Rt.fiat_to_bytes f a.l).bind some = _
  rw [bind_id, Gen.Rt.fiat_to_bytes, ofList_l]; rfl

/-- `from_bytes`. -/
theorem fiat_from_bytes (b : Bytes 56) :
    Gen.FieldElement56.from_bytes f b.l = (Fiat.fromBytes f b).map (·.l) := by
  show (Gen.Rt.fiat_from_bytes f b.l).bind some = _
  rw [bind_id, Gen.Rt.fiat_from_bytes, ofList_l]; rfl

/-- `is_negative`. -/
theorem fiat_is_negative (a : Fiat.Limbs) : Gen.FieldElement56.is_negative f a.l =
    (Fiat.toBytes f a).map fun b => b.l.headD 0 &&& 1 == 1 := by
  unfold Gen.FieldElement56.is_negative
  dsimp only
  rw [fiat_to_bytes]
  cases Fiat.toBytes f a with
  | none => rfl
  | some b =>
    rw [Option.map_some, bsome, bind_id, Option.map_some]
    have e : b.l.getD 0 0 = b.l.headD 0 := by cases b.l <;> rfl
    rw [e, Nat.and_one_is_mod]
    rcases Nat.mod_two_eq_zero_or_one (b.l.headD 0) with h | h <;> rw [h] <;> rfl

/-- `Index`: a read within the eight limbs, a panic outside. -/
theorem fiat_index (a : Fiat.Limbs) (i : ℕ) : Gen.FieldElement56.index a.l i = a.l[i]? := by
  rw [Gen.FieldElement56.index, bind_id, Gen.Rt.idx]

/-- `IndexMut`. -/
theorem fiat_index_mut (a : Fiat.Limbs) (i v : ℕ) :
    Gen.FieldElement56.index_mut a.l i v = if i < 8 then some (a.l.set i v) else none := by
  show (Gen.Rt.put a.l i v).bind some = _
  rw [bind_id, Gen.Rt.put, a.len]

/-- `Index` on the 32-bit backend. -/
theorem fe_index (a : U32.Raw) (i : ℕ) : Gen.FieldElement28.index a.l i = a.l[i]? := by
  rw [Gen.FieldElement28.index, bind_id, Gen.Rt.idx]

/-- `IndexMut` on the 32-bit backend. -/
theorem fe_index_mut (a : U32.Raw) (i v : ℕ) :
    Gen.FieldElement28.index_mut a.l i v = if i < 16 then some (a.l.set i v) else none := by
  show (Gen.Rt.put a.l i v).bind some = _
  rw [bind_id, Gen.Rt.put, a.len]

/-- `Index` on scalars. -/
theorem scalar_index (a : Scalar) (i : ℕ) : Gen.Scalar.index a.l i = a.index i := by
  rw [Gen.Scalar.index, bind_id, Gen.Rt.idx, Scalar.index]

/-- `IndexMut` on scalars, for a 32-bit value. -/
theorem scalar_index_mut (a : Scalar) (i v : ℕ) (hv : v < 2 ^ 32) :
    Gen.Scalar.index_mut a.l i v = (a.indexMut i v).map (·.l) := by
  show (Gen.Rt.put a.l i v).bind some = _
  rw [bind_id, Gen.Rt.put, a.len, Scalar.indexMut]
  by_cases h : i < 14
  · rw [if_pos h, if_pos h, Arr.ofList?, dif_pos]
    · rfl
    · refine ⟨by rw [List.length_set, a.len], fun x hx => ?_⟩
      rcases List.mem_or_eq_of_mem_set hx with hx | rfl
      exacts [a.lt x hx, hv]
  · rw [if_neg h, if_neg h]; rfl

theorem fiat_NEG_FOUR_TIMES_TWISTED_D :
    Gen.C.fiat_NEG_FOUR_TIMES_TWISTED_D = Fiat.NEG_FOUR_TIMES_TWISTED_D.l := rfl
theorem fiat_EDWARDS_D : Gen.C.fiat_EDWARDS_D = Fiat.EDWARDS_D.l := rfl
theorem fiat_NEG_EDWARDS_D : Gen.C.fiat_NEG_EDWARDS_D = Fiat.NEG_EDWARDS_D.l := rfl
theorem fiat_TWISTED_D : Gen.C.fiat_TWISTED_D = Fiat.TWISTED_D.l := rfl
theorem fiat_TWO_TIMES_TWISTED_D : Gen.C.fiat_TWO_TIMES_TWISTED_D = Fiat.TWO_TIMES_TWISTED_D.l := rfl
theorem fiat_DECAF_FACTOR : Gen.C.fiat_DECAF_FACTOR = Fiat.DECAF_FACTOR.l := rfl
theorem fiat_A_PLUS_TWO_OVER_FOUR : Gen.C.fiat_A_PLUS_TWO_OVER_FOUR = Fiat.A_PLUS_TWO_OVER_FOUR.l := rfl
theorem fiat_GOLDILOCKS_BASE_POINT :
    Gen.C.fiat_GOLDILOCKS_BASE_POINT = (Fiat.G_X.l, Fiat.G_Y.l, Fiat.G_Z.l, Fiat.G_T.l) := rfl
theorem fiat_TWISTED_EDWARDS_BASE_POINT :
    Gen.C.fiat_TWISTED_EDWARDS_BASE_POINT = (Fiat.TG_X.l, Fiat.TG_Y.l, Fiat.TG_Z.l, Fiat.TG_T.l) := rfl
theorem const_GOLDILOCKS_BASE_POINT :
    Gen.C.GOLDILOCKS_BASE_POINT = (U32.G_X.l, U32.G_Y.l, U32.G_Z.l, U32.G_T.l) := rfl
theorem const_TWISTED_EDWARDS_BASE_POINT :
    Gen.C.TWISTED_EDWARDS_BASE_POINT = (U32.TG_X.l, U32.TG_Y.l, U32.TG_Z.l, U32.TG_T.l) := rfl

end Ed448.Proofs.Source
