import Verif.Gen.Leak
import Verif.Gen.Fiat
/-!
# Mechanical translation of src/field/fiat_u64 with leakage

Generated by tools/rust2lean.py; do not edit. Each definition is the translation of the cited Rust
function in the monad `Lk`, which records the leakage; see `Verif.Gen.Leak`. A function that has no
branch, no loop and no computed address, and calls only such functions, is called without leakage.
-/

set_option linter.all false

namespace Ed448.Leak
open Ed448.Model FieldBackend


/-- Translation of `index` with its leakage. /repo/src/field/fiat_u64/prime_field.rs:28-30 -/
def FieldElement56.index (self : List ℕ) (a : ℕ) : Lk ℕ :=
  (Lk.idx self a).bind fun τ1 =>
  Lk.ret τ1

/-- Translation of `index_mut` with its leakage. /repo/src/field/fiat_u64/prime_field.rs:34-36 -/
def FieldElement56.index_mut (self : List ℕ) (a : ℕ) (v : ℕ) : Lk (List ℕ) :=
  (Lk.put self a v).bind fun τ1 =>
  let self := τ1
  Lk.ret (self)

/-- Translation of `mul` with its leakage. /repo/src/field/fiat_u64/prime_field.rs:40-48 -/
def FieldElement56.op_mul (fns : Model.Fiat.Fns) (self : List ℕ) (rhs : List ℕ) : Lk (List ℕ) :=
  let result : List ℕ := Gen.FieldElement56.zero
  let self_loose : List ℕ := (List.replicate 8 (0 : ℕ))
  (Lk.lift (Gen.Rt.fiat_relax fns self)).bind fun τ1 =>
  let self_loose := τ1
  let rhs_loose : List ℕ := (List.replicate 8 (0 : ℕ))
  (Lk.lift (Gen.Rt.fiat_relax fns rhs)).bind fun τ2 =>
  let rhs_loose := τ2
  (Lk.lift (Gen.Rt.fiat_carry_mul fns self_loose rhs_loose)).bind fun τ3 =>
  let result := τ3
  Lk.ret result

/-- Translation of `mul` with its leakage. /repo/src/field/fiat_u64/prime_field.rs:52-54 -/
def FieldElement56.op_mul2 (fns : Model.Fiat.Fns) (self : List ℕ) (rhs : List ℕ) : Lk (List ℕ) :=
  (Lk.lift (Gen.FieldElement56.op_mul fns self rhs)).bind fun τ1 =>
  Lk.ret τ1

/-- Translation of `mul` with its leakage. /repo/src/field/fiat_u64/prime_field.rs:58-60 -/
def FieldElement56.op_mul3 (fns : Model.Fiat.Fns) (self : List ℕ) (rhs : List ℕ) : Lk (List ℕ) :=
  (Lk.lift (Gen.FieldElement56.op_mul fns self rhs)).bind fun τ1 =>
  Lk.ret τ1

/-- Translation of `add` with its leakage. /repo/src/field/fiat_u64/prime_field.rs:65-71 -/
def FieldElement56.op_add (fns : Model.Fiat.Fns) (self : List ℕ) (rhs : List ℕ) : Lk (List ℕ) :=
  let result_loose : List ℕ := (List.replicate 8 (0 : ℕ))
  (Lk.lift (Gen.Rt.fiat_add fns self rhs)).bind fun τ1 =>
  let result_loose := τ1
  let result : List ℕ := Gen.FieldElement56.zero
  (Lk.lift (Gen.Rt.fiat_carry fns result_loose)).bind fun τ2 =>
  let result := τ2
  Lk.ret result

/-- Translation of `sub` with its leakage. /repo/src/field/fiat_u64/prime_field.rs:75-81 -/
def FieldElement56.op_sub (fns : Model.Fiat.Fns) (self : List ℕ) (rhs : List ℕ) : Lk (List ℕ) :=
  let result_loose : List ℕ := (List.replicate 8 (0 : ℕ))
  (Lk.lift (Gen.Rt.fiat_sub fns self rhs)).bind fun τ1 =>
  let result_loose := τ1
  let result : List ℕ := Gen.FieldElement56.zero
  (Lk.lift (Gen.Rt.fiat_carry fns result_loose)).bind fun τ2 =>
  let result := τ2
  Lk.ret result

/-- Translation of `negate` with its leakage. /repo/src/field/fiat_u64/prime_field.rs:180-186 -/
def FieldElement56.negate (fns : Model.Fiat.Fns) (self : List ℕ) : Lk (List ℕ) :=
  let result_loose : List ℕ := (List.replicate 8 (0 : ℕ))
  (Lk.lift (Gen.Rt.fiat_opp fns self)).bind fun τ1 =>
  let result_loose := τ1
  let result : List ℕ := Gen.FieldElement56.zero
  (Lk.lift (Gen.Rt.fiat_carry fns result_loose)).bind fun τ2 =>
  let result := τ2
  Lk.ret result

/-- Translation of `conditional_select` with its leakage. /repo/src/field/fiat_u64/prime_field.rs:92-100 -/
def FieldElement56.conditional_select (fns : Model.Fiat.Fns) (a : List ℕ) (b : List ℕ) (choice : Bool) : Lk (List ℕ) :=
  let result : List ℕ := Gen.FieldElement56.zero
  (Lk.lift (Gen.Rt.fiat_selectznz fns (Bool.toNat choice) a b)).bind fun τ1 =>
  let result := τ1
  Lk.ret result

/-- Translation of `conditional_negate` with its leakage. /repo/src/field/fiat_u64/prime_field.rs:85-88 -/
def FieldElement56.conditional_negate (fns : Model.Fiat.Fns) (self : List ℕ) (choice : Bool) : Lk (List ℕ) :=
  (Lk.lift (Gen.FieldElement56.negate fns self)).bind fun τ1 =>
  let self_neg : List ℕ := τ1
  (Lk.lift (Gen.FieldElement56.conditional_select fns self self_neg choice)).bind fun τ2 =>
  let self := τ2
  Lk.ret (self)

/-- Translation of `to_bytes` with its leakage. /repo/src/field/fiat_u64/prime_field.rs:163-167 -/
def FieldElement56.to_bytes (fns : Model.Fiat.Fns) (self : List ℕ) : Lk (List ℕ) :=
  let res : List ℕ := (List.replicate 56 (0 : ℕ))
  (Lk.lift (Gen.Rt.fiat_to_bytes fns self)).bind fun τ1 =>
  let res := τ1
  Lk.ret res

/-- Translation of `is_negative` with its leakage. /repo/src/field/fiat_u64/prime_field.rs:138-141 -/
def FieldElement56.is_negative (fns : Model.Fiat.Fns) (self : List ℕ) : Lk Bool :=
  (Lk.lift (Gen.FieldElement56.to_bytes fns self)).bind fun τ1 =>
  let bytes : List ℕ := τ1
  (Lk.lift (Gen.Rt.choice ((bytes.getD 0 0) &&& (1 : ℕ)))).bind fun τ2 =>
  Lk.ret τ2

/-- Translation of `from_raw_slice` with its leakage. /repo/src/field/fiat_u64/prime_field.rs:149-151 -/
def FieldElement56.from_raw_slice (slice : List ℕ) : Lk (List ℕ) :=
  Lk.ret slice

/-- Translation of `from_bytes` with its leakage. /repo/src/field/fiat_u64/prime_field.rs:156-160 -/
def FieldElement56.from_bytes (fns : Model.Fiat.Fns) (bytes : List ℕ) : Lk (List ℕ) :=
  let res : List ℕ := Gen.FieldElement56.zero
  (Lk.lift (Gen.Rt.fiat_from_bytes fns bytes)).bind fun τ1 =>
  let res := τ1
  Lk.ret res

/-- Translation of `square` with its leakage. /repo/src/field/fiat_u64/prime_field.rs:172-178 -/
def FieldElement56.square (fns : Model.Fiat.Fns) (self : List ℕ) : Lk (List ℕ) :=
  let self_loose : List ℕ := (List.replicate 8 (0 : ℕ))
  (Lk.lift (Gen.Rt.fiat_relax fns self)).bind fun τ1 =>
  let self_loose := τ1
  let result : List ℕ := Gen.FieldElement56.zero
  (Lk.lift (Gen.Rt.fiat_carry_square fns self_loose)).bind fun τ2 =>
  let result := τ2
  Lk.ret result

/-- Translation of `strong_reduce` with its leakage. /repo/src/field/fiat_u64/prime_field.rs:191-195 -/
def FieldElement56.strong_reduce (fns : Model.Fiat.Fns) (self : List ℕ) : Lk (List ℕ) :=
  let self_loose : List ℕ := (List.replicate 8 (0 : ℕ))
  (Lk.lift (Gen.Rt.fiat_relax fns self)).bind fun τ1 =>
  let self_loose := τ1
  (Lk.lift (Gen.Rt.fiat_carry fns self_loose)).bind fun τ2 =>
  let self := τ2
  Lk.ret (self)

end Ed448.Leak
