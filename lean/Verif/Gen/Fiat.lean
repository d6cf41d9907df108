import Verif.Gen.Rt
import Verif.Model.Fiat
/-!
# Mechanical translation of src/field/fiat_u64

Generated by tools/rust2lean.py; do not edit. Each definition is the translation of the cited Rust
function; see tools/rust2lean.py for the rules and `Verif.Gen.Rt` for the operations.
-/

set_option linter.all false

namespace Ed448.Gen
open Ed448.Model FieldBackend


/-- Constant `NEG_FOUR_TIMES_TWISTED_D`. /repo/src/field/fiat_u64/constants.rs:10-20 -/
def C.fiat_NEG_FOUR_TIMES_TWISTED_D : List ℕ := ([(156327 : ℕ), (0 : ℕ), (0 : ℕ), (0 : ℕ), (72057594037927935 : ℕ), (72057594037927935 : ℕ), (72057594037927935 : ℕ), (72057594037927935 : ℕ)] : List ℕ)

/-- Constant `EDWARDS_D`. /repo/src/field/fiat_u64/constants.rs:23-32 -/
def C.fiat_EDWARDS_D : List ℕ := ([(144115188075816789 : ℕ), (144115188075855870 : ℕ), (144115188075855870 : ℕ), (144115188075855870 : ℕ), (144115188075855868 : ℕ), (144115188075855870 : ℕ), (144115188075855870 : ℕ), (144115188075855870 : ℕ)] : List ℕ)

/-- Constant `NEG_EDWARDS_D`. /repo/src/field/fiat_u64/constants.rs:35-36 -/
def C.fiat_NEG_EDWARDS_D : List ℕ := ([(39081 : ℕ), (0 : ℕ), (0 : ℕ), (0 : ℕ), (0 : ℕ), (0 : ℕ), (0 : ℕ), (0 : ℕ)] : List ℕ)

/-- Constant `TWISTED_D`. /repo/src/field/fiat_u64/constants.rs:39-48 -/
def C.fiat_TWISTED_D : List ℕ := ([(144115188075816788 : ℕ), (144115188075855870 : ℕ), (144115188075855870 : ℕ), (144115188075855870 : ℕ), (144115188075855868 : ℕ), (144115188075855870 : ℕ), (144115188075855870 : ℕ), (144115188075855870 : ℕ)] : List ℕ)

/-- Constant `TWO_TIMES_TWISTED_D`. /repo/src/field/fiat_u64/constants.rs:51-60 -/
def C.fiat_TWO_TIMES_TWISTED_D : List ℕ := ([(144115188075777706 : ℕ), (144115188075855870 : ℕ), (144115188075855870 : ℕ), (144115188075855870 : ℕ), (144115188075855868 : ℕ), (144115188075855870 : ℕ), (144115188075855870 : ℕ), (144115188075855870 : ℕ)] : List ℕ)

/-- Constant `DECAF_FACTOR`. /repo/src/field/fiat_u64/constants.rs:63-72 -/
def C.fiat_DECAF_FACTOR : List ℕ := ([(18840197329790774 : ℕ), (34892632690676374 : ℕ), (68958546943959091 : ℕ), (42375267163019878 : ℕ), (52025915502417792 : ℕ), (30012964935809189 : ℕ), (29339327698972578 : ℕ), (9809168364676343 : ℕ)] : List ℕ)

/-- Constant `A_PLUS_TWO_OVER_FOUR`. /repo/src/field/fiat_u64/constants.rs:75-76 -/
def C.fiat_A_PLUS_TWO_OVER_FOUR : List ℕ := ([(39082 : ℕ), (0 : ℕ), (0 : ℕ), (0 : ℕ), (0 : ℕ), (0 : ℕ), (0 : ℕ), (0 : ℕ)] : List ℕ)

/-- Constant `GOLDILOCKS_BASE_POINT` (X, Y, Z, T). /repo/src/field/fiat_u64/constants.rs:79-111 -/
def C.fiat_GOLDILOCKS_BASE_POINT : List ℕ × List ℕ × List ℕ × List ℕ :=
  (([(10880955091566686 : ℕ), (36276784145337894 : ℕ), (69571282115576635 : ℕ), (46113124210880026 : ℕ), (4247859732800292 : ℕ), (15440021224255559 : ℕ), (66747077793030847 : ℕ), (22264495316135181 : ℕ)] : List ℕ),
   ([(2385235625966100 : ℕ), (5396741696826776 : ℕ), (8134720567442877 : ℕ), (1584133578609663 : ℕ), (46047824121994270 : ℕ), (56121598560924524 : ℕ), (10283140089599689 : ℕ), (29624444337960636 : ℕ)] : List ℕ),
   ([(1 : ℕ), (0 : ℕ), (0 : ℕ), (0 : ℕ), (0 : ℕ), (0 : ℕ), (0 : ℕ), (0 : ℕ)] : List ℕ),
   ([(1796939199780339 : ℕ), (45174008172060139 : ℕ), (40732174862907279 : ℕ), (63672088496536030 : ℕ), (37244660935497319 : ℕ), (41035719659624511 : ℕ), (30626637035688077 : ℕ), (56117654178374172 : ℕ)] : List ℕ))

/-- Constant `TWISTED_EDWARDS_BASE_POINT` (X, Y, Z, T). /repo/src/field/fiat_u64/constants.rs:114-146 -/
def C.fiat_TWISTED_EDWARDS_BASE_POINT : List ℕ × List ℕ × List ℕ × List ℕ :=
  (([(0 : ℕ), (72057594037927936 : ℕ), (72057594037927935 : ℕ), (36028797018963967 : ℕ), (72057594037927934 : ℕ), (72057594037927935 : ℕ), (72057594037927935 : ℕ), (36028797018963967 : ℕ)] : List ℕ),
   ([(27155415521118820 : ℕ), (3410937204744648 : ℕ), (19376965222209947 : ℕ), (22594032279754776 : ℕ), (21520481577673772 : ℕ), (10141917371396176 : ℕ), (59827755213158602 : ℕ), (37445921829569158 : ℕ)] : List ℕ),
   ([(1 : ℕ), (0 : ℕ), (0 : ℕ), (0 : ℕ), (0 : ℕ), (0 : ℕ), (0 : ℕ), (0 : ℕ)] : List ℕ),
   ([(64114820220813573 : ℕ), (27592348249940115 : ℕ), (21918321435874307 : ℕ), (45908688348236165 : ℕ), (34141937727972228 : ℕ), (63575698147485199 : ℕ), (22766751209138687 : ℕ), (30740600843388580 : ℕ)] : List ℕ))

/-- Translation of `index`. /repo/src/field/fiat_u64/prime_field.rs:28-30 -/
def FieldElement56.index (self : List ℕ) (a : ℕ) : Option ℕ :=
  (Rt.idx self a).bind fun τ1 =>
  some τ1

/-- Translation of `index_mut`. /repo/src/field/fiat_u64/prime_field.rs:34-36 -/
def FieldElement56.index_mut (self : List ℕ) (a : ℕ) (v : ℕ) : Option (List ℕ) :=
  (Rt.put self a v).bind fun τ1 =>
  let self := τ1
  some (self)

/-- Translation of `zero`. /repo/src/field/fiat_u64/prime_field.rs:114-116 -/
def FieldElement56.zero  : List ℕ :=
  (List.replicate 8 (0 : ℕ))

/-- Translation of `mul`. /repo/src/field/fiat_u64/prime_field.rs:40-48 -/
def FieldElement56.op_mul (fns : Model.Fiat.Fns) (self : List ℕ) (rhs : List ℕ) : Option (List ℕ) :=
  let result : List ℕ := FieldElement56.zero
  let self_loose : List ℕ := (List.replicate 8 (0 : ℕ))
  (Rt.fiat_relax fns self).bind fun τ1 =>
  let self_loose := τ1
  let rhs_loose : List ℕ := (List.replicate 8 (0 : ℕ))
  (Rt.fiat_relax fns rhs).bind fun τ2 =>
  let rhs_loose := τ2
  (Rt.fiat_carry_mul fns self_loose rhs_loose).bind fun τ3 =>
  let result := τ3
  some result

/-- Translation of `mul`. /repo/src/field/fiat_u64/prime_field.rs:52-54 -/
def FieldElement56.op_mul2 (fns : Model.Fiat.Fns) (self : List ℕ) (rhs : List ℕ) : Option (List ℕ) :=
  (FieldElement56.op_mul fns self rhs).bind fun τ1 =>
  some τ1

/-- Translation of `mul`. /repo/src/field/fiat_u64/prime_field.rs:58-60 -/
def FieldElement56.op_mul3 (fns : Model.Fiat.Fns) (self : List ℕ) (rhs : List ℕ) : Option (List ℕ) :=
  (FieldElement56.op_mul fns self rhs).bind fun τ1 =>
  some τ1

/-- Translation of `add`. /repo/src/field/fiat_u64/prime_field.rs:65-71 -/
def FieldElement56.op_add (fns : Model.Fiat.Fns) (self : List ℕ) (rhs : List ℕ) : Option (List ℕ) :=
  let result_loose : List ℕ := (List.replicate 8 (0 : ℕ))
  (Rt.fiat_add fns self rhs).bind fun τ1 =>
  let result_loose := τ1
  let result : List ℕ := FieldElement56.zero
  (Rt.fiat_carry fns result_loose).bind fun τ2 =>
  let result := τ2
  some result

/-- Translation of `sub`. /repo/src/field/fiat_u64/prime_field.rs:75-81 -/
def FieldElement56.op_sub (fns : Model.Fiat.Fns) (self : List ℕ) (rhs : List ℕ) : Option (List ℕ) :=
  let result_loose : List ℕ := (List.replicate 8 (0 : ℕ))
  (Rt.fiat_sub fns self rhs).bind fun τ1 =>
  let result_loose := τ1
  let result : List ℕ := FieldElement56.zero
  (Rt.fiat_carry fns result_loose).bind fun τ2 =>
  let result := τ2
  some result

/-- Translation of `negate`. /repo/src/field/fiat_u64/prime_field.rs:180-186 -/
def FieldElement56.negate (fns : Model.Fiat.Fns) (self : List ℕ) : Option (List ℕ) :=
  let result_loose : List ℕ := (List.replicate 8 (0 : ℕ))
  (Rt.fiat_opp fns self).bind fun τ1 =>
  let result_loose := τ1
  let result : List ℕ := FieldElement56.zero
  (Rt.fiat_carry fns result_loose).bind fun τ2 =>
  let result := τ2
  some result

/-- Translation of `conditional_select`. /repo/src/field/fiat_u64/prime_field.rs:92-100 -/
def FieldElement56.conditional_select (fns : Model.Fiat.Fns) (a : List ℕ) (b : List ℕ) (choice : Bool) : Option (List ℕ) :=
  let result : List ℕ := FieldElement56.zero
  (Rt.fiat_selectznz fns (Bool.toNat choice) a b).bind fun τ1 =>
  let result := τ1
  some result

/-- Translation of `conditional_negate`. /repo/src/field/fiat_u64/prime_field.rs:85-88 -/
def FieldElement56.conditional_negate (fns : Model.Fiat.Fns) (self : List ℕ) (choice : Bool) : Option (List ℕ) :=
  (FieldElement56.negate fns self).bind fun τ1 =>
  let self_neg : List ℕ := τ1
  (FieldElement56.conditional_select fns self self_neg choice).bind fun τ2 =>
  let self := τ2
  some (self)

/-- Translation of `default`. /repo/src/field/fiat_u64/prime_field.rs:104-106 -/
def FieldElement56.default  : List ℕ :=
  FieldElement56.zero

/-- Translation of `one`. /repo/src/field/fiat_u64/prime_field.rs:117-119 -/
def FieldElement56.one  : List ℕ :=
  ([(1 : ℕ), (0 : ℕ), (0 : ℕ), (0 : ℕ), (0 : ℕ), (0 : ℕ), (0 : ℕ), (0 : ℕ)] : List ℕ)

/-- Translation of `minus_one`. /repo/src/field/fiat_u64/prime_field.rs:120-131 -/
def FieldElement56.minus_one  : List ℕ :=
  ([(144115188075855869 : ℕ), (144115188075855870 : ℕ), (144115188075855870 : ℕ), (144115188075855870 : ℕ), (144115188075855868 : ℕ), (144115188075855870 : ℕ), (144115188075855870 : ℕ), (144115188075855870 : ℕ)] : List ℕ)

/-- Translation of `to_bytes`. /repo/src/field/fiat_u64/prime_field.rs:163-167 -/
def FieldElement56.to_bytes (fns : Model.Fiat.Fns) (self : List ℕ) : Option (List ℕ) :=
  let res : List ℕ := (List.replicate 56 (0 : ℕ))
  (Rt.fiat_to_bytes fns self).bind fun τ1 =>
  let res := τ1
  some res

/-- Translation of `is_negative`. /repo/src/field/fiat_u64/prime_field.rs:138-141 -/
def FieldElement56.is_negative (fns : Model.Fiat.Fns) (self : List ℕ) : Option Bool :=
  (FieldElement56.to_bytes fns self).bind fun τ1 =>
  let bytes : List ℕ := τ1
  (Rt.choice ((bytes.getD 0 0) &&& (1 : ℕ))).bind fun τ2 =>
  some τ2

/-- Translation of `from_raw_slice`. /repo/src/field/fiat_u64/prime_field.rs:149-151 -/
def FieldElement56.from_raw_slice (slice : List ℕ) : List ℕ :=
  slice

/-- Translation of `from_bytes`. /repo/src/field/fiat_u64/prime_field.rs:156-160 -/
def FieldElement56.from_bytes (fns : Model.Fiat.Fns) (bytes : List ℕ) : Option (List ℕ) :=
  let res : List ℕ := FieldElement56.zero
  (Rt.fiat_from_bytes fns bytes).bind fun τ1 =>
  let res := τ1
  some res

/-- Translation of `square`. /repo/src/field/fiat_u64/prime_field.rs:172-178 -/
def FieldElement56.square (fns : Model.Fiat.Fns) (self : List ℕ) : Option (List ℕ) :=
  let self_loose : List ℕ := (List.replicate 8 (0 : ℕ))
  (Rt.fiat_relax fns self).bind fun τ1 =>
  let self_loose := τ1
  let result : List ℕ := FieldElement56.zero
  (Rt.fiat_carry_square fns self_loose).bind fun τ2 =>
  let result := τ2
  some result

/-- Translation of `strong_reduce`. /repo/src/field/fiat_u64/prime_field.rs:191-195 -/
def FieldElement56.strong_reduce (fns : Model.Fiat.Fns) (self : List ℕ) : Option (List ℕ) :=
  let self_loose : List ℕ := (List.replicate 8 (0 : ℕ))
  (Rt.fiat_relax fns self).bind fun τ1 =>
  let self_loose := τ1
  (Rt.fiat_carry fns self_loose).bind fun τ2 =>
  let self := τ2
  some (self)

end Ed448.Gen
