import Verif.Gen.Rt
import Verif.Gen.RtTest
import Verif.Gen.U32
import Verif.Gen.Fiat
import Verif.Gen.Curve
/-!
# Mechanical translation of the tests of the crate

Generated by tools/rust2lean.py; do not edit. Each definition is the translation of the cited Rust
function; see tools/rust2lean.py for the rules and `Verif.Gen.Rt` for the operations.
-/

set_option linter.all false

namespace Ed448.Gen
open Ed448.Model FieldBackend

variable {F L : Type} [FieldBackend F L]


/-- Translation of `test_basic_add`. /repo/src/field/scalar.rs:441-446 -/
def Test.field_scalar.test_basic_add  : Option Unit :=
  let five : List ℕ := (Scalar.from (5 : ℕ))
  let six : List ℕ := (Scalar.from (6 : ℕ))
  (Scalar.op_add five six).bind fun τ1 =>
  (Scalar.eq τ1 (Scalar.from (11 : ℕ))).bind fun τ2 =>
  (Rt.require τ2).bind fun τ3 =>
  some τ3

/-- Translation of `test_basic_sub`. /repo/src/field/scalar.rs:449-453 -/
def Test.field_scalar.test_basic_sub  : Option Unit :=
  let ten : List ℕ := (Scalar.from (10 : ℕ))
  let five : List ℕ := (Scalar.from (5 : ℕ))
  (Scalar.op_sub ten five).bind fun τ1 =>
  (Scalar.eq τ1 (Scalar.from (5 : ℕ))).bind fun τ2 =>
  (Rt.require τ2).bind fun τ3 =>
  some τ3

/-- Translation of `test_basic_mul`. /repo/src/field/scalar.rs:456-461 -/
def Test.field_scalar.test_basic_mul  : Option Unit :=
  let ten : List ℕ := (Scalar.from (10 : ℕ))
  let five : List ℕ := (Scalar.from (5 : ℕ))
  (Scalar.op_mul ten five).bind fun τ1 =>
  (Scalar.eq τ1 (Scalar.from (50 : ℕ))).bind fun τ2 =>
  (Rt.require τ2).bind fun τ3 =>
  some τ3

/-- Translation of `test_mul`. /repo/src/field/scalar.rs:464-481 -/
def Test.field_scalar.test_mul  : Option Unit :=
  let a : List ℕ := ([(4290257827 : ℕ), (3379182645 : ℕ), (2140066429 : ℕ), (142315449 : ℕ), (496681738 : ℕ), (1960204132 : ℕ), (3233679406 : ℕ), (2831878888 : ℕ), (2834978091 : ℕ), (716080776 : ℕ), (742244979 : ℕ), (1204784300 : ℕ), (990420743 : ℕ), (509863943 : ℕ)] : List ℕ)
  let b : List ℕ := ([(3636386882 : ℕ), (1752085289 : ℕ), (3826694297 : ℕ), (397045147 : ℕ), (506508171 : ℕ), (411855642 : ℕ), (3499710811 : ℕ), (3157539787 : ℕ), (450535655 : ℕ), (619238553 : ℕ), (2388243208 : ℕ), (177397293 : ℕ), (3403795304 : ℕ), (382027018 : ℕ)] : List ℕ)
  let exp : List ℕ := ([(2710372618 : ℕ), (526070167 : ℕ), (2571934763 : ℕ), (1790781173 : ℕ), (144941284 : ℕ), (916539680 : ℕ), (1961440095 : ℕ), (129816881 : ℕ), (4074282014 : ℕ), (3104010230 : ℕ), (540885579 : ℕ), (4241318323 : ℕ), (1285786093 : ℕ), (836785601 : ℕ)] : List ℕ)
  (Scalar.op_mul a b).bind fun τ1 =>
  (Scalar.eq τ1 exp).bind fun τ2 =>
  (Rt.require τ2).bind fun τ3 =>
  some τ3

/-- Translation of `test_basic_square`. /repo/src/field/scalar.rs:483-494 -/
def Test.field_scalar.test_basic_square  : Option Unit :=
  let a : List ℕ := ([(3479153725 : ℕ), (2119607115 : ℕ), (4131426859 : ℕ), (1067779730 : ℕ), (326170808 : ℕ), (1862857521 : ℕ), (2379007110 : ℕ), (1270060512 : ℕ), (4062996817 : ℕ), (567029880 : ℕ), (3526959005 : ℕ), (2466484965 : ℕ), (78849851 : ℕ), (828508182 : ℕ)] : List ℕ)
  let expected_a_squared : List ℕ := ([(358190946 : ℕ), (3115445617 : ℕ), (1392300098 : ℕ), (2250940176 : ℕ), (512372895 : ℕ), (2575890656 : ℕ), (2720221143 : ℕ), (3920309282 : ℕ), (943079284 : ℕ), (4252784810 : ℕ), (3298432051 : ℕ), (3651585219 : ℕ), (1976777054 : ℕ), (226096867 : ℕ)] : List ℕ)
  (Scalar.square a).bind fun τ1 =>
  (Scalar.eq τ1 expected_a_squared).bind fun τ2 =>
  (Rt.require τ2).bind fun τ3 =>
  some τ3

/-- Translation of `test_sanity_check_index_mut`. /repo/src/field/scalar.rs:497-501 -/
def Test.field_scalar.test_sanity_check_index_mut  : Option Unit :=
  let x : List ℕ := Scalar.one
  let x := (x.set 0 (2 : ℕ))
  (Scalar.eq x (Scalar.from (2 : ℕ))).bind fun τ1 =>
  (Rt.require τ1).bind fun τ2 =>
  some τ2

/-- Translation of `test_basic_halving`. /repo/src/field/scalar.rs:503-510 -/
def Test.field_scalar.test_basic_halving  : Option Unit :=
  let eight : List ℕ := (Scalar.from (8 : ℕ))
  let four : List ℕ := (Scalar.from (4 : ℕ))
  let two : List ℕ := (Scalar.from (2 : ℕ))
  (Scalar.halve eight).bind fun τ1 =>
  (Scalar.eq τ1 four).bind fun τ2 =>
  (Rt.require τ2).bind fun τ3 =>
  (Scalar.halve four).bind fun τ4 =>
  (Scalar.eq τ4 two).bind fun τ5 =>
  (Rt.require τ5).bind fun τ6 =>
  (Scalar.halve two).bind fun τ7 =>
  (Scalar.eq τ7 Scalar.one).bind fun τ8 =>
  (Rt.require τ8).bind fun τ9 =>
  some ()

/-- Translation of `test_equals`. /repo/src/field/scalar.rs:513-519 -/
def Test.field_scalar.test_equals  : Option Unit :=
  let a : List ℕ := (Scalar.from (5 : ℕ))
  let b : List ℕ := (Scalar.from (5 : ℕ))
  let c : List ℕ := (Scalar.from (10 : ℕ))
  (Scalar.eq a b).bind fun τ1 =>
  (Rt.require τ1).bind fun τ2 =>
  (Scalar.eq a c).bind fun τ3 =>
  (Rt.require (!τ3)).bind fun τ4 =>
  some τ4

/-- Translation of `test_basic_inversion`. /repo/src/field/scalar.rs:522-534 -/
def Test.field_scalar.test_basic_inversion  : Option Unit :=
  (List.foldlM (fun (τ1 : Unit) (i : ℕ) =>
  let x : List ℕ := (Scalar.from i)
  (Scalar.invert x).bind fun τ2 =>
  let x_inv : List ℕ := τ2
  (Scalar.op_mul x_inv x).bind fun τ3 =>
  (Scalar.eq τ3 Scalar.one).bind fun τ4 =>
  (Rt.require τ4).bind fun τ5 =>
  some ()) () (Rt.rangeIncl (1 : ℕ) (100 : ℕ))).bind fun τ6 =>
  let zero : List ℕ := Scalar.zero
  (Scalar.invert zero).bind fun τ7 =>
  let expected_zero : List ℕ := τ7
  (Scalar.eq expected_zero zero).bind fun τ8 =>
  (Rt.require τ8).bind fun τ9 =>
  some τ9

/-- Translation of `test_serialise`. /repo/src/field/scalar.rs:536-543 -/
def Test.field_scalar.test_serialise  : Option Unit :=
  let scalar : List ℕ := ([(358190946 : ℕ), (3115445617 : ℕ), (1392300098 : ℕ), (2250940176 : ℕ), (512372895 : ℕ), (2575890656 : ℕ), (2720221143 : ℕ), (3920309282 : ℕ), (943079284 : ℕ), (4252784810 : ℕ), (3298432051 : ℕ), (3651585219 : ℕ), (1976777054 : ℕ), (226096867 : ℕ)] : List ℕ)
  (Scalar.to_bytes scalar).bind fun τ1 =>
  (Scalar.from_bytes τ1).bind fun τ2 =>
  let got : List ℕ := τ2
  (Scalar.eq scalar got).bind fun τ3 =>
  (Rt.require τ3).bind fun τ4 =>
  some τ4

/-- Translation of `test_debug`. /repo/src/field/scalar.rs:545-551 -/
def Test.field_scalar.test_debug  : Option Unit :=
  let k : List ℕ := ([(200 : ℕ), (210 : ℕ), (250 : ℕ), (145 : ℕ), (130 : ℕ), (180 : ℕ), (147 : ℕ), (122 : ℕ), (222 : ℕ), (230 : ℕ), (214 : ℕ), (247 : ℕ), (203 : ℕ), (32 : ℕ)] : List ℕ)
  let s : List ℕ := k
  (Scalar.to_radix_16 s).bind fun τ1 =>
  some ()

/-- Translation of `test_from_canonical_bytes`. /repo/src/field/scalar.rs:553-574 -/
def Test.field_scalar.test_from_canonical_bytes  : Option Unit :=
  (Rt.hexDecode [([102, 102, 102, 102, 102, 102, 102, 102, 102, 102, 102, 102, 102, 102, 102, 102, 102, 102, 102, 102, 102, 102, 102, 102, 102, 102, 102, 102, 102, 102, 102, 102, 102, 102, 102, 102, 102, 102, 102, 102, 102, 102, 102, 102, 102, 102, 102, 102, 102, 102, 102, 102, 102, 102, 102, 102, 102, 102, 102, 102, 102, 102, 102, 102, 102, 102, 102, 102, 102, 102, 102, 102, 102, 102, 102, 102, 102, 102, 102, 102, 102, 102, 102, 102, 102, 102, 102, 102, 102, 102, 102, 102, 102, 102, 102, 102, 102, 102, 102, 102, 102, 102, 102, 102, 102, 102, 102, 102, 102, 102, 102, 102, 102, 102] : List ℕ)]).bind fun τ1 =>
  let bytes : List ℕ := τ1
  let bytes := (List.reverse bytes)
  (Scalar.from_canonical_bytes bytes).bind fun τ2 =>
  let s : Option (List ℕ) := τ2
  (Rt.optEq (fun x' y' =>
  (Scalar.eq x' y').bind fun τ3 =>
  some τ3) s (none : Option (List ℕ))).bind fun τ4 =>
  (Rt.require τ4).bind fun τ5 =>
  (Rt.hexDecode [([48, 48, 51, 102, 102, 102, 102, 102, 102, 102, 102, 102, 102, 102, 102, 102, 102, 102, 102, 102, 102, 102, 102, 102, 102, 102, 102, 102, 102, 102, 102, 102, 102, 102, 102, 102, 102, 102, 102, 102, 102, 102, 102, 102, 102, 102, 102, 102, 102, 102, 102, 102, 102, 102, 102, 102, 102, 102, 55, 99, 99, 97, 50, 51, 101, 57, 99, 52, 52, 101, 100, 98, 52, 57, 97, 101, 100, 54, 51, 54, 57, 48, 50, 49, 54, 99, 99, 50, 55, 50, 56, 100, 99, 53, 56, 102, 53, 53, 50, 51, 55, 56, 99, 50, 57, 50, 97, 98, 53, 56, 52, 52, 102, 51] : List ℕ)]).bind fun τ6 =>
  let bytes : List ℕ := τ6
  let bytes := (List.reverse bytes)
  (Scalar.from_canonical_bytes bytes).bind fun τ7 =>
  let s : Option (List ℕ) := τ7
  (Rt.optEq (fun x' y' =>
  (Scalar.eq x' y').bind fun τ8 =>
  some τ8) s (none : Option (List ℕ))).bind fun τ9 =>
  (Rt.require τ9).bind fun τ10 =>
  (Rt.hexDecode [([48, 48, 51, 102, 102, 102, 102, 102, 102, 102, 102, 102, 102, 102, 102, 102, 102, 102, 102, 102, 102, 102, 102, 102, 102, 102, 102, 102, 102, 102, 102, 102, 102, 102, 102, 102, 102, 102, 102, 102, 102, 102, 102, 102, 102, 102, 102, 102, 102, 102, 102, 102, 102, 102, 102, 102, 102, 102, 55, 99, 99, 97, 50, 51, 101, 57, 99, 52, 52, 101, 100, 98, 52, 57, 97, 101, 100, 54, 51, 54, 57, 48, 50, 49, 54, 99, 99, 50, 55, 50, 56, 100, 99, 53, 56, 102, 53, 53, 50, 51, 55, 56, 99, 50, 57, 50, 97, 98, 53, 56, 52, 52, 102, 50] : List ℕ)]).bind fun τ11 =>
  let bytes : List ℕ := τ11
  let bytes := (List.reverse bytes)
  (Scalar.from_canonical_bytes bytes).bind fun τ12 =>
  let s : Option (List ℕ) := τ12
  (match s with
  | some s =>
  (Scalar.op_sub Scalar.zero Scalar.one).bind fun τ13 =>
  (Scalar.eq s τ13).bind fun τ14 =>
  (Rt.require τ14).bind fun τ15 =>
  some τ15
  | none =>
  ((none : Option Unit)).bind fun τ16 =>
  some τ16).bind fun τ17 =>
  some ()

/-- Translation of `test_from_bytes_mod_order_wide`. /repo/src/field/scalar.rs:577-604 -/
def Test.field_scalar.test_from_bytes_mod_order_wide  : Option Unit :=
  (Rt.hexDecode [([48, 48, 48, 48, 48, 48, 48, 48, 48, 48, 48, 48, 48, 48, 48, 48, 48, 48, 48, 48, 48, 48, 48, 48, 48, 48, 48, 48, 48, 48, 48, 48, 48, 48, 48, 48, 48, 48, 48, 48, 48, 48, 48, 48, 48, 48, 48, 48, 48, 48, 48, 48, 48, 48, 48, 48, 48, 48, 48, 48, 48, 48, 48, 48, 48, 48, 48, 48, 48, 48, 48, 48, 48, 48, 48, 48, 48, 48, 48, 48, 48, 48, 48, 48, 48, 48, 48, 48, 48, 48, 48, 48, 48, 48, 48, 48, 48, 48, 48, 48, 48, 48, 48, 48, 48, 48, 48, 48, 48, 48, 48, 48, 48, 48, 48, 48, 51, 102, 102, 102, 102, 102, 102, 102, 102, 102, 102, 102, 102, 102, 102, 102, 102, 102, 102, 102, 102, 102, 102, 102, 102, 102, 102, 102, 102, 102, 102, 102, 102, 102, 102, 102, 102, 102, 102, 102, 102, 102, 102, 102, 102, 102, 102, 102, 102, 102, 102, 102, 102, 102, 102, 102, 55, 99, 99, 97, 50, 51, 101, 57, 99, 52, 52, 101, 100, 98, 52, 57, 97, 101, 100, 54, 51, 54, 57, 48, 50, 49, 54, 99, 99, 50, 55, 50, 56, 100, 99, 53, 56, 102, 53, 53, 50, 51, 55, 56, 99, 50, 57, 50, 97, 98, 53, 56, 52, 52, 102, 51] : List ℕ)]).bind fun τ1 =>
  let bytes : List ℕ := τ1
  let bytes := (List.reverse bytes)
  (Scalar.from_bytes_mod_order_wide bytes).bind fun τ2 =>
  let s : List ℕ := τ2
  (Scalar.eq s Scalar.zero).bind fun τ3 =>
  (Rt.require τ3).bind fun τ4 =>
  (Rt.hexDecode [([48, 48, 48, 48, 48, 48, 48, 48, 48, 48, 48, 48, 48, 48, 48, 48, 48, 48, 48, 48, 48, 48, 48, 48, 48, 48, 48, 48, 48, 48, 48, 48, 48, 48, 48, 48, 48, 48, 48, 48, 48, 48, 48, 48, 48, 48, 48, 48, 48, 48, 48, 48, 48, 48, 48, 48, 48, 48, 48, 48, 48, 48, 48, 48, 48, 48, 48, 48, 48, 48, 48, 48, 48, 48, 48, 48, 48, 48, 48, 48, 48, 48, 48, 48, 48, 48, 48, 48, 48, 48, 48, 48, 48, 48, 48, 48, 48, 48, 48, 48, 48, 48, 48, 48, 48, 48, 48, 48, 48, 48, 48, 48, 48, 48, 48, 48, 51, 102, 102, 102, 102, 102, 102, 102, 102, 102, 102, 102, 102, 102, 102, 102, 102, 102, 102, 102, 102, 102, 102, 102, 102, 102, 102, 102, 102, 102, 102, 102, 102, 102, 102, 102, 102, 102, 102, 102, 102, 102, 102, 102, 102, 102, 102, 102, 102, 102, 102, 102, 102, 102, 102, 102, 55, 99, 99, 97, 50, 51, 101, 57, 99, 52, 52, 101, 100, 98, 52, 57, 97, 101, 100, 54, 51, 54, 57, 48, 50, 49, 54, 99, 99, 50, 55, 50, 56, 100, 99, 53, 56, 102, 53, 53, 50, 51, 55, 56, 99, 50, 57, 50, 97, 98, 53, 56, 52, 52, 102, 50] : List ℕ)]).bind fun τ5 =>
  let bytes : List ℕ := τ5
  let bytes := (List.reverse bytes)
  (Scalar.from_bytes_mod_order_wide bytes).bind fun τ6 =>
  let s : List ℕ := τ6
  (Scalar.op_sub Scalar.zero Scalar.one).bind fun τ7 =>
  (Scalar.eq s τ7).bind fun τ8 =>
  (Rt.require τ8).bind fun τ9 =>
  (Rt.hexDecode [([48, 48, 48, 48, 48, 48, 48, 48, 48, 48, 48, 48, 48, 48, 48, 48, 48, 48, 48, 48, 48, 48, 48, 48, 48, 48, 48, 48, 48, 48, 48, 48, 48, 48, 48, 48, 48, 48, 48, 48, 48, 48, 48, 48, 48, 48, 48, 48, 48, 48, 48, 48, 48, 48, 48, 48, 48, 48, 48, 48, 48, 48, 48, 48, 48, 48, 48, 48, 48, 48, 48, 48, 48, 48, 48, 48, 48, 48, 48, 48, 48, 48, 48, 48, 48, 48, 48, 48, 48, 48, 48, 48, 48, 48, 48, 48, 48, 48, 48, 48, 48, 48, 48, 48, 48, 48, 48, 48, 48, 48, 48, 48, 48, 48, 48, 48, 51, 102, 102, 102, 102, 102, 102, 102, 102, 102, 102, 102, 102, 102, 102, 102, 102, 102, 102, 102, 102, 102, 102, 102, 102, 102, 102, 102, 102, 102, 102, 102, 102, 102, 102, 102, 102, 102, 102, 102, 102, 102, 102, 102, 102, 102, 102, 102, 102, 102, 102, 102, 102, 102, 102, 102, 55, 99, 99, 97, 50, 51, 101, 57, 99, 52, 52, 101, 100, 98, 52, 57, 97, 101, 100, 54, 51, 54, 57, 48, 50, 49, 54, 99, 99, 50, 55, 50, 56, 100, 99, 53, 56, 102, 53, 53, 50, 51, 55, 56, 99, 50, 57, 50, 97, 98, 53, 56, 52, 52, 102, 52] : List ℕ)]).bind fun τ10 =>
  let bytes : List ℕ := τ10
  let bytes := (List.reverse bytes)
  (Scalar.from_bytes_mod_order_wide bytes).bind fun τ11 =>
  let s : List ℕ := τ11
  (Scalar.eq s Scalar.one).bind fun τ12 =>
  (Rt.require τ12).bind fun τ13 =>
  (Rt.hexDecode [([102, 102, 102, 102, 102, 102, 102, 102, 102, 102, 102, 102, 102, 102, 102, 102, 102, 102, 102, 102, 102, 102, 102, 102, 102, 102, 102, 102, 102, 102, 102, 102, 102, 102, 102, 102, 102, 102, 102, 102, 102, 102, 102, 102, 102, 102, 102, 102, 102, 102, 102, 102, 102, 102, 102, 102, 102, 102, 102, 102, 102, 102, 102, 102, 102, 102, 102, 102, 102, 102, 102, 102, 102, 102, 102, 102, 102, 102, 102, 102, 102, 102, 102, 102, 102, 102, 102, 102, 102, 102, 102, 102, 102, 102, 102, 102, 102, 102, 102, 102, 102, 102, 102, 102, 102, 102, 102, 102, 102, 102, 102, 102, 102, 102, 102, 102, 102, 102, 102, 102, 102, 102, 102, 102, 102, 102, 102, 102, 102, 102, 102, 102, 102, 102, 102, 102, 102, 102, 102, 102, 102, 102, 102, 102, 102, 102, 102, 102, 102, 102, 102, 102, 102, 102, 102, 102, 102, 102, 102, 102, 102, 102, 102, 102, 102, 102, 102, 102, 102, 102, 102, 102, 102, 102, 102, 102, 102, 102, 102, 102, 102, 102, 102, 102, 102, 102, 102, 102, 102, 102, 102, 102, 102, 102, 102, 102, 102, 102, 102, 102, 102, 102, 102, 102, 102, 102, 102, 102, 102, 102, 102, 102, 102, 102, 102, 102, 102, 102, 102, 102, 102, 102, 102, 102, 102, 102, 102, 102] : List ℕ)]).bind fun τ14 =>
  let bytes : List ℕ := τ14
  let bytes := (List.reverse bytes)
  (Scalar.from_bytes_mod_order_wide bytes).bind fun τ15 =>
  let s : List ℕ := τ15
  (Rt.hexDecode [([48, 48, 50, 57, 51, 57, 102, 56, 50, 51, 98, 55, 50, 57, 50, 48, 53, 50, 98, 99, 98, 55, 101, 52, 100, 48, 55, 48, 97, 102, 49, 97, 57, 99, 99, 49, 52, 98, 97, 51, 99, 52, 55, 99, 52, 52, 97, 101, 49, 55, 99, 102, 55, 50, 99, 57, 56, 53, 98, 98, 50, 52, 98, 54, 99, 53, 50, 48, 101, 51, 49, 57, 102, 98, 51, 55, 97, 54, 51, 101, 50, 57, 56, 48, 48, 102, 49, 54, 48, 55, 56, 55, 97, 100, 49, 100, 50, 101, 49, 49, 56, 56, 51, 102, 97, 57, 51, 49, 101, 55, 100, 101, 56, 49] : List ℕ)]).bind fun τ16 =>
  let bytes : List ℕ := τ16
  let bytes := (List.reverse bytes)
  (Scalar.from_canonical_bytes bytes).bind fun τ17 =>
  (τ17).bind fun τ18 =>
  let reduced : List ℕ := τ18
  (Scalar.eq s reduced).bind fun τ19 =>
  (Rt.require τ19).bind fun τ20 =>
  some ()

/-- Translation of `test_to_bytes_rfc8032`. /repo/src/field/scalar.rs:607-614 -/
def Test.field_scalar.test_to_bytes_rfc8032  : Option Unit :=
  (Rt.hexDecode [([48, 48, 51, 102, 102, 102, 102, 102, 102, 102, 102, 102, 102, 102, 102, 102, 102, 102, 102, 102, 102, 102, 102, 102, 102, 102, 102, 102, 102, 102, 102, 102, 102, 102, 102, 102, 102, 102, 102, 102, 102, 102, 102, 102, 102, 102, 102, 102, 102, 102, 102, 102, 102, 102, 102, 102, 102, 102, 55, 99, 99, 97, 50, 51, 101, 57, 99, 52, 52, 101, 100, 98, 52, 57, 97, 101, 100, 54, 51, 54, 57, 48, 50, 49, 54, 99, 99, 50, 55, 50, 56, 100, 99, 53, 56, 102, 53, 53, 50, 51, 55, 56, 99, 50, 57, 50, 97, 98, 53, 56, 52, 52, 102, 50] : List ℕ)]).bind fun τ1 =>
  let bytes : List ℕ := τ1
  let bytes := (List.reverse bytes)
  (Scalar.op_sub Scalar.zero Scalar.one).bind fun τ2 =>
  let x : List ℕ := τ2
  (Scalar.to_bytes_rfc_8032 x).bind fun τ3 =>
  let candidate : List ℕ := τ3
  (Rt.require (bytes == candidate)).bind fun τ4 =>
  some ()

/-- Translation of `test_basic_mul`. /repo/src/field/u32/karatsuba.rs:397-404 -/
def Test.field_u32_karatsuba.test_basic_mul  : Option Unit :=
  let a : List ℕ := ([(5 : ℕ), (0 : ℕ), (0 : ℕ), (0 : ℕ), (0 : ℕ), (0 : ℕ), (0 : ℕ), (0 : ℕ), (0 : ℕ), (0 : ℕ), (0 : ℕ), (0 : ℕ), (0 : ℕ), (0 : ℕ), (0 : ℕ), (0 : ℕ)] : List ℕ)
  let b : List ℕ := ([(210 : ℕ), (0 : ℕ), (0 : ℕ), (0 : ℕ), (0 : ℕ), (0 : ℕ), (0 : ℕ), (0 : ℕ), (0 : ℕ), (0 : ℕ), (0 : ℕ), (0 : ℕ), (0 : ℕ), (0 : ℕ), (0 : ℕ), (0 : ℕ)] : List ℕ)
  let c : List ℕ := ([(1050 : ℕ), (0 : ℕ), (0 : ℕ), (0 : ℕ), (0 : ℕ), (0 : ℕ), (0 : ℕ), (0 : ℕ), (0 : ℕ), (0 : ℕ), (0 : ℕ), (0 : ℕ), (0 : ℕ), (0 : ℕ), (0 : ℕ), (0 : ℕ)] : List ℕ)
  (karatsuba.mul a b).bind fun τ1 =>
  let expected_c : List ℕ := τ1
  (FieldElement28.to_bytes expected_c).bind fun τ2 =>
  (FieldElement28.to_bytes c).bind fun τ3 =>
  (Rt.require (τ2 == τ3)).bind fun τ4 =>
  some ()

/-- Translation of `test_mul`. /repo/src/field/u32/karatsuba.rs:407-431 -/
def Test.field_u32_karatsuba.test_mul  : Option Unit :=
  (FieldElement28.from_bytes ([(245 : ℕ), (129 : ℕ), (116 : ℕ), (213 : ℕ), (122 : ℕ), (51 : ℕ), (114 : ℕ), (54 : ℕ), (60 : ℕ), (13 : ℕ), (159 : ℕ), (207 : ℕ), (170 : ℕ), (61 : ℕ), (193 : ℕ), (139 : ℕ), (30 : ℕ), (255 : ℕ), (126 : ℕ), (137 : ℕ), (191 : ℕ), (118 : ℕ), (120 : ℕ), (99 : ℕ), (101 : ℕ), (128 : ℕ), (209 : ℕ), (125 : ℕ), (216 : ℕ), (74 : ℕ), (135 : ℕ), (59 : ℕ), (20 : ℕ), (185 : ℕ), (192 : ℕ), (225 : ℕ), (104 : ℕ), (11 : ℕ), (189 : ℕ), (200 : ℕ), (118 : ℕ), (71 : ℕ), (243 : ℕ), (195 : ℕ), (130 : ℕ), (144 : ℕ), (45 : ℕ), (47 : ℕ), (88 : ℕ), (210 : ℕ), (117 : ℕ), (75 : ℕ), (57 : ℕ), (188 : ℕ), (168 : ℕ), (116 : ℕ)] : List ℕ)).bind fun τ1 =>
  let x : List ℕ := τ1
  (FieldElement28.from_bytes ([(116 : ℕ), (168 : ℕ), (188 : ℕ), (57 : ℕ), (75 : ℕ), (117 : ℕ), (210 : ℕ), (88 : ℕ), (47 : ℕ), (45 : ℕ), (144 : ℕ), (130 : ℕ), (195 : ℕ), (243 : ℕ), (71 : ℕ), (118 : ℕ), (200 : ℕ), (189 : ℕ), (11 : ℕ), (104 : ℕ), (225 : ℕ), (192 : ℕ), (185 : ℕ), (20 : ℕ), (59 : ℕ), (135 : ℕ), (74 : ℕ), (216 : ℕ), (125 : ℕ), (209 : ℕ), (128 : ℕ), (101 : ℕ), (99 : ℕ), (120 : ℕ), (118 : ℕ), (191 : ℕ), (137 : ℕ), (126 : ℕ), (255 : ℕ), (30 : ℕ), (139 : ℕ), (193 : ℕ), (61 : ℕ), (170 : ℕ), (207 : ℕ), (159 : ℕ), (13 : ℕ), (60 : ℕ), (54 : ℕ), (114 : ℕ), (51 : ℕ), (122 : ℕ), (213 : ℕ), (116 : ℕ), (129 : ℕ), (245 : ℕ)] : List ℕ)).bind fun τ2 =>
  let y : List ℕ := τ2
  (FieldElement28.from_bytes ([(17 : ℕ), (149 : ℕ), (156 : ℕ), (46 : ℕ), (145 : ℕ), (120 : ℕ), (111 : ℕ), (236 : ℕ), (255 : ℕ), (55 : ℕ), (229 : ℕ), (142 : ℕ), (43 : ℕ), (80 : ℕ), (158 : ℕ), (248 : ℕ), (251 : ℕ), (65 : ℕ), (8 : ℕ), (196 : ℕ), (167 : ℕ), (2 : ℕ), (28 : ℕ), (191 : ℕ), (90 : ℕ), (159 : ℕ), (24 : ℕ), (167 : ℕ), (236 : ℕ), (50 : ℕ), (101 : ℕ), (126 : ℕ), (237 : ℕ), (220 : ℕ), (129 : ℕ), (129 : ℕ), (128 : ℕ), (168 : ℕ), (76 : ℕ), (221 : ℕ), (149 : ℕ), (20 : ℕ), (230 : ℕ), (103 : ℕ), (38 : ℕ), (211 : ℕ), (161 : ℕ), (34 : ℕ), (219 : ℕ), (179 : ℕ), (159 : ℕ), (23 : ℕ), (122 : ℕ), (133 : ℕ), (22 : ℕ), (108 : ℕ)] : List ℕ)).bind fun τ3 =>
  let expected : List ℕ := τ3
  (karatsuba.mul x y).bind fun τ4 =>
  let result : List ℕ := τ4
  (FieldElement28.to_bytes result).bind fun τ5 =>
  (FieldElement28.to_bytes expected).bind fun τ6 =>
  (Rt.require (τ5 == τ6)).bind fun τ7 =>
  some τ7

/-- Translation of `test_naive_square`. /repo/src/field/u32/karatsuba.rs:433-440 -/
def Test.field_u32_karatsuba.test_naive_square  : Option Unit :=
  let a : List ℕ := ([(5 : ℕ), (0 : ℕ), (0 : ℕ), (0 : ℕ), (0 : ℕ), (0 : ℕ), (0 : ℕ), (0 : ℕ), (0 : ℕ), (0 : ℕ), (0 : ℕ), (0 : ℕ), (0 : ℕ), (0 : ℕ), (0 : ℕ), (0 : ℕ)] : List ℕ)
  let b : List ℕ := ([(5 : ℕ), (0 : ℕ), (0 : ℕ), (0 : ℕ), (0 : ℕ), (0 : ℕ), (0 : ℕ), (0 : ℕ), (0 : ℕ), (0 : ℕ), (0 : ℕ), (0 : ℕ), (0 : ℕ), (0 : ℕ), (0 : ℕ), (0 : ℕ)] : List ℕ)
  let c : List ℕ := ([(25 : ℕ), (0 : ℕ), (0 : ℕ), (0 : ℕ), (0 : ℕ), (0 : ℕ), (0 : ℕ), (0 : ℕ), (0 : ℕ), (0 : ℕ), (0 : ℕ), (0 : ℕ), (0 : ℕ), (0 : ℕ), (0 : ℕ), (0 : ℕ)] : List ℕ)
  (karatsuba.mul a b).bind fun τ1 =>
  let expected_c : List ℕ := τ1
  (FieldElement28.to_bytes expected_c).bind fun τ2 =>
  (FieldElement28.to_bytes c).bind fun τ3 =>
  (Rt.require (τ2 == τ3)).bind fun τ4 =>
  some ()

/-- Translation of `test_karatsuba_square`. /repo/src/field/u32/karatsuba.rs:442-455 -/
def Test.field_u32_karatsuba.test_karatsuba_square  : Option Unit :=
  let a : List ℕ := ([(5 : ℕ), (0 : ℕ), (0 : ℕ), (0 : ℕ), (0 : ℕ), (0 : ℕ), (0 : ℕ), (0 : ℕ), (0 : ℕ), (0 : ℕ), (0 : ℕ), (0 : ℕ), (0 : ℕ), (0 : ℕ), (0 : ℕ), (0 : ℕ)] : List ℕ)
  let expected_c : List ℕ := ([(25 : ℕ), (0 : ℕ), (0 : ℕ), (0 : ℕ), (0 : ℕ), (0 : ℕ), (0 : ℕ), (0 : ℕ), (0 : ℕ), (0 : ℕ), (0 : ℕ), (0 : ℕ), (0 : ℕ), (0 : ℕ), (0 : ℕ), (0 : ℕ)] : List ℕ)
  (karatsuba.square a).bind fun τ1 =>
  let c : List ℕ := τ1
  (FieldElement28.to_bytes expected_c).bind fun τ2 =>
  (FieldElement28.to_bytes c).bind fun τ3 =>
  (Rt.require (τ2 == τ3)).bind fun τ4 =>
  let d : List ℕ := ([(268396374 : ℕ), (268435455 : ℕ), (268435455 : ℕ), (268435455 : ℕ), (268435455 : ℕ), (268435455 : ℕ), (268435455 : ℕ), (268435455 : ℕ), (268435454 : ℕ), (268435455 : ℕ), (268435455 : ℕ), (268435455 : ℕ), (268435455 : ℕ), (268435455 : ℕ), (268435455 : ℕ), (268435455 : ℕ)] : List ℕ)
  (karatsuba.mul d d).bind fun τ5 =>
  let expected_d2 : List ℕ := τ5
  (karatsuba.square d).bind fun τ6 =>
  let d2 : List ℕ := τ6
  (FieldElement28.to_bytes expected_d2).bind fun τ7 =>
  (FieldElement28.to_bytes d2).bind fun τ8 =>
  (Rt.require (τ7 == τ8)).bind fun τ9 =>
  some ()

/-- Translation of `test_negate`. /repo/src/field/fiat_u64/prime_field.rs:204-208 -/
def Test.field_fiat_u64_prime_field.test_negate (fns : Model.Fiat.Fns)  : Option Unit :=
  let x : List ℕ := FieldElement56.zero
  (FieldElement56.negate fns x).bind fun τ1 =>
  let y : List ℕ := τ1
  (FieldElement56.to_bytes fns y).bind fun τ2 =>
  (Rt.require (τ2 == (List.replicate 56 (0 : ℕ)))).bind fun τ3 =>
  some ()

/-- Translation of `hex_to_field`. /repo/src/curve/edwards/extended.rs:420-425 -/
def Test.edwards_extended.hex_to_field (hex : List ℕ) : Option F :=
  (Rt.require ((List.length hex) == (112 : ℕ))).bind fun τ1 =>
  (Rt.hexDecode ([hex] : List (List ℕ))).bind fun τ2 =>
  let bytes : List ℕ := τ2
  let bytes := (List.reverse bytes)
  (Rt.fieldFromBytes F bytes).bind fun τ3 =>
  some τ3

/-- Translation of `test_isogeny`. /repo/src/curve/edwards/extended.rs:428-434 -/
def Test.edwards_extended.test_isogeny  : Option Unit :=
  (Test.edwards_extended.hex_to_field (F := F) ([97, 97, 97, 97, 97, 97, 97, 97, 97, 97, 97, 97, 97, 97, 97, 97, 97, 97, 97, 97, 97, 97, 97, 97, 97, 97, 97, 97, 97, 97, 97, 97, 97, 97, 97, 97, 97, 97, 97, 97, 97, 97, 97, 97, 97, 97, 97, 97, 97, 97, 97, 97, 97, 97, 97, 57, 53, 53, 53, 53, 53, 53, 53, 53, 53, 53, 53, 53, 53, 53, 53, 53, 53, 53, 53, 53, 53, 53, 53, 53, 53, 53, 53, 53, 53, 53, 53, 53, 53, 53, 53, 53, 53, 53, 53, 53, 53, 53, 53, 53, 53, 53, 53, 53, 53, 53, 53, 53, 53, 53, 53, 53] : List ℕ)).bind fun τ1 =>
  let x : F := τ1
  (Test.edwards_extended.hex_to_field (F := F) ([97, 101, 48, 53, 101, 57, 54, 51, 52, 97, 100, 55, 48, 52, 56, 100, 98, 51, 53, 57, 100, 54, 50, 48, 53, 48, 56, 54, 99, 50, 98, 48, 48, 51, 54, 101, 100, 55, 97, 48, 51, 53, 56, 56, 52, 100, 100, 55, 98, 55, 101, 51, 54, 100, 55, 50, 56, 97, 100, 56, 99, 52, 98, 56, 48, 100, 54, 53, 54, 53, 56, 51, 51, 97, 50, 97, 51, 48, 57, 56, 98, 98, 98, 99, 98, 50, 98, 101, 100, 49, 99, 100, 97, 48, 54, 98, 100, 97, 101, 97, 102, 98, 99, 100, 101, 97, 57, 51, 56, 54, 101, 100] : List ℕ)).bind fun τ2 =>
  let y : F := τ2
  let a : Model.EdPt F := (EdAff.to_extended (F := F) ({ x := x, y := y } : Model.EdAff F))
  (EdPt.to_twisted (F := F) a).bind fun τ3 =>
  (TwPt.to_untwisted (F := F) τ3).bind fun τ4 =>
  let twist_a : Model.EdPt F := τ4
  (Rt.require (EdPt.eq (F := F) twist_a (EdPt.double (F := F) (EdPt.double (F := F) a)))).bind fun τ5 =>
  some τ5

/-- Translation of `derive_base_points`. /repo/src/curve/edwards/extended.rs:438-461 -/
def Test.edwards_extended.derive_base_points  : Option Unit :=
  (Test.edwards_extended.hex_to_field (F := F) ([52, 70, 49, 57, 55, 48, 67, 54, 54, 66, 69, 68, 48, 68, 69, 68, 50, 50, 49, 68, 49, 53, 65, 54, 50, 50, 66, 70, 51, 54, 68, 65, 57, 69, 49, 52, 54, 53, 55, 48, 52, 55, 48, 70, 49, 55, 54, 55, 69, 65, 54, 68, 69, 51, 50, 52, 65, 51, 68, 51, 65, 52, 54, 52, 49, 50, 65, 69, 49, 65, 70, 55, 50, 65, 66, 54, 54, 53, 49, 49, 52, 51, 51, 66, 56, 48, 69, 49, 56, 66, 48, 48, 57, 51, 56, 69, 50, 54, 50, 54, 65, 56, 50, 66, 67, 55, 48, 67, 67, 48, 53, 69] : List ℕ)).bind fun τ1 =>
  let old_x : F := τ1
  (Test.edwards_extended.hex_to_field (F := F) ([54, 57, 51, 70, 52, 54, 55, 49, 54, 69, 66, 54, 66, 67, 50, 52, 56, 56, 55, 54, 50, 48, 51, 55, 53, 54, 67, 57, 67, 55, 54, 50, 52, 66, 69, 65, 55, 51, 55, 51, 54, 67, 65, 51, 57, 56, 52, 48, 56, 55, 55, 56, 57, 67, 49, 69, 48, 53, 65, 48, 67, 50, 68, 55, 51, 65, 68, 51, 70, 70, 49, 67, 69, 54, 55, 67, 51, 57, 67, 52, 70, 68, 66, 68, 49, 51, 50, 67, 52, 69, 68, 55, 67, 56, 65, 68, 57, 56, 48, 56, 55, 57, 53, 66, 70, 50, 51, 48, 70, 65, 49, 52] : List ℕ)).bind fun τ2 =>
  let old_y : F := τ2
  let old_bp : Model.EdPt F := (EdAff.to_extended (F := F) ({ x := old_x, y := old_y } : Model.EdAff F))
  (Test.edwards_extended.hex_to_field (F := F) ([97, 97, 97, 97, 97, 97, 97, 97, 97, 97, 97, 97, 97, 97, 97, 97, 97, 97, 97, 97, 97, 97, 97, 97, 97, 97, 97, 97, 97, 97, 97, 97, 97, 97, 97, 97, 97, 97, 97, 97, 97, 97, 97, 97, 97, 97, 97, 97, 97, 97, 97, 97, 97, 97, 97, 57, 53, 53, 53, 53, 53, 53, 53, 53, 53, 53, 53, 53, 53, 53, 53, 53, 53, 53, 53, 53, 53, 53, 53, 53, 53, 53, 53, 53, 53, 53, 53, 53, 53, 53, 53, 53, 53, 53, 53, 53, 53, 53, 53, 53, 53, 53, 53, 53, 53, 53, 53, 53, 53, 53, 53, 53] : List ℕ)).bind fun τ3 =>
  let new_x : F := τ3
  (Test.edwards_extended.hex_to_field (F := F) ([97, 101, 48, 53, 101, 57, 54, 51, 52, 97, 100, 55, 48, 52, 56, 100, 98, 51, 53, 57, 100, 54, 50, 48, 53, 48, 56, 54, 99, 50, 98, 48, 48, 51, 54, 101, 100, 55, 97, 48, 51, 53, 56, 56, 52, 100, 100, 55, 98, 55, 101, 51, 54, 100, 55, 50, 56, 97, 100, 56, 99, 52, 98, 56, 48, 100, 54, 53, 54, 53, 56, 51, 51, 97, 50, 97, 51, 48, 57, 56, 98, 98, 98, 99, 98, 50, 98, 101, 100, 49, 99, 100, 97, 48, 54, 98, 100, 97, 101, 97, 102, 98, 99, 100, 101, 97, 57, 51, 56, 54, 101, 100] : List ℕ)).bind fun τ4 =>
  let new_y : F := τ4
  let new_bp : Model.EdPt F := (EdAff.to_extended (F := F) ({ x := new_x, y := new_y } : Model.EdAff F))
  (Rt.require (EdPt.eq (F := F) (EdPt.double (F := F) old_bp) new_bp)).bind fun τ5 =>
  (Rt.require (EdPt.eq (F := F) (Rt.ptEdPt (FieldBackend.GOLDILOCKS_BASE_POINT : F × F × F × F)) old_bp)).bind fun τ6 =>
  (EdPt.to_twisted (F := F) old_bp).bind fun τ7 =>
  (Rt.require (TwPt.eq (F := F) τ7 (Rt.ptTwPt (FieldBackend.TWISTED_EDWARDS_BASE_POINT : F × F × F × F)))).bind fun τ8 =>
  some τ8

/-- Translation of `test_is_on_curve`. /repo/src/curve/edwards/extended.rs:464-469 -/
def Test.edwards_extended.test_is_on_curve  : Option Unit :=
  (Test.edwards_extended.hex_to_field (F := F) ([97, 97, 97, 97, 97, 97, 97, 97, 97, 97, 97, 97, 97, 97, 97, 97, 97, 97, 97, 97, 97, 97, 97, 97, 97, 97, 97, 97, 97, 97, 97, 97, 97, 97, 97, 97, 97, 97, 97, 97, 97, 97, 97, 97, 97, 97, 97, 97, 97, 97, 97, 97, 97, 97, 97, 57, 53, 53, 53, 53, 53, 53, 53, 53, 53, 53, 53, 53, 53, 53, 53, 53, 53, 53, 53, 53, 53, 53, 53, 53, 53, 53, 53, 53, 53, 53, 53, 53, 53, 53, 53, 53, 53, 53, 53, 53, 53, 53, 53, 53, 53, 53, 53, 53, 53, 53, 53, 53, 53, 53, 53, 53] : List ℕ)).bind fun τ1 =>
  let x : F := τ1
  (Test.edwards_extended.hex_to_field (F := F) ([97, 101, 48, 53, 101, 57, 54, 51, 52, 97, 100, 55, 48, 52, 56, 100, 98, 51, 53, 57, 100, 54, 50, 48, 53, 48, 56, 54, 99, 50, 98, 48, 48, 51, 54, 101, 100, 55, 97, 48, 51, 53, 56, 56, 52, 100, 100, 55, 98, 55, 101, 51, 54, 100, 55, 50, 56, 97, 100, 56, 99, 52, 98, 56, 48, 100, 54, 53, 54, 53, 56, 51, 51, 97, 50, 97, 51, 48, 57, 56, 98, 98, 98, 99, 98, 50, 98, 101, 100, 49, 99, 100, 97, 48, 54, 98, 100, 97, 101, 97, 102, 98, 99, 100, 101, 97, 57, 51, 56, 54, 101, 100] : List ℕ)).bind fun τ2 =>
  let y : F := τ2
  let gen : Model.EdPt F := (EdAff.to_extended (F := F) ({ x := x, y := y } : Model.EdAff F))
  (Rt.require (EdPt.is_on_curve (F := F) gen)).bind fun τ3 =>
  some ()

/-- Translation of `test_compress_decompress`. /repo/src/curve/edwards/extended.rs:471-480 -/
def Test.edwards_extended.test_compress_decompress  : Option Unit :=
  (Test.edwards_extended.hex_to_field (F := F) ([97, 97, 97, 97, 97, 97, 97, 97, 97, 97, 97, 97, 97, 97, 97, 97, 97, 97, 97, 97, 97, 97, 97, 97, 97, 97, 97, 97, 97, 97, 97, 97, 97, 97, 97, 97, 97, 97, 97, 97, 97, 97, 97, 97, 97, 97, 97, 97, 97, 97, 97, 97, 97, 97, 97, 57, 53, 53, 53, 53, 53, 53, 53, 53, 53, 53, 53, 53, 53, 53, 53, 53, 53, 53, 53, 53, 53, 53, 53, 53, 53, 53, 53, 53, 53, 53, 53, 53, 53, 53, 53, 53, 53, 53, 53, 53, 53, 53, 53, 53, 53, 53, 53, 53, 53, 53, 53, 53, 53, 53, 53, 53] : List ℕ)).bind fun τ1 =>
  let x : F := τ1
  (Test.edwards_extended.hex_to_field (F := F) ([97, 101, 48, 53, 101, 57, 54, 51, 52, 97, 100, 55, 48, 52, 56, 100, 98, 51, 53, 57, 100, 54, 50, 48, 53, 48, 56, 54, 99, 50, 98, 48, 48, 51, 54, 101, 100, 55, 97, 48, 51, 53, 56, 56, 52, 100, 100, 55, 98, 55, 101, 51, 54, 100, 55, 50, 56, 97, 100, 56, 99, 52, 98, 56, 48, 100, 54, 53, 54, 53, 56, 51, 51, 97, 50, 97, 51, 48, 57, 56, 98, 98, 98, 99, 98, 50, 98, 101, 100, 49, 99, 100, 97, 48, 54, 98, 100, 97, 101, 97, 102, 98, 99, 100, 101, 97, 57, 51, 56, 54, 101, 100] : List ℕ)).bind fun τ2 =>
  let y : F := τ2
  let gen : Model.EdPt F := (EdAff.to_extended (F := F) ({ x := x, y := y } : Model.EdAff F))
  (EdPt.compress (F := F) gen).bind fun τ3 =>
  (CompressedEdwardsY.decompress (F := F) τ3).bind fun τ4 =>
  let decompressed_point : Option (Model.EdPt F) := τ4
  (Rt.require (Option.isSome decompressed_point)).bind fun τ5 =>
  (decompressed_point).bind fun τ6 =>
  (Rt.require (EdPt.eq (F := F) gen τ6)).bind fun τ7 =>
  some ()

/-- Translation of `test_decompress_compress`. /repo/src/curve/edwards/extended.rs:482-490 -/
def Test.edwards_extended.test_decompress_compress  : Option Unit :=
  (Rt.hexDecode [([54, 52, 57, 99, 54, 97, 53, 51, 98, 49, 48, 57, 56, 57, 55, 100, 57, 54, 50, 100, 48, 51, 51, 102, 50, 51, 100, 48, 49, 102, 100, 52, 101, 49, 48, 53, 51, 100, 100, 100, 102, 51, 55, 52, 54, 100, 50, 100, 100, 99, 101, 57, 98, 100, 54, 54, 97, 101, 97, 51, 56, 99, 99, 102, 99, 51, 100, 102, 48, 54, 49, 100, 102, 48, 51, 99, 97, 51, 57, 57, 101, 98, 56, 48, 54, 51, 49, 50, 97, 98, 51, 48, 51, 55, 99, 48, 99, 51, 49, 53, 50, 51, 49, 52, 50, 57, 53, 54, 97, 100, 97, 55, 56, 48] : List ℕ)]).bind fun τ1 =>
  let bytes : List ℕ := τ1
  let compressed : List ℕ := bytes
  (CompressedEdwardsY.decompress (F := F) compressed).bind fun τ2 =>
  (τ2).bind fun τ3 =>
  let decompressed : Model.EdPt F := τ3
  (EdPt.compress (F := F) decompressed).bind fun τ4 =>
  let recompressed : List ℕ := τ4
  (Rt.require (bytes == recompressed)).bind fun τ5 =>
  some ()

/-- Translation of `test_just_decompress`. /repo/src/curve/edwards/extended.rs:492-506 -/
def Test.edwards_extended.test_just_decompress  : Option Unit :=
  (Rt.hexDecode [([54, 52, 57, 99, 54, 97, 53, 51, 98, 49, 48, 57, 56, 57, 55, 100, 57, 54, 50, 100, 48, 51, 51, 102, 50, 51, 100, 48, 49, 102, 100, 52, 101, 49, 48, 53, 51, 100, 100, 100, 102, 51, 55, 52, 54, 100, 50, 100, 100, 99, 101, 57, 98, 100, 54, 54, 97, 101, 97, 51, 56, 99, 99, 102, 99, 51, 100, 102, 48, 54, 49, 100, 102, 48, 51, 99, 97, 51, 57, 57, 101, 98, 56, 48, 54, 51, 49, 50, 97, 98, 51, 48, 51, 55, 99, 48, 99, 51, 49, 53, 50, 51, 49, 52, 50, 57, 53, 54, 97, 100, 97, 55, 56, 48] : List ℕ)]).bind fun τ1 =>
  let bytes : List ℕ := τ1
  let compressed : List ℕ := bytes
  (CompressedEdwardsY.decompress (F := F) compressed).bind fun τ2 =>
  (τ2).bind fun τ3 =>
  let decompressed : Model.EdPt F := τ3
  (Test.edwards_extended.hex_to_field (F := F) ([51, 57, 99, 52, 49, 99, 101, 97, 51, 48, 53, 100, 55, 51, 55, 100, 102, 48, 48, 100, 101, 56, 50, 50, 51, 97, 48, 100, 53, 102, 52, 100, 52, 56, 99, 56, 101, 48, 57, 56, 101, 49, 54, 101, 57, 98, 52, 98, 50, 102, 51, 56, 97, 99, 51, 53, 51, 50, 54, 50, 101, 49, 49, 57, 99, 98, 53, 102, 102, 50, 97, 102, 100, 54, 100, 48, 50, 52, 54, 52, 55, 48, 50, 100, 57, 100, 48, 49, 99, 57, 57, 50, 49, 50, 52, 51, 102, 99, 53, 55, 50, 102, 57, 99, 55, 49, 56, 101, 50, 53, 50, 55] : List ℕ)).bind fun τ4 =>
  (Rt.require (Field.eq (F := F) decompressed.X τ4)).bind fun τ5 =>
  (Test.edwards_extended.hex_to_field (F := F) ([97, 55, 97, 100, 53, 54, 50, 57, 49, 52, 50, 51, 49, 53, 99, 51, 99, 48, 51, 55, 51, 48, 97, 98, 49, 50, 54, 51, 56, 48, 101, 98, 57, 57, 97, 51, 51, 99, 102, 48, 49, 100, 48, 54, 100, 102, 99, 51, 99, 102, 56, 99, 97, 51, 97, 101, 54, 54, 98, 100, 101, 57, 100, 99, 50, 100, 54, 100, 55, 52, 102, 51, 100, 100, 51, 100, 48, 53, 101, 49, 100, 52, 49, 102, 100, 48, 50, 51, 51, 102, 48, 51, 50, 100, 57, 54, 55, 100, 56, 57, 48, 57, 98, 49, 53, 51, 54, 97, 57, 99, 54, 52] : List ℕ)).bind fun τ6 =>
  (Rt.require (Field.eq (F := F) decompressed.Y τ6)).bind fun τ7 =>
  (Rt.hexDecode [([48, 49, 48, 48, 48, 48, 48, 48, 48, 48, 48, 48, 48, 48, 48, 48, 48, 48, 48, 48, 48, 48, 48, 48, 48, 48, 48, 48, 48, 48, 48, 48, 48, 48, 48, 48, 48, 48, 48, 48, 48, 48, 48, 48, 48, 48, 48, 48, 48, 48, 48, 48, 48, 48, 48, 48, 48, 48, 48, 48, 48, 48, 48, 48, 48, 48, 48, 48, 48, 48, 48, 48, 48, 48, 48, 48, 48, 48, 48, 48, 48, 48, 48, 48, 48, 48, 48, 48, 48, 48, 48, 48, 48, 48, 48, 48, 48, 48, 48, 48, 48, 48, 48, 48, 48, 48, 48, 48, 48, 48, 48, 48, 48, 48] : List ℕ)]).bind fun τ8 =>
  let bytes : List ℕ := τ8
  let compressed : List ℕ := bytes
  (CompressedEdwardsY.decompress (F := F) compressed).bind fun τ9 =>
  (τ9).bind fun τ10 =>
  let decompressed : Model.EdPt F := τ10
  (Test.edwards_extended.hex_to_field (F := F) ([48, 48, 48, 48, 48, 48, 48, 48, 48, 48, 48, 48, 48, 48, 48, 48, 48, 48, 48, 48, 48, 48, 48, 48, 48, 48, 48, 48, 48, 48, 48, 48, 48, 48, 48, 48, 48, 48, 48, 48, 48, 48, 48, 48, 48, 48, 48, 48, 48, 48, 48, 48, 48, 48, 48, 48, 48, 48, 48, 48, 48, 48, 48, 48, 48, 48, 48, 48, 48, 48, 48, 48, 48, 48, 48, 48, 48, 48, 48, 48, 48, 48, 48, 48, 48, 48, 48, 48, 48, 48, 48, 48, 48, 48, 48, 48, 48, 48, 48, 48, 48, 48, 48, 48, 48, 48, 48, 48, 48, 48, 48, 48] : List ℕ)).bind fun τ11 =>
  (Rt.require (Field.eq (F := F) decompressed.X τ11)).bind fun τ12 =>
  (Test.edwards_extended.hex_to_field (F := F) ([48, 48, 48, 48, 48, 48, 48, 48, 48, 48, 48, 48, 48, 48, 48, 48, 48, 48, 48, 48, 48, 48, 48, 48, 48, 48, 48, 48, 48, 48, 48, 48, 48, 48, 48, 48, 48, 48, 48, 48, 48, 48, 48, 48, 48, 48, 48, 48, 48, 48, 48, 48, 48, 48, 48, 48, 48, 48, 48, 48, 48, 48, 48, 48, 48, 48, 48, 48, 48, 48, 48, 48, 48, 48, 48, 48, 48, 48, 48, 48, 48, 48, 48, 48, 48, 48, 48, 48, 48, 48, 48, 48, 48, 48, 48, 48, 48, 48, 48, 48, 48, 48, 48, 48, 48, 48, 48, 48, 48, 48, 48, 49] : List ℕ)).bind fun τ13 =>
  (Rt.require (Field.eq (F := F) decompressed.Y τ13)).bind fun τ14 =>
  some ()

/-- Translation of `test_is_torsion_free`. /repo/src/curve/edwards/extended.rs:508-516 -/
def Test.edwards_extended.test_is_torsion_free  : Option Unit :=
  (EdPt.is_torsion_free (F := F) (EdPt.generator (F := F))).bind fun τ1 =>
  (Rt.require τ1).bind fun τ2 =>
  (EdPt.is_torsion_free (F := F) (EdPt.identity (F := F))).bind fun τ3 =>
  (Rt.require τ3).bind fun τ4 =>
  (Rt.hexDecode [([49, 51, 98, 54, 55, 49, 52, 99, 55, 97, 53, 102, 53, 51, 49, 48, 49, 98, 98, 101, 99, 56, 56, 102, 50, 102, 49, 55, 99, 100, 51, 48, 102, 52, 50, 101, 51, 55, 102, 97, 101, 51, 54, 51, 97, 53, 52, 55, 52, 101, 102, 98, 52, 49, 57, 55, 101, 100, 54, 48, 48, 53, 100, 102, 53, 56, 54, 49, 97, 101, 49, 55, 56, 97, 48, 99, 50, 99, 49, 54, 97, 100, 51, 55, 56, 98, 55, 98, 101, 102, 101, 100, 48, 100, 48, 57, 48, 52, 98, 55, 99, 101, 100, 51, 53, 101, 57, 102, 54, 55, 52, 49, 56, 48] : List ℕ)]).bind fun τ5 =>
  let bytes : List ℕ := τ5
  let compressed : List ℕ := bytes
  (CompressedEdwardsY.decompress (F := F) compressed).bind fun τ6 =>
  (τ6).bind fun τ7 =>
  let decompressed : Model.EdPt F := τ7
  (EdPt.is_torsion_free (F := F) decompressed).bind fun τ8 =>
  (Rt.require (!τ8)).bind fun τ9 =>
  some ()

/-- Translation of `hex_to_field`. /repo/src/curve/twedwards/extended.rs:176-181 -/
def Test.twedwards_extended.hex_to_field (hex : List ℕ) : Option F :=
  (Rt.require ((List.length hex) == (112 : ℕ))).bind fun τ1 =>
  (Rt.hexDecode ([hex] : List (List ℕ))).bind fun τ2 =>
  let bytes : List ℕ := τ2
  let bytes := (List.reverse bytes)
  (Rt.fieldFromBytes F bytes).bind fun τ3 =>
  some τ3

/-- Translation of `test_isogeny`. /repo/src/curve/twedwards/extended.rs:184-190 -/
def Test.twedwards_extended.test_isogeny  : Option Unit :=
  (Test.twedwards_extended.hex_to_field (F := F) ([97, 97, 97, 97, 97, 97, 97, 97, 97, 97, 97, 97, 97, 97, 97, 97, 97, 97, 97, 97, 97, 97, 97, 97, 97, 97, 97, 97, 97, 97, 97, 97, 97, 97, 97, 97, 97, 97, 97, 97, 97, 97, 97, 97, 97, 97, 97, 97, 97, 97, 97, 97, 97, 97, 97, 57, 53, 53, 53, 53, 53, 53, 53, 53, 53, 53, 53, 53, 53, 53, 53, 53, 53, 53, 53, 53, 53, 53, 53, 53, 53, 53, 53, 53, 53, 53, 53, 53, 53, 53, 53, 53, 53, 53, 53, 53, 53, 53, 53, 53, 53, 53, 53, 53, 53, 53, 53, 53, 53, 53, 53, 53] : List ℕ)).bind fun τ1 =>
  let x : F := τ1
  (Test.twedwards_extended.hex_to_field (F := F) ([97, 101, 48, 53, 101, 57, 54, 51, 52, 97, 100, 55, 48, 52, 56, 100, 98, 51, 53, 57, 100, 54, 50, 48, 53, 48, 56, 54, 99, 50, 98, 48, 48, 51, 54, 101, 100, 55, 97, 48, 51, 53, 56, 56, 52, 100, 100, 55, 98, 55, 101, 51, 54, 100, 55, 50, 56, 97, 100, 56, 99, 52, 98, 56, 48, 100, 54, 53, 54, 53, 56, 51, 51, 97, 50, 97, 51, 48, 57, 56, 98, 98, 98, 99, 98, 50, 98, 101, 100, 49, 99, 100, 97, 48, 54, 98, 100, 97, 101, 97, 102, 98, 99, 100, 101, 97, 57, 51, 56, 54, 101, 100] : List ℕ)).bind fun τ2 =>
  let y : F := τ2
  let a : Model.TwPt F := (TwAff.to_extended (F := F) ({ x := x, y := y } : Model.TwAff F))
  (TwPt.to_untwisted (F := F) a).bind fun τ3 =>
  (EdPt.to_twisted (F := F) τ3).bind fun τ4 =>
  let twist_a : Model.TwPt F := τ4
  (Rt.require (TwPt.eq (F := F) twist_a (TwPt.double (F := F) (TwPt.double (F := F) a)))).bind fun τ5 =>
  some τ5

/-- Translation of `test_is_on_curve`. /repo/src/curve/twedwards/extended.rs:193-206 -/
def Test.twedwards_extended.test_is_on_curve  : Option Unit :=
  (Rt.require (TwPt.is_on_curve (F := F) (Rt.ptTwPt (FieldBackend.TWISTED_EDWARDS_BASE_POINT : F × F × F × F)))).bind fun τ1 =>
  let invalid_point : Model.TwPt F := ({ X := (Rt.ptEdPt (FieldBackend.GOLDILOCKS_BASE_POINT : F × F × F × F)).X, Y := (Rt.ptEdPt (FieldBackend.GOLDILOCKS_BASE_POINT : F × F × F × F)).Y, Z := (Rt.ptEdPt (FieldBackend.GOLDILOCKS_BASE_POINT : F × F × F × F)).Z, T := (Rt.ptEdPt (FieldBackend.GOLDILOCKS_BASE_POINT : F × F × F × F)).T } : Model.TwPt F)
  (Rt.require (!(TwPt.is_on_curve (F := F) invalid_point))).bind fun τ2 =>
  some ()

/-- Translation of `test_point_add`. /repo/src/curve/twedwards/extended.rs:209-221 -/
def Test.twedwards_extended.test_point_add  : Option Unit :=
  let a : Model.TwPt F := (Rt.ptTwPt (FieldBackend.TWISTED_EDWARDS_BASE_POINT : F × F × F × F))
  let b : Model.TwPt F := (TwPt.double (F := F) a)
  let c_1 : Model.TwPt F := (TwExt.to_extended (F := F) (TwExt.add_extended (F := F) (TwPt.to_extensible (F := F) a) b))
  let c_2 : Model.TwPt F := (TwExt.to_extended (F := F) (TwExt.add_extended (F := F) (TwPt.to_extensible (F := F) b) a))
  (Rt.require (TwPt.eq (F := F) c_1 c_2)).bind fun τ1 =>
  let c : Model.TwExt F := (TwExt.add_extended (F := F) (TwPt.to_extensible (F := F) c_1) (TwPt.identity (F := F)))
  (Rt.require (TwPt.eq (F := F) (TwExt.to_extended (F := F) c) c_1)).bind fun τ2 =>
  some ()

/-- Translation of `test_point_sub`. /repo/src/curve/twedwards/extended.rs:224-234 -/
def Test.twedwards_extended.test_point_sub  : Option Unit :=
  let a : Model.TwPt F := (Rt.ptTwPt (FieldBackend.TWISTED_EDWARDS_BASE_POINT : F × F × F × F))
  let b : Model.TwPt F := (TwPt.double (F := F) a)
  let c_1 : Model.TwPt F := (TwExt.to_extended (F := F) (TwExt.sub_extended (F := F) (TwPt.to_extensible (F := F) a) b))
  let c_2 : Model.TwPt F := (TwExt.to_extended (F := F) (TwExt.add_extended (F := F) (TwPt.to_extensible (F := F) (TwPt.negate (F := F) b)) a))
  (Rt.require (TwPt.eq (F := F) c_1 c_2)).bind fun τ1 =>
  some ()

/-- Translation of `test_negate`. /repo/src/curve/twedwards/extended.rs:237-242 -/
def Test.twedwards_extended.test_negate  : Option Unit :=
  let a : Model.TwPt F := (Rt.ptTwPt (FieldBackend.TWISTED_EDWARDS_BASE_POINT : F × F × F × F))
  let neg_a : Model.TwPt F := (TwPt.negate (F := F) a)
  (Rt.require (TwExt.eq (F := F) (TwExt.add_extended (F := F) (TwPt.to_extensible (F := F) a) neg_a) (TwExt.identity (F := F)))).bind fun τ1 =>
  some ()

/-- Translation of `test_conditional_negate`. /repo/src/curve/twedwards/projective.rs:67-75 -/
def Test.twedwards_projective.test_conditional_negate  : Option Unit :=
  let bp : Model.TwPt F := (TwPt.generator (F := F))
  let bp_neg : Model.PNiels F := (TwExt.to_projective_niels (F := F) (TwPt.to_extensible (F := F) bp))
  (Rt.choice (1 : ℕ)).bind fun τ1 =>
  let bp_neg := (PNiels.conditional_negate (F := F) bp_neg τ1)
  let expect_identity : Model.TwPt F := (TwPt.add (F := F) (PNiels.to_extended (F := F) bp_neg) bp)
  (Rt.require (TwPt.eq (F := F) (TwPt.identity (F := F)) expect_identity)).bind fun τ2 =>
  some ()

/-- Translation of `test_negation`. /repo/src/curve/twedwards/affine.rs:136-144 -/
def Test.twedwards_affine.test_negation  : Option Unit :=
  (TwPt.to_affine (F := F) (Rt.ptTwPt (FieldBackend.TWISTED_EDWARDS_BASE_POINT : F × F × F × F))).bind fun τ1 =>
  let a : Model.TwAff F := τ1
  (Rt.require (TwAff.is_on_curve (F := F) a)).bind fun τ2 =>
  let neg_a : Model.TwAff F := (TwAff.negate (F := F) a)
  (TwAff.add (F := F) neg_a a).bind fun τ3 =>
  let got : Model.TwAff F := τ3
  (Rt.require ((Field.eq (F := F) got.x (TwAff.identity (F := F)).x) && (Field.eq (F := F) got.y (TwAff.identity (F := F)).y))).bind fun τ4 =>
  some ()

/-- Translation of `test_lookup`. /repo/src/curve/scalar_mul/window/wnaf/mod.rs:40-54 -/
def Test.wnaf.test_lookup  : Option Unit :=
  let p : Model.TwPt F := (TwPt.generator (F := F))
  (LookupTable.from (F := F) p).bind fun τ1 =>
  let points : List (Model.PNiels F) := τ1
  let expected_point : Model.TwPt F := (TwPt.identity (F := F))
  (List.foldlM (fun (τ2 : (Model.TwPt F)) (i : ℕ) =>
  let expected_point := τ2
  (LookupTable.select (F := F) points i).bind fun τ3 =>
  let selected_point : Model.PNiels F := τ3
  (Rt.require (TwPt.eq (F := F) (PNiels.to_extended (F := F) selected_point) expected_point)).bind fun τ4 =>
  let expected_point := (TwExt.to_extended (F := F) (TwExt.add_extended (F := F) (TwPt.to_extensible (F := F) expected_point) p))
  some (expected_point)) (expected_point) (Rt.range (0 : ℕ) (8 : ℕ))).bind fun τ5 =>
  let expected_point := τ5
  some ()

/-- Translation of `test_scalar_mul`. /repo/src/curve/scalar_mul/variable_base.rs:44-62 -/
def Test.variable_base.test_scalar_mul  : Option Unit :=
  let twisted_point : Model.TwPt F := (Rt.ptTwPt (FieldBackend.TWISTED_EDWARDS_BASE_POINT : F × F × F × F))
  let scalar : List ℕ := ([(1860399799 : ℕ), (3777539704 : ℕ), (355680892 : ℕ), (2903207957 : ℕ), (813655646 : ℕ), (3732940481 : ℕ), (3058051537 : ℕ), (2873445478 : ℕ), (1072021274 : ℕ), (138380036 : ℕ), (1006647159 : ℕ), (3740547062 : ℕ), (3995999091 : ℕ), (97130586 : ℕ)] : List ℕ)
  (variable_base.variable_base (F := F) twisted_point scalar).bind fun τ1 =>
  let got : Model.TwPt F := τ1
  (double_and_add.double_and_add (F := F) twisted_point scalar).bind fun τ2 =>
  let got2 : Model.TwPt F := τ2
  (Rt.require (TwPt.eq (F := F) got got2)).bind fun τ3 =>
  (TwPt.to_untwisted (F := F) twisted_point).bind fun τ4 =>
  let edwards_point : Model.EdPt F := τ4
  (EdPt.scalar_mul (F := F) edwards_point scalar).bind fun τ5 =>
  let got_untwisted_point : Model.EdPt F := τ5
  (TwPt.to_untwisted (F := F) got).bind fun τ6 =>
  let expected_untwisted_point : Model.EdPt F := τ6
  (Rt.require (EdPt.eq (F := F) got_untwisted_point expected_untwisted_point)).bind fun τ7 =>
  some ()

/-- Translation of `test_simple_scalar_mul_identities`. /repo/src/curve/scalar_mul/variable_base.rs:65-76 -/
def Test.variable_base.test_simple_scalar_mul_identities  : Option Unit :=
  let x : Model.TwPt F := (Rt.ptTwPt (FieldBackend.TWISTED_EDWARDS_BASE_POINT : F × F × F × F))
  (variable_base.variable_base (F := F) x (Scalar.from (1 : ℕ))).bind fun τ1 =>
  let exp : Model.TwPt F := τ1
  (Rt.require (TwPt.eq (F := F) x exp)).bind fun τ2 =>
  let x_ext : Model.TwExt F := (TwPt.to_extensible (F := F) x)
  let expected_two_x : Model.TwExt F := (TwExt.double (F := F) (TwExt.add_extensible (F := F) x_ext x_ext))
  (variable_base.variable_base (F := F) x (Scalar.from (4 : ℕ))).bind fun τ3 =>
  let got : Model.TwPt F := τ3
  (Rt.require (TwPt.eq (F := F) (TwExt.to_extended (F := F) expected_two_x) got)).bind fun τ4 =>
  some ()

/-- Translation of `test_montgomery_edwards`. /repo/src/curve/montgomery/montgomery.rs:211-222 -/
def Test.montgomery_montgomery.test_montgomery_edwards  : Option Unit :=
  let scalar : List ℕ := (Scalar.from (200 : ℕ))
  let bp : Model.EdPt F := (Rt.ptEdPt (FieldBackend.GOLDILOCKS_BASE_POINT : F × F × F × F))
  (EdPt.to_montgomery (F := F) bp).bind fun τ1 =>
  let montgomery_bp : List ℕ := τ1
  (MontgomeryPoint.op_mul_Scalar (F := F) montgomery_bp scalar).bind fun τ2 =>
  let montgomery_res : List ℕ := τ2
  (EdPt.scalar_mul (F := F) bp scalar).bind fun τ3 =>
  let goldilocks_point : Model.EdPt F := τ3
  (EdPt.to_montgomery (F := F) goldilocks_point).bind fun τ4 =>
  (Rt.require (MontgomeryPoint.eq τ4 montgomery_res)).bind fun τ5 =>
  some ()

/-- Translation of `test_edwards_ristretto_operations`. /repo/src/decaf/decaf.rs:136-154 -/
def Test.decaf_decaf.test_edwards_ristretto_operations  : Option Unit :=
  let P : Model.TwPt F := (Rt.ptTwPt (FieldBackend.TWISTED_EDWARDS_BASE_POINT : F × F × F × F))
  let P2 : Model.TwPt F := (TwPt.double (F := F) P)
  let P3 : Model.TwPt F := (TwExt.to_extended (F := F) (TwExt.add_extended (F := F) (TwPt.to_extensible (F := F) P2) P))
  (DecafPt.compress (F := F) (⟨P⟩ : Model.DecafPt F)).bind fun τ1 =>
  (CompressedDecaf.decompress (F := F) τ1).bind fun τ2 =>
  (τ2).bind fun τ3 =>
  let Decaf_P : Model.DecafPt F := τ3
  (DecafPt.compress (F := F) (⟨P2⟩ : Model.DecafPt F)).bind fun τ4 =>
  (CompressedDecaf.decompress (F := F) τ4).bind fun τ5 =>
  (τ5).bind fun τ6 =>
  let Decaf_P2 : Model.DecafPt F := τ6
  (DecafPt.compress (F := F) (⟨P3⟩ : Model.DecafPt F)).bind fun τ7 =>
  (CompressedDecaf.decompress (F := F) τ7).bind fun τ8 =>
  (τ8).bind fun τ9 =>
  let expected_Decaf_P3 : Model.DecafPt F := τ9
  let Decaf_P3 : Model.DecafPt F := (DecafPt.op_add (F := F) Decaf_P Decaf_P2)
  (Rt.require (DecafPt.equals (F := F) Decaf_P3 expected_Decaf_P3)).bind fun τ10 =>
  some ()

/-- Translation of `test_identity`. /repo/src/decaf/decaf.rs:157-161 -/
def Test.decaf_decaf.test_identity  : Option Unit :=
  (DecafPt.compress (F := F) (DecafPt.identity (F := F))).bind fun τ1 =>
  let compress_identity : List ℕ := τ1
  (Rt.require (CompressedDecaf.eq compress_identity CompressedDecaf.identity)).bind fun τ2 =>
  some τ2

/-- Translation of `test_vectors_lib_decaf`. /repo/src/decaf/decaf.rs:164-268 -/
def Test.decaf_decaf.test_vectors_lib_decaf  : Option Unit :=
  let compressed : List (List ℕ) := ([([(0 : ℕ), (0 : ℕ), (0 : ℕ), (0 : ℕ), (0 : ℕ), (0 : ℕ), (0 : ℕ), (0 : ℕ), (0 : ℕ), (0 : ℕ), (0 : ℕ), (0 : ℕ), (0 : ℕ), (0 : ℕ), (0 : ℕ), (0 : ℕ), (0 : ℕ), (0 : ℕ), (0 : ℕ), (0 : ℕ), (0 : ℕ), (0 : ℕ), (0 : ℕ), (0 : ℕ), (0 : ℕ), (0 : ℕ), (0 : ℕ), (0 : ℕ), (0 : ℕ), (0 : ℕ), (0 : ℕ), (0 : ℕ), (0 : ℕ), (0 : ℕ), (0 : ℕ), (0 : ℕ), (0 : ℕ), (0 : ℕ), (0 : ℕ), (0 : ℕ), (0 : ℕ), (0 : ℕ), (0 : ℕ), (0 : ℕ), (0 : ℕ), (0 : ℕ), (0 : ℕ), (0 : ℕ), (0 : ℕ), (0 : ℕ), (0 : ℕ), (0 : ℕ), (0 : ℕ), (0 : ℕ), (0 : ℕ), (0 : ℕ)] : List ℕ), ([(102 : ℕ), (102 : ℕ), (102 : ℕ), (102 : ℕ), (102 : ℕ), (102 : ℕ), (102 : ℕ), (102 : ℕ), (102 : ℕ), (102 : ℕ), (102 : ℕ), (102 : ℕ), (102 : ℕ), (102 : ℕ), (102 : ℕ), (102 : ℕ), (102 : ℕ), (102 : ℕ), (102 : ℕ), (102 : ℕ), (102 : ℕ), (102 : ℕ), (102 : ℕ), (102 : ℕ), (102 : ℕ), (102 : ℕ), (102 : ℕ), (102 : ℕ), (51 : ℕ), (51 : ℕ), (51 : ℕ), (51 : ℕ), (51 : ℕ), (51 : ℕ), (51 : ℕ), (51 : ℕ), (51 : ℕ), (51 : ℕ), (51 : ℕ), (51 : ℕ), (51 : ℕ), (51 : ℕ), (51 : ℕ), (51 : ℕ), (51 : ℕ), (51 : ℕ), (51 : ℕ), (51 : ℕ), (51 : ℕ), (51 : ℕ), (51 : ℕ), (51 : ℕ), (51 : ℕ), (51 : ℕ), (51 : ℕ), (51 : ℕ)] : List ℕ), ([(200 : ℕ), (152 : ℕ), (235 : ℕ), (79 : ℕ), (135 : ℕ), (249 : ℕ), (124 : ℕ), (86 : ℕ), (76 : ℕ), (111 : ℕ), (214 : ℕ), (31 : ℕ), (199 : ℕ), (228 : ℕ), (150 : ℕ), (137 : ℕ), (49 : ℕ), (74 : ℕ), (31 : ℕ), (129 : ℕ), (142 : ℕ), (200 : ℕ), (94 : ℕ), (235 : ℕ), (59 : ℕ), (213 : ℕ), (81 : ℕ), (74 : ℕ), (200 : ℕ), (22 : ℕ), (211 : ℕ), (135 : ℕ), (120 : ℕ), (246 : ℕ), (158 : ℕ), (243 : ℕ), (71 : ℕ), (168 : ℕ), (159 : ℕ), (202 : ℕ), (129 : ℕ), (126 : ℕ), (102 : ℕ), (222 : ℕ), (253 : ℕ), (237 : ℕ), (206 : ℕ), (23 : ℕ), (140 : ℕ), (124 : ℕ), (199 : ℕ), (9 : ℕ), (178 : ℕ), (17 : ℕ), (110 : ℕ), (117 : ℕ)] : List ℕ), ([(160 : ℕ), (192 : ℕ), (155 : ℕ), (242 : ℕ), (186 : ℕ), (114 : ℕ), (8 : ℕ), (253 : ℕ), (160 : ℕ), (244 : ℕ), (191 : ℕ), (227 : ℕ), (208 : ℕ), (245 : ℕ), (178 : ℕ), (154 : ℕ), (84 : ℕ), (48 : ℕ), (18 : ℕ), (48 : ℕ), (109 : ℕ), (67 : ℕ), (131 : ℕ), (27 : ℕ), (90 : ℕ), (220 : ℕ), (111 : ℕ), (231 : ℕ), (248 : ℕ), (89 : ℕ), (111 : ℕ), (163 : ℕ), (8 : ℕ), (118 : ℕ), (61 : ℕ), (177 : ℕ), (84 : ℕ), (104 : ℕ), (50 : ℕ), (59 : ℕ), (17 : ℕ), (207 : ℕ), (110 : ℕ), (74 : ℕ), (235 : ℕ), (140 : ℕ), (24 : ℕ), (254 : ℕ), (68 : ℕ), (103 : ℕ), (143 : ℕ), (68 : ℕ), (84 : ℕ), (90 : ℕ), (105 : ℕ), (188 : ℕ)] : List ℕ), ([(180 : ℕ), (111 : ℕ), (24 : ℕ), (54 : ℕ), (170 : ℕ), (40 : ℕ), (124 : ℕ), (10 : ℕ), (90 : ℕ), (86 : ℕ), (83 : ℕ), (240 : ℕ), (236 : ℕ), (94 : ℕ), (249 : ℕ), (233 : ℕ), (3 : ℕ), (244 : ℕ), (54 : ℕ), (226 : ℕ), (28 : ℕ), (21 : ℕ), (112 : ℕ), (194 : ℕ), (154 : ℕ), (217 : ℕ), (229 : ℕ), (245 : ℕ), (150 : ℕ), (218 : ℕ), (151 : ℕ), (238 : ℕ), (175 : ℕ), (23 : ℕ), (21 : ℕ), (10 : ℕ), (227 : ℕ), (11 : ℕ), (203 : ℕ), (49 : ℕ), (116 : ℕ), (208 : ℕ), (75 : ℕ), (194 : ℕ), (215 : ℕ), (18 : ℕ), (200 : ℕ), (199 : ℕ), (120 : ℕ), (157 : ℕ), (124 : ℕ), (180 : ℕ), (253 : ℕ), (161 : ℕ), (56 : ℕ), (244 : ℕ)] : List ℕ), ([(28 : ℕ), (91 : ℕ), (190 : ℕ), (207 : ℕ), (71 : ℕ), (65 : ℕ), (223 : ℕ), (170 : ℕ), (231 : ℕ), (157 : ℕ), (183 : ℕ), (45 : ℕ), (250 : ℕ), (206 : ℕ), (0 : ℕ), (234 : ℕ), (170 : ℕ), (197 : ℕ), (2 : ℕ), (194 : ℕ), (6 : ℕ), (9 : ℕ), (52 : ℕ), (182 : ℕ), (234 : ℕ), (174 : ℕ), (202 : ℕ), (106 : ℕ), (32 : ℕ), (189 : ℕ), (61 : ℕ), (169 : ℕ), (224 : ℕ), (190 : ℕ), (135 : ℕ), (119 : ℕ), (247 : ℕ), (208 : ℕ), (32 : ℕ), (51 : ℕ), (209 : ℕ), (177 : ℕ), (88 : ℕ), (132 : ℕ), (35 : ℕ), (34 : ℕ), (129 : ℕ), (164 : ℕ), (31 : ℕ), (199 : ℕ), (248 : ℕ), (14 : ℕ), (237 : ℕ), (4 : ℕ), (175 : ℕ), (94 : ℕ)] : List ℕ), ([(134 : ℕ), (255 : ℕ), (1 : ℕ), (130 : ℕ), (212 : ℕ), (15 : ℕ), (127 : ℕ), (158 : ℕ), (219 : ℕ), (120 : ℕ), (98 : ℕ), (81 : ℕ), (88 : ℕ), (33 : ℕ), (189 : ℕ), (103 : ℕ), (191 : ℕ), (214 : ℕ), (22 : ℕ), (90 : ℕ), (60 : ℕ), (68 : ℕ), (222 : ℕ), (149 : ℕ), (215 : ℕ), (223 : ℕ), (121 : ℕ), (184 : ℕ), (119 : ℕ), (156 : ℕ), (207 : ℕ), (100 : ℕ), (96 : ℕ), (227 : ℕ), (198 : ℕ), (139 : ℕ), (112 : ℕ), (193 : ℕ), (106 : ℕ), (170 : ℕ), (40 : ℕ), (15 : ℕ), (45 : ℕ), (123 : ℕ), (63 : ℕ), (34 : ℕ), (215 : ℕ), (69 : ℕ), (185 : ℕ), (122 : ℕ), (137 : ℕ), (144 : ℕ), (108 : ℕ), (252 : ℕ), (71 : ℕ), (108 : ℕ)] : List ℕ), ([(80 : ℕ), (43 : ℕ), (203 : ℕ), (104 : ℕ), (66 : ℕ), (235 : ℕ), (6 : ℕ), (240 : ℕ), (228 : ℕ), (144 : ℕ), (50 : ℕ), (186 : ℕ), (232 : ℕ), (124 : ℕ), (85 : ℕ), (76 : ℕ), (3 : ℕ), (29 : ℕ), (109 : ℕ), (77 : ℕ), (45 : ℕ), (118 : ℕ), (148 : ℕ), (239 : ℕ), (191 : ℕ), (156 : ℕ), (70 : ℕ), (141 : ℕ), (72 : ℕ), (34 : ℕ), (12 : ℕ), (80 : ℕ), (248 : ℕ), (202 : ℕ), (40 : ℕ), (132 : ℕ), (51 : ℕ), (100 : ℕ), (215 : ℕ), (12 : ℕ), (238 : ℕ), (146 : ℕ), (214 : ℕ), (254 : ℕ), (36 : ℕ), (110 : ℕ), (97 : ℕ), (68 : ℕ), (143 : ℕ), (157 : ℕ), (185 : ℕ), (128 : ℕ), (139 : ℕ), (59 : ℕ), (36 : ℕ), (8 : ℕ)] : List ℕ), ([(12 : ℕ), (152 : ℕ), (16 : ℕ), (241 : ℕ), (226 : ℕ), (235 : ℕ), (211 : ℕ), (137 : ℕ), (202 : ℕ), (167 : ℕ), (137 : ℕ), (55 : ℕ), (77 : ℕ), (120 : ℕ), (0 : ℕ), (121 : ℕ), (116 : ℕ), (239 : ℕ), (77 : ℕ), (23 : ℕ), (34 : ℕ), (115 : ℕ), (22 : ℕ), (244 : ℕ), (14 : ℕ), (87 : ℕ), (139 : ℕ), (51 : ℕ), (104 : ℕ), (39 : ℕ), (218 : ℕ), (63 : ℕ), (107 : ℕ), (72 : ℕ), (42 : ℕ), (71 : ℕ), (148 : ℕ), (235 : ℕ), (106 : ℕ), (57 : ℕ), (117 : ℕ), (185 : ℕ), (113 : ℕ), (181 : ℕ), (225 : ℕ), (56 : ℕ), (143 : ℕ), (82 : ℕ), (233 : ℕ), (30 : ℕ), (162 : ℕ), (241 : ℕ), (188 : ℕ), (176 : ℕ), (249 : ℕ), (18 : ℕ)] : List ℕ), ([(32 : ℕ), (212 : ℕ), (29 : ℕ), (133 : ℕ), (161 : ℕ), (141 : ℕ), (86 : ℕ), (87 : ℕ), (162 : ℕ), (150 : ℕ), (64 : ℕ), (50 : ℕ), (21 : ℕ), (99 : ℕ), (187 : ℕ), (208 : ℕ), (76 : ℕ), (47 : ℕ), (251 : ℕ), (208 : ℕ), (163 : ℕ), (122 : ℕ), (123 : ℕ), (164 : ℕ), (58 : ℕ), (79 : ℕ), (125 : ℕ), (38 : ℕ), (60 : ℕ), (226 : ℕ), (111 : ℕ), (175 : ℕ), (78 : ℕ), (31 : ℕ), (116 : ℕ), (249 : ℕ), (244 : ℕ), (181 : ℕ), (144 : ℕ), (198 : ℕ), (146 : ℕ), (41 : ℕ), (174 : ℕ), (87 : ℕ), (31 : ℕ), (227 : ℕ), (127 : ℕ), (166 : ℕ), (57 : ℕ), (181 : ℕ), (184 : ℕ), (235 : ℕ), (72 : ℕ), (189 : ℕ), (154 : ℕ), (85 : ℕ)] : List ℕ), ([(230 : ℕ), (180 : ℕ), (184 : ℕ), (244 : ℕ), (8 : ℕ), (199 : ℕ), (1 : ℕ), (13 : ℕ), (6 : ℕ), (1 : ℕ), (231 : ℕ), (237 : ℕ), (160 : ℕ), (195 : ℕ), (9 : ℕ), (161 : ℕ), (164 : ℕ), (39 : ℕ), (32 : ℕ), (214 : ℕ), (208 : ℕ), (107 : ℕ), (87 : ℕ), (89 : ℕ), (253 : ℕ), (196 : ℕ), (225 : ℕ), (239 : ℕ), (226 : ℕ), (45 : ℕ), (7 : ℕ), (109 : ℕ), (108 : ℕ), (68 : ℕ), (212 : ℕ), (47 : ℕ), (80 : ℕ), (141 : ℕ), (103 : ℕ), (190 : ℕ), (70 : ℕ), (41 : ℕ), (20 : ℕ), (210 : ℕ), (139 : ℕ), (142 : ℕ), (220 : ℕ), (227 : ℕ), (46 : ℕ), (112 : ℕ), (148 : ℕ), (48 : ℕ), (81 : ℕ), (100 : ℕ), (175 : ℕ), (23 : ℕ)] : List ℕ), ([(190 : ℕ), (136 : ℕ), (187 : ℕ), (184 : ℕ), (108 : ℕ), (89 : ℕ), (193 : ℕ), (61 : ℕ), (142 : ℕ), (157 : ℕ), (9 : ℕ), (171 : ℕ), (152 : ℕ), (16 : ℕ), (95 : ℕ), (105 : ℕ), (194 : ℕ), (209 : ℕ), (221 : ℕ), (19 : ℕ), (77 : ℕ), (188 : ℕ), (211 : ℕ), (176 : ℕ), (134 : ℕ), (54 : ℕ), (88 : ℕ), (245 : ℕ), (49 : ℕ), (89 : ℕ), (219 : ℕ), (100 : ℕ), (192 : ℕ), (225 : ℕ), (57 : ℕ), (209 : ℕ), (128 : ℕ), (243 : ℕ), (200 : ℕ), (155 : ℕ), (130 : ℕ), (150 : ℕ), (208 : ℕ), (174 : ℕ), (50 : ℕ), (68 : ℕ), (25 : ℕ), (192 : ℕ), (111 : ℕ), (168 : ℕ), (127 : ℕ), (199 : ℕ), (218 : ℕ), (175 : ℕ), (52 : ℕ), (193 : ℕ)] : List ℕ), ([(164 : ℕ), (86 : ℕ), (249 : ℕ), (54 : ℕ), (151 : ℕ), (105 : ℕ), (232 : ℕ), (240 : ℕ), (137 : ℕ), (2 : ℕ), (18 : ℕ), (74 : ℕ), (3 : ℕ), (20 : ℕ), (199 : ℕ), (160 : ℕ), (101 : ℕ), (55 : ℕ), (160 : ℕ), (110 : ℕ), (50 : ℕ), (65 : ℕ), (31 : ℕ), (79 : ℕ), (147 : ℕ), (65 : ℕ), (89 : ℕ), (80 : ℕ), (161 : ℕ), (123 : ℕ), (173 : ℕ), (250 : ℕ), (116 : ℕ), (66 : ℕ), (182 : ℕ), (33 : ℕ), (116 : ℕ), (52 : ℕ), (163 : ℕ), (160 : ℕ), (94 : ℕ), (244 : ℕ), (91 : ℕ), (229 : ℕ), (241 : ℕ), (11 : ℕ), (215 : ℕ), (178 : ℕ), (239 : ℕ), (142 : ℕ), (160 : ℕ), (12 : ℕ), (67 : ℕ), (30 : ℕ), (222 : ℕ), (197 : ℕ)] : List ℕ), ([(24 : ℕ), (110 : ℕ), (69 : ℕ), (44 : ℕ), (68 : ℕ), (102 : ℕ), (170 : ℕ), (67 : ℕ), (131 : ℕ), (180 : ℕ), (192 : ℕ), (2 : ℕ), (16 : ℕ), (213 : ℕ), (46 : ℕ), (121 : ℕ), (34 : ℕ), (219 : ℕ), (249 : ℕ), (119 : ℕ), (30 : ℕ), (139 : ℕ), (71 : ℕ), (226 : ℕ), (41 : ℕ), (169 : ℕ), (183 : ℕ), (183 : ℕ), (60 : ℕ), (141 : ℕ), (16 : ℕ), (253 : ℕ), (126 : ℕ), (240 : ℕ), (182 : ℕ), (228 : ℕ), (21 : ℕ), (48 : ℕ), (249 : ℕ), (31 : ℕ), (36 : ℕ), (163 : ℕ), (237 : ℕ), (154 : ℕ), (183 : ℕ), (31 : ℕ), (163 : ℕ), (139 : ℕ), (152 : ℕ), (178 : ℕ), (254 : ℕ), (71 : ℕ), (70 : ℕ), (213 : ℕ), (29 : ℕ), (104 : ℕ)] : List ℕ), ([(74 : ℕ), (231 : ℕ), (253 : ℕ), (202 : ℕ), (233 : ℕ), (69 : ℕ), (63 : ℕ), (25 : ℕ), (90 : ℕ), (142 : ℕ), (173 : ℕ), (92 : ℕ), (190 : ℕ), (26 : ℕ), (123 : ℕ), (150 : ℕ), (153 : ℕ), (103 : ℕ), (59 : ℕ), (82 : ℕ), (196 : ℕ), (10 : ℕ), (178 : ℕ), (121 : ℕ), (39 : ℕ), (70 : ℕ), (72 : ℕ), (135 : ℕ), (190 : ℕ), (83 : ℕ), (35 : ℕ), (127 : ℕ), (127 : ℕ), (58 : ℕ), (33 : ℕ), (185 : ℕ), (56 : ℕ), (212 : ℕ), (13 : ℕ), (14 : ℕ), (201 : ℕ), (225 : ℕ), (91 : ℕ), (29 : ℕ), (81 : ℕ), (48 : ℕ), (177 : ℕ), (63 : ℕ), (254 : ℕ), (216 : ℕ), (19 : ℕ), (115 : ℕ), (165 : ℕ), (62 : ℕ), (43 : ℕ), (67 : ℕ)] : List ℕ), ([(132 : ℕ), (25 : ℕ), (129 : ℕ), (195 : ℕ), (191 : ℕ), (238 : ℕ), (195 : ℕ), (246 : ℕ), (12 : ℕ), (254 : ℕ), (202 : ℕ), (117 : ℕ), (217 : ℕ), (216 : ℕ), (220 : ℕ), (23 : ℕ), (244 : ℕ), (108 : ℕ), (240 : ℕ), (16 : ℕ), (111 : ℕ), (36 : ℕ), (34 : ℕ), (181 : ℕ), (154 : ℕ), (236 : ℕ), (88 : ℕ), (10 : ℕ), (88 : ℕ), (243 : ℕ), (66 : ℕ), (39 : ℕ), (46 : ℕ), (58 : ℕ), (94 : ℕ), (87 : ℕ), (90 : ℕ), (5 : ℕ), (93 : ℕ), (219 : ℕ), (5 : ℕ), (19 : ℕ), (144 : ℕ), (197 : ℕ), (76 : ℕ), (36 : ℕ), (198 : ℕ), (236 : ℕ), (177 : ℕ), (224 : ℕ), (172 : ℕ), (235 : ℕ), (7 : ℕ), (95 : ℕ), (96 : ℕ), (86 : ℕ)] : List ℕ)] : List (List ℕ))
  let point : Model.DecafPt F := (DecafPt.identity (F := F))
  let generator : Model.DecafPt F := (DecafPt.generator (F := F))
  (List.foldlM (fun (τ1 : (Model.DecafPt F)) (compressed_point : List ℕ) =>
  let point := τ1
  (DecafPt.compress (F := F) point).bind fun τ2 =>
  (Rt.require (CompressedDecaf.eq τ2 compressed_point)).bind fun τ3 =>
  let point := (DecafPt.op_add (F := F) point generator)
  some (point)) (point) compressed).bind fun τ4 =>
  let point := τ4
  some ()

end Ed448.Gen
