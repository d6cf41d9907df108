import Verif.Gen.Tests
import Verif.Gen.Fix
/-!
# Mechanical translation of the tests of the repaired source

Generated by tools/gen_fix.py; do not edit. These are the translations of the tests
of /repo/src after the patches in repairs/ that differ from those of the source as it is, and of those
that use them. All other names are those of `Ed448.Gen`. The lines cited are those of the
patched files.
-/

set_option linter.all false

namespace Ed448.Gen.Fix
open Ed448.Model FieldBackend

variable {F L : Type} [FieldBackend F L]

/-- Translation of `test_basic_add`. Uses a patched function. Patched src/field/scalar.rs:448-453 -/
def Test.field_scalar.test_basic_add  : Option Unit :=
  let five : List ℕ := (Scalar.from (5 : ℕ))
  let six : List ℕ := (Scalar.from (6 : ℕ))
  (Scalar.op_add five six).bind fun τ1 =>
  (Scalar.eq τ1 (Scalar.from (11 : ℕ))).bind fun τ2 =>
  (Rt.require τ2).bind fun τ3 =>
  some τ3

/-- Translation of `test_basic_sub`. Uses a patched function. Patched src/field/scalar.rs:456-460 -/
def Test.field_scalar.test_basic_sub  : Option Unit :=
  let ten : List ℕ := (Scalar.from (10 : ℕ))
  let five : List ℕ := (Scalar.from (5 : ℕ))
  (Scalar.op_sub ten five).bind fun τ1 =>
  (Scalar.eq τ1 (Scalar.from (5 : ℕ))).bind fun τ2 =>
  (Rt.require τ2).bind fun τ3 =>
  some τ3

/-- Translation of `test_from_canonical_bytes`. Uses a patched function. Patched src/field/scalar.rs:560-581 -/
def Test.field_scalar.test_from_canonical_bytes  : Option Unit :=
  (Rt.hexDecode [([102, 102, 102, 102, 102, 102, 102, 102, 102, 102, 102, 102, 102, 102, 102, 102, 102, 102, 102, 102, 102, 102, 102, 102, 102, 102, 102, 102, 102, 102, 102, 102, 102, 102, 102, 102, 102, 102, 102, 102, 102, 102, 102, 102, 102, 102, 102, 102, 102, 102, 102, 102, 102, 102, 102, 102, 102, 102, 102, 102, 102, 102, 102, 102, 102, 102, 102, 102, 102, 102, 102, 102, 102, 102, 102, 102, 102, 102, 102, 102, 102, 102, 102, 102, 102, 102, 102, 102, 102, 102, 102, 102, 102, 102, 102, 102, 102, 102, 102, 102, 102, 102, 102, 102, 102, 102, 102, 102, 102, 102, 102, 102, 102, 102] : List ℕ)]).bind fun τ1 =>
  let bytes : List ℕ := τ1
  let bytes := (List.reverse bytes)
  (Scalar.from_canonical_bytes bytes).bind fun τ2 =>
  let s : Option (List ℕ) := τ2
  (Rt.optEq (fun x' y' =>
  (Scalar.eq x' y').bind fun τ3 =>
  some τ3) s (none : Option (List ℕ))).bind fun τ4 =>
  (Rt.require τ4).bind fun τ5 =>
  (Rt.hexDecode [([48, 48, 51, 102, 102, 102, 102, 102, 102, 102, 102, 102, 102, 102, 102, 102, 102, 102, 102, 102, 102, 102, 102, 102, 102, 102, 102, 102, 102, 102, 102, 102, 102, 102, 102, 102, 102, 102, 102, 102, 102, 102, 102, 102, 102, 102, 102, 102, 102, 102, 102, 102, 102, 102, 102, 102, 102, 102, 55, 99, 99, 97, 50, 51, 101, 57, 99, 52, 52, 101, 100, 98, 52, 57, 97, 101, 100, 54, 51, 54, 57, 48, 50, 49, 54, 99, 99, 50, 55, 50, 56, 100, 99, 53, 56, 102, 53, 53, 50, 51, 55, 56, 99, 50, 57, 50, 97, 98, 53, 56, 52, 52, 102, 51] : List ℕ)]).bind fun τ6 =>
  let bytes : List ℕ := τ6
  let bytes := (List.reverse bytes)
  (Scalar.from_canonical_bytes bytes).bind fun τ7 =>
  let s : Option (List ℕ) := τ7
  (Rt.optEq (fun x' y' =>
  (Scalar.eq x' y').bind fun τ8 =>
  some τ8) s (none : Option (List ℕ))).bind fun τ9 =>
  (Rt.require τ9).bind fun τ10 =>
  (Rt.hexDecode [([48, 48, 51, 102, 102, 102, 102, 102, 102, 102, 102, 102, 102, 102, 102, 102, 102, 102, 102, 102, 102, 102, 102, 102, 102, 102, 102, 102, 102, 102, 102, 102, 102, 102, 102, 102, 102, 102, 102, 102, 102, 102, 102, 102, 102, 102, 102, 102, 102, 102, 102, 102, 102, 102, 102, 102, 102, 102, 55, 99, 99, 97, 50, 51, 101, 57, 99, 52, 52, 101, 100, 98, 52, 57, 97, 101, 100, 54, 51, 54, 57, 48, 50, 49, 54, 99, 99, 50, 55, 50, 56, 100, 99, 53, 56, 102, 53, 53, 50, 51, 55, 56, 99, 50, 57, 50, 97, 98, 53, 56, 52, 52, 102, 50] : List ℕ)]).bind fun τ11 =>
  let bytes : List ℕ := τ11
  let bytes := (List.reverse bytes)
  (Scalar.from_canonical_bytes bytes).bind fun τ12 =>
  let s : Option (List ℕ) := τ12
  (match s with
  | some s =>
  (Scalar.op_sub Scalar.zero Scalar.one).bind fun τ13 =>
  (Scalar.eq s τ13).bind fun τ14 =>
  (Rt.require τ14).bind fun τ15 =>
  some τ15
  | none =>
  ((none : Option Unit)).bind fun τ16 =>
  some τ16).bind fun τ17 =>
  some ()

/-- Translation of `test_from_bytes_mod_order_wide`. Uses a patched function. Patched src/field/scalar.rs:584-611 -/
def Test.field_scalar.test_from_bytes_mod_order_wide  : Option Unit :=
  (Rt.hexDecode [([48, 48, 48, 48, 48, 48, 48, 48, 48, 48, 48, 48, 48, 48, 48, 48, 48, 48, 48, 48, 48, 48, 48, 48, 48, 48, 48, 48, 48, 48, 48, 48, 48, 48, 48, 48, 48, 48, 48, 48, 48, 48, 48, 48, 48, 48, 48, 48, 48, 48, 48, 48, 48, 48, 48, 48, 48, 48, 48, 48, 48, 48, 48, 48, 48, 48, 48, 48, 48, 48, 48, 48, 48, 48, 48, 48, 48, 48, 48, 48, 48, 48, 48, 48, 48, 48, 48, 48, 48, 48, 48, 48, 48, 48, 48, 48, 48, 48, 48, 48, 48, 48, 48, 48, 48, 48, 48, 48, 48, 48, 48, 48, 48, 48, 48, 48, 51, 102, 102, 102, 102, 102, 102, 102, 102, 102, 102, 102, 102, 102, 102, 102, 102, 102, 102, 102, 102, 102, 102, 102, 102, 102, 102, 102, 102, 102, 102, 102, 102, 102, 102, 102, 102, 102, 102, 102, 102, 102, 102, 102, 102, 102, 102, 102, 102, 102, 102, 102, 102, 102, 102, 102, 55, 99, 99, 97, 50, 51, 101, 57, 99, 52, 52, 101, 100, 98, 52, 57, 97, 101, 100, 54, 51, 54, 57, 48, 50, 49, 54, 99, 99, 50, 55, 50, 56, 100, 99, 53, 56, 102, 53, 53, 50, 51, 55, 56, 99, 50, 57, 50, 97, 98, 53, 56, 52, 52, 102, 51] : List ℕ)]).bind fun τ1 =>
  let bytes : List ℕ := τ1
  let bytes := (List.reverse bytes)
  (Scalar.from_bytes_mod_order_wide bytes).bind fun τ2 =>
  let s : List ℕ := τ2
  (Scalar.eq s Scalar.zero).bind fun τ3 =>
  (Rt.require τ3).bind fun τ4 =>
  (Rt.hexDecode [([48, 48, 48, 48, 48, 48, 48, 48, 48, 48, 48, 48, 48, 48, 48, 48, 48, 48, 48, 48, 48, 48, 48, 48, 48, 48, 48, 48, 48, 48, 48, 48, 48, 48, 48, 48, 48, 48, 48, 48, 48, 48, 48, 48, 48, 48, 48, 48, 48, 48, 48, 48, 48, 48, 48, 48, 48, 48, 48, 48, 48, 48, 48, 48, 48, 48, 48, 48, 48, 48, 48, 48, 48, 48, 48, 48, 48, 48, 48, 48, 48, 48, 48, 48, 48, 48, 48, 48, 48, 48, 48, 48, 48, 48, 48, 48, 48, 48, 48, 48, 48, 48, 48, 48, 48, 48, 48, 48, 48, 48, 48, 48, 48, 48, 48, 48, 51, 102, 102, 102, 102, 102, 102, 102, 102, 102, 102, 102, 102, 102, 102, 102, 102, 102, 102, 102, 102, 102, 102, 102, 102, 102, 102, 102, 102, 102, 102, 102, 102, 102, 102, 102, 102, 102, 102, 102, 102, 102, 102, 102, 102, 102, 102, 102, 102, 102, 102, 102, 102, 102, 102, 102, 55, 99, 99, 97, 50, 51, 101, 57, 99, 52, 52, 101, 100, 98, 52, 57, 97, 101, 100, 54, 51, 54, 57, 48, 50, 49, 54, 99, 99, 50, 55, 50, 56, 100, 99, 53, 56, 102, 53, 53, 50, 51, 55, 56, 99, 50, 57, 50, 97, 98, 53, 56, 52, 52, 102, 50] : List ℕ)]).bind fun τ5 =>
  let bytes : List ℕ := τ5
  let bytes := (List.reverse bytes)
  (Scalar.from_bytes_mod_order_wide bytes).bind fun τ6 =>
  let s : List ℕ := τ6
  (Scalar.op_sub Scalar.zero Scalar.one).bind fun τ7 =>
  (Scalar.eq s τ7).bind fun τ8 =>
  (Rt.require τ8).bind fun τ9 =>
  (Rt.hexDecode [([48, 48, 48, 48, 48, 48, 48, 48, 48, 48, 48, 48, 48, 48, 48, 48, 48, 48, 48, 48, 48, 48, 48, 48, 48, 48, 48, 48, 48, 48, 48, 48, 48, 48, 48, 48, 48, 48, 48, 48, 48, 48, 48, 48, 48, 48, 48, 48, 48, 48, 48, 48, 48, 48, 48, 48, 48, 48, 48, 48, 48, 48, 48, 48, 48, 48, 48, 48, 48, 48, 48, 48, 48, 48, 48, 48, 48, 48, 48, 48, 48, 48, 48, 48, 48, 48, 48, 48, 48, 48, 48, 48, 48, 48, 48, 48, 48, 48, 48, 48, 48, 48, 48, 48, 48, 48, 48, 48, 48, 48, 48, 48, 48, 48, 48, 48, 51, 102, 102, 102, 102, 102, 102, 102, 102, 102, 102, 102, 102, 102, 102, 102, 102, 102, 102, 102, 102, 102, 102, 102, 102, 102, 102, 102, 102, 102, 102, 102, 102, 102, 102, 102, 102, 102, 102, 102, 102, 102, 102, 102, 102, 102, 102, 102, 102, 102, 102, 102, 102, 102, 102, 102, 55, 99, 99, 97, 50, 51, 101, 57, 99, 52, 52, 101, 100, 98, 52, 57, 97, 101, 100, 54, 51, 54, 57, 48, 50, 49, 54, 99, 99, 50, 55, 50, 56, 100, 99, 53, 56, 102, 53, 53, 50, 51, 55, 56, 99, 50, 57, 50, 97, 98, 53, 56, 52, 52, 102, 52] : List ℕ)]).bind fun τ10 =>
  let bytes : List ℕ := τ10
  let bytes := (List.reverse bytes)
  (Scalar.from_bytes_mod_order_wide bytes).bind fun τ11 =>
  let s : List ℕ := τ11
  (Scalar.eq s Scalar.one).bind fun τ12 =>
  (Rt.require τ12).bind fun τ13 =>
  (Rt.hexDecode [([102, 102, 102, 102, 102, 102, 102, 102, 102, 102, 102, 102, 102, 102, 102, 102, 102, 102, 102, 102, 102, 102, 102, 102, 102, 102, 102, 102, 102, 102, 102, 102, 102, 102, 102, 102, 102, 102, 102, 102, 102, 102, 102, 102, 102, 102, 102, 102, 102, 102, 102, 102, 102, 102, 102, 102, 102, 102, 102, 102, 102, 102, 102, 102, 102, 102, 102, 102, 102, 102, 102, 102, 102, 102, 102, 102, 102, 102, 102, 102, 102, 102, 102, 102, 102, 102, 102, 102, 102, 102, 102, 102, 102, 102, 102, 102, 102, 102, 102, 102, 102, 102, 102, 102, 102, 102, 102, 102, 102, 102, 102, 102, 102, 102, 102, 102, 102, 102, 102, 102, 102, 102, 102, 102, 102, 102, 102, 102, 102, 102, 102, 102, 102, 102, 102, 102, 102, 102, 102, 102, 102, 102, 102, 102, 102, 102, 102, 102, 102, 102, 102, 102, 102, 102, 102, 102, 102, 102, 102, 102, 102, 102, 102, 102, 102, 102, 102, 102, 102, 102, 102, 102, 102, 102, 102, 102, 102, 102, 102, 102, 102, 102, 102, 102, 102, 102, 102, 102, 102, 102, 102, 102, 102, 102, 102, 102, 102, 102, 102, 102, 102, 102, 102, 102, 102, 102, 102, 102, 102, 102, 102, 102, 102, 102, 102, 102, 102, 102, 102, 102, 102, 102, 102, 102, 102, 102, 102, 102] : List ℕ)]).bind fun τ14 =>
  let bytes : List ℕ := τ14
  let bytes := (List.reverse bytes)
  (Scalar.from_bytes_mod_order_wide bytes).bind fun τ15 =>
  let s : List ℕ := τ15
  (Rt.hexDecode [([48, 48, 50, 57, 51, 57, 102, 56, 50, 51, 98, 55, 50, 57, 50, 48, 53, 50, 98, 99, 98, 55, 101, 52, 100, 48, 55, 48, 97, 102, 49, 97, 57, 99, 99, 49, 52, 98, 97, 51, 99, 52, 55, 99, 52, 52, 97, 101, 49, 55, 99, 102, 55, 50, 99, 57, 56, 53, 98, 98, 50, 52, 98, 54, 99, 53, 50, 48, 101, 51, 49, 57, 102, 98, 51, 55, 97, 54, 51, 101, 50, 57, 56, 48, 48, 102, 49, 54, 48, 55, 56, 55, 97, 100, 49, 100, 50, 101, 49, 49, 56, 56, 51, 102, 97, 57, 51, 49, 101, 55, 100, 101, 56, 49] : List ℕ)]).bind fun τ16 =>
  let bytes : List ℕ := τ16
  let bytes := (List.reverse bytes)
  (Scalar.from_canonical_bytes bytes).bind fun τ17 =>
  (τ17).bind fun τ18 =>
  let reduced : List ℕ := τ18
  (Scalar.eq s reduced).bind fun τ19 =>
  (Rt.require τ19).bind fun τ20 =>
  some ()

/-- Translation of `test_to_bytes_rfc8032`. Uses a patched function. Patched src/field/scalar.rs:614-621 -/
def Test.field_scalar.test_to_bytes_rfc8032  : Option Unit :=
  (Rt.hexDecode [([48, 48, 51, 102, 102, 102, 102, 102, 102, 102, 102, 102, 102, 102, 102, 102, 102, 102, 102, 102, 102, 102, 102, 102, 102, 102, 102, 102, 102, 102, 102, 102, 102, 102, 102, 102, 102, 102, 102, 102, 102, 102, 102, 102, 102, 102, 102, 102, 102, 102, 102, 102, 102, 102, 102, 102, 102, 102, 55, 99, 99, 97, 50, 51, 101, 57, 99, 52, 52, 101, 100, 98, 52, 57, 97, 101, 100, 54, 51, 54, 57, 48, 50, 49, 54, 99, 99, 50, 55, 50, 56, 100, 99, 53, 56, 102, 53, 53, 50, 51, 55, 56, 99, 50, 57, 50, 97, 98, 53, 56, 52, 52, 102, 50] : List ℕ)]).bind fun τ1 =>
  let bytes : List ℕ := τ1
  let bytes := (List.reverse bytes)
  (Scalar.op_sub Scalar.zero Scalar.one).bind fun τ2 =>
  let x : List ℕ := τ2
  (Scalar.to_bytes_rfc_8032 x).bind fun τ3 =>
  let candidate : List ℕ := τ3
  (Rt.require (bytes == candidate)).bind fun τ4 =>
  some ()

/-- Translation of `test_compress_decompress`. Uses a patched function. Patched src/curve/edwards/extended.rs:478-487 -/
def Test.edwards_extended.test_compress_decompress  : Option Unit :=
  (Test.edwards_extended.hex_to_field (F := F) ([97, 97, 97, 97, 97, 97, 97, 97, 97, 97, 97, 97, 97, 97, 97, 97, 97, 97, 97, 97, 97, 97, 97, 97, 97, 97, 97, 97, 97, 97, 97, 97, 97, 97, 97, 97, 97, 97, 97, 97, 97, 97, 97, 97, 97, 97, 97, 97, 97, 97, 97, 97, 97, 97, 97, 57, 53, 53, 53, 53, 53, 53, 53, 53, 53, 53, 53, 53, 53, 53, 53, 53, 53, 53, 53, 53, 53, 53, 53, 53, 53, 53, 53, 53, 53, 53, 53, 53, 53, 53, 53, 53, 53, 53, 53, 53, 53, 53, 53, 53, 53, 53, 53, 53, 53, 53, 53, 53, 53, 53, 53, 53] : List ℕ)).bind fun τ1 =>
  let x : F := τ1
  (Test.edwards_extended.hex_to_field (F := F) ([97, 101, 48, 53, 101, 57, 54, 51, 52, 97, 100, 55, 48, 52, 56, 100, 98, 51, 53, 57, 100, 54, 50, 48, 53, 48, 56, 54, 99, 50, 98, 48, 48, 51, 54, 101, 100, 55, 97, 48, 51, 53, 56, 56, 52, 100, 100, 55, 98, 55, 101, 51, 54, 100, 55, 50, 56, 97, 100, 56, 99, 52, 98, 56, 48, 100, 54, 53, 54, 53, 56, 51, 51, 97, 50, 97, 51, 48, 57, 56, 98, 98, 98, 99, 98, 50, 98, 101, 100, 49, 99, 100, 97, 48, 54, 98, 100, 97, 101, 97, 102, 98, 99, 100, 101, 97, 57, 51, 56, 54, 101, 100] : List ℕ)).bind fun τ2 =>
  let y : F := τ2
  let gen : Model.EdPt F := (EdAff.to_extended (F := F) ({ x := x, y := y } : Model.EdAff F))
  (EdPt.compress (F := F) gen).bind fun τ3 =>
  (CompressedEdwardsY.decompress (F := F) τ3).bind fun τ4 =>
  let decompressed_point : Option (Model.EdPt F) := τ4
  (Rt.require (Option.isSome decompressed_point)).bind fun τ5 =>
  (decompressed_point).bind fun τ6 =>
  (Rt.require (EdPt.eq (F := F) gen τ6)).bind fun τ7 =>
  some ()

/-- Translation of `test_decompress_compress`. Uses a patched function. Patched src/curve/edwards/extended.rs:489-497 -/
def Test.edwards_extended.test_decompress_compress  : Option Unit :=
  (Rt.hexDecode [([54, 52, 57, 99, 54, 97, 53, 51, 98, 49, 48, 57, 56, 57, 55, 100, 57, 54, 50, 100, 48, 51, 51, 102, 50, 51, 100, 48, 49, 102, 100, 52, 101, 49, 48, 53, 51, 100, 100, 100, 102, 51, 55, 52, 54, 100, 50, 100, 100, 99, 101, 57, 98, 100, 54, 54, 97, 101, 97, 51, 56, 99, 99, 102, 99, 51, 100, 102, 48, 54, 49, 100, 102, 48, 51, 99, 97, 51, 57, 57, 101, 98, 56, 48, 54, 51, 49, 50, 97, 98, 51, 48, 51, 55, 99, 48, 99, 51, 49, 53, 50, 51, 49, 52, 50, 57, 53, 54, 97, 100, 97, 55, 56, 48] : List ℕ)]).bind fun τ1 =>
  let bytes : List ℕ := τ1
  let compressed : List ℕ := bytes
  (CompressedEdwardsY.decompress (F := F) compressed).bind fun τ2 =>
  (τ2).bind fun τ3 =>
  let decompressed : Model.EdPt F := τ3
  (EdPt.compress (F := F) decompressed).bind fun τ4 =>
  let recompressed : List ℕ := τ4
  (Rt.require (bytes == recompressed)).bind fun τ5 =>
  some ()

/-- Translation of `test_just_decompress`. Uses a patched function. Patched src/curve/edwards/extended.rs:499-513 -/
def Test.edwards_extended.test_just_decompress  : Option Unit :=
  (Rt.hexDecode [([54, 52, 57, 99, 54, 97, 53, 51, 98, 49, 48, 57, 56, 57, 55, 100, 57, 54, 50, 100, 48, 51, 51, 102, 50, 51, 100, 48, 49, 102, 100, 52, 101, 49, 48, 53, 51, 100, 100, 100, 102, 51, 55, 52, 54, 100, 50, 100, 100, 99, 101, 57, 98, 100, 54, 54, 97, 101, 97, 51, 56, 99, 99, 102, 99, 51, 100, 102, 48, 54, 49, 100, 102, 48, 51, 99, 97, 51, 57, 57, 101, 98, 56, 48, 54, 51, 49, 50, 97, 98, 51, 48, 51, 55, 99, 48, 99, 51, 49, 53, 50, 51, 49, 52, 50, 57, 53, 54, 97, 100, 97, 55, 56, 48] : List ℕ)]).bind fun τ1 =>
  let bytes : List ℕ := τ1
  let compressed : List ℕ := bytes
  (CompressedEdwardsY.decompress (F := F) compressed).bind fun τ2 =>
  (τ2).bind fun τ3 =>
  let decompressed : Model.EdPt F := τ3
  (Test.edwards_extended.hex_to_field (F := F) ([51, 57, 99, 52, 49, 99, 101, 97, 51, 48, 53, 100, 55, 51, 55, 100, 102, 48, 48, 100, 101, 56, 50, 50, 51, 97, 48, 100, 53, 102, 52, 100, 52, 56, 99, 56, 101, 48, 57, 56, 101, 49, 54, 101, 57, 98, 52, 98, 50, 102, 51, 56, 97, 99, 51, 53, 51, 50, 54, 50, 101, 49, 49, 57, 99, 98, 53, 102, 102, 50, 97, 102, 100, 54, 100, 48, 50, 52, 54, 52, 55, 48, 50, 100, 57, 100, 48, 49, 99, 57, 57, 50, 49, 50, 52, 51, 102, 99, 53, 55, 50, 102, 57, 99, 55, 49, 56, 101, 50, 53, 50, 55] : List ℕ)).bind fun τ4 =>
  (Rt.require (Field.eq (F := F) decompressed.X τ4)).bind fun τ5 =>
  (Test.edwards_extended.hex_to_field (F := F) ([97, 55, 97, 100, 53, 54, 50, 57, 49, 52, 50, 51, 49, 53, 99, 51, 99, 48, 51, 55, 51, 48, 97, 98, 49, 50, 54, 51, 56, 48, 101, 98, 57, 57, 97, 51, 51, 99, 102, 48, 49, 100, 48, 54, 100, 102, 99, 51, 99, 102, 56, 99, 97, 51, 97, 101, 54, 54, 98, 100, 101, 57, 100, 99, 50, 100, 54, 100, 55, 52, 102, 51, 100, 100, 51, 100, 48, 53, 101, 49, 100, 52, 49, 102, 100, 48, 50, 51, 51, 102, 48, 51, 50, 100, 57, 54, 55, 100, 56, 57, 48, 57, 98, 49, 53, 51, 54, 97, 57, 99, 54, 52] : List ℕ)).bind fun τ6 =>
  (Rt.require (Field.eq (F := F) decompressed.Y τ6)).bind fun τ7 =>
  (Rt.hexDecode [([48, 49, 48, 48, 48, 48, 48, 48, 48, 48, 48, 48, 48, 48, 48, 48, 48, 48, 48, 48, 48, 48, 48, 48, 48, 48, 48, 48, 48, 48, 48, 48, 48, 48, 48, 48, 48, 48, 48, 48, 48, 48, 48, 48, 48, 48, 48, 48, 48, 48, 48, 48, 48, 48, 48, 48, 48, 48, 48, 48, 48, 48, 48, 48, 48, 48, 48, 48, 48, 48, 48, 48, 48, 48, 48, 48, 48, 48, 48, 48, 48, 48, 48, 48, 48, 48, 48, 48, 48, 48, 48, 48, 48, 48, 48, 48, 48, 48, 48, 48, 48, 48, 48, 48, 48, 48, 48, 48, 48, 48, 48, 48, 48, 48] : List ℕ)]).bind fun τ8 =>
  let bytes : List ℕ := τ8
  let compressed : List ℕ := bytes
  (CompressedEdwardsY.decompress (F := F) compressed).bind fun τ9 =>
  (τ9).bind fun τ10 =>
  let decompressed : Model.EdPt F := τ10
  (Test.edwards_extended.hex_to_field (F := F) ([48, 48, 48, 48, 48, 48, 48, 48, 48, 48, 48, 48, 48, 48, 48, 48, 48, 48, 48, 48, 48, 48, 48, 48, 48, 48, 48, 48, 48, 48, 48, 48, 48, 48, 48, 48, 48, 48, 48, 48, 48, 48, 48, 48, 48, 48, 48, 48, 48, 48, 48, 48, 48, 48, 48, 48, 48, 48, 48, 48, 48, 48, 48, 48, 48, 48, 48, 48, 48, 48, 48, 48, 48, 48, 48, 48, 48, 48, 48, 48, 48, 48, 48, 48, 48, 48, 48, 48, 48, 48, 48, 48, 48, 48, 48, 48, 48, 48, 48, 48, 48, 48, 48, 48, 48, 48, 48, 48, 48, 48, 48, 48] : List ℕ)).bind fun τ11 =>
  (Rt.require (Field.eq (F := F) decompressed.X τ11)).bind fun τ12 =>
  (Test.edwards_extended.hex_to_field (F := F) ([48, 48, 48, 48, 48, 48, 48, 48, 48, 48, 48, 48, 48, 48, 48, 48, 48, 48, 48, 48, 48, 48, 48, 48, 48, 48, 48, 48, 48, 48, 48, 48, 48, 48, 48, 48, 48, 48, 48, 48, 48, 48, 48, 48, 48, 48, 48, 48, 48, 48, 48, 48, 48, 48, 48, 48, 48, 48, 48, 48, 48, 48, 48, 48, 48, 48, 48, 48, 48, 48, 48, 48, 48, 48, 48, 48, 48, 48, 48, 48, 48, 48, 48, 48, 48, 48, 48, 48, 48, 48, 48, 48, 48, 48, 48, 48, 48, 48, 48, 48, 48, 48, 48, 48, 48, 48, 48, 48, 48, 48, 48, 49] : List ℕ)).bind fun τ13 =>
  (Rt.require (Field.eq (F := F) decompressed.Y τ13)).bind fun τ14 =>
  some ()

/-- Translation of `test_is_torsion_free`. Uses a patched function. Patched src/curve/edwards/extended.rs:515-523 -/
def Test.edwards_extended.test_is_torsion_free  : Option Unit :=
  (EdPt.is_torsion_free (F := F) (EdPt.generator (F := F))).bind fun τ1 =>
  (Rt.require τ1).bind fun τ2 =>
  (EdPt.is_torsion_free (F := F) (EdPt.identity (F := F))).bind fun τ3 =>
  (Rt.require τ3).bind fun τ4 =>
  (Rt.hexDecode [([49, 51, 98, 54, 55, 49, 52, 99, 55, 97, 53, 102, 53, 51, 49, 48, 49, 98, 98, 101, 99, 56, 56, 102, 50, 102, 49, 55, 99, 100, 51, 48, 102, 52, 50, 101, 51, 55, 102, 97, 101, 51, 54, 51, 97, 53, 52, 55, 52, 101, 102, 98, 52, 49, 57, 55, 101, 100, 54, 48, 48, 53, 100, 102, 53, 56, 54, 49, 97, 101, 49, 55, 56, 97, 48, 99, 50, 99, 49, 54, 97, 100, 51, 55, 56, 98, 55, 98, 101, 102, 101, 100, 48, 100, 48, 57, 48, 52, 98, 55, 99, 101, 100, 51, 53, 101, 57, 102, 54, 55, 52, 49, 56, 48] : List ℕ)]).bind fun τ5 =>
  let bytes : List ℕ := τ5
  let compressed : List ℕ := bytes
  (CompressedEdwardsY.decompress (F := F) compressed).bind fun τ6 =>
  (τ6).bind fun τ7 =>
  let decompressed : Model.EdPt F := τ7
  (EdPt.is_torsion_free (F := F) decompressed).bind fun τ8 =>
  (Rt.require (!τ8)).bind fun τ9 =>
  some ()

/-- Translation of `test_montgomery_edwards`. Uses a patched function. Patched src/curve/montgomery/montgomery.rs:214-225 -/
def Test.montgomery_montgomery.test_montgomery_edwards  : Option Unit :=
  let scalar : List ℕ := (Scalar.from (200 : ℕ))
  let bp : Model.EdPt F := (Rt.ptEdPt (FieldBackend.GOLDILOCKS_BASE_POINT : F × F × F × F))
  (EdPt.to_montgomery (F := F) bp).bind fun τ1 =>
  let montgomery_bp : List ℕ := τ1
  (MontgomeryPoint.op_mul_Scalar (F := F) montgomery_bp scalar).bind fun τ2 =>
  let montgomery_res : List ℕ := τ2
  (EdPt.scalar_mul (F := F) bp scalar).bind fun τ3 =>
  let goldilocks_point : Model.EdPt F := τ3
  (EdPt.to_montgomery (F := F) goldilocks_point).bind fun τ4 =>
  (Rt.require (MontgomeryPoint.eq τ4 montgomery_res)).bind fun τ5 =>
  some ()

end Ed448.Gen.Fix
