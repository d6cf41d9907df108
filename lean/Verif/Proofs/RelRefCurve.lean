import Verif.Gen.RelCurve
import Verif.Proofs.RelRef

/-!
# Release builds refine debug builds: curves

Written by tools/gen_relref.py from the definitions of `Verif.Gen.Rel*`: wherever a function of the translation with
overflow checks returns, the function of the translation with wrapping arithmetic returns the same value.
-/

namespace Ed448.Rel
open Ed448.Model

set_option maxRecDepth 10000
variable {F L : Type} [FieldBackend F L]

instance {self : F} {n : ℕ} :
    Ref (Gen.Field.square_n (F := F) self n) (Field.square_n (F := F) self n) := by
  unfold Gen.Field.square_n Field.square_n
  ref

instance {self : F} :
    Ref (Gen.Field.invert (F := F) self) (Field.invert (F := F) self) := by
  unfold Gen.Field.invert Field.invert
  ref

instance {self : F} :
    Ref (Gen.Field.inverse_square_root (F := F) self) (Field.inverse_square_root (F := F) self) := by
  unfold Gen.Field.inverse_square_root Field.inverse_square_root
  ref

instance {u v : F} :
    Ref (Gen.Field.sqrt_ratio (F := F) u v) (Field.sqrt_ratio (F := F) u v) := by
  unfold Gen.Field.sqrt_ratio Field.sqrt_ratio
  ref

instance {self : List ℕ} :
    Ref (Gen.CompressedEdwardsY.decompress (F := F) self) (CompressedEdwardsY.decompress (F := F) self) := by
  unfold Gen.CompressedEdwardsY.decompress CompressedEdwardsY.decompress
  ref

instance {self : Model.EdPt F} :
    Ref (Gen.EdPt.to_affine (F := F) self) (EdPt.to_affine (F := F) self) := by
  unfold Gen.EdPt.to_affine EdPt.to_affine
  ref

instance {self : Model.EdPt F} :
    Ref (Gen.EdPt.to_montgomery (F := F) self) (EdPt.to_montgomery (F := F) self) := by
  unfold Gen.EdPt.to_montgomery EdPt.to_montgomery
  ref

instance {self : Model.EdPt F} {a : L} :
    Ref (Gen.EdPt.edwards_isogeny (F := F) self a) (EdPt.edwards_isogeny (F := F) self a) := by
  unfold Gen.EdPt.edwards_isogeny EdPt.edwards_isogeny
  ref

instance {self : Model.EdPt F} :
    Ref (Gen.EdPt.to_twisted (F := F) self) (EdPt.to_twisted (F := F) self) := by
  unfold Gen.EdPt.to_twisted EdPt.to_twisted
  ref

instance {point : Model.TwPt F} :
    Ref (Gen.LookupTable.from (F := F) point) (LookupTable.from (F := F) point) := by
  unfold Gen.LookupTable.from LookupTable.from
  ref

instance {self : List (Model.PNiels F)} {index : ℕ} :
    Ref (Gen.LookupTable.select (F := F) self index) (LookupTable.select (F := F) self index) := by
  unfold Gen.LookupTable.select LookupTable.select
  ref

instance {point : Model.TwPt F} {s : List ℕ} :
    Ref (Gen.variable_base.variable_base (F := F) point s) (variable_base.variable_base (F := F) point s) := by
  unfold Gen.variable_base.variable_base variable_base.variable_base
  ref

instance {self : Model.TwPt F} :
    Ref (Gen.TwPt.to_affine (F := F) self) (TwPt.to_affine (F := F) self) := by
  unfold Gen.TwPt.to_affine TwPt.to_affine
  ref

instance {self : Model.TwPt F} {a : L} :
    Ref (Gen.TwPt.edwards_isogeny (F := F) self a) (TwPt.edwards_isogeny (F := F) self a) := by
  unfold Gen.TwPt.edwards_isogeny TwPt.edwards_isogeny
  ref

instance {self : Model.TwPt F} :
    Ref (Gen.TwPt.to_untwisted (F := F) self) (TwPt.to_untwisted (F := F) self) := by
  unfold Gen.TwPt.to_untwisted TwPt.to_untwisted
  ref

instance {self : Model.EdPt F} {scalar : List ℕ} :
    Ref (Gen.EdPt.scalar_mul (F := F) self scalar) (EdPt.scalar_mul (F := F) self scalar) := by
  unfold Gen.EdPt.scalar_mul EdPt.scalar_mul
  ref

instance {self : Model.EdPt F} :
    Ref (Gen.EdPt.compress (F := F) self) (EdPt.compress (F := F) self) := by
  unfold Gen.EdPt.compress EdPt.compress
  ref

instance {self : Model.EdPt F} {scalar : List ℕ} :
    Ref (Gen.EdPt.op_mul_Scalar (F := F) self scalar) (EdPt.op_mul_Scalar (F := F) self scalar) := by
  unfold Gen.EdPt.op_mul_Scalar EdPt.op_mul_Scalar
  ref

instance {self : Model.EdPt F} :
    Ref (Gen.EdPt.is_torsion_free (F := F) self) (EdPt.is_torsion_free (F := F) self) := by
  unfold Gen.EdPt.is_torsion_free EdPt.is_torsion_free
  ref

instance {self : Model.EdPt F} {scalar : List ℕ} :
    Ref (Gen.EdPt.op_mul_assign_Scalar (F := F) self scalar) (EdPt.op_mul_assign_Scalar (F := F) self scalar) := by
  unfold Gen.EdPt.op_mul_assign_Scalar EdPt.op_mul_assign_Scalar
  ref

instance {self : List ℕ} {point : Model.EdPt F} :
    Ref (Gen.Scalar.op_mul_EdPt (F := F) self point) (Scalar.op_mul_EdPt (F := F) self point) := by
  unfold Gen.Scalar.op_mul_EdPt Scalar.op_mul_EdPt
  ref

instance {self : Model.EdPt F} {rhs : List ℕ} :
    Ref (Gen.EdPt.op_mul_assign_Scalar2 (F := F) self rhs) (EdPt.op_mul_assign_Scalar2 (F := F) self rhs) := by
  unfold Gen.EdPt.op_mul_assign_Scalar2 EdPt.op_mul_assign_Scalar2
  ref

instance {self : Model.EdPt F} {rhs : List ℕ} :
    Ref (Gen.EdPt.op_mul_Scalar2 (F := F) self rhs) (EdPt.op_mul_Scalar2 (F := F) self rhs) := by
  unfold Gen.EdPt.op_mul_Scalar2 EdPt.op_mul_Scalar2
  ref

instance {self : Model.EdPt F} {rhs : List ℕ} :
    Ref (Gen.EdPt.op_mul_Scalar3 (F := F) self rhs) (EdPt.op_mul_Scalar3 (F := F) self rhs) := by
  unfold Gen.EdPt.op_mul_Scalar3 EdPt.op_mul_Scalar3
  ref

instance {self : Model.EdPt F} {rhs : List ℕ} :
    Ref (Gen.EdPt.op_mul_Scalar4 (F := F) self rhs) (EdPt.op_mul_Scalar4 (F := F) self rhs) := by
  unfold Gen.EdPt.op_mul_Scalar4 EdPt.op_mul_Scalar4
  ref

instance {self : List ℕ} {rhs : Model.EdPt F} :
    Ref (Gen.Scalar.op_mul_EdPt2 (F := F) self rhs) (Scalar.op_mul_EdPt2 (F := F) self rhs) := by
  unfold Gen.Scalar.op_mul_EdPt2 Scalar.op_mul_EdPt2
  ref

instance {self : List ℕ} {rhs : Model.EdPt F} :
    Ref (Gen.Scalar.op_mul_EdPt3 (F := F) self rhs) (Scalar.op_mul_EdPt3 (F := F) self rhs) := by
  unfold Gen.Scalar.op_mul_EdPt3 Scalar.op_mul_EdPt3
  ref

instance {self : List ℕ} {rhs : Model.EdPt F} :
    Ref (Gen.Scalar.op_mul_EdPt4 (F := F) self rhs) (Scalar.op_mul_EdPt4 (F := F) self rhs) := by
  unfold Gen.Scalar.op_mul_EdPt4 Scalar.op_mul_EdPt4
  ref

instance {self other : Model.TwAff F} :
    Ref (Gen.TwAff.add (F := F) self other) (TwAff.add (F := F) self other) := by
  unfold Gen.TwAff.add TwAff.add
  ref

instance {point : Model.TwPt F} {s : List ℕ} :
    Ref (Gen.double_and_add.double_and_add (F := F) point s) (double_and_add.double_and_add (F := F) point s) := by
  unfold Gen.double_and_add.double_and_add double_and_add.double_and_add
  ref

instance {a : List ℕ} {A : Model.TwPt F} {b : List ℕ} :
    Ref (Gen.double_base.double_base_scalar_mul (F := F) a A b) (double_base.double_base_scalar_mul (F := F) a A b) := by
  unfold Gen.double_base.double_base_scalar_mul double_base.double_base_scalar_mul
  ref

instance {self : Model.ProjMont F} :
    Ref (Gen.ProjMont.to_affine (F := F) self) (ProjMont.to_affine (F := F) self) := by
  unfold Gen.ProjMont.to_affine ProjMont.to_affine
  ref

instance {self scalar : List ℕ} :
    Ref (Gen.MontgomeryPoint.op_mul_Scalar (F := F) self scalar) (MontgomeryPoint.op_mul_Scalar (F := F) self scalar) := by
  unfold Gen.MontgomeryPoint.op_mul_Scalar MontgomeryPoint.op_mul_Scalar
  ref

instance {self point : List ℕ} :
    Ref (Gen.Scalar.op_mul_MontgomeryPoint (F := F) self point) (Scalar.op_mul_MontgomeryPoint (F := F) self point) := by
  unfold Gen.Scalar.op_mul_MontgomeryPoint Scalar.op_mul_MontgomeryPoint
  ref

instance {self : Model.DecafPt F} :
    Ref (Gen.DecafPt.compress (F := F) self) (DecafPt.compress (F := F) self) := by
  unfold Gen.DecafPt.compress DecafPt.compress
  ref

instance {self : List ℕ} :
    Ref (Gen.CompressedDecaf.decompress (F := F) self) (CompressedDecaf.decompress (F := F) self) := by
  unfold Gen.CompressedDecaf.decompress CompressedDecaf.decompress
  ref

instance {self : Model.DecafPt F} {scalar : List ℕ} :
    Ref (Gen.DecafPt.op_mul_Scalar (F := F) self scalar) (DecafPt.op_mul_Scalar (F := F) self scalar) := by
  unfold Gen.DecafPt.op_mul_Scalar DecafPt.op_mul_Scalar
  ref

instance {self : List ℕ} {point : Model.DecafPt F} :
    Ref (Gen.Scalar.op_mul_DecafPt (F := F) self point) (Scalar.op_mul_DecafPt (F := F) self point) := by
  unfold Gen.Scalar.op_mul_DecafPt Scalar.op_mul_DecafPt
  ref

instance {self : List ℕ} {point : Model.DecafPt F} :
    Ref (Gen.Scalar.op_mul_DecafPt2 (F := F) self point) (Scalar.op_mul_DecafPt2 (F := F) self point) := by
  unfold Gen.Scalar.op_mul_DecafPt2 Scalar.op_mul_DecafPt2
  ref

instance {self : Model.DecafPt F} {scalar : List ℕ} :
    Ref (Gen.DecafPt.op_mul_Scalar2 (F := F) self scalar) (DecafPt.op_mul_Scalar2 (F := F) self scalar) := by
  unfold Gen.DecafPt.op_mul_Scalar2 DecafPt.op_mul_Scalar2
  ref

end Ed448.Rel
