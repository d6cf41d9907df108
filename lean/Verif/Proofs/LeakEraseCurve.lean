import Verif.Gen.LeakCurve
import Verif.Proofs.LeakErase

/-!
# Forgetting the leakage: curve

Every function of the translation with leakage (`Verif.Gen.LeakCurve`) is, once the recorded
observations are dropped, the function of the translation without (`Verif.Gen.Curve`): both passes of
`tools/rust2lean.py` describe the same program.
-/

namespace Ed448.Leak
open Ed448.Model

variable {F L : Type} [FieldBackend F L] [LeakBackend F L]

instance {self other : F} :
    Er (Field.ct_eq (F := F) self other) (some (Gen.Field.ct_eq (F := F) self other)) := by
  unfold Field.ct_eq Gen.Field.ct_eq
  er

instance {self other : F} :
    Er (Field.eq (F := F) self other) (some (Gen.Field.eq (F := F) self other)) := by
  unfold Field.eq Gen.Field.eq
  er

instance {self : F} :
    Er (Field.is_zero (F := F) self) (some (Gen.Field.is_zero (F := F) self)) := by
  unfold Field.is_zero Gen.Field.is_zero
  er

instance {self : F} {n : ℕ} :
    Er (Field.square_n (F := F) self n) (Gen.Field.square_n (F := F) self n) := by
  unfold Field.square_n Gen.Field.square_n
  er

instance {self : F} : Er (Field.invert (F := F) self) (Gen.Field.invert (F := F) self) := by
  unfold Field.invert Gen.Field.invert
  er

instance {self : F} :
    Er (Field.inverse_square_root (F := F) self) (Gen.Field.inverse_square_root (F := F) self) := by
  unfold Field.inverse_square_root Gen.Field.inverse_square_root
  er

instance {u v : F} : Er (Field.sqrt_ratio (F := F) u v) (Gen.Field.sqrt_ratio (F := F) u v) := by
  unfold Field.sqrt_ratio Gen.Field.sqrt_ratio
  er

instance {self : Model.EdAff F} :
    Er (EdAff.to_extended (F := F) self) (some (Gen.EdAff.to_extended (F := F) self)) := by
  unfold EdAff.to_extended Gen.EdAff.to_extended
  er

instance {a b : Model.EdPt F} {choice : Bool} :
    Er (EdPt.conditional_select (F := F) a b choice) (some (Gen.EdPt.conditional_select (F := F) a b choice)) := by
  unfold EdPt.conditional_select Gen.EdPt.conditional_select
  er

instance {self : List ℕ} :
    Er (CompressedEdwardsY.decompress (F := F) self) (Gen.CompressedEdwardsY.decompress (F := F) self) := by
  unfold CompressedEdwardsY.decompress Gen.CompressedEdwardsY.decompress
  er

instance {self other : Model.EdPt F} :
    Er (EdPt.ct_eq (F := F) self other) (some (Gen.EdPt.ct_eq (F := F) self other)) := by
  unfold EdPt.ct_eq Gen.EdPt.ct_eq
  er

instance {self other : Model.EdPt F} :
    Er (EdPt.eq (F := F) self other) (some (Gen.EdPt.eq (F := F) self other)) := by
  unfold EdPt.eq Gen.EdPt.eq
  er

instance {self : Model.EdPt F} :
    Er (EdPt.to_affine (F := F) self) (Gen.EdPt.to_affine (F := F) self) := by
  unfold EdPt.to_affine Gen.EdPt.to_affine
  er

instance {self : Model.EdPt F} :
    Er (EdPt.to_montgomery (F := F) self) (Gen.EdPt.to_montgomery (F := F) self) := by
  unfold EdPt.to_montgomery Gen.EdPt.to_montgomery
  er

instance {self : Model.EdPt F} {a : L} :
    Er (EdPt.edwards_isogeny (F := F) self a) (Gen.EdPt.edwards_isogeny (F := F) self a) := by
  unfold EdPt.edwards_isogeny Gen.EdPt.edwards_isogeny
  er

instance {self : Model.EdPt F} :
    Er (EdPt.to_twisted (F := F) self) (Gen.EdPt.to_twisted (F := F) self) := by
  unfold EdPt.to_twisted Gen.EdPt.to_twisted
  er

instance {self : Model.TwPt F} :
    Er (TwPt.to_extensible (F := F) self) (some (Gen.TwPt.to_extensible (F := F) self)) := by
  unfold TwPt.to_extensible Gen.TwPt.to_extensible
  er

instance {self : Model.TwExt F} :
    Er (TwExt.to_projective_niels (F := F) self) (some (Gen.TwExt.to_projective_niels (F := F) self)) := by
  unfold TwExt.to_projective_niels Gen.TwExt.to_projective_niels
  er

instance {self : Model.TwExt F} {other : Model.PNiels F} :
    Er (TwExt.add_projective_niels (F := F) self other) (some (Gen.TwExt.add_projective_niels (F := F) self other)) := by
  unfold TwExt.add_projective_niels Gen.TwExt.add_projective_niels
  er

instance {point : Model.TwPt F} :
    Er (LookupTable.from (F := F) point) (Gen.LookupTable.from (F := F) point) := by
  unfold LookupTable.from Gen.LookupTable.from
  er

instance {self : Model.TwExt F} :
    Er (TwExt.double (F := F) self) (some (Gen.TwExt.double (F := F) self)) := by
  unfold TwExt.double Gen.TwExt.double
  er

instance : Er (PNiels.identity (F := F)) (some (Gen.PNiels.identity (F := F))) := by
  unfold PNiels.identity Gen.PNiels.identity
  er

instance {a b : Model.PNiels F} {choice : Bool} :
    Er (PNiels.conditional_select (F := F) a b choice) (some (Gen.PNiels.conditional_select (F := F) a b choice)) := by
  unfold PNiels.conditional_select Gen.PNiels.conditional_select
  er

instance {self : List (Model.PNiels F)} {index : ℕ} :
    Er (LookupTable.select (F := F) self index) (Gen.LookupTable.select (F := F) self index) := by
  unfold LookupTable.select Gen.LookupTable.select
  er

instance {self : Model.PNiels F} {choice : Bool} :
    Er (PNiels.conditional_negate (F := F) self choice) (some (Gen.PNiels.conditional_negate (F := F) self choice)) := by
  unfold PNiels.conditional_negate Gen.PNiels.conditional_negate
  er

instance {self : Model.TwExt F} :
    Er (TwExt.to_extended (F := F) self) (some (Gen.TwExt.to_extended (F := F) self)) := by
  unfold TwExt.to_extended Gen.TwExt.to_extended
  er

instance {point : Model.TwPt F} {s : List ℕ} :
    Er (variable_base.variable_base (F := F) point s) (Gen.variable_base.variable_base (F := F) point s) := by
  unfold variable_base.variable_base Gen.variable_base.variable_base
  er

instance {self : Model.TwPt F} :
    Er (TwPt.to_affine (F := F) self) (Gen.TwPt.to_affine (F := F) self) := by
  unfold TwPt.to_affine Gen.TwPt.to_affine
  er

instance {self : Model.TwPt F} {a : L} :
    Er (TwPt.edwards_isogeny (F := F) self a) (Gen.TwPt.edwards_isogeny (F := F) self a) := by
  unfold TwPt.edwards_isogeny Gen.TwPt.edwards_isogeny
  er

instance {self : Model.TwPt F} :
    Er (TwPt.to_untwisted (F := F) self) (Gen.TwPt.to_untwisted (F := F) self) := by
  unfold TwPt.to_untwisted Gen.TwPt.to_untwisted
  er

instance {self other : Model.EdPt F} :
    Er (EdPt.add (F := F) self other) (some (Gen.EdPt.add (F := F) self other)) := by
  unfold EdPt.add Gen.EdPt.add
  er

instance {self : Model.EdPt F} :
    Er (EdPt.double (F := F) self) (some (Gen.EdPt.double (F := F) self)) := by
  unfold EdPt.double Gen.EdPt.double
  er

instance {self : Model.EdPt F} {scalar : List ℕ} :
    Er (EdPt.scalar_mod_four (F := F) self scalar) (Gen.EdPt.scalar_mod_four (F := F) self scalar) := by
  unfold EdPt.scalar_mod_four Gen.EdPt.scalar_mod_four
  er

instance {self : Model.EdPt F} {scalar : List ℕ} :
    Er (EdPt.scalar_mul (F := F) self scalar) (Gen.EdPt.scalar_mul (F := F) self scalar) := by
  unfold EdPt.scalar_mul Gen.EdPt.scalar_mul
  er

instance {self : Model.EdPt F} :
    Er (EdPt.compress (F := F) self) (Gen.EdPt.compress (F := F) self) := by
  unfold EdPt.compress Gen.EdPt.compress
  er

instance {self : Model.EdPt F} :
    Er (EdPt.is_on_curve (F := F) self) (some (Gen.EdPt.is_on_curve (F := F) self)) := by
  unfold EdPt.is_on_curve Gen.EdPt.is_on_curve
  er

instance {self : Model.EdPt F} :
    Er (EdPt.negate (F := F) self) (some (Gen.EdPt.negate (F := F) self)) := by
  unfold EdPt.negate Gen.EdPt.negate
  er

instance {self : Model.EdPt F} :
    Er (EdPt.torque (F := F) self) (some (Gen.EdPt.torque (F := F) self)) := by
  unfold EdPt.torque Gen.EdPt.torque
  er

instance {self : Model.EdPt F} {scalar : List ℕ} :
    Er (EdPt.op_mul_Scalar (F := F) self scalar) (Gen.EdPt.op_mul_Scalar (F := F) self scalar) := by
  unfold EdPt.op_mul_Scalar Gen.EdPt.op_mul_Scalar
  er

instance {self : Model.EdPt F} :
    Er (EdPt.is_torsion_free (F := F) self) (Gen.EdPt.is_torsion_free (F := F) self) := by
  unfold EdPt.is_torsion_free Gen.EdPt.is_torsion_free
  exact Er.bind Er.call fun _ => Er.bind_some Er.call Er.ret

instance {self other : Model.EdPt F} :
    Er (EdPt.op_add (F := F) self other) (some (Gen.EdPt.op_add (F := F) self other)) := by
  unfold EdPt.op_add Gen.EdPt.op_add
  er

instance {self _rhs : Model.EdPt F} :
    Er (EdPt.op_add_assign (F := F) self _rhs) (some (Gen.EdPt.op_add_assign (F := F) self _rhs)) := by
  unfold EdPt.op_add_assign Gen.EdPt.op_add_assign
  er

instance {self other : Model.EdPt F} :
    Er (EdPt.op_sub (F := F) self other) (some (Gen.EdPt.op_sub (F := F) self other)) := by
  unfold EdPt.op_sub Gen.EdPt.op_sub
  er

instance {self _rhs : Model.EdPt F} :
    Er (EdPt.op_sub_assign (F := F) self _rhs) (some (Gen.EdPt.op_sub_assign (F := F) self _rhs)) := by
  unfold EdPt.op_sub_assign Gen.EdPt.op_sub_assign
  er

instance {iter : List (Model.EdPt F)} :
    Er (EdPt.sum (F := F) iter) (some (Gen.EdPt.sum (F := F) iter)) := by
  unfold EdPt.sum Gen.EdPt.sum
  er

instance {self : Model.EdPt F} :
    Er (EdPt.op_neg (F := F) self) (some (Gen.EdPt.op_neg (F := F) self)) := by
  unfold EdPt.op_neg Gen.EdPt.op_neg
  er

instance {self : Model.EdPt F} :
    Er (EdPt.op_neg2 (F := F) self) (some (Gen.EdPt.op_neg2 (F := F) self)) := by
  unfold EdPt.op_neg2 Gen.EdPt.op_neg2
  er

instance {self : Model.EdPt F} {scalar : List ℕ} :
    Er (EdPt.op_mul_assign_Scalar (F := F) self scalar) (Gen.EdPt.op_mul_assign_Scalar (F := F) self scalar) := by
  unfold EdPt.op_mul_assign_Scalar Gen.EdPt.op_mul_assign_Scalar
  er

instance {self : List ℕ} {point : Model.EdPt F} :
    Er (Scalar.op_mul_EdPt (F := F) self point) (Gen.Scalar.op_mul_EdPt (F := F) self point) := by
  unfold Scalar.op_mul_EdPt Gen.Scalar.op_mul_EdPt
  er

instance {self rhs : Model.EdPt F} :
    Er (EdPt.op_add2 (F := F) self rhs) (some (Gen.EdPt.op_add2 (F := F) self rhs)) := by
  unfold EdPt.op_add2 Gen.EdPt.op_add2
  er

instance {self rhs : Model.EdPt F} :
    Er (EdPt.op_add3 (F := F) self rhs) (some (Gen.EdPt.op_add3 (F := F) self rhs)) := by
  unfold EdPt.op_add3 Gen.EdPt.op_add3
  er

instance {self rhs : Model.EdPt F} :
    Er (EdPt.op_add4 (F := F) self rhs) (some (Gen.EdPt.op_add4 (F := F) self rhs)) := by
  unfold EdPt.op_add4 Gen.EdPt.op_add4
  er

instance {self rhs : Model.EdPt F} :
    Er (EdPt.op_add_assign2 (F := F) self rhs) (some (Gen.EdPt.op_add_assign2 (F := F) self rhs)) := by
  unfold EdPt.op_add_assign2 Gen.EdPt.op_add_assign2
  er

instance {self rhs : Model.EdPt F} :
    Er (EdPt.op_sub2 (F := F) self rhs) (some (Gen.EdPt.op_sub2 (F := F) self rhs)) := by
  unfold EdPt.op_sub2 Gen.EdPt.op_sub2
  er

instance {self rhs : Model.EdPt F} :
    Er (EdPt.op_sub3 (F := F) self rhs) (some (Gen.EdPt.op_sub3 (F := F) self rhs)) := by
  unfold EdPt.op_sub3 Gen.EdPt.op_sub3
  er

instance {self rhs : Model.EdPt F} :
    Er (EdPt.op_sub4 (F := F) self rhs) (some (Gen.EdPt.op_sub4 (F := F) self rhs)) := by
  unfold EdPt.op_sub4 Gen.EdPt.op_sub4
  er

instance {self rhs : Model.EdPt F} :
    Er (EdPt.op_sub_assign2 (F := F) self rhs) (some (Gen.EdPt.op_sub_assign2 (F := F) self rhs)) := by
  unfold EdPt.op_sub_assign2 Gen.EdPt.op_sub_assign2
  er

instance {self : Model.EdPt F} {rhs : List ℕ} :
    Er (EdPt.op_mul_assign_Scalar2 (F := F) self rhs) (Gen.EdPt.op_mul_assign_Scalar2 (F := F) self rhs) := by
  unfold EdPt.op_mul_assign_Scalar2 Gen.EdPt.op_mul_assign_Scalar2
  er

instance {self : Model.EdPt F} {rhs : List ℕ} :
    Er (EdPt.op_mul_Scalar2 (F := F) self rhs) (Gen.EdPt.op_mul_Scalar2 (F := F) self rhs) := by
  unfold EdPt.op_mul_Scalar2 Gen.EdPt.op_mul_Scalar2
  er

instance {self : Model.EdPt F} {rhs : List ℕ} :
    Er (EdPt.op_mul_Scalar3 (F := F) self rhs) (Gen.EdPt.op_mul_Scalar3 (F := F) self rhs) := by
  unfold EdPt.op_mul_Scalar3 Gen.EdPt.op_mul_Scalar3
  er

instance {self : Model.EdPt F} {rhs : List ℕ} :
    Er (EdPt.op_mul_Scalar4 (F := F) self rhs) (Gen.EdPt.op_mul_Scalar4 (F := F) self rhs) := by
  unfold EdPt.op_mul_Scalar4 Gen.EdPt.op_mul_Scalar4
  er

instance {self : List ℕ} {rhs : Model.EdPt F} :
    Er (Scalar.op_mul_EdPt2 (F := F) self rhs) (Gen.Scalar.op_mul_EdPt2 (F := F) self rhs) := by
  unfold Scalar.op_mul_EdPt2 Gen.Scalar.op_mul_EdPt2
  er

instance {self : List ℕ} {rhs : Model.EdPt F} :
    Er (Scalar.op_mul_EdPt3 (F := F) self rhs) (Gen.Scalar.op_mul_EdPt3 (F := F) self rhs) := by
  unfold Scalar.op_mul_EdPt3 Gen.Scalar.op_mul_EdPt3
  er

instance {self : List ℕ} {rhs : Model.EdPt F} :
    Er (Scalar.op_mul_EdPt4 (F := F) self rhs) (Gen.Scalar.op_mul_EdPt4 (F := F) self rhs) := by
  unfold Scalar.op_mul_EdPt4 Gen.Scalar.op_mul_EdPt4
  er

instance {self other : Model.TwExt F} :
    Er (TwExt.ct_eq (F := F) self other) (some (Gen.TwExt.ct_eq (F := F) self other)) := by
  unfold TwExt.ct_eq Gen.TwExt.ct_eq
  er

instance {self other : Model.TwExt F} :
    Er (TwExt.eq (F := F) self other) (some (Gen.TwExt.eq (F := F) self other)) := by
  unfold TwExt.eq Gen.TwExt.eq
  er

instance {self : Model.TwExt F} {other : Model.TwPt F} :
    Er (TwExt.add_extended (F := F) self other) (some (Gen.TwExt.add_extended (F := F) self other)) := by
  unfold TwExt.add_extended Gen.TwExt.add_extended
  er

instance {self other : Model.TwExt F} :
    Er (TwExt.add_extensible (F := F) self other) (some (Gen.TwExt.add_extensible (F := F) self other)) := by
  unfold TwExt.add_extensible Gen.TwExt.add_extensible
  er

instance {self : Model.TwExt F} {other : Model.TwPt F} :
    Er (TwExt.sub_extended (F := F) self other) (some (Gen.TwExt.sub_extended (F := F) self other)) := by
  unfold TwExt.sub_extended Gen.TwExt.sub_extended
  er

instance {self : Model.TwExt F} {other : Model.ANiels F} :
    Er (TwExt.add_affine_niels (F := F) self other) (some (Gen.TwExt.add_affine_niels (F := F) self other)) := by
  unfold TwExt.add_affine_niels Gen.TwExt.add_affine_niels
  er

instance {self other : Model.TwPt F} :
    Er (TwPt.ct_eq (F := F) self other) (some (Gen.TwPt.ct_eq (F := F) self other)) := by
  unfold TwPt.ct_eq Gen.TwPt.ct_eq
  er

instance {a b : Model.TwPt F} {choice : Bool} :
    Er (TwPt.conditional_select (F := F) a b choice) (some (Gen.TwPt.conditional_select (F := F) a b choice)) := by
  unfold TwPt.conditional_select Gen.TwPt.conditional_select
  er

instance {self other : Model.TwPt F} :
    Er (TwPt.eq (F := F) self other) (some (Gen.TwPt.eq (F := F) self other)) := by
  unfold TwPt.eq Gen.TwPt.eq
  er

instance {self : Model.TwPt F} :
    Er (TwPt.double (F := F) self) (some (Gen.TwPt.double (F := F) self)) := by
  unfold TwPt.double Gen.TwPt.double
  er

instance {self other : Model.TwPt F} :
    Er (TwPt.add (F := F) self other) (some (Gen.TwPt.add (F := F) self other)) := by
  unfold TwPt.add Gen.TwPt.add
  er

instance {self : Model.TwPt F} :
    Er (TwPt.is_on_curve (F := F) self) (some (Gen.TwPt.is_on_curve (F := F) self)) := by
  unfold TwPt.is_on_curve Gen.TwPt.is_on_curve
  er

instance {self : Model.TwPt F} :
    Er (TwPt.negate (F := F) self) (some (Gen.TwPt.negate (F := F) self)) := by
  unfold TwPt.negate Gen.TwPt.negate
  er

instance {self : Model.TwPt F} :
    Er (TwPt.torque (F := F) self) (some (Gen.TwPt.torque (F := F) self)) := by
  unfold TwPt.torque Gen.TwPt.torque
  er

instance : Er (PNiels.default (F := F)) (some (Gen.PNiels.default (F := F))) := by
  unfold PNiels.default Gen.PNiels.default
  er

instance {self : Model.PNiels F} :
    Er (PNiels.to_extended (F := F) self) (some (Gen.PNiels.to_extended (F := F) self)) := by
  unfold PNiels.to_extended Gen.PNiels.to_extended
  er

instance {self other : Model.PNiels F} :
    Er (PNiels.eq (F := F) self other) (some (Gen.PNiels.eq (F := F) self other)) := by
  unfold PNiels.eq Gen.PNiels.eq
  er

instance {self : Model.TwAff F} :
    Er (TwAff.is_on_curve (F := F) self) (some (Gen.TwAff.is_on_curve (F := F) self)) := by
  unfold TwAff.is_on_curve Gen.TwAff.is_on_curve
  er

instance {self : Model.TwAff F} :
    Er (TwAff.negate (F := F) self) (some (Gen.TwAff.negate (F := F) self)) := by
  unfold TwAff.negate Gen.TwAff.negate
  er

instance {self other : Model.TwAff F} :
    Er (TwAff.add (F := F) self other) (Gen.TwAff.add (F := F) self other) := by
  unfold TwAff.add Gen.TwAff.add
  er

instance {self : Model.TwAff F} :
    Er (TwAff.to_extensible (F := F) self) (some (Gen.TwAff.to_extensible (F := F) self)) := by
  unfold TwAff.to_extensible Gen.TwAff.to_extensible
  er

instance {self : Model.TwAff F} :
    Er (TwAff.to_affine_niels (F := F) self) (some (Gen.TwAff.to_affine_niels (F := F) self)) := by
  unfold TwAff.to_affine_niels Gen.TwAff.to_affine_niels
  er

instance {self : Model.TwAff F} :
    Er (TwAff.to_extended (F := F) self) (some (Gen.TwAff.to_extended (F := F) self)) := by
  unfold TwAff.to_extended Gen.TwAff.to_extended
  er

instance {a b : Model.ANiels F} {choice : Bool} :
    Er (ANiels.conditional_select (F := F) a b choice) (some (Gen.ANiels.conditional_select (F := F) a b choice)) := by
  unfold ANiels.conditional_select Gen.ANiels.conditional_select
  er

instance {self other : Model.ANiels F} :
    Er (ANiels.equals (F := F) self other) (some (Gen.ANiels.equals (F := F) self other)) := by
  unfold ANiels.equals Gen.ANiels.equals
  er

instance {self : Model.ANiels F} :
    Er (ANiels.to_extended (F := F) self) (some (Gen.ANiels.to_extended (F := F) self)) := by
  unfold ANiels.to_extended Gen.ANiels.to_extended
  er

instance {point : Model.TwPt F} {s : List ℕ} :
    Er (double_and_add.double_and_add (F := F) point s) (Gen.double_and_add.double_and_add (F := F) point s) := by
  unfold double_and_add.double_and_add Gen.double_and_add.double_and_add
  er

instance {a b : List ℕ} {A : Model.TwPt F} :
    Er (double_base.double_base_scalar_mul (F := F) a A b) (Gen.double_base.double_base_scalar_mul (F := F) a A b) := by
  unfold double_base.double_base_scalar_mul Gen.double_base.double_base_scalar_mul
  er

instance {self other : List ℕ} :
    Er (MontgomeryPoint.ct_eq self other) (some (Gen.MontgomeryPoint.ct_eq self other)) := by
  unfold MontgomeryPoint.ct_eq Gen.MontgomeryPoint.ct_eq
  er

instance {self other : List ℕ} :
    Er (MontgomeryPoint.eq self other) (some (Gen.MontgomeryPoint.eq self other)) := by
  unfold MontgomeryPoint.eq Gen.MontgomeryPoint.eq
  er

instance {a b : Model.ProjMont F} {choice : Bool} :
    Er (ProjMont.conditional_select (F := F) a b choice) (some (Gen.ProjMont.conditional_select (F := F) a b choice)) := by
  unfold ProjMont.conditional_select Gen.ProjMont.conditional_select
  er

instance {P Q : Model.ProjMont F} {affine_PmQ : F} :
    Er (montgomery.differential_add_and_double (F := F) P Q affine_PmQ) (some (Gen.montgomery.differential_add_and_double (F := F) P Q affine_PmQ)) := by
  unfold montgomery.differential_add_and_double Gen.montgomery.differential_add_and_double
  er

instance {self : Model.ProjMont F} :
    Er (ProjMont.to_affine (F := F) self) (Gen.ProjMont.to_affine (F := F) self) := by
  unfold ProjMont.to_affine Gen.ProjMont.to_affine
  er

instance {self scalar : List ℕ} :
    Er (MontgomeryPoint.op_mul_Scalar (F := F) self scalar) (Gen.MontgomeryPoint.op_mul_Scalar (F := F) self scalar) := by
  unfold MontgomeryPoint.op_mul_Scalar Gen.MontgomeryPoint.op_mul_Scalar
  er

instance {self point : List ℕ} :
    Er (Scalar.op_mul_MontgomeryPoint (F := F) self point) (Gen.Scalar.op_mul_MontgomeryPoint (F := F) self point) := by
  unfold Scalar.op_mul_MontgomeryPoint Gen.Scalar.op_mul_MontgomeryPoint
  er

instance {self : List ℕ} {sign : ℕ} :
    Er (MontgomeryPoint.to_edwards (F := F) self sign) (Gen.MontgomeryPoint.to_edwards (F := F) self sign) := by
  unfold MontgomeryPoint.to_edwards Gen.MontgomeryPoint.to_edwards
  er

instance {self : List ℕ} :
    Er (MontgomeryPoint.is_low_order self) (some (Gen.MontgomeryPoint.is_low_order self)) := by
  unfold MontgomeryPoint.is_low_order Gen.MontgomeryPoint.is_low_order
  er

instance {self : List ℕ} :
    Er (MontgomeryPoint.as_bytes self) (some (Gen.MontgomeryPoint.as_bytes self)) := by
  unfold MontgomeryPoint.as_bytes Gen.MontgomeryPoint.as_bytes
  er

instance {self : List ℕ} :
    Er (MontgomeryPoint.to_projective (F := F) self) (Gen.MontgomeryPoint.to_projective (F := F) self) := by
  unfold MontgomeryPoint.to_projective Gen.MontgomeryPoint.to_projective
  er

instance {self : List ℕ} :
    Er (CompressedDecaf.as_bytes self) (some (Gen.CompressedDecaf.as_bytes self)) := by
  unfold CompressedDecaf.as_bytes Gen.CompressedDecaf.as_bytes
  er

instance {self other : List ℕ} :
    Er (CompressedDecaf.ct_eq self other) (some (Gen.CompressedDecaf.ct_eq self other)) := by
  unfold CompressedDecaf.ct_eq Gen.CompressedDecaf.ct_eq
  er

instance {self other : List ℕ} :
    Er (CompressedDecaf.eq self other) (some (Gen.CompressedDecaf.eq self other)) := by
  unfold CompressedDecaf.eq Gen.CompressedDecaf.eq
  er

instance {self other : Model.DecafPt F} :
    Er (DecafPt.equals (F := F) self other) (some (Gen.DecafPt.equals (F := F) self other)) := by
  unfold DecafPt.equals Gen.DecafPt.equals
  er

instance {self other : Model.DecafPt F} :
    Er (DecafPt.sub (F := F) self other) (some (Gen.DecafPt.sub (F := F) self other)) := by
  unfold DecafPt.sub Gen.DecafPt.sub
  er

instance {self : Model.DecafPt F} :
    Er (DecafPt.compress (F := F) self) (Gen.DecafPt.compress (F := F) self) := by
  unfold DecafPt.compress Gen.DecafPt.compress
  er

instance {self : List ℕ} :
    Er (CompressedDecaf.decompress (F := F) self) (Gen.CompressedDecaf.decompress (F := F) self) := by
  unfold CompressedDecaf.decompress Gen.CompressedDecaf.decompress
  er

instance {self : Model.DecafPt F} {scalar : List ℕ} :
    Er (DecafPt.op_mul_Scalar (F := F) self scalar) (Gen.DecafPt.op_mul_Scalar (F := F) self scalar) := by
  unfold DecafPt.op_mul_Scalar Gen.DecafPt.op_mul_Scalar
  er

instance {self : List ℕ} {point : Model.DecafPt F} :
    Er (Scalar.op_mul_DecafPt (F := F) self point) (Gen.Scalar.op_mul_DecafPt (F := F) self point) := by
  unfold Scalar.op_mul_DecafPt Gen.Scalar.op_mul_DecafPt
  er

instance {self : List ℕ} {point : Model.DecafPt F} :
    Er (Scalar.op_mul_DecafPt2 (F := F) self point) (Gen.Scalar.op_mul_DecafPt2 (F := F) self point) := by
  unfold Scalar.op_mul_DecafPt2 Gen.Scalar.op_mul_DecafPt2
  er

instance {self : Model.DecafPt F} {scalar : List ℕ} :
    Er (DecafPt.op_mul_Scalar2 (F := F) self scalar) (Gen.DecafPt.op_mul_Scalar2 (F := F) self scalar) := by
  unfold DecafPt.op_mul_Scalar2 Gen.DecafPt.op_mul_Scalar2
  er

instance {self other : Model.DecafPt F} :
    Er (DecafPt.op_add (F := F) self other) (some (Gen.DecafPt.op_add (F := F) self other)) := by
  unfold DecafPt.op_add Gen.DecafPt.op_add
  er

instance {self other : Model.DecafPt F} :
    Er (DecafPt.op_add2 (F := F) self other) (some (Gen.DecafPt.op_add2 (F := F) self other)) := by
  unfold DecafPt.op_add2 Gen.DecafPt.op_add2
  er

instance {self other : Model.DecafPt F} :
    Er (DecafPt.op_sub (F := F) self other) (some (Gen.DecafPt.op_sub (F := F) self other)) := by
  unfold DecafPt.op_sub Gen.DecafPt.op_sub
  er

instance {self other : Model.DecafPt F} :
    Er (DecafPt.op_sub2 (F := F) self other) (some (Gen.DecafPt.op_sub2 (F := F) self other)) := by
  unfold DecafPt.op_sub2 Gen.DecafPt.op_sub2
  er

instance {self : Model.DecafPt F} :
    Er (DecafPt.op_neg (F := F) self) (some (Gen.DecafPt.op_neg (F := F) self)) := by
  unfold DecafPt.op_neg Gen.DecafPt.op_neg
  er

instance {self : Model.DecafPt F} :
    Er (DecafPt.op_neg2 (F := F) self) (some (Gen.DecafPt.op_neg2 (F := F) self)) := by
  unfold DecafPt.op_neg2 Gen.DecafPt.op_neg2
  er

instance {self : List ℕ} :
    Er (CompressedRistretto.as_bytes self) (some (Gen.CompressedRistretto.as_bytes self)) := by
  unfold CompressedRistretto.as_bytes Gen.CompressedRistretto.as_bytes
  er

instance {self other : List ℕ} :
    Er (CompressedRistretto.ct_eq self other) (some (Gen.CompressedRistretto.ct_eq self other)) := by
  unfold CompressedRistretto.ct_eq Gen.CompressedRistretto.ct_eq
  er

instance {self other : List ℕ} :
    Er (CompressedRistretto.eq self other) (some (Gen.CompressedRistretto.eq self other)) := by
  unfold CompressedRistretto.eq Gen.CompressedRistretto.eq
  er

instance {self other : Model.RistPt F} :
    Er (RistPt.equals (F := F) self other) (some (Gen.RistPt.equals (F := F) self other)) := by
  unfold RistPt.equals Gen.RistPt.equals
  er

instance {self : Model.RistPt F} :
    Er (RistPt.encode (F := F) self) (Gen.RistPt.encode (F := F) self) := by
  unfold RistPt.encode Gen.RistPt.encode
  er

instance {self : List ℕ} :
    Er (CompressedRistretto.decode (F := F) self) (Gen.CompressedRistretto.decode (F := F) self) := by
  unfold CompressedRistretto.decode Gen.CompressedRistretto.decode
  er

end Ed448.Leak
