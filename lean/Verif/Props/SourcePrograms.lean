import Verif.Model.Prog
import Verif.Props.Release
import Verif.Props.Protocols
import Verif.Props.Backends

/-!
# Programs over the translated source (C86)

`Prog` (`Model/Prog.lean`) has the functions of the library as its operations. Here the operations are the
functions that tools/rust2lean.py has translated from the source, with overflow checks (`src`) and with
wrapping arithmetic (`rel`). Byte strings that the source returns as lists become arrays if they have the
right length and words in range, and count as a panic otherwise. The operations of the field are those of
the backend, which C66 compares with their translation.
-/

namespace Ed448.Props
open Ed448.Model Ed448.Proofs FieldBackend

section
variable (F : Type) {L : Type} [FieldBackend F L]

/-- The functions with no argument holding field elements, in the translation with overflow checks. -/
def Op.src0 : {τ : Ty} → Model.Op0 τ → Option (Sem F τ)
  | _, .feZero => some (zero : F)
  | _, .feOne => some (one : F)
  | _, .feFromBytes b => Gen.Rt.fieldFromBytes F b.l
  | _, .edIdentity => some (Gen.EdPt.identity : EdPt F)
  | _, .edGenerator => some (Gen.EdPt.generator : EdPt F)
  | _, .edDecompressOk b => (Gen.CompressedEdwardsY.decompress (F := F) b.l).map Option.isSome
  | _, .edDecompress b => (Gen.CompressedEdwardsY.decompress (F := F) b.l).join
  | _, .edAffIdentity => some (Gen.EdAff.identity : EdAff F)
  | _, .twIdentity => some (Gen.TwPt.identity : TwPt F)
  | _, .twGenerator => some (Gen.TwPt.generator : TwPt F)
  | _, .extIdentity => some (Gen.TwExt.identity : TwExt F)
  | _, .pnIdentity => some (Gen.PNiels.identity : PNiels F)
  | _, .tAffIdentity => some (Gen.TwAff.identity : TwAff F)
  | _, .anIdentity => some (Gen.ANiels.identity : ANiels F)
  | _, .pmIdentity => some (Gen.ProjMont.identity : ProjMont F)
  | _, .montToProjective u => Gen.MontgomeryPoint.to_projective (F := F) u.l
  | _, .montMul u s => (Gen.MontgomeryPoint.op_mul_Scalar (F := F) u.l s.l).bind (Arr.ofList? 56 256)
  | _, .decafIdentity => some (Gen.DecafPt.identity : DecafPt F)
  | _, .decafGenerator => some (Gen.DecafPt.generator : DecafPt F)
  | _, .decafDecompressOk b => (Gen.CompressedDecaf.decompress (F := F) b.l).map Option.isSome
  | _, .decafDecompress b => (Gen.CompressedDecaf.decompress (F := F) b.l).join
  | _, .ristIdentity => some (Gen.RistPt.identity : RistPt F)

/-- The functions with no argument holding field elements, in the translation with wrapping arithmetic. -/
def Op.rel0 : {τ : Ty} → Model.Op0 τ → Option (Sem F τ)
  | _, .feZero => some (zero : F)
  | _, .feOne => some (one : F)
  | _, .feFromBytes b => Gen.Rt.fieldFromBytes F b.l
  | _, .edIdentity => some (Gen.EdPt.identity : EdPt F)
  | _, .edGenerator => some (Gen.EdPt.generator : EdPt F)
  | _, .edDecompressOk b => (Rel.CompressedEdwardsY.decompress (F := F) b.l).map Option.isSome
  | _, .edDecompress b => (Rel.CompressedEdwardsY.decompress (F := F) b.l).join
  | _, .edAffIdentity => some (Gen.EdAff.identity : EdAff F)
  | _, .twIdentity => some (Gen.TwPt.identity : TwPt F)
  | _, .twGenerator => some (Gen.TwPt.generator : TwPt F)
  | _, .extIdentity => some (Gen.TwExt.identity : TwExt F)
  | _, .pnIdentity => some (Gen.PNiels.identity : PNiels F)
  | _, .tAffIdentity => some (Gen.TwAff.identity : TwAff F)
  | _, .anIdentity => some (Gen.ANiels.identity : ANiels F)
  | _, .pmIdentity => some (Gen.ProjMont.identity : ProjMont F)
  | _, .montToProjective u => Gen.MontgomeryPoint.to_projective (F := F) u.l
  | _, .montMul u s => (Rel.MontgomeryPoint.op_mul_Scalar (F := F) u.l s.l).bind (Arr.ofList? 56 256)
  | _, .decafIdentity => some (Gen.DecafPt.identity : DecafPt F)
  | _, .decafGenerator => some (Gen.DecafPt.generator : DecafPt F)
  | _, .decafDecompressOk b => (Rel.CompressedDecaf.decompress (F := F) b.l).map Option.isSome
  | _, .decafDecompress b => (Rel.CompressedDecaf.decompress (F := F) b.l).join
  | _, .ristIdentity => some (Gen.RistPt.identity : RistPt F)

/-- The functions with one such argument, in the translation with overflow checks. -/
def Op.src1 : {σ τ : Ty} → Model.Op1 σ τ → Sem F σ → Option (Sem F τ)
  | _, _, .feNegate, (a : F) => some (FieldBackend.negate a : F)
  | _, _, .feSquare, (a : F) => some (square a : F)
  | _, _, .feCondNegate c, (a : F) => some (condNegate a c : F)
  | _, _, .feInvert, (a : F) => Gen.Field.invert (F := F) a
  | _, _, .feInverseSquareRoot, (a : F) => (Gen.Field.inverse_square_root (F := F) a).map Prod.fst
  | _, _, .feIsSquare, (a : F) => (Gen.Field.inverse_square_root (F := F) a).map Prod.snd
  | _, _, .feStrongReduce, (a : F) => some (strongReduce a : F)
  | _, _, .feToBytes, (a : F) => some (toBytes a)
  | _, _, .feIsNegative, (a : F) => some (isNegative a)
  | _, _, .feIsZero, (a : F) => some (Gen.Field.is_zero (F := F) a)
  | _, _, .edNegate, (a : EdPt F) => some (Gen.EdPt.negate a)
  | _, _, .edDouble, (a : EdPt F) => some (Gen.EdPt.double a)
  | _, _, .edTorque, (a : EdPt F) => some (Gen.EdPt.torque a)
  | _, _, .edScalarMul s, (a : EdPt F) => Gen.EdPt.op_mul_Scalar a s.l
  | _, _, .edToAffine, (a : EdPt F) => Gen.EdPt.to_affine a
  | _, _, .edToTwisted, (a : EdPt F) => Gen.EdPt.to_twisted a
  | _, _, .edX, (a : EdPt F) => some a.X
  | _, _, .edY, (a : EdPt F) => some a.Y
  | _, _, .edZ, (a : EdPt F) => some a.Z
  | _, _, .edT, (a : EdPt F) => some a.T
  | _, _, .edAsTw, (a : EdPt F) => some (⟨a.X, a.Y, a.Z, a.T⟩ : TwPt F)
  | _, _, .edToMontgomery, (a : EdPt F) => (Gen.EdPt.to_montgomery a).bind (Arr.ofList? 56 256)
  | _, _, .edCompress, (a : EdPt F) => (Gen.EdPt.compress a).bind (Arr.ofList? 57 256)
  | _, _, .edIsOnCurve, (a : EdPt F) => some (Gen.EdPt.is_on_curve a)
  | _, _, .edIsTorsionFree, (a : EdPt F) => Gen.EdPt.is_torsion_free a
  | _, _, .edAffToExtended, (a : EdAff F) => some (Gen.EdAff.to_extended a)
  | _, _, .edAffX, (a : EdAff F) => some a.x
  | _, _, .edAffY, (a : EdAff F) => some a.y
  | _, _, .twNegate, (a : TwPt F) => some (Gen.TwPt.negate a)
  | _, _, .twDouble, (a : TwPt F) => some (Gen.TwPt.double a)
  | _, _, .twTorque, (a : TwPt F) => some (Gen.TwPt.torque a)
  | _, _, .twToExtensible, (a : TwPt F) => some (Gen.TwPt.to_extensible a)
  | _, _, .twToAffine, (a : TwPt F) => Gen.TwPt.to_affine a
  | _, _, .twToUntwisted, (a : TwPt F) => Gen.TwPt.to_untwisted a
  | _, _, .twAsEd, (a : TwPt F) => some (⟨a.X, a.Y, a.Z, a.T⟩ : EdPt F)
  | _, _, .twX, (a : TwPt F) => some a.X
  | _, _, .twY, (a : TwPt F) => some a.Y
  | _, _, .twZ, (a : TwPt F) => some a.Z
  | _, _, .twT, (a : TwPt F) => some a.T
  | _, _, .twIsOnCurve, (a : TwPt F) => some (Gen.TwPt.is_on_curve a)
  | _, _, .twLookup i, (a : TwPt F) => (Gen.LookupTable.from a).bind fun t => Gen.LookupTable.select t i
  | _, _, .variableBase s, (a : TwPt F) => Gen.variable_base.variable_base a s.l
  | _, _, .doubleAndAdd s, (a : TwPt F) => Gen.double_and_add.double_and_add a s.l
  | _, _, .doubleBase s t, (a : TwPt F) => Gen.double_base.double_base_scalar_mul s.l a t.l
  | _, _, .twToDecaf, (a : TwPt F) => some (⟨a⟩ : DecafPt F)
  | _, _, .twToRist, (a : TwPt F) => some (⟨a⟩ : RistPt F)
  | _, _, .extDouble, (a : TwExt F) => some (Gen.TwExt.double a)
  | _, _, .extToExtended, (a : TwExt F) => some (Gen.TwExt.to_extended a)
  | _, _, .extToProjectiveNiels, (a : TwExt F) => some (Gen.TwExt.to_projective_niels a)
  | _, _, .pnCondNegate c, (a : PNiels F) => some (Gen.PNiels.conditional_negate a c)
  | _, _, .pnToExtended, (a : PNiels F) => some (Gen.PNiels.to_extended a)
  | _, _, .tAffX, (a : TwAff F) => some a.x
  | _, _, .tAffY, (a : TwAff F) => some a.y
  | _, _, .tAffNegate, (a : TwAff F) => some (Gen.TwAff.negate a)
  | _, _, .tAffIsOnCurve, (a : TwAff F) => some (Gen.TwAff.is_on_curve a)
  | _, _, .tAffToExtensible, (a : TwAff F) => some (Gen.TwAff.to_extensible a)
  | _, _, .tAffToExtended, (a : TwAff F) => some (Gen.TwAff.to_extended a)
  | _, _, .tAffToAffineNiels, (a : TwAff F) => some (Gen.TwAff.to_affine_niels a)
  | _, _, .anToExtended, (a : ANiels F) => some (Gen.ANiels.to_extended a)
  | _, _, .pmToAffine, (a : ProjMont F) => (Gen.ProjMont.to_affine a).bind (Arr.ofList? 56 256)
  | _, _, .decafNeg, (a : DecafPt F) => some (Gen.DecafPt.op_neg a)
  | _, _, .decafScalarMul s, (a : DecafPt F) => Gen.DecafPt.op_mul_Scalar a s.l
  | _, _, .decafCompress, (a : DecafPt F) => (Gen.DecafPt.compress a).bind (Arr.ofList? 56 256)
  | _, _, .ristEncode, (a : RistPt F) => (Gen.RistPt.encode a).bind (Arr.ofList? 56 256)

/-- The functions with one such argument, in the translation with wrapping arithmetic. -/
def Op.rel1 : {σ τ : Ty} → Model.Op1 σ τ → Sem F σ → Option (Sem F τ)
  | _, _, .feNegate, (a : F) => some (FieldBackend.negate a : F)
  | _, _, .feSquare, (a : F) => some (square a : F)
  | _, _, .feCondNegate c, (a : F) => some (condNegate a c : F)
  | _, _, .feInvert, (a : F) => Rel.Field.invert (F := F) a
  | _, _, .feInverseSquareRoot, (a : F) => (Rel.Field.inverse_square_root (F := F) a).map Prod.fst
  | _, _, .feIsSquare, (a : F) => (Rel.Field.inverse_square_root (F := F) a).map Prod.snd
  | _, _, .feStrongReduce, (a : F) => some (strongReduce a : F)
  | _, _, .feToBytes, (a : F) => some (toBytes a)
  | _, _, .feIsNegative, (a : F) => some (isNegative a)
  | _, _, .feIsZero, (a : F) => some (Gen.Field.is_zero (F := F) a)
  | _, _, .edNegate, (a : EdPt F) => some (Gen.EdPt.negate a)
  | _, _, .edDouble, (a : EdPt F) => some (Gen.EdPt.double a)
  | _, _, .edTorque, (a : EdPt F) => some (Gen.EdPt.torque a)
  | _, _, .edScalarMul s, (a : EdPt F) => Rel.EdPt.op_mul_Scalar a s.l
  | _, _, .edToAffine, (a : EdPt F) => Rel.EdPt.to_affine a
  | _, _, .edToTwisted, (a : EdPt F) => Rel.EdPt.to_twisted a
  | _, _, .edX, (a : EdPt F) => some a.X
  | _, _, .edY, (a : EdPt F) => some a.Y
  | _, _, .edZ, (a : EdPt F) => some a.Z
  | _, _, .edT, (a : EdPt F) => some a.T
  | _, _, .edAsTw, (a : EdPt F) => some (⟨a.X, a.Y, a.Z, a.T⟩ : TwPt F)
  | _, _, .edToMontgomery, (a : EdPt F) => (Rel.EdPt.to_montgomery a).bind (Arr.ofList? 56 256)
  | _, _, .edCompress, (a : EdPt F) => (Rel.EdPt.compress a).bind (Arr.ofList? 57 256)
  | _, _, .edIsOnCurve, (a : EdPt F) => some (Gen.EdPt.is_on_curve a)
  | _, _, .edIsTorsionFree, (a : EdPt F) => Rel.EdPt.is_torsion_free a
  | _, _, .edAffToExtended, (a : EdAff F) => some (Gen.EdAff.to_extended a)
  | _, _, .edAffX, (a : EdAff F) => some a.x
  | _, _, .edAffY, (a : EdAff F) => some a.y
  | _, _, .twNegate, (a : TwPt F) => some (Gen.TwPt.negate a)
  | _, _, .twDouble, (a : TwPt F) => some (Gen.TwPt.double a)
  | _, _, .twTorque, (a : TwPt F) => some (Gen.TwPt.torque a)
  | _, _, .twToExtensible, (a : TwPt F) => some (Gen.TwPt.to_extensible a)
  | _, _, .twToAffine, (a : TwPt F) => Rel.TwPt.to_affine a
  | _, _, .twToUntwisted, (a : TwPt F) => Rel.TwPt.to_untwisted a
  | _, _, .twAsEd, (a : TwPt F) => some (⟨a.X, a.Y, a.Z, a.T⟩ : EdPt F)
  | _, _, .twX, (a : TwPt F) => some a.X
  | _, _, .twY, (a : TwPt F) => some a.Y
  | _, _, .twZ, (a : TwPt F) => some a.Z
  | _, _, .twT, (a : TwPt F) => some a.T
  | _, _, .twIsOnCurve, (a : TwPt F) => some (Gen.TwPt.is_on_curve a)
  | _, _, .twLookup i, (a : TwPt F) => (Rel.LookupTable.from a).bind fun t => Rel.LookupTable.select t i
  | _, _, .variableBase s, (a : TwPt F) => Rel.variable_base.variable_base a s.l
  | _, _, .doubleAndAdd s, (a : TwPt F) => Rel.double_and_add.double_and_add a s.l
  | _, _, .doubleBase s t, (a : TwPt F) => Rel.double_base.double_base_scalar_mul s.l a t.l
  | _, _, .twToDecaf, (a : TwPt F) => some (⟨a⟩ : DecafPt F)
  | _, _, .twToRist, (a : TwPt F) => some (⟨a⟩ : RistPt F)
  | _, _, .extDouble, (a : TwExt F) => some (Gen.TwExt.double a)
  | _, _, .extToExtended, (a : TwExt F) => some (Gen.TwExt.to_extended a)
  | _, _, .extToProjectiveNiels, (a : TwExt F) => some (Gen.TwExt.to_projective_niels a)
  | _, _, .pnCondNegate c, (a : PNiels F) => some (Gen.PNiels.conditional_negate a c)
  | _, _, .pnToExtended, (a : PNiels F) => some (Gen.PNiels.to_extended a)
  | _, _, .tAffX, (a : TwAff F) => some a.x
  | _, _, .tAffY, (a : TwAff F) => some a.y
  | _, _, .tAffNegate, (a : TwAff F) => some (Gen.TwAff.negate a)
  | _, _, .tAffIsOnCurve, (a : TwAff F) => some (Gen.TwAff.is_on_curve a)
  | _, _, .tAffToExtensible, (a : TwAff F) => some (Gen.TwAff.to_extensible a)
  | _, _, .tAffToExtended, (a : TwAff F) => some (Gen.TwAff.to_extended a)
  | _, _, .tAffToAffineNiels, (a : TwAff F) => some (Gen.TwAff.to_affine_niels a)
  | _, _, .anToExtended, (a : ANiels F) => some (Gen.ANiels.to_extended a)
  | _, _, .pmToAffine, (a : ProjMont F) => (Rel.ProjMont.to_affine a).bind (Arr.ofList? 56 256)
  | _, _, .decafNeg, (a : DecafPt F) => some (Gen.DecafPt.op_neg a)
  | _, _, .decafScalarMul s, (a : DecafPt F) => Rel.DecafPt.op_mul_Scalar a s.l
  | _, _, .decafCompress, (a : DecafPt F) => (Rel.DecafPt.compress a).bind (Arr.ofList? 56 256)
  | _, _, .ristEncode, (a : RistPt F) => (Gen.RistPt.encode a).bind (Arr.ofList? 56 256)

/-- The functions with two such arguments, in the translation with overflow checks. -/
def Op.src2 : {ρ σ τ : Ty} → Model.Op2 ρ σ τ → Sem F ρ → Sem F σ → Option (Sem F τ)
  | _, _, _, .feMul, (a : F), (b : F) => some (a *ᶠ b : F)
  | _, _, _, .feAdd, (a : F), (b : F) => some (a +ᶠ b : F)
  | _, _, _, .feSub, (a : F), (b : F) => some (a -ᶠ b : F)
  | _, _, _, .feSelect c, (a : F), (b : F) => some (FieldBackend.select a b c : F)
  | _, _, _, .feEq, (a : F), (b : F) => some (Gen.Field.eq (F := F) a b)
  | _, _, _, .feSqrtRatio, (a : F), (b : F) => (Gen.Field.sqrt_ratio (F := F) a b).map Prod.fst
  | _, _, _, .feSqrtRatioOk, (a : F), (b : F) => (Gen.Field.sqrt_ratio (F := F) a b).map Prod.snd
  | _, _, _, .edAffMk, (a : F), (b : F) => some (⟨a, b⟩ : EdAff F)
  | _, _, _, .edAdd, (a : EdPt F), (b : EdPt F) => some (Gen.EdPt.op_add a b)
  | _, _, _, .edSub, (a : EdPt F), (b : EdPt F) => some (Gen.EdPt.op_sub a b)
  | _, _, _, .edSelect c, (a : EdPt F), (b : EdPt F) => some (Gen.EdPt.conditional_select a b c)
  | _, _, _, .edEq, (a : EdPt F), (b : EdPt F) => some (Gen.EdPt.eq a b)
  | _, _, _, .twAdd, (a : TwPt F), (b : TwPt F) => some (Gen.TwPt.add a b)
  | _, _, _, .twSelect c, (a : TwPt F), (b : TwPt F) => some (Gen.TwPt.conditional_select a b c)
  | _, _, _, .twEq, (a : TwPt F), (b : TwPt F) => some (Gen.TwPt.eq a b)
  | _, _, _, .extAddExtended, (a : TwExt F), (b : TwPt F) => some (Gen.TwExt.add_extended a b)
  | _, _, _, .extSubExtended, (a : TwExt F), (b : TwPt F) => some (Gen.TwExt.sub_extended a b)
  | _, _, _, .extAddExtensible, (a : TwExt F), (b : TwExt F) => some (Gen.TwExt.add_extensible a b)
  | _, _, _, .extAddProjectiveNiels, (a : TwExt F), (b : PNiels F) => some (Gen.TwExt.add_projective_niels a b)
  | _, _, _, .extAddAffineNiels, (a : TwExt F), (b : ANiels F) => some (Gen.TwExt.add_affine_niels a b)
  | _, _, _, .extEq, (a : TwExt F), (b : TwExt F) => some (Gen.TwExt.eq a b)
  | _, _, _, .pnSelect c, (a : PNiels F), (b : PNiels F) => some (Gen.PNiels.conditional_select a b c)
  | _, _, _, .tAffMk, (a : F), (b : F) => some (⟨a, b⟩ : TwAff F)
  | _, _, _, .tAffAdd, (a : TwAff F), (b : TwAff F) => Gen.TwAff.add a b
  | _, _, _, .anSelect c, (a : ANiels F), (b : ANiels F) => some (Gen.ANiels.conditional_select a b c)
  | _, _, _, .anEquals, (a : ANiels F), (b : ANiels F) => some (Gen.ANiels.equals a b)
  | _, _, _, .pmSelect c, (a : ProjMont F), (b : ProjMont F) => some (Gen.ProjMont.conditional_select a b c)
  | _, _, _, .decafAdd, (a : DecafPt F), (b : DecafPt F) => some (Gen.DecafPt.op_add a b)
  | _, _, _, .decafSub, (a : DecafPt F), (b : DecafPt F) => some (Gen.DecafPt.op_sub a b)
  | _, _, _, .decafEquals, (a : DecafPt F), (b : DecafPt F) => some (Gen.DecafPt.equals a b)
  | _, _, _, .ristEquals, (a : RistPt F), (b : RistPt F) => some (Gen.RistPt.equals a b)

/-- The functions with two such arguments, in the translation with wrapping arithmetic. -/
def Op.rel2 : {ρ σ τ : Ty} → Model.Op2 ρ σ τ → Sem F ρ → Sem F σ → Option (Sem F τ)
  | _, _, _, .feMul, (a : F), (b : F) => some (a *ᶠ b : F)
  | _, _, _, .feAdd, (a : F), (b : F) => some (a +ᶠ b : F)
  | _, _, _, .feSub, (a : F), (b : F) => some (a -ᶠ b : F)
  | _, _, _, .feSelect c, (a : F), (b : F) => some (FieldBackend.select a b c : F)
  | _, _, _, .feEq, (a : F), (b : F) => some (Gen.Field.eq (F := F) a b)
  | _, _, _, .feSqrtRatio, (a : F), (b : F) => (Rel.Field.sqrt_ratio (F := F) a b).map Prod.fst
  | _, _, _, .feSqrtRatioOk, (a : F), (b : F) => (Rel.Field.sqrt_ratio (F := F) a b).map Prod.snd
  | _, _, _, .edAffMk, (a : F), (b : F) => some (⟨a, b⟩ : EdAff F)
  | _, _, _, .edAdd, (a : EdPt F), (b : EdPt F) => some (Gen.EdPt.op_add a b)
  | _, _, _, .edSub, (a : EdPt F), (b : EdPt F) => some (Gen.EdPt.op_sub a b)
  | _, _, _, .edSelect c, (a : EdPt F), (b : EdPt F) => some (Gen.EdPt.conditional_select a b c)
  | _, _, _, .edEq, (a : EdPt F), (b : EdPt F) => some (Gen.EdPt.eq a b)
  | _, _, _, .twAdd, (a : TwPt F), (b : TwPt F) => some (Gen.TwPt.add a b)
  | _, _, _, .twSelect c, (a : TwPt F), (b : TwPt F) => some (Gen.TwPt.conditional_select a b c)
  | _, _, _, .twEq, (a : TwPt F), (b : TwPt F) => some (Gen.TwPt.eq a b)
  | _, _, _, .extAddExtended, (a : TwExt F), (b : TwPt F) => some (Gen.TwExt.add_extended a b)
  | _, _, _, .extSubExtended, (a : TwExt F), (b : TwPt F) => some (Gen.TwExt.sub_extended a b)
  | _, _, _, .extAddExtensible, (a : TwExt F), (b : TwExt F) => some (Gen.TwExt.add_extensible a b)
  | _, _, _, .extAddProjectiveNiels, (a : TwExt F), (b : PNiels F) => some (Gen.TwExt.add_projective_niels a b)
  | _, _, _, .extAddAffineNiels, (a : TwExt F), (b : ANiels F) => some (Gen.TwExt.add_affine_niels a b)
  | _, _, _, .extEq, (a : TwExt F), (b : TwExt F) => some (Gen.TwExt.eq a b)
  | _, _, _, .pnSelect c, (a : PNiels F), (b : PNiels F) => some (Gen.PNiels.conditional_select a b c)
  | _, _, _, .tAffMk, (a : F), (b : F) => some (⟨a, b⟩ : TwAff F)
  | _, _, _, .tAffAdd, (a : TwAff F), (b : TwAff F) => Rel.TwAff.add a b
  | _, _, _, .anSelect c, (a : ANiels F), (b : ANiels F) => some (Gen.ANiels.conditional_select a b c)
  | _, _, _, .anEquals, (a : ANiels F), (b : ANiels F) => some (Gen.ANiels.equals a b)
  | _, _, _, .pmSelect c, (a : ProjMont F), (b : ProjMont F) => some (Gen.ProjMont.conditional_select a b c)
  | _, _, _, .decafAdd, (a : DecafPt F), (b : DecafPt F) => some (Gen.DecafPt.op_add a b)
  | _, _, _, .decafSub, (a : DecafPt F), (b : DecafPt F) => some (Gen.DecafPt.op_sub a b)
  | _, _, _, .decafEquals, (a : DecafPt F), (b : DecafPt F) => some (Gen.DecafPt.equals a b)
  | _, _, _, .ristEquals, (a : RistPt F), (b : RistPt F) => some (Gen.RistPt.equals a b)

/-- Runs a program over the translated source, with overflow checks. -/
def runSrc : {τ : Ty} → Prog τ → Option (Sem F τ)
  | _, .ret a => some a
  | _, .bind a f => (runSrc a).bind fun x => runSrc (f x)
  | _, .panic => none
  | _, .op0 o => Op.src0 F o
  | _, .op1 o a => (runSrc a).bind (Op.src1 F o)
  | _, .op2 o a b => (runSrc a).bind fun x => (runSrc b).bind (Op.src2 F o x)

/-- Runs a program over the translated source, in a release build. -/
def runRel : {τ : Ty} → Prog τ → Option (Sem F τ)
  | _, .ret a => some a
  | _, .bind a f => (runRel a).bind fun x => runRel (f x)
  | _, .panic => none
  | _, .op0 o => Op.rel0 F o
  | _, .op1 o a => (runRel a).bind (Op.rel1 F o)
  | _, .op2 o a b => (runRel a).bind fun x => (runRel b).bind (Op.rel2 F o x)

end

section
variable {F L : Type} [FieldBackend F L]
open Source

omit [FieldBackend F L] in
theorem ofList_l {n B : ℕ} (a : Arr n B) : Arr.ofList? n B a.l = some a := Arr.ofList?_eq _ a.len a.lt

omit [FieldBackend F L] in
theorem ofList_bind {n B : ℕ} {o : Option (List ℕ)} {a : Arr n B} (h : o = some a.l) :
    o.bind (Arr.ofList? n B) = some a := by
  subst h
  exact ofList_l a

theorem Op.src0_eq {τ : Ty} (o : Op0 τ) : Op.src0 F o = o.run F := by
  cases o with
  | feZero => exact rfl
  | feOne => exact rfl
  | feFromBytes b => exact fieldFromBytes_eq b
  | edIdentity => exact rfl
  | edGenerator => exact rfl
  | edDecompressOk b => exact congrArg (Option.map Option.isSome) (Ed_decompress b)
  | edDecompress b => exact congrArg Option.join (Ed_decompress b)
  | edAffIdentity => exact rfl
  | twIdentity => exact rfl
  | twGenerator => exact rfl
  | extIdentity => exact rfl
  | pnIdentity => exact rfl
  | tAffIdentity => exact rfl
  | anIdentity => exact rfl
  | pmIdentity => exact rfl
  | montToProjective u => exact Mont_to_projective u
  | montMul u s => exact ofList_bind (Mont_mul u s)
  | decafIdentity => exact rfl
  | decafGenerator => exact rfl
  | decafDecompressOk b => exact congrArg (Option.map Option.isSome) (Decaf_decompress b)
  | decafDecompress b => exact congrArg Option.join (Decaf_decompress b)
  | ristIdentity => exact rfl

theorem Op.src1_eq {σ τ : Ty} (o : Op1 σ τ) (x : Sem F σ) : Op.src1 F o x = o.run F x := by
  cases o with
  | feNegate => exact rfl
  | feSquare => exact rfl
  | feCondNegate c => exact rfl
  | feInvert => exact (fun (a : F) => field_invert a) x
  | feInverseSquareRoot => exact (fun (a : F) => congrArg (Option.map Prod.fst) (field_isr a)) x
  | feIsSquare => exact (fun (a : F) => congrArg (Option.map Prod.snd) (field_isr a)) x
  | feStrongReduce => exact rfl
  | feToBytes => exact rfl
  | feIsNegative => exact rfl
  | feIsZero => exact (fun (a : F) => congrArg some (field_is_zero a)) x
  | edNegate => exact rfl
  | edDouble => exact rfl
  | edTorque => exact rfl
  | edScalarMul s => exact (fun (a : EdPt F) => EdPt_op_mul a s) x
  | edToAffine => exact (fun (a : EdPt F) => EdPt_to_affine a) x
  | edToTwisted => exact (fun (a : EdPt F) => EdPt_to_twisted a) x
  | edX => exact rfl
  | edY => exact rfl
  | edZ => exact rfl
  | edT => exact rfl
  | edAsTw => exact rfl
  | edToMontgomery => exact (fun (a : EdPt F) => ofList_bind (EdPt_to_montgomery a)) x
  | edCompress => exact (fun (a : EdPt F) => ofList_bind (EdPt_compress a)) x
  | edIsOnCurve => exact (fun (a : EdPt F) => congrArg some (EdPt_is_on_curve a)) x
  | edIsTorsionFree => exact (fun (a : EdPt F) => EdPt_is_torsion_free a) x
  | edAffToExtended => exact rfl
  | edAffX => exact rfl
  | edAffY => exact rfl
  | twNegate => exact rfl
  | twDouble => exact rfl
  | twTorque => exact rfl
  | twToExtensible => exact rfl
  | twToAffine => exact (fun (a : TwPt F) => TwPt_to_affine a) x
  | twToUntwisted => exact (fun (a : TwPt F) => TwPt_to_untwisted a) x
  | twAsEd => exact rfl
  | twX => exact rfl
  | twY => exact rfl
  | twZ => exact rfl
  | twT => exact rfl
  | twIsOnCurve => exact (fun (a : TwPt F) => congrArg some (TwPt_is_on_curve a)) x
  | twLookup i => exact (fun (a : TwPt F) => (bind_of_eq (LookupTable_from a) fun t => Gen.LookupTable.select t i).trans
      (LookupTable_select _ (by simp [lookupTable]) i)) x
  | variableBase s => exact (fun (a : TwPt F) => variable_base a s) x
  | doubleAndAdd s => exact (fun (a : TwPt F) => double_and_add a s) x
  | doubleBase s t => exact (fun (a : TwPt F) => double_base_scalar_mul s a t) x
  | twToDecaf => exact rfl
  | twToRist => exact rfl
  | extDouble => exact rfl
  | extToExtended => exact rfl
  | extToProjectiveNiels => exact rfl
  | pnCondNegate c => exact (fun (a : PNiels F) => congrArg some (PNiels_conditional_negate a c)) x
  | pnToExtended => exact rfl
  | tAffX => exact rfl
  | tAffY => exact rfl
  | tAffNegate => exact rfl
  | tAffIsOnCurve => exact (fun (a : TwAff F) => congrArg some (TwAff_is_on_curve a)) x
  | tAffToExtensible => exact rfl
  | tAffToExtended => exact rfl
  | tAffToAffineNiels => exact rfl
  | anToExtended => exact rfl
  | pmToAffine => exact (fun (a : ProjMont F) => ofList_bind (ProjMont_to_affine a)) x
  | decafNeg => exact rfl
  | decafScalarMul s => exact (fun (a : DecafPt F) => Decaf_op_mul a s) x
  | decafCompress => exact (fun (a : DecafPt F) => ofList_bind (Decaf_compress a)) x
  | ristEncode => exact rfl

theorem Op.src2_eq {ρ σ τ : Ty} (o : Op2 ρ σ τ) (x : Sem F ρ) (y : Sem F σ) :
    Op.src2 F o x y = o.run F x y := by
  cases o with
  | feMul => exact rfl
  | feAdd => exact rfl
  | feSub => exact rfl
  | feSelect c => exact rfl
  | feEq => exact (fun (a : F) (b : F) => congrArg some (field_eq a b)) x y
  | feSqrtRatio => exact (fun (a : F) (b : F) => congrArg (Option.map Prod.fst) (field_sqrt_ratio a b)) x y
  | feSqrtRatioOk => exact (fun (a : F) (b : F) => congrArg (Option.map Prod.snd) (field_sqrt_ratio a b)) x y
  | edAffMk => exact rfl
  | edAdd => exact rfl
  | edSub => exact rfl
  | edSelect c => exact (fun (a : EdPt F) (b : EdPt F) => congrArg some (EdPt_conditional_select a b c)) x y
  | edEq => exact (fun (a : EdPt F) (b : EdPt F) => congrArg some (EdPt_eq a b)) x y
  | twAdd => exact rfl
  | twSelect c => exact (fun (a : TwPt F) (b : TwPt F) => congrArg some (TwPt_conditional_select a b c)) x y
  | twEq => exact (fun (a : TwPt F) (b : TwPt F) => congrArg some (TwPt_eq a b)) x y
  | extAddExtended => exact (fun (a : TwExt F) (b : TwPt F) => congrArg some (TwExt_add_extended a b)) x y
  | extSubExtended => exact (fun (a : TwExt F) (b : TwPt F) => congrArg some (TwExt_sub_extended a b)) x y
  | extAddExtensible => exact (fun (a : TwExt F) (b : TwExt F) => congrArg some (TwExt_add_extensible a b)) x y
  | extAddProjectiveNiels => exact (fun (a : TwExt F) (b : PNiels F) => congrArg some (TwExt_add_projective_niels a b)) x y
  | extAddAffineNiels => exact (fun (a : TwExt F) (b : ANiels F) => congrArg some (TwExt_add_affine_niels a b)) x y
  | extEq => exact (fun (a : TwExt F) (b : TwExt F) => congrArg some (TwExt_eq a b)) x y
  | pnSelect c => exact (fun (a : PNiels F) (b : PNiels F) => congrArg some (PNiels_conditional_select a b c)) x y
  | tAffMk => exact rfl
  | tAffAdd => exact (fun (a : TwAff F) (b : TwAff F) => TwAff_add a b) x y
  | anSelect c => exact (fun (a : ANiels F) (b : ANiels F) => congrArg some (ANiels_conditional_select a b c)) x y
  | anEquals => exact (fun (a : ANiels F) (b : ANiels F) => congrArg some (ANiels_equals a b)) x y
  | pmSelect c => exact (fun (a : ProjMont F) (b : ProjMont F) => congrArg some (ProjMont_conditional_select a b c)) x y
  | decafAdd => exact rfl
  | decafSub => exact rfl
  | decafEquals => exact (fun (a : DecafPt F) (b : DecafPt F) => congrArg some (Decaf_equals a b)) x y
  | ristEquals => exact (fun (a : RistPt F) (b : RistPt F) => congrArg some (Rist_equals a b)) x y

omit [FieldBackend F L] in
theorem ref_map {α β : Type} {a b : Option α} (h : Rel.Ref a b) (f : α → β) :
    Rel.Ref (a.map f) (b.map f) := by
  rw [Option.map_eq_bind, Option.map_eq_bind]
  exact h.bind fun _ => .rfl'

omit [FieldBackend F L] in
theorem ref_join {α : Type} {a b : Option (Option α)} (h : Rel.Ref a b) :
    Rel.Ref a.join b.join := by
  constructor
  intro y e
  exact Option.join_eq_some_iff.2 (h.ref _ (Option.join_eq_some_iff.1 e))

omit [FieldBackend F L] in
theorem ref_bytes (n : ℕ) {a b : Option (List ℕ)} (h : Rel.Ref a b) :
    Rel.Ref (a.bind (Arr.ofList? n 256)) (b.bind (Arr.ofList? n 256)) := h.bind fun _ => .rfl'

theorem Op.rel0_ref {τ : Ty} (o : Op0 τ) :
    Rel.Ref (Op.src0 F o) (Op.rel0 F o) := by
  cases o with
  | feZero => exact .rfl'
  | feOne => exact .rfl'
  | feFromBytes b => exact .rfl'
  | edIdentity => exact .rfl'
  | edGenerator => exact .rfl'
  | edDecompressOk b => exact ref_map (Rel.Ref.call : Rel.Ref (Gen.CompressedEdwardsY.decompress (F := F) b.l) (Rel.CompressedEdwardsY.decompress (F := F) b.l)) _
  | edDecompress b => exact ref_join (Rel.Ref.call : Rel.Ref (Gen.CompressedEdwardsY.decompress (F := F) b.l) (Rel.CompressedEdwardsY.decompress (F := F) b.l))
  | edAffIdentity => exact .rfl'
  | twIdentity => exact .rfl'
  | twGenerator => exact .rfl'
  | extIdentity => exact .rfl'
  | pnIdentity => exact .rfl'
  | tAffIdentity => exact .rfl'
  | anIdentity => exact .rfl'
  | pmIdentity => exact .rfl'
  | montToProjective u => exact .rfl'
  | montMul u s => exact ref_bytes 56 (Rel.Ref.call : Rel.Ref (Gen.MontgomeryPoint.op_mul_Scalar (F := F) u.l s.l) (Rel.MontgomeryPoint.op_mul_Scalar (F := F) u.l s.l))
  | decafIdentity => exact .rfl'
  | decafGenerator => exact .rfl'
  | decafDecompressOk b => exact ref_map (Rel.Ref.call : Rel.Ref (Gen.CompressedDecaf.decompress (F := F) b.l) (Rel.CompressedDecaf.decompress (F := F) b.l)) _
  | decafDecompress b => exact ref_join (Rel.Ref.call : Rel.Ref (Gen.CompressedDecaf.decompress (F := F) b.l) (Rel.CompressedDecaf.decompress (F := F) b.l))
  | ristIdentity => exact .rfl'

theorem Op.rel1_ref {σ τ : Ty} (o : Op1 σ τ) (x : Sem F σ) :
    Rel.Ref (Op.src1 F o x) (Op.rel1 F o x) := by
  cases o with
  | feNegate => exact .rfl'
  | feSquare => exact .rfl'
  | feCondNegate c => exact .rfl'
  | feInvert => exact (fun (a : F) => (Rel.Ref.call : Rel.Ref (Gen.Field.invert (F := F) a) (Rel.Field.invert (F := F) a))) x
  | feInverseSquareRoot => exact (fun (a : F) => ref_map (Rel.Ref.call : Rel.Ref (Gen.Field.inverse_square_root (F := F) a) (Rel.Field.inverse_square_root (F := F) a)) _) x
  | feIsSquare => exact (fun (a : F) => ref_map (Rel.Ref.call : Rel.Ref (Gen.Field.inverse_square_root (F := F) a) (Rel.Field.inverse_square_root (F := F) a)) _) x
  | feStrongReduce => exact .rfl'
  | feToBytes => exact .rfl'
  | feIsNegative => exact .rfl'
  | feIsZero => exact .rfl'
  | edNegate => exact .rfl'
  | edDouble => exact .rfl'
  | edTorque => exact .rfl'
  | edScalarMul s => exact (fun (a : EdPt F) => (Rel.Ref.call : Rel.Ref (Gen.EdPt.op_mul_Scalar a s.l) (Rel.EdPt.op_mul_Scalar a s.l))) x
  | edToAffine => exact (fun (a : EdPt F) => (Rel.Ref.call : Rel.Ref (Gen.EdPt.to_affine a) (Rel.EdPt.to_affine a))) x
  | edToTwisted => exact (fun (a : EdPt F) => (Rel.Ref.call : Rel.Ref (Gen.EdPt.to_twisted a) (Rel.EdPt.to_twisted a))) x
  | edX => exact .rfl'
  | edY => exact .rfl'
  | edZ => exact .rfl'
  | edT => exact .rfl'
  | edAsTw => exact .rfl'
  | edToMontgomery => exact (fun (a : EdPt F) => ref_bytes 56 (Rel.Ref.call : Rel.Ref (Gen.EdPt.to_montgomery a) (Rel.EdPt.to_montgomery a))) x
  | edCompress => exact (fun (a : EdPt F) => ref_bytes 57 (Rel.Ref.call : Rel.Ref (Gen.EdPt.compress a) (Rel.EdPt.compress a))) x
  | edIsOnCurve => exact .rfl'
  | edIsTorsionFree => exact (fun (a : EdPt F) => (Rel.Ref.call : Rel.Ref (Gen.EdPt.is_torsion_free a) (Rel.EdPt.is_torsion_free a))) x
  | edAffToExtended => exact .rfl'
  | edAffX => exact .rfl'
  | edAffY => exact .rfl'
  | twNegate => exact .rfl'
  | twDouble => exact .rfl'
  | twTorque => exact .rfl'
  | twToExtensible => exact .rfl'
  | twToAffine => exact (fun (a : TwPt F) => (Rel.Ref.call : Rel.Ref (Gen.TwPt.to_affine a) (Rel.TwPt.to_affine a))) x
  | twToUntwisted => exact (fun (a : TwPt F) => (Rel.Ref.call : Rel.Ref (Gen.TwPt.to_untwisted a) (Rel.TwPt.to_untwisted a))) x
  | twAsEd => exact .rfl'
  | twX => exact .rfl'
  | twY => exact .rfl'
  | twZ => exact .rfl'
  | twT => exact .rfl'
  | twIsOnCurve => exact .rfl'
  | twLookup i => exact (fun (a : TwPt F) => (Rel.Ref.call : Rel.Ref (Gen.LookupTable.from a) (Rel.LookupTable.from a)).bind fun t =>
      (Rel.Ref.call : Rel.Ref (Gen.LookupTable.select t i) (Rel.LookupTable.select t i))) x
  | variableBase s => exact (fun (a : TwPt F) => (Rel.Ref.call : Rel.Ref (Gen.variable_base.variable_base a s.l) (Rel.variable_base.variable_base a s.l))) x
  | doubleAndAdd s => exact (fun (a : TwPt F) => (Rel.Ref.call : Rel.Ref (Gen.double_and_add.double_and_add a s.l) (Rel.double_and_add.double_and_add a s.l))) x
  | doubleBase s t => exact (fun (a : TwPt F) => (Rel.Ref.call : Rel.Ref (Gen.double_base.double_base_scalar_mul s.l a t.l) (Rel.double_base.double_base_scalar_mul s.l a t.l))) x
  | twToDecaf => exact .rfl'
  | twToRist => exact .rfl'
  | extDouble => exact .rfl'
  | extToExtended => exact .rfl'
  | extToProjectiveNiels => exact .rfl'
  | pnCondNegate c => exact .rfl'
  | pnToExtended => exact .rfl'
  | tAffX => exact .rfl'
  | tAffY => exact .rfl'
  | tAffNegate => exact .rfl'
  | tAffIsOnCurve => exact .rfl'
  | tAffToExtensible => exact .rfl'
  | tAffToExtended => exact .rfl'
  | tAffToAffineNiels => exact .rfl'
  | anToExtended => exact .rfl'
  | pmToAffine => exact (fun (a : ProjMont F) => ref_bytes 56 (Rel.Ref.call : Rel.Ref (Gen.ProjMont.to_affine a) (Rel.ProjMont.to_affine a))) x
  | decafNeg => exact .rfl'
  | decafScalarMul s => exact (fun (a : DecafPt F) => (Rel.Ref.call : Rel.Ref (Gen.DecafPt.op_mul_Scalar a s.l) (Rel.DecafPt.op_mul_Scalar a s.l))) x
  | decafCompress => exact (fun (a : DecafPt F) => ref_bytes 56 (Rel.Ref.call : Rel.Ref (Gen.DecafPt.compress a) (Rel.DecafPt.compress a))) x
  | ristEncode => exact .rfl'

theorem Op.rel2_ref {ρ σ τ : Ty} (o : Op2 ρ σ τ) (x : Sem F ρ) (y : Sem F σ) :
    Rel.Ref (Op.src2 F o x y) (Op.rel2 F o x y) := by
  cases o with
  | feMul => exact .rfl'
  | feAdd => exact .rfl'
  | feSub => exact .rfl'
  | feSelect c => exact .rfl'
  | feEq => exact .rfl'
  | feSqrtRatio => exact (fun (a : F) (b : F) => ref_map (Rel.Ref.call : Rel.Ref (Gen.Field.sqrt_ratio (F := F) a b) (Rel.Field.sqrt_ratio (F := F) a b)) _) x y
  | feSqrtRatioOk => exact (fun (a : F) (b : F) => ref_map (Rel.Ref.call : Rel.Ref (Gen.Field.sqrt_ratio (F := F) a b) (Rel.Field.sqrt_ratio (F := F) a b)) _) x y
  | edAffMk => exact .rfl'
  | edAdd => exact .rfl'
  | edSub => exact .rfl'
  | edSelect c => exact .rfl'
  | edEq => exact .rfl'
  | twAdd => exact .rfl'
  | twSelect c => exact .rfl'
  | twEq => exact .rfl'
  | extAddExtended => exact .rfl'
  | extSubExtended => exact .rfl'
  | extAddExtensible => exact .rfl'
  | extAddProjectiveNiels => exact .rfl'
  | extAddAffineNiels => exact .rfl'
  | extEq => exact .rfl'
  | pnSelect c => exact .rfl'
  | tAffMk => exact .rfl'
  | tAffAdd => exact (fun (a : TwAff F) (b : TwAff F) => (Rel.Ref.call : Rel.Ref (Gen.TwAff.add a b) (Rel.TwAff.add a b))) x y
  | anSelect c => exact .rfl'
  | anEquals => exact .rfl'
  | pmSelect c => exact .rfl'
  | decafAdd => exact .rfl'
  | decafSub => exact .rfl'
  | decafEquals => exact .rfl'
  | ristEquals => exact .rfl'

/-- Every program over the library runs the same over the translated source. -/
theorem C86_source {τ : Ty} (e : Prog τ) : runSrc F e = e.run F := by
  induction e with
  | ret a => rfl
  | bind a f iha ihf =>
    refine (congrArg (Option.bind · _) iha).trans ?_
    exact congrArg (Option.bind _) (funext fun x => ihf x)
  | panic => rfl
  | op0 o => exact Op.src0_eq o
  | op1 o a ih =>
    refine (congrArg (Option.bind · _) ih).trans ?_
    exact congrArg (Option.bind _) (funext fun x => Op.src1_eq o x)
  | op2 o a b iha ihb =>
    refine (congrArg (Option.bind · _) iha).trans (congrArg (Option.bind _) (funext fun x => ?_))
    refine (congrArg (Option.bind · _) ihb).trans ?_
    exact congrArg (Option.bind _) (funext fun y => Op.src2_eq o x y)

theorem runRel_ref {τ : Ty} (e : Prog τ) : Rel.Ref (runSrc F e) (runRel F e) := by
  induction e with
  | ret a => exact .rfl'
  | bind a f iha ihf => exact iha.bind fun x => ihf x
  | panic => exact .rfl'
  | op0 o => exact Op.rel0_ref o
  | op1 o a ih => exact ih.bind fun x => Op.rel1_ref o x
  | op2 o a b iha ihb => exact iha.bind fun x => ihb.bind fun y => Op.rel2_ref o x y

/-- And in release builds, wherever it does not panic. -/
theorem C86_release {τ : Ty} (e : Prog τ) (r : Sem F τ) (h : e.run F = some r) :
    runRel F e = some r :=
  (runRel_ref e).ref r ((C86_source e).trans h)

/-- So the backends cannot be told apart by any program over the translated source. -/
theorem C86_backends {F' L' : Type} [FieldBackend F' L'] [Lawful F] [Lawful F'] {α : Type}
    (e : Prog (.host α)) : runSrc F e = runSrc F' e ∧ ∀ r : α, runSrc F e = some r →
      runRel F e = some r ∧ runRel F' e = some r := by
  have h : runSrc F e = runSrc F' e :=
    (C86_source e).trans ((C47_programs (F := F) (F' := F') e e).1.trans (C86_source e).symm)
  exact ⟨h, fun r hr => ⟨(runRel_ref e).ref r hr, (runRel_ref e).ref r (h.symm.trans hr)⟩⟩

/-- A signature made with one backend in a release build is verified with another one in a release
build. -/
example {F' L' : Type} [FieldBackend F' L'] [Lawful F] [Lawful F'] (secret nonce c : Bytes 114) :
    ∃ A R S, runRel F (sign448 secret nonce c) = some (A, R, S) ∧
      runRel F' (verify448 A R S c) = some true := by
  obtain ⟨A, R, S, h, k, -⟩ := C58_sign_verifies (F := F) secret nonce c
  exact ⟨A, R, S, C86_release _ _ h, ((C86_backends (F := F) _).2 true
    ((C86_source _).trans k)).2⟩

end

end Ed448.Props
