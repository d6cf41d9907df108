import Verif.Model.Edwards
import Verif.Model.Montgomery
import Verif.Model.Decaf

/-!
# Programs over the library

`Prog τ` is a program that calls functions of the library and computes anything in between from the
bytes, booleans and scalars it has seen (`bind`). `run F` executes it on the backend `F`; `none` is a
panic. The functions themselves are those of the other model files.
-/

namespace Ed448.Model
open FieldBackend

/-- The types of the library: field elements, the point types, and backend-independent types. -/
inductive Ty : Type 1
  | host (α : Type)
  | fe | ed | edAff | tw | ext | pn | tAff | an | pm | decaf | rist

/-- What a type stands for in a backend. -/
def Sem (F : Type) : Ty → Type
  | .host α => α
  | .fe => F
  | .ed => EdPt F
  | .edAff => EdAff F
  | .tw => TwPt F
  | .ext => TwExt F
  | .pn => PNiels F
  | .tAff => TwAff F
  | .an => ANiels F
  | .pm => ProjMont F
  | .decaf => DecafPt F
  | .rist => RistPt F

/-- Functions of the library without an argument holding field elements. -/
inductive Op0 : Ty → Type 1
  | feZero : Op0 .fe
  | feOne : Op0 .fe
  | feFromBytes (b : Bytes 56) : Op0 .fe
  | edIdentity : Op0 .ed
  | edGenerator : Op0 .ed
  | edDecompressOk (b : Bytes 57) : Op0 (.host Bool)
  | edDecompress (b : Bytes 57) : Op0 .ed
  | edAffIdentity : Op0 .edAff
  | twIdentity : Op0 .tw
  | twGenerator : Op0 .tw
  | extIdentity : Op0 .ext
  | pnIdentity : Op0 .pn
  | tAffIdentity : Op0 .tAff
  | anIdentity : Op0 .an
  | pmIdentity : Op0 .pm
  | montToProjective (u : Bytes 56) : Op0 .pm
  | montMul (u : Bytes 56) (s : Scalar) : Op0 (.host (Bytes 56))
  | decafIdentity : Op0 .decaf
  | decafGenerator : Op0 .decaf
  | decafDecompressOk (b : Bytes 56) : Op0 (.host Bool)
  | decafDecompress (b : Bytes 56) : Op0 .decaf
  | ristIdentity : Op0 .rist

/-- Functions of the library with one argument holding field elements. `edAsTw` and `twAsEd` build a
point of the other curve from the same coordinates; `twToDecaf` and `twToRist` are the tuple
constructors. -/
inductive Op1 : Ty → Ty → Type 1
  | feNegate : Op1 .fe .fe
  | feSquare : Op1 .fe .fe
  | feCondNegate (c : Bool) : Op1 .fe .fe
  | feInvert : Op1 .fe .fe
  | feInverseSquareRoot : Op1 .fe .fe
  | feIsSquare : Op1 .fe (.host Bool)
  | feStrongReduce : Op1 .fe .fe
  | feToBytes : Op1 .fe (.host (Bytes 56))
  | feIsNegative : Op1 .fe (.host Bool)
  | feIsZero : Op1 .fe (.host Bool)
  | edNegate : Op1 .ed .ed
  | edDouble : Op1 .ed .ed
  | edTorque : Op1 .ed .ed
  | edScalarMul (s : Scalar) : Op1 .ed .ed
  | edToAffine : Op1 .ed .edAff
  | edToTwisted : Op1 .ed .tw
  | edX : Op1 .ed .fe
  | edY : Op1 .ed .fe
  | edZ : Op1 .ed .fe
  | edT : Op1 .ed .fe
  | edAsTw : Op1 .ed .tw
  | edToMontgomery : Op1 .ed (.host (Bytes 56))
  | edCompress : Op1 .ed (.host (Bytes 57))
  | edIsOnCurve : Op1 .ed (.host Bool)
  | edIsTorsionFree : Op1 .ed (.host Bool)
  | edAffToExtended : Op1 .edAff .ed
  | edAffX : Op1 .edAff .fe
  | edAffY : Op1 .edAff .fe
  | twNegate : Op1 .tw .tw
  | twDouble : Op1 .tw .tw
  | twTorque : Op1 .tw .tw
  | twToExtensible : Op1 .tw .ext
  | twToAffine : Op1 .tw .tAff
  | twToUntwisted : Op1 .tw .ed
  | twAsEd : Op1 .tw .ed
  | twX : Op1 .tw .fe
  | twY : Op1 .tw .fe
  | twZ : Op1 .tw .fe
  | twT : Op1 .tw .fe
  | twIsOnCurve : Op1 .tw (.host Bool)
  | twLookup (i : ℕ) : Op1 .tw .pn
  | variableBase (s : Scalar) : Op1 .tw .tw
  | doubleAndAdd (s : Scalar) : Op1 .tw .tw
  | doubleBase (s t : Scalar) : Op1 .tw .tw
  | twToDecaf : Op1 .tw .decaf
  | twToRist : Op1 .tw .rist
  | extDouble : Op1 .ext .ext
  | extToExtended : Op1 .ext .tw
  | extToProjectiveNiels : Op1 .ext .pn
  | pnCondNegate (c : Bool) : Op1 .pn .pn
  | pnToExtended : Op1 .pn .tw
  | tAffX : Op1 .tAff .fe
  | tAffY : Op1 .tAff .fe
  | tAffNegate : Op1 .tAff .tAff
  | tAffIsOnCurve : Op1 .tAff (.host Bool)
  | tAffToExtensible : Op1 .tAff .ext
  | tAffToExtended : Op1 .tAff .tw
  | tAffToAffineNiels : Op1 .tAff .an
  | anToExtended : Op1 .an .tw
  | pmToAffine : Op1 .pm (.host (Bytes 56))
  | decafNeg : Op1 .decaf .decaf
  | decafScalarMul (s : Scalar) : Op1 .decaf .decaf
  | decafCompress : Op1 .decaf (.host (Bytes 56))
  | ristEncode : Op1 .rist (.host (Bytes 56))

/-- Functions of the library with two arguments holding field elements. -/
inductive Op2 : Ty → Ty → Ty → Type 1
  | feMul : Op2 .fe .fe .fe
  | feAdd : Op2 .fe .fe .fe
  | feSub : Op2 .fe .fe .fe
  | feSelect (c : Bool) : Op2 .fe .fe .fe
  | feEq : Op2 .fe .fe (.host Bool)
  | feSqrtRatio : Op2 .fe .fe .fe
  | feSqrtRatioOk : Op2 .fe .fe (.host Bool)
  | edAffMk : Op2 .fe .fe .edAff
  | edAdd : Op2 .ed .ed .ed
  | edSub : Op2 .ed .ed .ed
  | edSelect (c : Bool) : Op2 .ed .ed .ed
  | edEq : Op2 .ed .ed (.host Bool)
  | twAdd : Op2 .tw .tw .tw
  | twSelect (c : Bool) : Op2 .tw .tw .tw
  | twEq : Op2 .tw .tw (.host Bool)
  | extAddExtended : Op2 .ext .tw .ext
  | extSubExtended : Op2 .ext .tw .ext
  | extAddExtensible : Op2 .ext .ext .ext
  | extAddProjectiveNiels : Op2 .ext .pn .ext
  | extAddAffineNiels : Op2 .ext .an .ext
  | extEq : Op2 .ext .ext (.host Bool)
  | pnSelect (c : Bool) : Op2 .pn .pn .pn
  | tAffMk : Op2 .fe .fe .tAff
  | tAffAdd : Op2 .tAff .tAff .tAff
  | anSelect (c : Bool) : Op2 .an .an .an
  | anEquals : Op2 .an .an (.host Bool)
  | pmSelect (c : Bool) : Op2 .pm .pm .pm
  | decafAdd : Op2 .decaf .decaf .decaf
  | decafSub : Op2 .decaf .decaf .decaf
  | decafEquals : Op2 .decaf .decaf (.host Bool)
  | ristEquals : Op2 .rist .rist (.host Bool)

/-- Programs. -/
inductive Prog : Ty → Type 1
  | ret {α : Type} (a : α) : Prog (.host α)
  | bind {α : Type} {τ : Ty} (a : Prog (.host α)) (f : α → Prog τ) : Prog τ
  | panic {τ : Ty} : Prog τ
  | op0 {τ : Ty} (o : Op0 τ) : Prog τ
  | op1 {σ τ : Ty} (o : Op1 σ τ) (a : Prog σ) : Prog τ
  | op2 {ρ σ τ : Ty} (o : Op2 ρ σ τ) (a : Prog ρ) (b : Prog σ) : Prog τ

section run
variable (F : Type) {L : Type} [FieldBackend F L]

/-- The functions without argument. `edDecompress` is `decompress().unwrap()`. -/
def Op0.run : {τ : Ty} → Op0 τ → Option (Sem F τ)
  | _, feZero => some (zero : F)
  | _, feOne => some (one : F)
  | _, feFromBytes b => some (fromBytes b : F)
  | _, edIdentity => some (EdPt.identity : EdPt F)
  | _, edGenerator => some (EdPt.generator : EdPt F)
  | _, edDecompressOk b => some (Ed448.Model.edDecompress F b).isSome
  | _, edDecompress b => Ed448.Model.edDecompress F b
  | _, edAffIdentity => some (EdAff.identity : EdAff F)
  | _, twIdentity => some (TwPt.identity : TwPt F)
  | _, twGenerator => some (TwPt.generator : TwPt F)
  | _, extIdentity => some (TwExt.identity : TwExt F)
  | _, pnIdentity => some (PNiels.identity : PNiels F)
  | _, tAffIdentity => some (TwAff.identity : TwAff F)
  | _, anIdentity => some (ANiels.identity : ANiels F)
  | _, pmIdentity => some (ProjMont.identity : ProjMont F)
  | _, montToProjective u => some (Ed448.Model.montToProjective u : ProjMont F)
  | _, montMul u s => some (montMulScalar F u s)
  | _, decafIdentity => some (DecafPt.identity : DecafPt F)
  | _, decafGenerator => some (DecafPt.generator : DecafPt F)
  | _, decafDecompressOk b => some (Ed448.Model.decafDecompress F b).isSome
  | _, decafDecompress b => Ed448.Model.decafDecompress F b
  | _, ristIdentity => some (RistPt.identity : RistPt F)

/-- The functions with one argument. -/
def Op1.run : {σ τ : Ty} → Op1 σ τ → Sem F σ → Option (Sem F τ)
  | _, _, feNegate, (a : F) => some (FieldBackend.negate a : F)
  | _, _, feSquare, (a : F) => some (square a : F)
  | _, _, feCondNegate c, (a : F) => some (condNegate a c : F)
  | _, _, feInvert, (a : F) => some (invert a : F)
  | _, _, feInverseSquareRoot, (a : F) => some ((inverseSquareRoot a).1 : F)
  | _, _, feIsSquare, (a : F) => some (inverseSquareRoot a).2
  | _, _, feStrongReduce, (a : F) => some (strongReduce a : F)
  | _, _, feToBytes, (a : F) => some (toBytes a)
  | _, _, feIsNegative, (a : F) => some (isNegative a)
  | _, _, feIsZero, (a : F) => some (isZero a)
  | _, _, edNegate, (a : EdPt F) => some a.negate
  | _, _, edDouble, (a : EdPt F) => some a.double
  | _, _, edTorque, (a : EdPt F) => some a.torque
  | _, _, edScalarMul s, (a : EdPt F) => a.scalarMul s
  | _, _, edToAffine, (a : EdPt F) => some a.toAffine
  | _, _, edToTwisted, (a : EdPt F) => some a.toTwisted
  | _, _, edX, (a : EdPt F) => some a.X
  | _, _, edY, (a : EdPt F) => some a.Y
  | _, _, edZ, (a : EdPt F) => some a.Z
  | _, _, edT, (a : EdPt F) => some a.T
  | _, _, edAsTw, (a : EdPt F) => some (⟨a.X, a.Y, a.Z, a.T⟩ : TwPt F)
  | _, _, edToMontgomery, (a : EdPt F) => some a.toMontgomery
  | _, _, edCompress, (a : EdPt F) => some a.compress
  | _, _, edIsOnCurve, (a : EdPt F) => some a.isOnCurve
  | _, _, edIsTorsionFree, (a : EdPt F) => a.isTorsionFree
  | _, _, edAffToExtended, (a : EdAff F) => some a.toExtended
  | _, _, edAffX, (a : EdAff F) => some a.x
  | _, _, edAffY, (a : EdAff F) => some a.y
  | _, _, twNegate, (a : TwPt F) => some a.negate
  | _, _, twDouble, (a : TwPt F) => some a.double
  | _, _, twTorque, (a : TwPt F) => some a.torque
  | _, _, twToExtensible, (a : TwPt F) => some a.toExtensible
  | _, _, twToAffine, (a : TwPt F) => some a.toAffine
  | _, _, twToUntwisted, (a : TwPt F) => some a.toUntwisted
  | _, _, twAsEd, (a : TwPt F) => some (⟨a.X, a.Y, a.Z, a.T⟩ : EdPt F)
  | _, _, twX, (a : TwPt F) => some a.X
  | _, _, twY, (a : TwPt F) => some a.Y
  | _, _, twZ, (a : TwPt F) => some a.Z
  | _, _, twT, (a : TwPt F) => some a.T
  | _, _, twIsOnCurve, (a : TwPt F) => some a.isOnCurve
  | _, _, twLookup i, (a : TwPt F) => some (tableSelect (lookupTable a) i)
  | _, _, variableBase s, (a : TwPt F) => Ed448.Model.variableBase a s
  | _, _, doubleAndAdd s, (a : TwPt F) => some (Ed448.Model.doubleAndAdd a s)
  | _, _, doubleBase s t, (a : TwPt F) => some (doubleBaseScalarMul s a t)
  | _, _, twToDecaf, (a : TwPt F) => some (⟨a⟩ : DecafPt F)
  | _, _, twToRist, (a : TwPt F) => some (⟨a⟩ : RistPt F)
  | _, _, extDouble, (a : TwExt F) => some a.double
  | _, _, extToExtended, (a : TwExt F) => some a.toExtended
  | _, _, extToProjectiveNiels, (a : TwExt F) => some a.toProjectiveNiels
  | _, _, pnCondNegate c, (a : PNiels F) => some (a.condNegate c)
  | _, _, pnToExtended, (a : PNiels F) => some a.toExtended
  | _, _, tAffX, (a : TwAff F) => some a.x
  | _, _, tAffY, (a : TwAff F) => some a.y
  | _, _, tAffNegate, (a : TwAff F) => some a.negate
  | _, _, tAffIsOnCurve, (a : TwAff F) => some a.isOnCurve
  | _, _, tAffToExtensible, (a : TwAff F) => some a.toExtensible
  | _, _, tAffToExtended, (a : TwAff F) => some a.toExtended
  | _, _, tAffToAffineNiels, (a : TwAff F) => some a.toAffineNiels
  | _, _, anToExtended, (a : ANiels F) => some a.toExtended
  | _, _, pmToAffine, (a : ProjMont F) => some a.toAffine
  | _, _, decafNeg, (a : DecafPt F) => some a.neg
  | _, _, decafScalarMul s, (a : DecafPt F) => some (a.scalarMul s)
  | _, _, decafCompress, (a : DecafPt F) => some a.compress
  | _, _, ristEncode, (a : RistPt F) => a.encode

/-- The functions with two arguments. -/
def Op2.run : {ρ σ τ : Ty} → Op2 ρ σ τ → Sem F ρ → Sem F σ → Option (Sem F τ)
  | _, _, _, feMul, (a : F), (b : F) => some (a *ᶠ b : F)
  | _, _, _, feAdd, (a : F), (b : F) => some (a +ᶠ b : F)
  | _, _, _, feSub, (a : F), (b : F) => some (a -ᶠ b : F)
  | _, _, _, feSelect c, (a : F), (b : F) => some (FieldBackend.select a b c : F)
  | _, _, _, feEq, (a : F), (b : F) => some (feq a b)
  | _, _, _, feSqrtRatio, (a : F), (b : F) => some ((sqrtRatio a b).1 : F)
  | _, _, _, feSqrtRatioOk, (a : F), (b : F) => some (sqrtRatio a b).2
  | _, _, _, edAffMk, (a : F), (b : F) => some (⟨a, b⟩ : EdAff F)
  | _, _, _, edAdd, (a : EdPt F), (b : EdPt F) => some (a.add b)
  | _, _, _, edSub, (a : EdPt F), (b : EdPt F) => some (a.sub b)
  | _, _, _, edSelect c, (a : EdPt F), (b : EdPt F) => some (a.select b c)
  | _, _, _, edEq, (a : EdPt F), (b : EdPt F) => some (a.eq b)
  | _, _, _, twAdd, (a : TwPt F), (b : TwPt F) => some (a.add b)
  | _, _, _, twSelect c, (a : TwPt F), (b : TwPt F) => some (a.select b c)
  | _, _, _, twEq, (a : TwPt F), (b : TwPt F) => some (a.eq b)
  | _, _, _, extAddExtended, (a : TwExt F), (b : TwPt F) => some (a.addExtended b)
  | _, _, _, extSubExtended, (a : TwExt F), (b : TwPt F) => some (a.subExtended b)
  | _, _, _, extAddExtensible, (a : TwExt F), (b : TwExt F) => some (a.addExtensible b)
  | _, _, _, extAddProjectiveNiels, (a : TwExt F), (b : PNiels F) => some (a.addProjectiveNiels b)
  | _, _, _, extAddAffineNiels, (a : TwExt F), (b : ANiels F) => some (a.addAffineNiels b)
  | _, _, _, extEq, (a : TwExt F), (b : TwExt F) => some (a.eq b)
  | _, _, _, pnSelect c, (a : PNiels F), (b : PNiels F) => some (a.select b c)
  | _, _, _, tAffMk, (a : F), (b : F) => some (⟨a, b⟩ : TwAff F)
  | _, _, _, tAffAdd, (a : TwAff F), (b : TwAff F) => some (a.add b)
  | _, _, _, anSelect c, (a : ANiels F), (b : ANiels F) => some (a.select b c)
  | _, _, _, anEquals, (a : ANiels F), (b : ANiels F) => some (a.equals b)
  | _, _, _, pmSelect c, (a : ProjMont F), (b : ProjMont F) => some (a.select b c)
  | _, _, _, decafAdd, (a : DecafPt F), (b : DecafPt F) => some (a.add b)
  | _, _, _, decafSub, (a : DecafPt F), (b : DecafPt F) => some (a.sub b)
  | _, _, _, decafEquals, (a : DecafPt F), (b : DecafPt F) => some (a.equals b)
  | _, _, _, ristEquals, (a : RistPt F), (b : RistPt F) => some (a.equals b)

/-- Runs a program on a backend. -/
def Prog.run : {τ : Ty} → Prog τ → Option (Sem F τ)
  | _, ret a => some a
  | _, bind a f => a.run.bind fun x => (f x).run
  | _, panic => none
  | _, op0 o => o.run F
  | _, op1 o a => a.run.bind (o.run F)
  | _, op2 o a b => a.run.bind fun x => b.run.bind (o.run F x)

/-- Runs a program whose result holds no field element. -/
def Prog.eval {α : Type} (e : Prog (.host α)) : Option α := e.run F

end run

end Ed448.Model
