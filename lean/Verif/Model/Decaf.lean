import Verif.Model.ScalarMul

/-!
# Model: `/repo/src/decaf` and `/repo/src/ristretto`

`DecafPoint`/`RistrettoPoint` are newtypes around `twedwards::ExtendedPoint`;
`CompressedDecaf`/`CompressedRistretto` around `[u8; 56]`, compared bytewise.
-/

namespace Ed448.Model
open FieldBackend
variable {F L : Type} [FieldBackend F L]

/-- `DecafPoint`. /repo/src/decaf/decaf.rs:10 -/
structure DecafPt (F : Type) where
  pt : TwPt F

namespace DecafPt

/-- `identity`. /repo/src/decaf/decaf.rs:41-43 -/
def identity : DecafPt F := ⟨TwPt.identity⟩

/-- `generator` = `DECAF_BASEPOINT`. /repo/src/decaf/decaf.rs:45-47, /repo/src/constants.rs:9 -/
def generator : DecafPt F := ⟨TwPt.generator⟩

/-- `equals`. /repo/src/decaf/decaf.rs:49-51 -/
def equals (a b : DecafPt F) : Bool := feq (a.pt.X *ᶠ b.pt.Y) (a.pt.Y *ᶠ b.pt.X)

/-- `Add`. /repo/src/decaf/ops.rs:36-47 -/
def add (a b : DecafPt F) : DecafPt F := ⟨(a.pt.toExtensible.addExtended b.pt).toExtended⟩

/-- `sub`, `Sub`. /repo/src/decaf/decaf.rs:57-59, /repo/src/decaf/ops.rs:51-62 -/
def sub (a b : DecafPt F) : DecafPt F := ⟨(a.pt.toExtensible.subExtended b.pt).toExtended⟩

/-- `Neg`. /repo/src/decaf/ops.rs:66-77 -/
def neg (a : DecafPt F) : DecafPt F := ⟨a.pt.negate⟩

/-- `Mul` with a scalar, both orders. /repo/src/decaf/ops.rs:8-32 -/
def scalarMul (a : DecafPt F) (s : Scalar) : DecafPt F := ⟨doubleAndAdd a.pt s⟩

/-- The field element `s` (before making it non-negative). /repo/src/decaf/decaf.rs:64-77 -/
def compressS (self : DecafPt F) : F :=
  let X := self.pt.X
  let Z := self.pt.Z
  let T := self.pt.T
  let XXTT := (X +ᶠ T) *ᶠ (X -ᶠ T)
  let isr := (inverseSquareRoot (square X *ᶠ XXTT *ᶠ NEG_EDWARDS_D)).1
  let ratio := isr *ᶠ XXTT
  let altx := ratio *ᶠ DECAF_FACTOR
  let ratio := condNegate ratio (isNegative altx)
  let k := ratio *ᶠ Z -ᶠ T
  k *ᶠ NEG_EDWARDS_D *ᶠ isr *ᶠ X

/-- `compress`. /repo/src/decaf/decaf.rs:63-81 -/
def compress (self : DecafPt F) : Bytes 56 :=
  let s := self.compressS
  let s := condNegate s (isNegative s)
  toBytes s

end DecafPt

/-- `CompressedDecaf::identity`. /repo/src/decaf/decaf.rs:85-87 -/
def compressedDecafIdentity : Bytes 56 where
  l := List.replicate 56 0
  len := by simp
  lt := by intro x hx; simp at hx; omega

/-- `CompressedDecaf::decompress`. /repo/src/decaf/decaf.rs:91-128 -/
def decafDecompress (F : Type) {L : Type} [FieldBackend F L] (b : Bytes 56) :
    Option (DecafPt F) :=
  let s : F := fromBytes b
  let sBytesCheck := toBytes s
  let canonical := sBytesCheck == b
  if canonical = false ∨ isNegative s = true then none
  else
    let ss := square s
    let u1 := one -ᶠ ss
    let u2 := one +ᶠ ss
    let u1Sqr := square u1
    let v := ss *ᶠ NEG_FOUR_TIMES_TWISTED_D +ᶠ u1Sqr
    let r := inverseSquareRoot (v *ᶠ u1Sqr)
    if r.2 = false then none
    else
      let I := r.1
      let Dx := I *ᶠ u1
      let Dxs := (s +ᶠ s) *ᶠ Dx
      let X := (Dxs *ᶠ I) *ᶠ v
      let k := Dxs *ᶠ DECAF_FACTOR
      let X := condNegate X (isNegative k)
      let Y := Dx *ᶠ u2
      some ⟨⟨X, Y, one, X *ᶠ Y⟩⟩

/-! ## ristretto.rs -/

/-- `RistrettoPoint`. /repo/src/ristretto/ristretto.rs:7 -/
structure RistPt (F : Type) where
  pt : TwPt F

/-- `identity`. /repo/src/ristretto/ristretto.rs:38-40 -/
def RistPt.identity : RistPt F := ⟨TwPt.identity⟩

/-- `equals`. /repo/src/ristretto/ristretto.rs:42-46 -/
def RistPt.equals (a b : RistPt F) : Bool := feq (a.pt.X *ᶠ b.pt.Y) (a.pt.Y *ᶠ b.pt.X)

/-- `encode` is `todo!()`: it panics. /repo/src/ristretto/ristretto.rs:48-50 -/
def RistPt.encode (_self : RistPt F) : Option (Bytes 56) := none

/-- `decode` is `todo!()`: it panics. /repo/src/ristretto/ristretto.rs:58-60 -/
def ristDecode (F : Type) (_b : Bytes 56) : Option (Option (RistPt F)) := none

end Ed448.Model
