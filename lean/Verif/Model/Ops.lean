import Verif.Model.Edwards
import Verif.Model.Montgomery
import Verif.Model.Decaf

/-!
# Model: operator traits, comparison and limb access

The macros of `/repo/src/macros.rs:15-124` define, for each operator, the variants on owned and
borrowed operands; each variant only re-borrows and calls the variant on two references. References
are not modelled, so the four variants are one function here. Assigning operators take the old value
and return the new one.

In `impl Add<&ExtendedPoint> for &ExtendedPoint` the call `self.add(other)` resolves to the inherent
method `ExtendedPoint::add`, which takes precedence over the trait method.
-/

namespace Ed448.Model
open FieldBackend
variable {F L : Type} [FieldBackend F L]

/-! ## edwards/extended.rs -/

/-- `+`, all variants. /repo/src/curve/edwards/extended.rs:308-319, /repo/src/macros.rs:15-39 -/
def EdPt.opAdd (self other : EdPt F) : EdPt F := self.add other

/-- `+=`, both variants. /repo/src/curve/edwards/extended.rs:321-327, /repo/src/macros.rs:41-50 -/
def EdPt.addAssign (self rhs : EdPt F) : EdPt F := self.opAdd rhs

/-- `-=`, both variants; `-` is `EdPt.sub`.
/repo/src/curve/edwards/extended.rs:342-348, /repo/src/macros.rs:52-87 -/
def EdPt.subAssign (self rhs : EdPt F) : EdPt F := self.sub rhs

/-- `Neg` on a value calls `Neg` on a reference, which calls `negate`.
/repo/src/curve/edwards/extended.rs:366-380 -/
def EdPt.opNeg (self : EdPt F) : EdPt F := self.negate

/-- `point * scalar`, all variants.
/repo/src/curve/edwards/extended.rs:395-404, /repo/src/macros.rs:89-113 -/
def EdPt.opMul (self : EdPt F) (scalar : Scalar) : Option (EdPt F) := self.scalarMul scalar

/-- `scalar * point`, all variants. /repo/src/curve/edwards/extended.rs:396, 406-413 -/
def Scalar.mulEd (self : Scalar) (point : EdPt F) : Option (EdPt F) := point.opMul self

/-- `*=`, both variants. /repo/src/curve/edwards/extended.rs:386-393, /repo/src/macros.rs:115-124 -/
def EdPt.mulAssign (self : EdPt F) (scalar : Scalar) : Option (EdPt F) := self.opMul scalar

/-- `Default`. /repo/src/curve/edwards/extended.rs:86-90 -/
def EdPt.default : EdPt F := EdPt.identity

/-! ## decaf/ops.rs -/

/-- `scalar * point`, owned and borrowed. /repo/src/decaf/ops.rs:15-26 -/
def Scalar.mulDecaf (self : Scalar) (point : DecafPt F) : DecafPt F := ⟨doubleAndAdd point.pt self⟩

/-- `ct_eq` and `==` on `CompressedDecaf`: the 56 bytes. /repo/src/decaf/decaf.rs:21-38 -/
def compressedDecafEq (a b : Bytes 56) : Bool := a.l == b.l

/-! ## montgomery.rs -/

/-- `scalar * point`. /repo/src/curve/montgomery/montgomery.rs:99-104 -/
def Scalar.mulMont (F : Type) {L : Type} [FieldBackend F L] (self : Scalar) (point : Bytes 56) :
    Bytes 56 := montMulScalar F point self

/-- `ct_eq` and `==` on `MontgomeryPoint`. /repo/src/curve/montgomery/montgomery.rs:53-64 -/
def montEq (a b : Bytes 56) : Bool := a.l == b.l

/-! ## twedwards -/

/-- `PartialEq` of `ProjectiveNielsPoint`. /repo/src/curve/twedwards/projective.rs:23-28 -/
def PNiels.eq (self other : PNiels F) : Bool := self.toExtended.eq other.toExtended

/-- `Default`. /repo/src/curve/twedwards/projective.rs:7-11 -/
def PNiels.default : PNiels F := PNiels.identity

/-- Derived `PartialEq` of `AffinePoint`: both coordinates are equal.
/repo/src/curve/twedwards/affine.rs:13-17 -/
def TwAff.eq (self other : TwAff F) : Bool := feq self.x other.x && feq self.y other.y

/-- `Default`. /repo/src/curve/twedwards/affine.rs:19-23 -/
def TwAff.default : TwAff F := TwAff.identity

/-- `Default`. /repo/src/curve/twedwards/extended.rs:48-52 -/
def TwPt.default : TwPt F := TwPt.identity

/-! ## ristretto.rs -/

/-- `CompressedRistretto::identity`. /repo/src/ristretto/ristretto.rs:53-56 -/
def compressedRistIdentity : Bytes 56 where
  l := List.replicate 56 0
  len := by simp
  lt := by intro x hx; simp at hx; omega

/-- `ct_eq` and `==` on `CompressedRistretto`. /repo/src/ristretto/ristretto.rs:18-35 -/
def compressedRistEq (a b : Bytes 56) : Bool := a.l == b.l

/-! ## scalar.rs -/

/-- `Default`. /repo/src/field/scalar.rs:79-83 -/
def Scalar.default : Scalar := Scalar.zero

/-- `scalar[index]`; `none` is the out-of-range panic. /repo/src/field/scalar.rs:46-51 -/
def Scalar.index (self : Scalar) (i : ℕ) : Option ℕ := self.l[i]?

/-- `scalar[index] = v` with a `u32` `v`; `none` is the out-of-range panic.
/repo/src/field/scalar.rs:52-56 -/
def Scalar.indexMut (self : Scalar) (i v : ℕ) : Option Scalar :=
  if i < 14 then Arr.ofList? 14 (2 ^ 32) (self.l.set i v) else none

end Ed448.Model
