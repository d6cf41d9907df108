import Verif.Model.Field

/-!
# Model: the twisted Edwards curve, `/repo/src/curve/twedwards`, and the struct of the untwisted one

The untwisted `ExtendedPoint` struct is declared here because the two modules refer to each other.
-/

namespace Ed448.Model
open FieldBackend
variable {F L : Type} [FieldBackend F L]

/-- `edwards::ExtendedPoint`. /repo/src/curve/edwards/extended.rs:20-25 -/
structure EdPt (F : Type) where
  X : F
  Y : F
  Z : F
  T : F

/-- `twedwards::ExtendedPoint`. /repo/src/curve/twedwards/extended.rs:11-16 -/
structure TwPt (F : Type) where
  X : F
  Y : F
  Z : F
  T : F

/-- `ExtensiblePoint`. /repo/src/curve/twedwards/extensible.rs:15-21 -/
structure TwExt (F : Type) where
  X : F
  Y : F
  Z : F
  T1 : F
  T2 : F

/-- `ProjectiveNielsPoint`. /repo/src/curve/twedwards/projective.rs:16-21 -/
structure PNiels (F : Type) where
  YpX : F
  YmX : F
  Td : F
  Z : F

/-- `twedwards::AffinePoint`. /repo/src/curve/twedwards/affine.rs:14-17 -/
structure TwAff (F : Type) where
  x : F
  y : F

/-- `AffineNielsPoint`. /repo/src/curve/twedwards/affine.rs:86-90 -/
structure ANiels (F : Type) where
  YpX : F
  YmX : F
  td : F

/-! ## extensible.rs -/

/-- `ExtensiblePoint::identity`. /repo/src/curve/twedwards/extensible.rs:42-50 -/
def TwExt.identity : TwExt F := ⟨zero, one, one, zero, one⟩

/-- `ExtensiblePoint::ct_eq`. /repo/src/curve/twedwards/extensible.rs:23-38 -/
def TwExt.eq (a b : TwExt F) : Bool :=
  feq (a.X *ᶠ b.Z) (a.Z *ᶠ b.X) && feq (a.Y *ᶠ b.Z) (a.Z *ᶠ b.Y)

/-- `ExtensiblePoint::double`. /repo/src/curve/twedwards/extensible.rs:53-69 -/
def TwExt.double (self : TwExt F) : TwExt F :=
  let A := square self.X
  let B := square self.Y
  let C := square self.Z +ᶠ square self.Z
  let D := negate A
  let E := square (self.X +ᶠ self.Y) -ᶠ A -ᶠ B
  let G := D +ᶠ B
  let F' := G -ᶠ C
  let H := D -ᶠ B
  ⟨E *ᶠ F', G *ᶠ H, F' *ᶠ G, E, H⟩

/-- `ExtensiblePoint::to_extended`. /repo/src/curve/twedwards/extensible.rs:158-165 -/
def TwExt.toExtended (self : TwExt F) : TwPt F :=
  ⟨self.X, self.Y, self.Z, self.T1 *ᶠ self.T2⟩

/-- `ExtensiblePoint::add_extended`. /repo/src/curve/twedwards/extensible.rs:77-93 -/
def TwExt.addExtended (self : TwExt F) (other : TwPt F) : TwExt F :=
  let A := self.X *ᶠ other.X
  let B := self.Y *ᶠ other.Y
  let C := self.T1 *ᶠ self.T2 *ᶠ other.T *ʳ (TWISTED_D F)
  let D := self.Z *ᶠ other.Z
  let E := (self.X +ᶠ self.Y) *ᶠ (other.X +ᶠ other.Y) -ᶠ A -ᶠ B
  let F' := D -ᶠ C
  let G := D +ᶠ C
  let H := B +ᶠ A
  { X := E *ᶠ F', Y := G *ᶠ H, T1 := E, T2 := H, Z := F' *ᶠ G }

/-- `ExtensiblePoint::add_extensible`. /repo/src/curve/twedwards/extensible.rs:71-73 -/
def TwExt.addExtensible (self other : TwExt F) : TwExt F := self.addExtended other.toExtended

/-- `ExtensiblePoint::sub_extended`. /repo/src/curve/twedwards/extensible.rs:97-113 -/
def TwExt.subExtended (self : TwExt F) (other : TwPt F) : TwExt F :=
  let A := self.X *ᶠ other.X
  let B := self.Y *ᶠ other.Y
  let C := self.T1 *ᶠ self.T2 *ᶠ other.T *ʳ (TWISTED_D F)
  let D := self.Z *ᶠ other.Z
  let E := (self.X +ᶠ self.Y) *ᶠ (other.Y -ᶠ other.X) +ᶠ A -ᶠ B
  let F' := D +ᶠ C
  let G := D -ᶠ C
  let H := B -ᶠ A
  { X := E *ᶠ F', Y := G *ᶠ H, T1 := E, T2 := H, Z := F' *ᶠ G }

/-- `ExtensiblePoint::add_affine_niels`. /repo/src/curve/twedwards/extensible.rs:117-132 -/
def TwExt.addAffineNiels (self : TwExt F) (other : ANiels F) : TwExt F :=
  let A := other.YmX *ᶠ (self.Y -ᶠ self.X)
  let B := other.YpX *ᶠ (self.X +ᶠ self.Y)
  let C := other.td *ᶠ self.T1 *ᶠ self.T2
  let D := B +ᶠ A
  let E := B -ᶠ A
  let F' := self.Z -ᶠ C
  let G := self.Z +ᶠ C
  { X := E *ᶠ F', Y := G *ᶠ D, Z := F' *ᶠ G, T1 := E, T2 := D }

/-- `ExtensiblePoint::add_projective_niels`. /repo/src/curve/twedwards/extensible.rs:138-156 -/
def TwExt.addProjectiveNiels (self : TwExt F) (other : PNiels F) : TwExt F :=
  let Z := self.Z *ᶠ other.Z
  let A := (self.Y -ᶠ self.X) *ᶠ other.YmX
  let B := (self.Y +ᶠ self.X) *ᶠ other.YpX
  let C := other.Td *ᶠ self.T1 *ᶠ self.T2
  let D := B +ᶠ A
  let E := B -ᶠ A
  let F' := Z -ᶠ C
  let G := Z +ᶠ C
  { X := E *ᶠ F', Y := G *ᶠ D, Z := F' *ᶠ G, T1 := E, T2 := D }

/-- `ExtensiblePoint::to_projective_niels`. /repo/src/curve/twedwards/extensible.rs:167-174 -/
def TwExt.toProjectiveNiels (self : TwExt F) : PNiels F where
  YpX := self.X +ᶠ self.Y
  YmX := self.Y -ᶠ self.X
  Z := self.Z +ᶠ self.Z
  Td := self.T1 *ᶠ self.T2 *ʳ (TWO_TIMES_TWISTED_D F)

/-! ## projective.rs -/

/-- `ProjectiveNielsPoint::identity`. /repo/src/curve/twedwards/projective.rs:48-50 -/
def PNiels.identity : PNiels F := (TwExt.identity : TwExt F).toProjectiveNiels

/-- `conditional_select`. /repo/src/curve/twedwards/projective.rs:30-39 -/
def PNiels.select (a b : PNiels F) (c : Bool) : PNiels F where
  YpX := FieldBackend.select a.YpX b.YpX c
  YmX := FieldBackend.select a.YmX b.YmX c
  Td := FieldBackend.select a.Td b.Td c
  Z := FieldBackend.select a.Z b.Z c

/-- `conditional_negate`. /repo/src/curve/twedwards/projective.rs:40-45. `conditional_swap(a, b)`
is subtle's default: `t = a; a = select(a, b); b = select(b, t)`. -/
def PNiels.condNegate (self : PNiels F) (c : Bool) : PNiels F where
  YmX := FieldBackend.select self.YmX self.YpX c
  YpX := FieldBackend.select self.YpX self.YmX c
  Td := FieldBackend.condNegate self.Td c
  Z := self.Z

/-- `ProjectiveNielsPoint::to_extended`. /repo/src/curve/twedwards/projective.rs:51-60 -/
def PNiels.toExtended (self : PNiels F) : TwPt F :=
  let A := self.YpX -ᶠ self.YmX
  let B := self.YpX +ᶠ self.YmX
  { X := self.Z *ᶠ A, Y := self.Z *ᶠ B, Z := square self.Z, T := B *ᶠ A }

/-! ## extended.rs -/

/-- `ct_eq`/`==`. /repo/src/curve/twedwards/extended.rs:18-28, 41-46 -/
def TwPt.eq (a b : TwPt F) : Bool :=
  feq (a.X *ᶠ b.Z) (a.Z *ᶠ b.X) && feq (a.Y *ᶠ b.Z) (a.Z *ᶠ b.Y)

/-- `conditional_select`. /repo/src/curve/twedwards/extended.rs:30-39 -/
def TwPt.select (a b : TwPt F) (c : Bool) : TwPt F where
  X := FieldBackend.select a.X b.X c
  Y := FieldBackend.select a.Y b.Y c
  Z := FieldBackend.select a.Z b.Z c
  T := FieldBackend.select a.T b.T c

/-- `identity`. /repo/src/curve/twedwards/extended.rs:56-63 -/
def TwPt.identity : TwPt F := ⟨zero, one, one, zero⟩

/-- `generator` = `TWISTED_EDWARDS_BASE_POINT`. /repo/src/curve/twedwards/extended.rs:66-68 -/
def TwPt.generator : TwPt F :=
  let g : F × F × F × F := TWISTED_EDWARDS_BASE_POINT
  ⟨g.1, g.2.1, g.2.2.1, g.2.2.2⟩

/-- `to_extensible`. /repo/src/curve/twedwards/extended.rs:78-86 -/
def TwPt.toExtensible (self : TwPt F) : TwExt F := ⟨self.X, self.Y, self.Z, self.T, one⟩

/-- `double`. /repo/src/curve/twedwards/extended.rs:70-72 -/
def TwPt.double (self : TwPt F) : TwPt F := self.toExtensible.double.toExtended

/-- `add`. /repo/src/curve/twedwards/extended.rs:74-76 -/
def TwPt.add (self other : TwPt F) : TwPt F := (self.toExtensible.addExtended other).toExtended

/-- `to_affine`. /repo/src/curve/twedwards/extended.rs:89-102 -/
def TwPt.toAffine (self : TwPt F) : TwAff F :=
  let invZ := invert self.Z
  ⟨strongReduce (self.X *ᶠ invZ), strongReduce (self.Y *ᶠ invZ)⟩

/-- `edwards_isogeny`; `a` is passed as a multiplication operand because `minus_one` of the 64-bit
backend is loose. /repo/src/curve/twedwards/extended.rs:107-130 -/
def TwPt.edwardsIsogeny (self : TwPt F) (a : L) : EdPt F :=
  let affine := self.toAffine
  let x := affine.x
  let y := affine.y
  let xy := x *ᶠ y
  let xNum := xy +ᶠ xy
  let xDen := square y -ᶠ (a *ˡ square x)
  let newX := xNum *ᶠ invert xDen
  let yNum := square y +ᶠ (a *ˡ square x)
  let yDen := (one +ᶠ one) -ᶠ square y -ᶠ (a *ˡ square x)
  let newY := yNum *ᶠ invert yDen
  ⟨newX, newY, one, newX *ᶠ newY⟩

/-- `to_untwisted`. /repo/src/curve/twedwards/extended.rs:132-134 -/
def TwPt.toUntwisted (self : TwPt F) : EdPt F := self.edwardsIsogeny (minusOne F)

/-- `is_on_curve`. /repo/src/curve/twedwards/extended.rs:137-151 -/
def TwPt.isOnCurve (self : TwPt F) : Bool :=
  let XY := self.X *ᶠ self.Y
  let ZT := self.Z *ᶠ self.T
  let YY := square self.Y
  let XX := square self.X
  let ZZ := square self.Z
  let TT := square self.T
  let lhs := YY -ᶠ XX
  let rhs := ZZ +ᶠ TT *ʳ (TWISTED_D F)
  feq XY ZT && feq lhs rhs

/-- `negate`. /repo/src/curve/twedwards/extended.rs:153-160 -/
def TwPt.negate (self : TwPt F) : TwPt F :=
  ⟨FieldBackend.negate self.X, self.Y, self.Z, FieldBackend.negate self.T⟩

/-- `torque`. /repo/src/curve/twedwards/extended.rs:162-169 -/
def TwPt.torque (self : TwPt F) : TwPt F :=
  ⟨FieldBackend.negate self.X, FieldBackend.negate self.Y, self.Z, self.T⟩

/-! ## affine.rs -/

/-- `AffinePoint::identity`. /repo/src/curve/twedwards/affine.rs:27-32 -/
def TwAff.identity : TwAff F := ⟨zero, one⟩

/-- `AffinePoint::is_on_curve`. /repo/src/curve/twedwards/affine.rs:34-39 -/
def TwAff.isOnCurve (self : TwAff F) : Bool :=
  let xx := square self.x
  let yy := square self.y
  feq (yy -ᶠ xx) (one +ᶠ ((TWISTED_D F) *ˡ xx *ᶠ yy))

/-- `AffinePoint::negate`. /repo/src/curve/twedwards/affine.rs:41-46 -/
def TwAff.negate (self : TwAff F) : TwAff F := ⟨FieldBackend.negate self.x, self.y⟩

/-- `AffinePoint::add`. /repo/src/curve/twedwards/affine.rs:48-58 -/
def TwAff.add (self other : TwAff F) : TwAff F :=
  let yNum := self.y *ᶠ other.y +ᶠ self.x *ᶠ other.x
  let yDen := one -ᶠ (TWISTED_D F) *ˡ self.x *ᶠ other.x *ᶠ self.y *ᶠ other.y
  let xNum := self.x *ᶠ other.y +ᶠ self.y *ᶠ other.x
  let xDen := one +ᶠ (TWISTED_D F) *ˡ self.x *ᶠ other.x *ᶠ self.y *ᶠ other.y
  ⟨xNum *ᶠ invert xDen, yNum *ᶠ invert yDen⟩

/-- `AffinePoint::to_extensible`. /repo/src/curve/twedwards/affine.rs:60-68 -/
def TwAff.toExtensible (self : TwAff F) : TwExt F := ⟨self.x, self.y, one, self.x, self.y⟩

/-- `AffinePoint::to_affine_niels`. /repo/src/curve/twedwards/affine.rs:70-76 -/
def TwAff.toAffineNiels (self : TwAff F) : ANiels F :=
  ⟨self.y +ᶠ self.x, self.y -ᶠ self.x, self.x *ᶠ self.y *ʳ (TWISTED_D F)⟩

/-- `AffinePoint::to_extended`. /repo/src/curve/twedwards/affine.rs:78-80 -/
def TwAff.toExtended (self : TwAff F) : TwPt F := self.toExtensible.toExtended

/-- `AffineNielsPoint::identity`. /repo/src/curve/twedwards/affine.rs:112-118 -/
def ANiels.identity : ANiels F := ⟨one, one, zero⟩

/-- `AffineNielsPoint::equals`. /repo/src/curve/twedwards/affine.rs:105-109 -/
def ANiels.equals (a b : ANiels F) : Bool :=
  feq a.YmX b.YmX && feq a.YpX b.YpX && feq a.td b.td

/-- `conditional_select`. /repo/src/curve/twedwards/affine.rs:92-100 -/
def ANiels.select (a b : ANiels F) (c : Bool) : ANiels F where
  YpX := FieldBackend.select a.YpX b.YpX c
  YmX := FieldBackend.select a.YmX b.YmX c
  td := FieldBackend.select a.td b.td c

/-- `AffineNielsPoint::to_extended`. /repo/src/curve/twedwards/affine.rs:120-127 -/
def ANiels.toExtended (self : ANiels F) : TwPt F :=
  { X := self.YpX -ᶠ self.YmX, Y := self.YmX +ᶠ self.YpX, Z := one, T := self.YpX *ᶠ self.YmX }

end Ed448.Model
