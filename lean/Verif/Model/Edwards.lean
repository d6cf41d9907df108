import Verif.Model.ScalarMul

/-!
# Model: the untwisted Edwards curve, `/repo/src/curve/edwards`
-/

namespace Ed448.Model
open FieldBackend
variable {F L : Type} [FieldBackend F L]

/-- `edwards::AffinePoint`. /repo/src/curve/edwards/affine.rs:5-8 -/
structure EdAff (F : Type) where
  x : F
  y : F

/-- `AffinePoint::identity`. /repo/src/curve/edwards/affine.rs:11-16 -/
def EdAff.identity : EdAff F := ⟨zero, one⟩

/-- `AffinePoint::to_extended`. /repo/src/curve/edwards/affine.rs:17-24 -/
def EdAff.toExtended (self : EdAff F) : EdPt F := ⟨self.x, self.y, one, self.x *ᶠ self.y⟩

namespace EdPt

/-- `conditional_select`. /repo/src/curve/edwards/extended.rs:27-36 -/
def select (a b : EdPt F) (c : Bool) : EdPt F where
  X := FieldBackend.select a.X b.X c
  Y := FieldBackend.select a.Y b.Y c
  Z := FieldBackend.select a.Z b.Z c
  T := FieldBackend.select a.T b.T c

/-- `ct_eq`/`==`. /repo/src/curve/edwards/extended.rs:69-86 -/
def eq (a b : EdPt F) : Bool :=
  feq (a.X *ᶠ b.Z) (a.Z *ᶠ b.X) && feq (a.Y *ᶠ b.Z) (a.Z *ᶠ b.Y)

/-- `identity` (also `Default`). /repo/src/curve/edwards/extended.rs:88-103 -/
def identity : EdPt F := ⟨zero, one, one, zero⟩

/-- `generator`. /repo/src/curve/edwards/extended.rs:105-107 -/
def generator : EdPt F :=
  let g : F × F × F × F := GOLDILOCKS_BASE_POINT
  ⟨g.1, g.2.1, g.2.2.1, g.2.2.2⟩

/-- `add`. /repo/src/curve/edwards/extended.rs:180-206 -/
def add (self other : EdPt F) : EdPt F :=
  let aXX := self.X *ᶠ other.X
  let dTT := (EDWARDS_D F) *ˡ self.T *ᶠ other.T
  let ZZ := self.Z *ᶠ other.Z
  let YY := self.Y *ᶠ other.Y
  let X :=
    let x1 := (self.X *ᶠ other.Y) +ᶠ (self.Y *ᶠ other.X)
    let x2 := ZZ -ᶠ dTT
    x1 *ᶠ x2
  let Y :=
    let y1 := YY -ᶠ aXX
    let y2 := ZZ +ᶠ dTT
    y1 *ᶠ y2
  let T :=
    let t1 := YY -ᶠ aXX
    let t2 := (self.X *ᶠ other.Y) +ᶠ (self.Y *ᶠ other.X)
    t1 *ᶠ t2
  let Z := (ZZ -ᶠ dTT) *ᶠ (ZZ +ᶠ dTT)
  ⟨X, Y, Z, T⟩

/-- `double`. /repo/src/curve/edwards/extended.rs:210-212 -/
def double (self : EdPt F) : EdPt F := self.add self

/-- `is_on_curve`. /repo/src/curve/edwards/extended.rs:214-228 -/
def isOnCurve (self : EdPt F) : Bool :=
  let XY := self.X *ᶠ self.Y
  let ZT := self.Z *ᶠ self.T
  let YY := square self.Y
  let XX := square self.X
  let ZZ := square self.Z
  let TT := square self.T
  let lhs := YY +ᶠ XX
  let rhs := ZZ +ᶠ TT *ʳ (EDWARDS_D F)
  feq XY ZT && feq lhs rhs

/-- `to_affine`. /repo/src/curve/edwards/extended.rs:230-240 -/
def toAffine (self : EdPt F) : EdAff F :=
  let invZ := invert self.Z
  ⟨strongReduce (self.X *ᶠ invZ), strongReduce (self.Y *ᶠ invZ)⟩

/-- `edwards_isogeny`; `a` is passed as a multiplication operand.
/repo/src/curve/edwards/extended.rs:244-267 -/
def edwardsIsogeny (self : EdPt F) (a : L) : TwPt F :=
  let affine := self.toAffine
  let x := affine.x
  let y := affine.y
  let xy := x *ᶠ y
  let xNum := xy +ᶠ xy
  let xDen := square y -ᶠ (a *ˡ square x)
  let newX := xNum *ᶠ invert xDen
  let yNum := square y +ᶠ (a *ˡ square x)
  let yDen := (one +ᶠ one) -ᶠ square y -ᶠ (a *ˡ square x)
  let newY := yNum *ᶠ invert yDen
  ⟨newX, newY, one, newX *ᶠ newY⟩

/-- `to_twisted`. /repo/src/curve/edwards/extended.rs:268-270 -/
def toTwisted (self : EdPt F) : TwPt F := self.edwardsIsogeny (relax (one : F))

/-- `negate` and `Neg`. /repo/src/curve/edwards/extended.rs:272-279, 366-380 -/
def negate (self : EdPt F) : EdPt F :=
  ⟨FieldBackend.negate self.X, self.Y, self.Z, FieldBackend.negate self.T⟩

/-- `torque`. /repo/src/curve/edwards/extended.rs:281-288 -/
def torque (self : EdPt F) : EdPt F :=
  ⟨FieldBackend.negate self.X, FieldBackend.negate self.Y, self.Z, self.T⟩

/-- `Sub`. /repo/src/curve/edwards/extended.rs:329-334 -/
def sub (self other : EdPt F) : EdPt F := self.add other.negate

/-- `Sum`: fold from the identity. /repo/src/curve/edwards/extended.rs:350-360 -/
def sum (items : List (EdPt F)) : EdPt F := items.foldl add identity

/-- `to_montgomery`. /repo/src/curve/edwards/extended.rs:109-120 -/
def toMontgomery (self : EdPt F) : Bytes 56 :=
  let affine := self.toAffine
  let yy := square affine.y
  let dyy := (EDWARDS_D F) *ˡ yy
  let u := yy *ᶠ (one -ᶠ dyy) *ᶠ invert (one -ᶠ yy)
  toBytes u

/-- `scalar_mod_four`; `scalar[0] & 3` on the lowest limb.
/repo/src/curve/edwards/extended.rs:134-156 -/
def scalarModFour (self : EdPt F) (scalar : Scalar) : EdPt F :=
  let sModFour := Arr.get scalar 0 &&& 3
  let zeroP : EdPt F := identity
  let oneP := self
  let twoP := oneP.double
  let threeP := twoP.add self
  let result : EdPt F := identity
  let result := select result zeroP (sModFour == 0)
  let result := select result oneP (sModFour == 1)
  let result := select result twoP (sModFour == 2)
  let result := select result threeP (sModFour == 3)
  result

/-- `scalar_mul`, and `Mul` in both orders. /repo/src/curve/edwards/extended.rs:122-131, 398-413 -/
def scalarMul (self : EdPt F) (scalar : Scalar) : Option (EdPt F) :=
  (scalar.divByFour).bind fun scalarDivFour =>
    (variableBase self.toTwisted scalarDivFour).map fun r =>
      r.toUntwisted.add (self.scalarModFour scalar)

/-- `compress`: 56 bytes of `y`, then the sign of `x` in the top bit of the last byte.
/repo/src/curve/edwards/extended.rs:160-176 -/
def compress (self : EdPt F) : Bytes 57 where
  l := (toBytes self.toAffine.y).l ++ [(if isNegative self.toAffine.x then 1 else 0) <<< 7]
  len := by rw [List.length_append, (toBytes self.toAffine.y).len]; rfl
  lt := by
    intro x hx
    rcases List.mem_append.mp hx with h | h
    · exact (toBytes self.toAffine.y).lt x h
    · rw [List.mem_singleton] at h
      subst h
      split <;> decide

/-- `BASEPOINT_ORDER`. /repo/src/constants.rs:15-18 (same limbs as `MODULUS` in scalar.rs). -/
def BASEPOINT_ORDER : Scalar where
  l := [0xab5844f3, 0x2378c292, 0x8dc58f55, 0x216cc272, 0xaed63690, 0xc44edb49, 0x7cca23e9,
    0xffffffff, 0xffffffff, 0xffffffff, 0xffffffff, 0xffffffff, 0xffffffff, 0x3fffffff]
  len := rfl
  lt := by decide

/-- `is_torsion_free`. /repo/src/curve/edwards/extended.rs:299-301 -/
def isTorsionFree (self : EdPt F) : Option Bool :=
  (self.scalarMul BASEPOINT_ORDER).map fun r => r.eq identity

end EdPt

/-- `CompressedEdwardsY::decompress`. /repo/src/curve/edwards/extended.rs:41-66 -/
def edDecompress (F : Type) {L : Type} [FieldBackend F L] (b : Bytes 57) : Option (EdPt F) :=
  let sign := Arr.get b 56
  let yBytes := Bytes.slice b 0 56 (by norm_num)
  let y : F := fromBytes yBytes
  let yy := square y
  let dyy := (EDWARDS_D F) *ˡ yy
  let numerator := one -ᶠ yy
  let denominator := one -ᶠ dyy
  let r := sqrtRatio numerator denominator
  if r.2 = false then none
  else
    let x := r.1
    let compressedSignBit := sign >>> 7 == 1
    let x := condNegate x (xor compressedSignBit (isNegative x))
    some (EdAff.toExtended ⟨x, y⟩)

end Ed448.Model
