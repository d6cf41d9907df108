import Verif.Gen.Rt
import Verif.Gen.Scalar
/-!
# Mechanical translation of src/field/mod.rs, src/curve, src/decaf and src/ristretto

Generated by tools/rust2lean.py; do not edit. Each definition is the translation of the cited Rust
function; see tools/rust2lean.py for the rules and `Verif.Gen.Rt` for the operations.
-/

set_option linter.all false

namespace Ed448.Gen
open Ed448.Model FieldBackend

variable {F L : Type} [FieldBackend F L]


/-- Constant `LOW_A`. /repo/src/curve/montgomery/montgomery.rs:24-29 -/
def C.LOW_A : List ℕ := ([(0 : ℕ), (0 : ℕ), (0 : ℕ), (0 : ℕ), (0 : ℕ), (0 : ℕ), (0 : ℕ), (0 : ℕ), (0 : ℕ), (0 : ℕ), (0 : ℕ), (0 : ℕ), (0 : ℕ), (0 : ℕ), (0 : ℕ), (0 : ℕ), (0 : ℕ), (0 : ℕ), (0 : ℕ), (0 : ℕ), (0 : ℕ), (0 : ℕ), (0 : ℕ), (0 : ℕ), (0 : ℕ), (0 : ℕ), (0 : ℕ), (0 : ℕ), (0 : ℕ), (0 : ℕ), (0 : ℕ), (0 : ℕ), (0 : ℕ), (0 : ℕ), (0 : ℕ), (0 : ℕ), (0 : ℕ), (0 : ℕ), (0 : ℕ), (0 : ℕ), (0 : ℕ), (0 : ℕ), (0 : ℕ), (0 : ℕ), (0 : ℕ), (0 : ℕ), (0 : ℕ), (0 : ℕ), (0 : ℕ), (0 : ℕ), (0 : ℕ), (0 : ℕ), (0 : ℕ), (0 : ℕ), (0 : ℕ), (0 : ℕ)] : List ℕ)

/-- Constant `LOW_B`. /repo/src/curve/montgomery/montgomery.rs:30-35 -/
def C.LOW_B : List ℕ := ([(1 : ℕ), (0 : ℕ), (0 : ℕ), (0 : ℕ), (0 : ℕ), (0 : ℕ), (0 : ℕ), (0 : ℕ), (0 : ℕ), (0 : ℕ), (0 : ℕ), (0 : ℕ), (0 : ℕ), (0 : ℕ), (0 : ℕ), (0 : ℕ), (0 : ℕ), (0 : ℕ), (0 : ℕ), (0 : ℕ), (0 : ℕ), (0 : ℕ), (0 : ℕ), (0 : ℕ), (0 : ℕ), (0 : ℕ), (0 : ℕ), (0 : ℕ), (0 : ℕ), (0 : ℕ), (0 : ℕ), (0 : ℕ), (0 : ℕ), (0 : ℕ), (0 : ℕ), (0 : ℕ), (0 : ℕ), (0 : ℕ), (0 : ℕ), (0 : ℕ), (0 : ℕ), (0 : ℕ), (0 : ℕ), (0 : ℕ), (0 : ℕ), (0 : ℕ), (0 : ℕ), (0 : ℕ), (0 : ℕ), (0 : ℕ), (0 : ℕ), (0 : ℕ), (0 : ℕ), (0 : ℕ), (0 : ℕ), (0 : ℕ)] : List ℕ)

/-- Constant `LOW_C`. /repo/src/curve/montgomery/montgomery.rs:36-41 -/
def C.LOW_C : List ℕ := ([(254 : ℕ), (255 : ℕ), (255 : ℕ), (255 : ℕ), (255 : ℕ), (255 : ℕ), (255 : ℕ), (255 : ℕ), (255 : ℕ), (255 : ℕ), (255 : ℕ), (255 : ℕ), (255 : ℕ), (255 : ℕ), (255 : ℕ), (255 : ℕ), (255 : ℕ), (255 : ℕ), (255 : ℕ), (255 : ℕ), (255 : ℕ), (255 : ℕ), (255 : ℕ), (255 : ℕ), (255 : ℕ), (255 : ℕ), (255 : ℕ), (255 : ℕ), (254 : ℕ), (255 : ℕ), (255 : ℕ), (255 : ℕ), (255 : ℕ), (255 : ℕ), (255 : ℕ), (255 : ℕ), (255 : ℕ), (255 : ℕ), (255 : ℕ), (255 : ℕ), (255 : ℕ), (255 : ℕ), (255 : ℕ), (255 : ℕ), (255 : ℕ), (255 : ℕ), (255 : ℕ), (255 : ℕ), (255 : ℕ), (255 : ℕ), (255 : ℕ), (255 : ℕ), (255 : ℕ), (255 : ℕ), (255 : ℕ), (255 : ℕ)] : List ℕ)

/-- Translation of `ct_eq`. /repo/src/field/mod.rs:19-21 -/
def Field.ct_eq (self : F) (other : F) : Bool :=
  ((FieldBackend.toBytes self).l == (FieldBackend.toBytes other).l)

/-- Translation of `eq`. /repo/src/field/mod.rs:25-27 -/
def Field.eq (self : F) (other : F) : Bool :=
  (Field.ct_eq (F := F) self other)

/-- Translation of `is_zero`. /repo/src/field/mod.rs:33-35 -/
def Field.is_zero (self : F) : Bool :=
  (Field.ct_eq (F := F) self (FieldBackend.zero : F))

/-- Translation of `square_n`. /repo/src/field/mod.rs:61-72 -/
def Field.square_n (self : F) (n : ℕ) : Option F :=
  let result : F := (FieldBackend.square self)
  (ckSub n (1 : ℕ)).bind fun τ1 =>
  let n := τ1
  let τ3 := List.foldl (fun (τ2 : (F)) (_ : ℕ) =>
  let result := τ2
  let result := (FieldBackend.square result)
  (result)) (result) (Rt.range (0 : ℕ) n)
  let result := τ3
  some result

/-- Translation of `invert`. /repo/src/field/mod.rs:38-59 -/
def Field.invert (self : F) : Option F :=
  let _1 : F := self
  let _10 : F := (FieldBackend.square _1)
  let _11 : F := (_1 *ᶠ _10)
  let _110 : F := (FieldBackend.square _11)
  let _111 : F := (_1 *ᶠ _110)
  (Field.square_n (F := F) _111 (3 : ℕ)).bind fun τ1 =>
  let _111000 : F := τ1
  let _111111 : F := (_111 *ᶠ _111000)
  (Field.square_n (F := F) _111111 (6 : ℕ)).bind fun τ2 =>
  let x12 : F := (τ2 *ᶠ _111111)
  (Field.square_n (F := F) x12 (12 : ℕ)).bind fun τ3 =>
  let x24 : F := (τ3 *ᶠ x12)
  (Field.square_n (F := F) x24 (6 : ℕ)).bind fun τ4 =>
  let i34 : F := τ4
  let x30 : F := (_111111 *ᶠ i34)
  (Field.square_n (F := F) i34 (18 : ℕ)).bind fun τ5 =>
  let x48 : F := (τ5 *ᶠ x24)
  (Field.square_n (F := F) x48 (48 : ℕ)).bind fun τ6 =>
  let x96 : F := (τ6 *ᶠ x48)
  (Field.square_n (F := F) x96 (96 : ℕ)).bind fun τ7 =>
  let x192 : F := (τ7 *ᶠ x96)
  (Field.square_n (F := F) x192 (30 : ℕ)).bind fun τ8 =>
  let x222 : F := (τ8 *ᶠ x30)
  let x223 : F := ((FieldBackend.square x222) *ᶠ _1)
  (Field.square_n (F := F) x223 (223 : ℕ)).bind fun τ9 =>
  (Field.square_n (F := F) (τ9 *ᶠ x222) (2 : ℕ)).bind fun τ10 =>
  some (τ10 *ᶠ _1)

/-- Translation of `inverse_square_root`. /repo/src/field/mod.rs:77-113 -/
def Field.inverse_square_root (self : F) : Option (F × Bool) :=
  let τ1 := ((FieldBackend.zero : F), (FieldBackend.zero : F), (FieldBackend.zero : F))
  let l0 : F := τ1.1
  let l1 : F := τ1.2.1
  let l2 : F := τ1.2.2
  let l1 := (FieldBackend.square self)
  let l2 := (l1 *ᶠ self)
  let l1 := (FieldBackend.square l2)
  let l2 := (l1 *ᶠ self)
  (Field.square_n (F := F) l2 (3 : ℕ)).bind fun τ2 =>
  let l1 := τ2
  let l0 := (l2 *ᶠ l1)
  (Field.square_n (F := F) l0 (3 : ℕ)).bind fun τ3 =>
  let l1 := τ3
  let l0 := (l2 *ᶠ l1)
  (Field.square_n (F := F) l0 (9 : ℕ)).bind fun τ4 =>
  let l2 := τ4
  let l1 := (l0 *ᶠ l2)
  let l0 := (l1 *ᶠ l1)
  let l2 := (l0 *ᶠ self)
  (Field.square_n (F := F) l2 (18 : ℕ)).bind fun τ5 =>
  let l0 := τ5
  let l2 := (l1 *ᶠ l0)
  (Field.square_n (F := F) l2 (37 : ℕ)).bind fun τ6 =>
  let l0 := τ6
  let l1 := (l2 *ᶠ l0)
  (Field.square_n (F := F) l1 (37 : ℕ)).bind fun τ7 =>
  let l0 := τ7
  let l1 := (l2 *ᶠ l0)
  (Field.square_n (F := F) l1 (111 : ℕ)).bind fun τ8 =>
  let l0 := τ8
  let l2 := (l1 *ᶠ l0)
  let l0 := (FieldBackend.square l2)
  let l1 := (l0 *ᶠ self)
  (Field.square_n (F := F) l1 (223 : ℕ)).bind fun τ9 =>
  let l0 := τ9
  let l1 := (l2 *ᶠ l0)
  let l2 := (FieldBackend.square l1)
  let l0 := (l2 *ᶠ self)
  let is_residue : Bool := (Field.ct_eq (F := F) l0 (FieldBackend.one : F))
  some (l1, is_residue)

/-- Translation of `sqrt_ratio`. /repo/src/field/mod.rs:116-125 -/
def Field.sqrt_ratio (u : F) (v : F) : Option (F × Bool) :=
  let x : F := (u *ᶠ v)
  (Field.inverse_square_root (F := F) x).bind fun τ1 =>
  let τ2 := τ1
  let inv_sqrt_x : F := τ2.1
  let is_res : Bool := τ2.2
  let zero_u : Bool := (Field.ct_eq (F := F) u (FieldBackend.zero : F))
  some ((inv_sqrt_x *ᶠ u), (or zero_u is_res))

/-- Translation of `identity`. /repo/src/curve/edwards/affine.rs:11-16 -/
def EdAff.identity  : Model.EdAff F :=
  ({ x := (FieldBackend.zero : F), y := (FieldBackend.one : F) } : Model.EdAff F)

/-- Translation of `to_extended`. /repo/src/curve/edwards/affine.rs:17-24 -/
def EdAff.to_extended (self : Model.EdAff F) : Model.EdPt F :=
  ({ X := self.x, Y := self.y, Z := (FieldBackend.one : F), T := (self.x *ᶠ self.y) } : Model.EdPt F)

/-- Translation of `conditional_select`. /repo/src/curve/edwards/extended.rs:28-35 -/
def EdPt.conditional_select (a : Model.EdPt F) (b : Model.EdPt F) (choice : Bool) : Model.EdPt F :=
  ({ X := (FieldBackend.select a.X b.X choice), Y := (FieldBackend.select a.Y b.Y choice), Z := (FieldBackend.select a.Z b.Z choice), T := (FieldBackend.select a.T b.T choice) } : Model.EdPt F)

/-- Translation of `decompress`. /repo/src/curve/edwards/extended.rs:41-66 -/
def CompressedEdwardsY.decompress (self : List ℕ) : Option (Option (Model.EdPt F)) :=
  ((Rt.splitLast self)).bind fun τ1 =>
  let τ2 := τ1
  let sign : ℕ := τ2.1
  let b : List ℕ := τ2.2
  let y_bytes : List ℕ := (List.replicate 56 (0 : ℕ))
  (Rt.copyFrom y_bytes b).bind fun τ3 =>
  let y_bytes := τ3
  (Rt.fieldFromBytes F y_bytes).bind fun τ4 =>
  let y : F := τ4
  let yy : F := (FieldBackend.square y)
  let dyy : F := ((FieldBackend.EDWARDS_D F) *ˡ yy)
  let numerator : F := ((FieldBackend.one : F) -ᶠ yy)
  let denominator : F := ((FieldBackend.one : F) -ᶠ dyy)
  (Field.sqrt_ratio (F := F) numerator denominator).bind fun τ5 =>
  let τ6 := τ5
  let x : F := τ6.1
  let is_res : Bool := τ6.2
  if (!((Bool.toNat is_res) == (1 : ℕ))) then
  some (none : Option (Model.EdPt F))
  else
  (Rt.choice (sign >>> 7)).bind fun τ7 =>
  let compressed_sign_bit : Bool := τ7
  let is_negative : Bool := (FieldBackend.isNegative x)
  let x := (FieldBackend.condNegate x (xor compressed_sign_bit is_negative))
  some (some (EdAff.to_extended (F := F) ({ x := x, y := y } : Model.EdAff F)))

/-- Translation of `ct_eq`. /repo/src/curve/edwards/extended.rs:70-78 -/
def EdPt.ct_eq (self : Model.EdPt F) (other : Model.EdPt F) : Bool :=
  let XZ : F := (self.X *ᶠ other.Z)
  let ZX : F := (self.Z *ᶠ other.X)
  let YZ : F := (self.Y *ᶠ other.Z)
  let ZY : F := (self.Z *ᶠ other.Y)
  (and (Field.ct_eq (F := F) XZ ZX) (Field.ct_eq (F := F) YZ ZY))

/-- Translation of `eq`. /repo/src/curve/edwards/extended.rs:82-84 -/
def EdPt.eq (self : Model.EdPt F) (other : Model.EdPt F) : Bool :=
  (EdPt.ct_eq (F := F) self other)

/-- Translation of `identity`. /repo/src/curve/edwards/extended.rs:96-103 -/
def EdPt.identity  : Model.EdPt F :=
  ({ X := (FieldBackend.zero : F), Y := (FieldBackend.one : F), Z := (FieldBackend.one : F), T := (FieldBackend.zero : F) } : Model.EdPt F)

/-- Translation of `default`. /repo/src/curve/edwards/extended.rs:89-91 -/
def EdPt.default  : Model.EdPt F :=
  (EdPt.identity (F := F))

/-- Translation of `generator`. /repo/src/curve/edwards/extended.rs:105-107 -/
def EdPt.generator  : Model.EdPt F :=
  (Rt.ptEdPt (FieldBackend.GOLDILOCKS_BASE_POINT : F × F × F × F))

/-- Translation of `to_affine`. /repo/src/curve/edwards/extended.rs:230-240 -/
def EdPt.to_affine (self : Model.EdPt F) : Option (Model.EdAff F) :=
  (Field.invert (F := F) self.Z).bind fun τ1 =>
  let INV_Z : F := τ1
  let x : F := (self.X *ᶠ INV_Z)
  let x := (FieldBackend.strongReduce x)
  let y : F := (self.Y *ᶠ INV_Z)
  let y := (FieldBackend.strongReduce y)
  some ({ x := x, y := y } : Model.EdAff F)

/-- Translation of `to_montgomery`. /repo/src/curve/edwards/extended.rs:109-120 -/
def EdPt.to_montgomery (self : Model.EdPt F) : Option (List ℕ) :=
  (EdPt.to_affine (F := F) self).bind fun τ1 =>
  let affine : Model.EdAff F := τ1
  let yy : F := (FieldBackend.square affine.y)
  let dyy : F := ((FieldBackend.EDWARDS_D F) *ˡ yy)
  (Field.invert (F := F) ((FieldBackend.one : F) -ᶠ yy)).bind fun τ2 =>
  let u : F := ((yy *ᶠ ((FieldBackend.one : F) -ᶠ dyy)) *ᶠ τ2)
  some (FieldBackend.toBytes u).l

/-- Translation of `edwards_isogeny`. /repo/src/curve/edwards/extended.rs:244-267 -/
def EdPt.edwards_isogeny (self : Model.EdPt F) (a : L) : Option (Model.TwPt F) :=
  (EdPt.to_affine (F := F) self).bind fun τ1 =>
  let affine : Model.EdAff F := τ1
  let x : F := affine.x
  let y : F := affine.y
  let xy : F := (x *ᶠ y)
  let x_numerator : F := (xy +ᶠ xy)
  let x_denom : F := ((FieldBackend.square y) -ᶠ (a *ˡ (FieldBackend.square x)))
  (Field.invert (F := F) x_denom).bind fun τ2 =>
  let new_x : F := (x_numerator *ᶠ τ2)
  let y_numerator : F := ((FieldBackend.square y) +ᶠ (a *ˡ (FieldBackend.square x)))
  let y_denom : F := ((((FieldBackend.one : F) +ᶠ (FieldBackend.one : F)) -ᶠ (FieldBackend.square y)) -ᶠ (a *ˡ (FieldBackend.square x)))
  (Field.invert (F := F) y_denom).bind fun τ3 =>
  let new_y : F := (y_numerator *ᶠ τ3)
  some ({ X := new_x, Y := new_y, Z := (FieldBackend.one : F), T := (new_x *ᶠ new_y) } : Model.TwPt F)

/-- Translation of `to_twisted`. /repo/src/curve/edwards/extended.rs:268-270 -/
def EdPt.to_twisted (self : Model.EdPt F) : Option (Model.TwPt F) :=
  (EdPt.edwards_isogeny (F := F) self (FieldBackend.relax (FieldBackend.one : F))).bind fun τ1 =>
  some τ1

/-- Translation of `identity`. /repo/src/curve/twedwards/extensible.rs:42-50 -/
def TwExt.identity  : Model.TwExt F :=
  ({ X := (FieldBackend.zero : F), Y := (FieldBackend.one : F), Z := (FieldBackend.one : F), T1 := (FieldBackend.zero : F), T2 := (FieldBackend.one : F) } : Model.TwExt F)

/-- Translation of `to_extensible`. /repo/src/curve/twedwards/extended.rs:78-86 -/
def TwPt.to_extensible (self : Model.TwPt F) : Model.TwExt F :=
  ({ X := self.X, Y := self.Y, Z := self.Z, T1 := self.T, T2 := (FieldBackend.one : F) } : Model.TwExt F)

/-- Translation of `to_projective_niels`. /repo/src/curve/twedwards/extensible.rs:167-174 -/
def TwExt.to_projective_niels (self : Model.TwExt F) : Model.PNiels F :=
  ({ YpX := (self.X +ᶠ self.Y), YmX := (self.Y -ᶠ self.X), Z := (self.Z +ᶠ self.Z), Td := ((self.T1 *ᶠ self.T2) *ʳ (FieldBackend.TWO_TIMES_TWISTED_D F)) } : Model.PNiels F)

/-- Translation of `add_projective_niels`. /repo/src/curve/twedwards/extensible.rs:138-156 -/
def TwExt.add_projective_niels (self : Model.TwExt F) (other : Model.PNiels F) : Model.TwExt F :=
  let Z : F := (self.Z *ᶠ other.Z)
  let A : F := ((self.Y -ᶠ self.X) *ᶠ other.YmX)
  let B : F := ((self.Y +ᶠ self.X) *ᶠ other.YpX)
  let C : F := ((other.Td *ᶠ self.T1) *ᶠ self.T2)
  let D : F := (B +ᶠ A)
  let E : F := (B -ᶠ A)
  let F' : F := (Z -ᶠ C)
  let G : F := (Z +ᶠ C)
  ({ X := (E *ᶠ F'), Y := (G *ᶠ D), Z := (F' *ᶠ G), T1 := E, T2 := D } : Model.TwExt F)

/-- Translation of `from`. /repo/src/curve/scalar_mul/window/wnaf/mod.rs:11-21 -/
def LookupTable.from (point : Model.TwPt F) : Option (List (Model.PNiels F)) :=
  let P : Model.TwExt F := (TwPt.to_extensible (F := F) point)
  let table : List (Model.PNiels F) := (List.replicate 8 (TwExt.to_projective_niels (F := F) P))
  (List.foldlM (fun (τ1 : (List (Model.PNiels F))) (i : ℕ) =>
  let table := τ1
  (ckSub i (1 : ℕ)).bind fun τ2 =>
  (Rt.idx table τ2).bind fun τ3 =>
  (Rt.put table i (TwExt.to_projective_niels (F := F) (TwExt.add_projective_niels (F := F) P τ3))).bind fun τ4 =>
  let table := τ4
  some (table)) (table) (Rt.range (1 : ℕ) (8 : ℕ))).bind fun τ5 =>
  let table := τ5
  some table

/-- Translation of `double`. /repo/src/curve/twedwards/extensible.rs:53-69 -/
def TwExt.double (self : Model.TwExt F) : Model.TwExt F :=
  let A : F := (FieldBackend.square self.X)
  let B : F := (FieldBackend.square self.Y)
  let C : F := ((FieldBackend.square self.Z) +ᶠ (FieldBackend.square self.Z))
  let D : F := (FieldBackend.negate A)
  let E : F := (((FieldBackend.square (self.X +ᶠ self.Y)) -ᶠ A) -ᶠ B)
  let G : F := (D +ᶠ B)
  let F' : F := (G -ᶠ C)
  let H : F := (D -ᶠ B)
  ({ X := (E *ᶠ F'), Y := (G *ᶠ H), Z := (F' *ᶠ G), T1 := E, T2 := H } : Model.TwExt F)

/-- Translation of `identity`. /repo/src/curve/twedwards/projective.rs:48-50 -/
def PNiels.identity  : Model.PNiels F :=
  (TwExt.to_projective_niels (F := F) (TwExt.identity (F := F)))

/-- Translation of `conditional_select`. /repo/src/curve/twedwards/projective.rs:31-38 -/
def PNiels.conditional_select (a : Model.PNiels F) (b : Model.PNiels F) (choice : Bool) : Model.PNiels F :=
  ({ YpX := (FieldBackend.select a.YpX b.YpX choice), YmX := (FieldBackend.select a.YmX b.YmX choice), Td := (FieldBackend.select a.Td b.Td choice), Z := (FieldBackend.select a.Z b.Z choice) } : Model.PNiels F)

/-- Translation of `select`. /repo/src/curve/scalar_mul/window/wnaf/mod.rs:26-34 -/
def LookupTable.select (self : List (Model.PNiels F)) (index : ℕ) : Option (Model.PNiels F) :=
  let result : Model.PNiels F := (PNiels.identity (F := F))
  (List.foldlM (fun (τ1 : (Model.PNiels F)) (i : ℕ) =>
  let result := τ1
  let swap : Bool := (index == (i % 2 ^ 32))
  (ckSub i (1 : ℕ)).bind fun τ2 =>
  (Rt.idx self τ2).bind fun τ3 =>
  let result := (PNiels.conditional_select (F := F) result τ3 swap)
  some (result)) (result) (Rt.range (1 : ℕ) (9 : ℕ))).bind fun τ4 =>
  let result := τ4
  some result

/-- Translation of `conditional_negate`. /repo/src/curve/twedwards/projective.rs:41-44 -/
def PNiels.conditional_negate (self : Model.PNiels F) (choice : Bool) : Model.PNiels F :=
  let τ1 := self.YmX
  let self := { self with YmX := (FieldBackend.select self.YmX self.YpX choice) }
  let self := { self with YpX := (FieldBackend.select self.YpX τ1 choice) }
  let self := { self with Td := (FieldBackend.condNegate self.Td choice) }
  (self)

/-- Translation of `to_extended`. /repo/src/curve/twedwards/extensible.rs:158-165 -/
def TwExt.to_extended (self : Model.TwExt F) : Model.TwPt F :=
  ({ X := self.X, Y := self.Y, Z := self.Z, T := (self.T1 *ᶠ self.T2) } : Model.TwPt F)

/-- Translation of `variable_base`. /repo/src/curve/scalar_mul/variable_base.rs:8-35 -/
def variable_base.variable_base (point : Model.TwPt F) (s : List ℕ) : Option (Model.TwPt F) :=
  let result : Model.TwExt F := (TwExt.identity (F := F))
  (Scalar.to_radix_16 s).bind fun τ1 =>
  let scalar : List ℤ := τ1
  (LookupTable.from (F := F) point).bind fun τ2 =>
  let lookup : List (Model.PNiels F) := τ2
  (List.foldlM (fun (τ3 : (Model.TwExt F)) (i : ℕ) =>
  let result := τ3
  let result := (TwExt.double (F := F) result)
  let result := (TwExt.double (F := F) result)
  let result := (TwExt.double (F := F) result)
  let result := (TwExt.double (F := F) result)
  (Rt.idx scalar i).bind fun τ4 =>
  let mask : ℤ := (sarZ τ4 7)
  let sign : ℤ := (Rt.andZ 8 mask (1 : ℤ))
  (Rt.idx scalar i).bind fun τ5 =>
  (ckI8 (τ5 + mask)).bind fun τ6 =>
  let abs_value : ℕ := (Rt.asU 32 (Rt.xorZ 8 τ6 mask))
  (LookupTable.select (F := F) lookup abs_value).bind fun τ7 =>
  let neg_P : Model.PNiels F := τ7
  (Rt.choice (Rt.asU 8 sign)).bind fun τ8 =>
  let neg_P := (PNiels.conditional_negate (F := F) neg_P τ8)
  let result := (TwExt.add_projective_niels (F := F) result neg_P)
  some (result)) (result) (List.reverse (Rt.range (0 : ℕ) (113 : ℕ)))).bind fun τ9 =>
  let result := τ9
  some (TwExt.to_extended (F := F) result)

/-- Translation of `to_affine`. /repo/src/curve/twedwards/extended.rs:89-102 -/
def TwPt.to_affine (self : Model.TwPt F) : Option (Model.TwAff F) :=
  (Field.invert (F := F) self.Z).bind fun τ1 =>
  let INV_Z : F := τ1
  let x : F := (self.X *ᶠ INV_Z)
  let x := (FieldBackend.strongReduce x)
  let y : F := (self.Y *ᶠ INV_Z)
  let y := (FieldBackend.strongReduce y)
  some ({ x := x, y := y } : Model.TwAff F)

/-- Translation of `edwards_isogeny`. /repo/src/curve/twedwards/extended.rs:107-130 -/
def TwPt.edwards_isogeny (self : Model.TwPt F) (a : L) : Option (Model.EdPt F) :=
  (TwPt.to_affine (F := F) self).bind fun τ1 =>
  let affine : Model.TwAff F := τ1
  let x : F := affine.x
  let y : F := affine.y
  let xy : F := (x *ᶠ y)
  let x_numerator : F := (xy +ᶠ xy)
  let x_denom : F := ((FieldBackend.square y) -ᶠ (a *ˡ (FieldBackend.square x)))
  (Field.invert (F := F) x_denom).bind fun τ2 =>
  let new_x : F := (x_numerator *ᶠ τ2)
  let y_numerator : F := ((FieldBackend.square y) +ᶠ (a *ˡ (FieldBackend.square x)))
  let y_denom : F := ((((FieldBackend.one : F) +ᶠ (FieldBackend.one : F)) -ᶠ (FieldBackend.square y)) -ᶠ (a *ˡ (FieldBackend.square x)))
  (Field.invert (F := F) y_denom).bind fun τ3 =>
  let new_y : F := (y_numerator *ᶠ τ3)
  some ({ X := new_x, Y := new_y, Z := (FieldBackend.one : F), T := (new_x *ᶠ new_y) } : Model.EdPt F)

/-- Translation of `to_untwisted`. /repo/src/curve/twedwards/extended.rs:132-134 -/
def TwPt.to_untwisted (self : Model.TwPt F) : Option (Model.EdPt F) :=
  (TwPt.edwards_isogeny (F := F) self (FieldBackend.minusOne F)).bind fun τ1 =>
  some τ1

/-- Translation of `add`. /repo/src/curve/edwards/extended.rs:180-206 -/
def EdPt.add (self : Model.EdPt F) (other : Model.EdPt F) : Model.EdPt F :=
  let aXX : F := (self.X *ᶠ other.X)
  let dTT : F := (((FieldBackend.EDWARDS_D F) *ˡ self.T) *ᶠ other.T)
  let ZZ : F := (self.Z *ᶠ other.Z)
  let YY : F := (self.Y *ᶠ other.Y)
  let τ1 : F :=
  let x_1 : F := ((self.X *ᶠ other.Y) +ᶠ (self.Y *ᶠ other.X))
  let x_2 : F := (ZZ -ᶠ dTT)
  (x_1 *ᶠ x_2)
  let X : F := τ1
  let τ2 : F :=
  let y_1 : F := (YY -ᶠ aXX)
  let y_2 : F := (ZZ +ᶠ dTT)
  (y_1 *ᶠ y_2)
  let Y : F := τ2
  let τ3 : F :=
  let t_1 : F := (YY -ᶠ aXX)
  let t_2 : F := ((self.X *ᶠ other.Y) +ᶠ (self.Y *ᶠ other.X))
  (t_1 *ᶠ t_2)
  let T : F := τ3
  let Z : F := ((ZZ -ᶠ dTT) *ᶠ (ZZ +ᶠ dTT))
  ({ X := X, Y := Y, Z := Z, T := T } : Model.EdPt F)

/-- Translation of `double`. /repo/src/curve/edwards/extended.rs:210-212 -/
def EdPt.double (self : Model.EdPt F) : Model.EdPt F :=
  (EdPt.add (F := F) self self)

/-- Translation of `scalar_mod_four`. /repo/src/curve/edwards/extended.rs:134-156 -/
def EdPt.scalar_mod_four (self : Model.EdPt F) (scalar : List ℕ) : Option (Model.EdPt F) :=
  let s_mod_four : ℕ := ((scalar.getD 0 0) &&& (3 : ℕ))
  let zero_p : Model.EdPt F := (EdPt.identity (F := F))
  let one_p : Model.EdPt F := self
  let two_p : Model.EdPt F := (EdPt.double (F := F) one_p)
  let three_p : Model.EdPt F := (EdPt.add (F := F) two_p self)
  let result : Model.EdPt F := (EdPt.identity (F := F))
  (Rt.choice (Bool.toNat (s_mod_four == (0 : ℕ)))).bind fun τ1 =>
  let result := (EdPt.conditional_select (F := F) result zero_p τ1)
  (Rt.choice (Bool.toNat (s_mod_four == (1 : ℕ)))).bind fun τ2 =>
  let result := (EdPt.conditional_select (F := F) result one_p τ2)
  (Rt.choice (Bool.toNat (s_mod_four == (2 : ℕ)))).bind fun τ3 =>
  let result := (EdPt.conditional_select (F := F) result two_p τ3)
  (Rt.choice (Bool.toNat (s_mod_four == (3 : ℕ)))).bind fun τ4 =>
  let result := (EdPt.conditional_select (F := F) result three_p τ4)
  some result

/-- Translation of `scalar_mul`. /repo/src/curve/edwards/extended.rs:122-131 -/
def EdPt.scalar_mul (self : Model.EdPt F) (scalar : List ℕ) : Option (Model.EdPt F) :=
  let scalar_div_four : List ℕ := scalar
  (Scalar.div_by_four scalar_div_four).bind fun τ1 =>
  let scalar_div_four := τ1
  (EdPt.to_twisted (F := F) self).bind fun τ2 =>
  (variable_base.variable_base (F := F) τ2 scalar_div_four).bind fun τ3 =>
  (TwPt.to_untwisted (F := F) τ3).bind fun τ4 =>
  let partial_result : Model.EdPt F := τ4
  (EdPt.scalar_mod_four (F := F) self scalar).bind fun τ5 =>
  some (EdPt.add (F := F) partial_result τ5)

/-- Translation of `compress`. /repo/src/curve/edwards/extended.rs:160-176 -/
def EdPt.compress (self : Model.EdPt F) : Option (List ℕ) :=
  (EdPt.to_affine (F := F) self).bind fun τ1 =>
  let affine : Model.EdAff F := τ1
  let affine_x : F := affine.x
  let affine_y : F := affine.y
  let compressed_bytes : List ℕ := (List.replicate 57 (0 : ℕ))
  let sign : ℕ := (Bool.toNat (FieldBackend.isNegative affine_x))
  let y_bytes : List ℕ := (FieldBackend.toBytes affine_y).l
  (List.foldlM (fun (τ2 : (List ℕ)) (i : ℕ) =>
  let compressed_bytes := τ2
  (Rt.idx y_bytes i).bind fun τ3 =>
  (Rt.put compressed_bytes i τ3).bind fun τ4 =>
  let compressed_bytes := τ4
  some (compressed_bytes)) (compressed_bytes) (Rt.range (0 : ℕ) (List.length y_bytes))).bind fun τ5 =>
  let compressed_bytes := τ5
  (Rt.putLast compressed_bytes (Rt.shlU 8 sign 7)).bind fun τ6 =>
  let compressed_bytes := τ6
  some compressed_bytes

/-- Translation of `is_on_curve`. /repo/src/curve/edwards/extended.rs:214-228 -/
def EdPt.is_on_curve (self : Model.EdPt F) : Bool :=
  let XY : F := (self.X *ᶠ self.Y)
  let ZT : F := (self.Z *ᶠ self.T)
  let YY : F := (FieldBackend.square self.Y)
  let XX : F := (FieldBackend.square self.X)
  let ZZ : F := (FieldBackend.square self.Z)
  let TT : F := (FieldBackend.square self.T)
  let lhs : F := (YY +ᶠ XX)
  let rhs : F := (ZZ +ᶠ (TT *ʳ (FieldBackend.EDWARDS_D F)))
  ((Field.eq (F := F) XY ZT) && (Field.eq (F := F) lhs rhs))

/-- Translation of `negate`. /repo/src/curve/edwards/extended.rs:272-279 -/
def EdPt.negate (self : Model.EdPt F) : Model.EdPt F :=
  ({ X := (FieldBackend.negate self.X), Y := self.Y, Z := self.Z, T := (FieldBackend.negate self.T) } : Model.EdPt F)

/-- Translation of `torque`. /repo/src/curve/edwards/extended.rs:281-288 -/
def EdPt.torque (self : Model.EdPt F) : Model.EdPt F :=
  ({ X := (FieldBackend.negate self.X), Y := (FieldBackend.negate self.Y), Z := self.Z, T := self.T } : Model.EdPt F)

/-- Translation of `mul`. /repo/src/curve/edwards/extended.rs:401-403 -/
def EdPt.op_mul_Scalar (self : Model.EdPt F) (scalar : List ℕ) : Option (Model.EdPt F) :=
  (EdPt.scalar_mul (F := F) self scalar).bind fun τ1 =>
  some τ1

/-- Translation of `is_torsion_free`. /repo/src/curve/edwards/extended.rs:299-301 -/
def EdPt.is_torsion_free (self : Model.EdPt F) : Option Bool :=
  (EdPt.op_mul_Scalar (F := F) self C.BASEPOINT_ORDER).bind fun τ1 =>
  some (EdPt.eq (F := F) τ1 (EdPt.identity (F := F)))

/-- Translation of `add`. /repo/src/curve/edwards/extended.rs:310-312 -/
def EdPt.op_add (self : Model.EdPt F) (other : Model.EdPt F) : Model.EdPt F :=
  (EdPt.add (F := F) self other)

/-- Translation of `add_assign`. /repo/src/curve/edwards/extended.rs:322-324 -/
def EdPt.op_add_assign (self : Model.EdPt F) (_rhs : Model.EdPt F) : Model.EdPt F :=
  let self := (EdPt.op_add (F := F) self _rhs)
  (self)

/-- Translation of `sub`. /repo/src/curve/edwards/extended.rs:331-333 -/
def EdPt.op_sub (self : Model.EdPt F) (other : Model.EdPt F) : Model.EdPt F :=
  (EdPt.add (F := F) self (EdPt.negate (F := F) other))

/-- Translation of `sub_assign`. /repo/src/curve/edwards/extended.rs:343-345 -/
def EdPt.op_sub_assign (self : Model.EdPt F) (_rhs : Model.EdPt F) : Model.EdPt F :=
  let self := (EdPt.op_sub (F := F) self _rhs)
  (self)

/-- Translation of `sum`. /repo/src/curve/edwards/extended.rs:354-359 -/
def EdPt.sum (iter : List (Model.EdPt F)) : Model.EdPt F :=
  (List.foldl (fun (acc : Model.EdPt F) (item : Model.EdPt F) => (EdPt.op_add (F := F) acc item)) (EdPt.identity (F := F)) iter)

/-- Translation of `neg`. /repo/src/curve/edwards/extended.rs:369-371 -/
def EdPt.op_neg (self : Model.EdPt F) : Model.EdPt F :=
  (EdPt.negate (F := F) self)

/-- Translation of `neg`. /repo/src/curve/edwards/extended.rs:377-379 -/
def EdPt.op_neg2 (self : Model.EdPt F) : Model.EdPt F :=
  (EdPt.op_neg (F := F) self)

/-- Translation of `mul_assign`. /repo/src/curve/edwards/extended.rs:387-390 -/
def EdPt.op_mul_assign_Scalar (self : Model.EdPt F) (scalar : List ℕ) : Option (Model.EdPt F) :=
  (EdPt.op_mul_Scalar (F := F) self scalar).bind fun τ1 =>
  let result : Model.EdPt F := τ1
  let self := result
  some (self)

/-- Translation of `mul`. /repo/src/curve/edwards/extended.rs:410-412 -/
def Scalar.op_mul_EdPt (self : List ℕ) (point : Model.EdPt F) : Option (Model.EdPt F) :=
  (EdPt.op_mul_Scalar (F := F) point self).bind fun τ1 =>
  some τ1

/-- Translation of `add`. /repo/src/macros.rs:20-22 -/
def EdPt.op_add2 (self : Model.EdPt F) (rhs : Model.EdPt F) : Model.EdPt F :=
  (EdPt.op_add (F := F) self rhs)

/-- Translation of `add`. /repo/src/macros.rs:27-29 -/
def EdPt.op_add3 (self : Model.EdPt F) (rhs : Model.EdPt F) : Model.EdPt F :=
  (EdPt.op_add (F := F) self rhs)

/-- Translation of `add`. /repo/src/macros.rs:34-36 -/
def EdPt.op_add4 (self : Model.EdPt F) (rhs : Model.EdPt F) : Model.EdPt F :=
  (EdPt.op_add (F := F) self rhs)

/-- Translation of `add_assign`. /repo/src/macros.rs:45-47 -/
def EdPt.op_add_assign2 (self : Model.EdPt F) (rhs : Model.EdPt F) : Model.EdPt F :=
  let self := (EdPt.op_add_assign (F := F) self rhs)
  (self)

/-- Translation of `sub`. /repo/src/macros.rs:57-59 -/
def EdPt.op_sub2 (self : Model.EdPt F) (rhs : Model.EdPt F) : Model.EdPt F :=
  (EdPt.op_sub (F := F) self rhs)

/-- Translation of `sub`. /repo/src/macros.rs:64-66 -/
def EdPt.op_sub3 (self : Model.EdPt F) (rhs : Model.EdPt F) : Model.EdPt F :=
  (EdPt.op_sub (F := F) self rhs)

/-- Translation of `sub`. /repo/src/macros.rs:71-73 -/
def EdPt.op_sub4 (self : Model.EdPt F) (rhs : Model.EdPt F) : Model.EdPt F :=
  (EdPt.op_sub (F := F) self rhs)

/-- Translation of `sub_assign`. /repo/src/macros.rs:82-84 -/
def EdPt.op_sub_assign2 (self : Model.EdPt F) (rhs : Model.EdPt F) : Model.EdPt F :=
  let self := (EdPt.op_sub_assign (F := F) self rhs)
  (self)

/-- Translation of `mul_assign`. /repo/src/macros.rs:119-121 -/
def EdPt.op_mul_assign_Scalar2 (self : Model.EdPt F) (rhs : List ℕ) : Option (Model.EdPt F) :=
  (EdPt.op_mul_assign_Scalar (F := F) self rhs).bind fun τ1 =>
  let self := τ1
  some (self)

/-- Translation of `mul`. /repo/src/macros.rs:94-96 -/
def EdPt.op_mul_Scalar2 (self : Model.EdPt F) (rhs : List ℕ) : Option (Model.EdPt F) :=
  (EdPt.op_mul_Scalar (F := F) self rhs).bind fun τ1 =>
  some τ1

/-- Translation of `mul`. /repo/src/macros.rs:101-103 -/
def EdPt.op_mul_Scalar3 (self : Model.EdPt F) (rhs : List ℕ) : Option (Model.EdPt F) :=
  (EdPt.op_mul_Scalar (F := F) self rhs).bind fun τ1 =>
  some τ1

/-- Translation of `mul`. /repo/src/macros.rs:108-110 -/
def EdPt.op_mul_Scalar4 (self : Model.EdPt F) (rhs : List ℕ) : Option (Model.EdPt F) :=
  (EdPt.op_mul_Scalar (F := F) self rhs).bind fun τ1 =>
  some τ1

/-- Translation of `mul`. /repo/src/macros.rs:94-96 -/
def Scalar.op_mul_EdPt2 (self : List ℕ) (rhs : Model.EdPt F) : Option (Model.EdPt F) :=
  (Scalar.op_mul_EdPt (F := F) self rhs).bind fun τ1 =>
  some τ1

/-- Translation of `mul`. /repo/src/macros.rs:101-103 -/
def Scalar.op_mul_EdPt3 (self : List ℕ) (rhs : Model.EdPt F) : Option (Model.EdPt F) :=
  (Scalar.op_mul_EdPt (F := F) self rhs).bind fun τ1 =>
  some τ1

/-- Translation of `mul`. /repo/src/macros.rs:108-110 -/
def Scalar.op_mul_EdPt4 (self : List ℕ) (rhs : Model.EdPt F) : Option (Model.EdPt F) :=
  (Scalar.op_mul_EdPt (F := F) self rhs).bind fun τ1 =>
  some τ1

/-- Translation of `ct_eq`. /repo/src/curve/twedwards/extensible.rs:24-32 -/
def TwExt.ct_eq (self : Model.TwExt F) (other : Model.TwExt F) : Bool :=
  let XZ : F := (self.X *ᶠ other.Z)
  let ZX : F := (self.Z *ᶠ other.X)
  let YZ : F := (self.Y *ᶠ other.Z)
  let ZY : F := (self.Z *ᶠ other.Y)
  (and (Field.ct_eq (F := F) XZ ZX) (Field.ct_eq (F := F) YZ ZY))

/-- Translation of `eq`. /repo/src/curve/twedwards/extensible.rs:35-37 -/
def TwExt.eq (self : Model.TwExt F) (other : Model.TwExt F) : Bool :=
  (TwExt.ct_eq (F := F) self other)

/-- Translation of `add_extended`. /repo/src/curve/twedwards/extensible.rs:77-93 -/
def TwExt.add_extended (self : Model.TwExt F) (other : Model.TwPt F) : Model.TwExt F :=
  let A : F := (self.X *ᶠ other.X)
  let B : F := (self.Y *ᶠ other.Y)
  let C : F := (((self.T1 *ᶠ self.T2) *ᶠ other.T) *ʳ (FieldBackend.TWISTED_D F))
  let D : F := (self.Z *ᶠ other.Z)
  let E : F := ((((self.X +ᶠ self.Y) *ᶠ (other.X +ᶠ other.Y)) -ᶠ A) -ᶠ B)
  let F' : F := (D -ᶠ C)
  let G : F := (D +ᶠ C)
  let H : F := (B +ᶠ A)
  ({ X := (E *ᶠ F'), Y := (G *ᶠ H), T1 := E, T2 := H, Z := (F' *ᶠ G) } : Model.TwExt F)

/-- Translation of `add_extensible`. /repo/src/curve/twedwards/extensible.rs:71-73 -/
def TwExt.add_extensible (self : Model.TwExt F) (other : Model.TwExt F) : Model.TwExt F :=
  (TwExt.add_extended (F := F) self (TwExt.to_extended (F := F) other))

/-- Translation of `sub_extended`. /repo/src/curve/twedwards/extensible.rs:97-113 -/
def TwExt.sub_extended (self : Model.TwExt F) (other : Model.TwPt F) : Model.TwExt F :=
  let A : F := (self.X *ᶠ other.X)
  let B : F := (self.Y *ᶠ other.Y)
  let C : F := (((self.T1 *ᶠ self.T2) *ᶠ other.T) *ʳ (FieldBackend.TWISTED_D F))
  let D : F := (self.Z *ᶠ other.Z)
  let E : F := ((((self.X +ᶠ self.Y) *ᶠ (other.Y -ᶠ other.X)) +ᶠ A) -ᶠ B)
  let F' : F := (D +ᶠ C)
  let G : F := (D -ᶠ C)
  let H : F := (B -ᶠ A)
  ({ X := (E *ᶠ F'), Y := (G *ᶠ H), T1 := E, T2 := H, Z := (F' *ᶠ G) } : Model.TwExt F)

/-- Translation of `add_affine_niels`. /repo/src/curve/twedwards/extensible.rs:117-132 -/
def TwExt.add_affine_niels (self : Model.TwExt F) (other : Model.ANiels F) : Model.TwExt F :=
  let A : F := (other.YmX *ᶠ (self.Y -ᶠ self.X))
  let B : F := (other.YpX *ᶠ (self.X +ᶠ self.Y))
  let C : F := ((other.td *ᶠ self.T1) *ᶠ self.T2)
  let D : F := (B +ᶠ A)
  let E : F := (B -ᶠ A)
  let F' : F := (self.Z -ᶠ C)
  let G : F := (self.Z +ᶠ C)
  ({ X := (E *ᶠ F'), Y := (G *ᶠ D), Z := (F' *ᶠ G), T1 := E, T2 := D } : Model.TwExt F)

/-- Translation of `ct_eq`. /repo/src/curve/twedwards/extended.rs:19-27 -/
def TwPt.ct_eq (self : Model.TwPt F) (other : Model.TwPt F) : Bool :=
  let XZ : F := (self.X *ᶠ other.Z)
  let ZX : F := (self.Z *ᶠ other.X)
  let YZ : F := (self.Y *ᶠ other.Z)
  let ZY : F := (self.Z *ᶠ other.Y)
  (and (Field.ct_eq (F := F) XZ ZX) (Field.ct_eq (F := F) YZ ZY))

/-- Translation of `conditional_select`. /repo/src/curve/twedwards/extended.rs:31-38 -/
def TwPt.conditional_select (a : Model.TwPt F) (b : Model.TwPt F) (choice : Bool) : Model.TwPt F :=
  ({ X := (FieldBackend.select a.X b.X choice), Y := (FieldBackend.select a.Y b.Y choice), Z := (FieldBackend.select a.Z b.Z choice), T := (FieldBackend.select a.T b.T choice) } : Model.TwPt F)

/-- Translation of `eq`. /repo/src/curve/twedwards/extended.rs:42-44 -/
def TwPt.eq (self : Model.TwPt F) (other : Model.TwPt F) : Bool :=
  (TwPt.ct_eq (F := F) self other)

/-- Translation of `identity`. /repo/src/curve/twedwards/extended.rs:56-63 -/
def TwPt.identity  : Model.TwPt F :=
  ({ X := (FieldBackend.zero : F), Y := (FieldBackend.one : F), Z := (FieldBackend.one : F), T := (FieldBackend.zero : F) } : Model.TwPt F)

/-- Translation of `default`. /repo/src/curve/twedwards/extended.rs:49-51 -/
def TwPt.default  : Model.TwPt F :=
  (TwPt.identity (F := F))

/-- Translation of `generator`. /repo/src/curve/twedwards/extended.rs:66-68 -/
def TwPt.generator  : Model.TwPt F :=
  (Rt.ptTwPt (FieldBackend.TWISTED_EDWARDS_BASE_POINT : F × F × F × F))

/-- Translation of `double`. /repo/src/curve/twedwards/extended.rs:70-72 -/
def TwPt.double (self : Model.TwPt F) : Model.TwPt F :=
  (TwExt.to_extended (F := F) (TwExt.double (F := F) (TwPt.to_extensible (F := F) self)))

/-- Translation of `add`. /repo/src/curve/twedwards/extended.rs:74-76 -/
def TwPt.add (self : Model.TwPt F) (other : Model.TwPt F) : Model.TwPt F :=
  (TwExt.to_extended (F := F) (TwExt.add_extended (F := F) (TwPt.to_extensible (F := F) self) other))

/-- Translation of `is_on_curve`. /repo/src/curve/twedwards/extended.rs:137-151 -/
def TwPt.is_on_curve (self : Model.TwPt F) : Bool :=
  let XY : F := (self.X *ᶠ self.Y)
  let ZT : F := (self.Z *ᶠ self.T)
  let YY : F := (FieldBackend.square self.Y)
  let XX : F := (FieldBackend.square self.X)
  let ZZ : F := (FieldBackend.square self.Z)
  let TT : F := (FieldBackend.square self.T)
  let lhs : F := (YY -ᶠ XX)
  let rhs : F := (ZZ +ᶠ (TT *ʳ (FieldBackend.TWISTED_D F)))
  ((Field.eq (F := F) XY ZT) && (Field.eq (F := F) lhs rhs))

/-- Translation of `negate`. /repo/src/curve/twedwards/extended.rs:153-160 -/
def TwPt.negate (self : Model.TwPt F) : Model.TwPt F :=
  ({ X := (FieldBackend.negate self.X), Y := self.Y, Z := self.Z, T := (FieldBackend.negate self.T) } : Model.TwPt F)

/-- Translation of `torque`. /repo/src/curve/twedwards/extended.rs:162-169 -/
def TwPt.torque (self : Model.TwPt F) : Model.TwPt F :=
  ({ X := (FieldBackend.negate self.X), Y := (FieldBackend.negate self.Y), Z := self.Z, T := self.T } : Model.TwPt F)

/-- Translation of `default`. /repo/src/curve/twedwards/projective.rs:8-10 -/
def PNiels.default  : Model.PNiels F :=
  (PNiels.identity (F := F))

/-- Translation of `to_extended`. /repo/src/curve/twedwards/projective.rs:51-60 -/
def PNiels.to_extended (self : Model.PNiels F) : Model.TwPt F :=
  let A : F := (self.YpX -ᶠ self.YmX)
  let B : F := (self.YpX +ᶠ self.YmX)
  ({ X := (self.Z *ᶠ A), Y := (self.Z *ᶠ B), Z := (FieldBackend.square self.Z), T := (B *ᶠ A) } : Model.TwPt F)

/-- Translation of `eq`. /repo/src/curve/twedwards/projective.rs:24-26 -/
def PNiels.eq (self : Model.PNiels F) (other : Model.PNiels F) : Bool :=
  (TwPt.eq (F := F) (PNiels.to_extended (F := F) self) (PNiels.to_extended (F := F) other))

/-- Translation of `identity`. /repo/src/curve/twedwards/affine.rs:27-32 -/
def TwAff.identity  : Model.TwAff F :=
  ({ x := (FieldBackend.zero : F), y := (FieldBackend.one : F) } : Model.TwAff F)

/-- Translation of `default`. /repo/src/curve/twedwards/affine.rs:20-22 -/
def TwAff.default  : Model.TwAff F :=
  (TwAff.identity (F := F))

/-- Translation of `is_on_curve`. /repo/src/curve/twedwards/affine.rs:34-39 -/
def TwAff.is_on_curve (self : Model.TwAff F) : Bool :=
  let xx : F := (FieldBackend.square self.x)
  let yy : F := (FieldBackend.square self.y)
  (Field.eq (F := F) (yy -ᶠ xx) ((FieldBackend.one : F) +ᶠ (((FieldBackend.TWISTED_D F) *ˡ xx) *ᶠ yy)))

/-- Translation of `negate`. /repo/src/curve/twedwards/affine.rs:41-46 -/
def TwAff.negate (self : Model.TwAff F) : Model.TwAff F :=
  ({ x := (FieldBackend.negate self.x), y := self.y } : Model.TwAff F)

/-- Translation of `add`. /repo/src/curve/twedwards/affine.rs:48-58 -/
def TwAff.add (self : Model.TwAff F) (other : Model.TwAff F) : Option (Model.TwAff F) :=
  let y_numerator : F := ((self.y *ᶠ other.y) +ᶠ (self.x *ᶠ other.x))
  let y_denominator : F := ((FieldBackend.one : F) -ᶠ (((((FieldBackend.TWISTED_D F) *ˡ self.x) *ᶠ other.x) *ᶠ self.y) *ᶠ other.y))
  let x_numerator : F := ((self.x *ᶠ other.y) +ᶠ (self.y *ᶠ other.x))
  let x_denominator : F := ((FieldBackend.one : F) +ᶠ (((((FieldBackend.TWISTED_D F) *ˡ self.x) *ᶠ other.x) *ᶠ self.y) *ᶠ other.y))
  (Field.invert (F := F) x_denominator).bind fun τ1 =>
  let x : F := (x_numerator *ᶠ τ1)
  (Field.invert (F := F) y_denominator).bind fun τ2 =>
  let y : F := (y_numerator *ᶠ τ2)
  some ({ x := x, y := y } : Model.TwAff F)

/-- Translation of `to_extensible`. /repo/src/curve/twedwards/affine.rs:60-68 -/
def TwAff.to_extensible (self : Model.TwAff F) : Model.TwExt F :=
  ({ X := self.x, Y := self.y, Z := (FieldBackend.one : F), T1 := self.x, T2 := self.y } : Model.TwExt F)

/-- Translation of `to_affine_niels`. /repo/src/curve/twedwards/affine.rs:70-76 -/
def TwAff.to_affine_niels (self : Model.TwAff F) : Model.ANiels F :=
  ({ YpX := (self.y +ᶠ self.x), YmX := (self.y -ᶠ self.x), td := ((self.x *ᶠ self.y) *ʳ (FieldBackend.TWISTED_D F)) } : Model.ANiels F)

/-- Translation of `to_extended`. /repo/src/curve/twedwards/affine.rs:78-80 -/
def TwAff.to_extended (self : Model.TwAff F) : Model.TwPt F :=
  (TwExt.to_extended (F := F) (TwAff.to_extensible (F := F) self))

/-- Translation of `conditional_select`. /repo/src/curve/twedwards/affine.rs:93-99 -/
def ANiels.conditional_select (a : Model.ANiels F) (b : Model.ANiels F) (choice : Bool) : Model.ANiels F :=
  ({ YpX := (FieldBackend.select a.YpX b.YpX choice), YmX := (FieldBackend.select a.YmX b.YmX choice), td := (FieldBackend.select a.td b.td choice) } : Model.ANiels F)

/-- Translation of `equals`. /repo/src/curve/twedwards/affine.rs:105-109 -/
def ANiels.equals (self : Model.ANiels F) (other : Model.ANiels F) : Bool :=
  (((Field.eq (F := F) self.YmX other.YmX) && (Field.eq (F := F) self.YpX other.YpX)) && (Field.eq (F := F) self.td other.td))

/-- Translation of `identity`. /repo/src/curve/twedwards/affine.rs:112-118 -/
def ANiels.identity  : Model.ANiels F :=
  ({ YpX := (FieldBackend.one : F), YmX := (FieldBackend.one : F), td := (FieldBackend.zero : F) } : Model.ANiels F)

/-- Translation of `to_extended`. /repo/src/curve/twedwards/affine.rs:120-127 -/
def ANiels.to_extended (self : Model.ANiels F) : Model.TwPt F :=
  ({ X := (self.YpX -ᶠ self.YmX), Y := (self.YmX +ᶠ self.YpX), Z := (FieldBackend.one : F), T := (self.YpX *ᶠ self.YmX) } : Model.TwPt F)

/-- Translation of `double_and_add`. /repo/src/curve/scalar_mul/double_and_add.rs:6-20 -/
def double_and_add.double_and_add (point : Model.TwPt F) (s : List ℕ) : Option (Model.TwPt F) :=
  let result : Model.TwPt F := (TwPt.identity (F := F))
  (Scalar.bits s).bind fun τ1 =>
  (List.foldlM (fun (τ2 : (Model.TwPt F)) (bit : Bool) =>
  let result := τ2
  let result := (TwPt.double (F := F) result)
  let p : Model.TwPt F := (TwPt.identity (F := F))
  (Rt.choice (Bool.toNat bit)).bind fun τ3 =>
  let p := (TwPt.conditional_select (F := F) p point τ3)
  let result := (TwPt.add (F := F) result p)
  some (result)) (result) (List.reverse τ1)).bind fun τ4 =>
  let result := τ4
  some result

/-- Translation of `double_base_scalar_mul`. /repo/src/curve/scalar_mul/double_base.rs:10-14 -/
def double_base.double_base_scalar_mul (a : List ℕ) (A : Model.TwPt F) (b : List ℕ) : Option (Model.TwPt F) :=
  (double_and_add.double_and_add (F := F) A a).bind fun τ1 =>
  let part_a : Model.TwPt F := τ1
  (double_and_add.double_and_add (F := F) (Rt.ptTwPt (FieldBackend.TWISTED_EDWARDS_BASE_POINT : F × F × F × F)) b).bind fun τ2 =>
  let part_b : Model.TwPt F := τ2
  some (TwPt.add (F := F) part_a part_b)

/-- Translation of `ct_eq`. /repo/src/curve/montgomery/montgomery.rs:54-56 -/
def MontgomeryPoint.ct_eq (self : List ℕ) (other : List ℕ) : Bool :=
  (self == other)

/-- Translation of `eq`. /repo/src/curve/montgomery/montgomery.rs:60-62 -/
def MontgomeryPoint.eq (self : List ℕ) (other : List ℕ) : Bool :=
  (MontgomeryPoint.ct_eq self other)

/-- Translation of `identity`. /repo/src/curve/montgomery/montgomery.rs:192-197 -/
def ProjMont.identity  : Model.ProjMont F :=
  ({ U := (FieldBackend.one : F), W := (FieldBackend.zero : F) } : Model.ProjMont F)

/-- Translation of `conditional_select`. /repo/src/curve/montgomery/montgomery.rs:141-150 -/
def ProjMont.conditional_select (a : Model.ProjMont F) (b : Model.ProjMont F) (choice : Bool) : Model.ProjMont F :=
  ({ U := (FieldBackend.select a.U b.U choice), W := (FieldBackend.select a.W b.W choice) } : Model.ProjMont F)

/-- Translation of `differential_add_and_double`. /repo/src/curve/montgomery/montgomery.rs:153-189 -/
def montgomery.differential_add_and_double (P : Model.ProjMont F) (Q : Model.ProjMont F) (affine_PmQ : F) : (Model.ProjMont F) × (Model.ProjMont F) :=
  let t0 : F := (P.U +ᶠ P.W)
  let t1 : F := (P.U -ᶠ P.W)
  let t2 : F := (Q.U +ᶠ Q.W)
  let t3 : F := (Q.U -ᶠ Q.W)
  let t4 : F := (FieldBackend.square t0)
  let t5 : F := (FieldBackend.square t1)
  let t6 : F := (t4 -ᶠ t5)
  let t7 : F := (t0 *ᶠ t3)
  let t8 : F := (t1 *ᶠ t2)
  let t9 : F := (t7 +ᶠ t8)
  let t10 : F := (t7 -ᶠ t8)
  let t11 : F := (FieldBackend.square t9)
  let t12 : F := (FieldBackend.square t10)
  let t13 : F := ((FieldBackend.A_PLUS_TWO_OVER_FOUR : F) *ᶠ t6)
  let t14 : F := (t4 *ᶠ t5)
  let t15 : F := (t13 +ᶠ t5)
  let t16 : F := (t6 *ᶠ t15)
  let t17 : F := (affine_PmQ *ᶠ t12)
  let t18 : F := t11
  let P := { P with U := t14 }
  let P := { P with W := t16 }
  let Q := { Q with U := t18 }
  let Q := { Q with W := t17 }
  (P, Q)

/-- Translation of `to_affine`. /repo/src/curve/montgomery/montgomery.rs:199-202 -/
def ProjMont.to_affine (self : Model.ProjMont F) : Option (List ℕ) :=
  (Field.invert (F := F) self.W).bind fun τ1 =>
  let x : F := (self.U *ᶠ τ1)
  some (FieldBackend.toBytes x).l

/-- Translation of `mul`. /repo/src/curve/montgomery/montgomery.rs:74-96 -/
def MontgomeryPoint.op_mul_Scalar (self : List ℕ) (scalar : List ℕ) : Option (List ℕ) :=
  (Rt.fieldFromBytes F self).bind fun τ1 =>
  let affine_u : F := τ1
  let x0 : Model.ProjMont F := (ProjMont.identity (F := F))
  let x1 : Model.ProjMont F := ({ U := affine_u, W := (FieldBackend.one : F) } : Model.ProjMont F)
  (Scalar.bits scalar).bind fun τ2 =>
  let bits : List Bool := τ2
  let swap : ℕ := (0 : ℕ)
  (List.foldlM (fun (τ3 : (Model.ProjMont F) × (Model.ProjMont F) × (ℕ)) (s : ℕ) =>
  let x0 := τ3.1
  let x1 := τ3.2.1
  let swap := τ3.2.2
  (Rt.idx bits s).bind fun τ4 =>
  let bit : ℕ := (Bool.toNat τ4)
  let choice : ℕ := (swap ^^^ bit)
  (Rt.choice choice).bind fun τ5 =>
  let τ6 := x0
  let x0 := (ProjMont.conditional_select (F := F) x0 x1 τ5)
  let x1 := (ProjMont.conditional_select (F := F) x1 τ6 τ5)
  let τ7 := (montgomery.differential_add_and_double (F := F) x0 x1 affine_u)
  let x0 := τ7.1
  let x1 := τ7.2
  let swap := bit
  some (x0, x1, swap)) (x0, x1, swap) (List.reverse (Rt.range (0 : ℕ) (448 : ℕ)))).bind fun τ8 =>
  let x0 := τ8.1
  let x1 := τ8.2.1
  let swap := τ8.2.2
  (ProjMont.to_affine (F := F) x0).bind fun τ9 =>
  some τ9

/-- Translation of `mul`. /repo/src/curve/montgomery/montgomery.rs:101-103 -/
def Scalar.op_mul_MontgomeryPoint (self : List ℕ) (point : List ℕ) : Option (List ℕ) :=
  (MontgomeryPoint.op_mul_Scalar (F := F) point self).bind fun τ1 =>
  some τ1

/-- Translation of `to_edwards`. /repo/src/curve/montgomery/montgomery.rs:107-111 -/
def MontgomeryPoint.to_edwards (self : List ℕ) (sign : ℕ) : Option (Option (Model.EdPt F)) :=
  none

/-- Translation of `is_low_order`. /repo/src/curve/montgomery/montgomery.rs:114-116 -/
def MontgomeryPoint.is_low_order (self : List ℕ) : Bool :=
  (((MontgomeryPoint.eq self C.LOW_A) || (MontgomeryPoint.eq self C.LOW_B)) || (MontgomeryPoint.eq self C.LOW_C))

/-- Translation of `as_bytes`. /repo/src/curve/montgomery/montgomery.rs:118-120 -/
def MontgomeryPoint.as_bytes (self : List ℕ) : List ℕ :=
  self

/-- Translation of `generator`. /repo/src/curve/montgomery/montgomery.rs:123-130 -/
def MontgomeryPoint.generator  : List ℕ :=
  ([(5 : ℕ), (0 : ℕ), (0 : ℕ), (0 : ℕ), (0 : ℕ), (0 : ℕ), (0 : ℕ), (0 : ℕ), (0 : ℕ), (0 : ℕ), (0 : ℕ), (0 : ℕ), (0 : ℕ), (0 : ℕ), (0 : ℕ), (0 : ℕ), (0 : ℕ), (0 : ℕ), (0 : ℕ), (0 : ℕ), (0 : ℕ), (0 : ℕ), (0 : ℕ), (0 : ℕ), (0 : ℕ), (0 : ℕ), (0 : ℕ), (0 : ℕ), (0 : ℕ), (0 : ℕ), (0 : ℕ), (0 : ℕ), (0 : ℕ), (0 : ℕ), (0 : ℕ), (0 : ℕ), (0 : ℕ), (0 : ℕ), (0 : ℕ), (0 : ℕ), (0 : ℕ), (0 : ℕ), (0 : ℕ), (0 : ℕ), (0 : ℕ), (0 : ℕ), (0 : ℕ), (0 : ℕ), (0 : ℕ), (0 : ℕ), (0 : ℕ), (0 : ℕ), (0 : ℕ), (0 : ℕ), (0 : ℕ), (0 : ℕ)] : List ℕ)

/-- Translation of `to_projective`. /repo/src/curve/montgomery/montgomery.rs:132-137 -/
def MontgomeryPoint.to_projective (self : List ℕ) : Option (Model.ProjMont F) :=
  (Rt.fieldFromBytes F self).bind fun τ1 =>
  some ({ U := τ1, W := (FieldBackend.one : F) } : Model.ProjMont F)

/-- Translation of `as_bytes`. /repo/src/decaf/decaf.rs:35-37 -/
def CompressedDecaf.as_bytes (self : List ℕ) : List ℕ :=
  self

/-- Translation of `ct_eq`. /repo/src/decaf/decaf.rs:22-24 -/
def CompressedDecaf.ct_eq (self : List ℕ) (other : List ℕ) : Bool :=
  ((CompressedDecaf.as_bytes self) == (CompressedDecaf.as_bytes other))

/-- Translation of `eq`. /repo/src/decaf/decaf.rs:28-30 -/
def CompressedDecaf.eq (self : List ℕ) (other : List ℕ) : Bool :=
  (CompressedDecaf.ct_eq self other)

/-- Translation of `identity`. /repo/src/decaf/decaf.rs:41-43 -/
def DecafPt.identity  : Model.DecafPt F :=
  (⟨(TwPt.identity (F := F))⟩ : Model.DecafPt F)

/-- Translation of `generator`. /repo/src/decaf/decaf.rs:45-47 -/
def DecafPt.generator  : Model.DecafPt F :=
  (⟨Rt.ptTwPt (FieldBackend.TWISTED_EDWARDS_BASE_POINT : F × F × F × F)⟩ : Model.DecafPt F)

/-- Translation of `equals`. /repo/src/decaf/decaf.rs:49-51 -/
def DecafPt.equals (self : Model.DecafPt F) (other : Model.DecafPt F) : Bool :=
  (Field.eq (F := F) (self.pt.X *ᶠ other.pt.Y) (self.pt.Y *ᶠ other.pt.X))

/-- Translation of `sub`. /repo/src/decaf/decaf.rs:57-59 -/
def DecafPt.sub (self : Model.DecafPt F) (other : Model.DecafPt F) : Model.DecafPt F :=
  (⟨(TwExt.to_extended (F := F) (TwExt.sub_extended (F := F) (TwPt.to_extensible (F := F) self.pt) other.pt))⟩ : Model.DecafPt F)

/-- Translation of `compress`. /repo/src/decaf/decaf.rs:63-81 -/
def DecafPt.compress (self : Model.DecafPt F) : Option (List ℕ) :=
  let X : F := self.pt.X
  let Y : F := self.pt.Y
  let Z : F := self.pt.Z
  let T : F := self.pt.T
  let XX_TT : F := ((X +ᶠ T) *ᶠ (X -ᶠ T))
  (Field.inverse_square_root (F := F) (((FieldBackend.square X) *ᶠ XX_TT) *ᶠ (FieldBackend.NEG_EDWARDS_D : F))).bind fun τ1 =>
  let τ2 := τ1
  let isr : F := τ2.1
  let ratio : F := (isr *ᶠ XX_TT)
  let altx : F := (ratio *ᶠ (FieldBackend.DECAF_FACTOR : F))
  let ratio := (FieldBackend.condNegate ratio (FieldBackend.isNegative altx))
  let k : F := ((ratio *ᶠ Z) -ᶠ T)
  let s : F := (((k *ᶠ (FieldBackend.NEG_EDWARDS_D : F)) *ᶠ isr) *ᶠ X)
  let s := (FieldBackend.condNegate s (FieldBackend.isNegative s))
  some (FieldBackend.toBytes s).l

/-- Translation of `identity`. /repo/src/decaf/decaf.rs:85-87 -/
def CompressedDecaf.identity  : List ℕ :=
  (List.replicate 56 (0 : ℕ))

/-- Translation of `decompress`. /repo/src/decaf/decaf.rs:91-128 -/
def CompressedDecaf.decompress (self : List ℕ) : Option (Option (Model.DecafPt F)) :=
  (Rt.fieldFromBytes F self).bind fun τ1 =>
  let s : F := τ1
  let s_bytes_check : List ℕ := (FieldBackend.toBytes s).l
  let s_encoding_is_canonical : Bool := (s_bytes_check == self)
  let s_is_negative : Bool := (FieldBackend.isNegative s)
  if (((Bool.toNat s_encoding_is_canonical) == (0 : ℕ)) || ((Bool.toNat (FieldBackend.isNegative s)) == (1 : ℕ))) then
  some (none : Option (Model.DecafPt F))
  else
  let ss : F := (FieldBackend.square s)
  let u1 : F := ((FieldBackend.one : F) -ᶠ ss)
  let u2 : F := ((FieldBackend.one : F) +ᶠ ss)
  let u1_sqr : F := (FieldBackend.square u1)
  let v : F := ((ss *ᶠ (FieldBackend.NEG_FOUR_TIMES_TWISTED_D : F)) +ᶠ u1_sqr)
  (Field.inverse_square_root (F := F) (v *ᶠ u1_sqr)).bind fun τ2 =>
  let τ3 := τ2
  let I : F := τ3.1
  let ok : Bool := τ3.2
  if ((Bool.toNat ok) == (0 : ℕ)) then
  some (none : Option (Model.DecafPt F))
  else
  let Dx : F := (I *ᶠ u1)
  let Dxs : F := ((s +ᶠ s) *ᶠ Dx)
  let X : F := ((Dxs *ᶠ I) *ᶠ v)
  let k : F := (Dxs *ᶠ (FieldBackend.DECAF_FACTOR : F))
  let X := (FieldBackend.condNegate X (FieldBackend.isNegative k))
  let Y : F := (Dx *ᶠ u2)
  let Z : F := (FieldBackend.one : F)
  let T : F := (X *ᶠ Y)
  some (some (⟨({ X := X, Y := Y, Z := Z, T := T } : Model.TwPt F)⟩ : Model.DecafPt F))

/-- Translation of `mul`. /repo/src/decaf/ops.rs:10-13 -/
def DecafPt.op_mul_Scalar (self : Model.DecafPt F) (scalar : List ℕ) : Option (Model.DecafPt F) :=
  (double_and_add.double_and_add (F := F) self.pt scalar).bind fun τ1 =>
  some (⟨τ1⟩ : Model.DecafPt F)

/-- Translation of `mul`. /repo/src/decaf/ops.rs:17-19 -/
def Scalar.op_mul_DecafPt (self : List ℕ) (point : Model.DecafPt F) : Option (Model.DecafPt F) :=
  (double_and_add.double_and_add (F := F) point.pt self).bind fun τ1 =>
  some (⟨τ1⟩ : Model.DecafPt F)

/-- Translation of `mul`. /repo/src/decaf/ops.rs:23-25 -/
def Scalar.op_mul_DecafPt2 (self : List ℕ) (point : Model.DecafPt F) : Option (Model.DecafPt F) :=
  (double_and_add.double_and_add (F := F) point.pt self).bind fun τ1 =>
  some (⟨τ1⟩ : Model.DecafPt F)

/-- Translation of `mul`. /repo/src/decaf/ops.rs:29-31 -/
def DecafPt.op_mul_Scalar2 (self : Model.DecafPt F) (scalar : List ℕ) : Option (Model.DecafPt F) :=
  (double_and_add.double_and_add (F := F) self.pt scalar).bind fun τ1 =>
  some (⟨τ1⟩ : Model.DecafPt F)

/-- Translation of `add`. /repo/src/decaf/ops.rs:38-40 -/
def DecafPt.op_add (self : Model.DecafPt F) (other : Model.DecafPt F) : Model.DecafPt F :=
  (⟨(TwExt.to_extended (F := F) (TwExt.add_extended (F := F) (TwPt.to_extensible (F := F) self.pt) other.pt))⟩ : Model.DecafPt F)

/-- Translation of `add`. /repo/src/decaf/ops.rs:44-46 -/
def DecafPt.op_add2 (self : Model.DecafPt F) (other : Model.DecafPt F) : Model.DecafPt F :=
  (DecafPt.op_add (F := F) self other)

/-- Translation of `sub`. /repo/src/decaf/ops.rs:53-55 -/
def DecafPt.op_sub (self : Model.DecafPt F) (other : Model.DecafPt F) : Model.DecafPt F :=
  (⟨(TwExt.to_extended (F := F) (TwExt.sub_extended (F := F) (TwPt.to_extensible (F := F) self.pt) other.pt))⟩ : Model.DecafPt F)

/-- Translation of `sub`. /repo/src/decaf/ops.rs:59-61 -/
def DecafPt.op_sub2 (self : Model.DecafPt F) (other : Model.DecafPt F) : Model.DecafPt F :=
  (DecafPt.sub (F := F) self other)

/-- Translation of `neg`. /repo/src/decaf/ops.rs:68-70 -/
def DecafPt.op_neg (self : Model.DecafPt F) : Model.DecafPt F :=
  (⟨(TwPt.negate (F := F) self.pt)⟩ : Model.DecafPt F)

/-- Translation of `neg`. /repo/src/decaf/ops.rs:74-76 -/
def DecafPt.op_neg2 (self : Model.DecafPt F) : Model.DecafPt F :=
  (DecafPt.op_neg (F := F) self)

/-- Translation of `as_bytes`. /repo/src/ristretto/ristretto.rs:32-34 -/
def CompressedRistretto.as_bytes (self : List ℕ) : List ℕ :=
  self

/-- Translation of `ct_eq`. /repo/src/ristretto/ristretto.rs:19-21 -/
def CompressedRistretto.ct_eq (self : List ℕ) (other : List ℕ) : Bool :=
  ((CompressedRistretto.as_bytes self) == (CompressedRistretto.as_bytes other))

/-- Translation of `eq`. /repo/src/ristretto/ristretto.rs:25-27 -/
def CompressedRistretto.eq (self : List ℕ) (other : List ℕ) : Bool :=
  (CompressedRistretto.ct_eq self other)

/-- Translation of `identity`. /repo/src/ristretto/ristretto.rs:38-40 -/
def RistPt.identity  : Model.RistPt F :=
  (⟨(TwPt.identity (F := F))⟩ : Model.RistPt F)

/-- Translation of `equals`. /repo/src/ristretto/ristretto.rs:42-46 -/
def RistPt.equals (self : Model.RistPt F) (other : Model.RistPt F) : Bool :=
  let XY : F := (self.pt.X *ᶠ other.pt.Y)
  let YX : F := (self.pt.Y *ᶠ other.pt.X)
  (Field.eq (F := F) XY YX)

/-- Translation of `encode`. /repo/src/ristretto/ristretto.rs:48-50 -/
def RistPt.encode (self : Model.RistPt F) : Option (List ℕ) :=
  none

/-- Translation of `identity`. /repo/src/ristretto/ristretto.rs:54-56 -/
def CompressedRistretto.identity  : List ℕ :=
  (List.replicate 56 (0 : ℕ))

/-- Translation of `decode`. /repo/src/ristretto/ristretto.rs:58-60 -/
def CompressedRistretto.decode (self : List ℕ) : Option (Option (Model.RistPt F)) :=
  none

end Ed448.Gen
