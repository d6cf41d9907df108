import Verif.Gen.Release
import Verif.Gen.Curve
import Verif.Gen.RelScalar
/-!
# Mechanical translation of src/field/mod.rs, src/curve, src/decaf and src/ristretto in a release build

Generated by tools/rust2lean.py; do not edit. Each definition is the translation of the cited Rust
function, with wrapping arithmetic; see `Verif.Gen.Release`. A function without arithmetic that can
overflow, and without calls to a function that has it, is that of `Verif.Gen`.
-/

set_option linter.all false

namespace Ed448.Rel
open Ed448.Model FieldBackend

variable {F L : Type} [FieldBackend F L]


/-- Translation of `square_n` in a release build. /repo/src/field/mod.rs:61-72 -/
def Field.square_n (self : F) (n : ℕ) : Option F :=
  let result : F := (FieldBackend.square self)
  (wrSub 32 n (1 : ℕ)).bind fun τ1 =>
  let n := τ1
  let τ3 := List.foldl (fun (τ2 : (F)) (_ : ℕ) =>
  let result := τ2
  let result := (FieldBackend.square result)
  (result)) (result) (Gen.Rt.range (0 : ℕ) n)
  let result := τ3
  some result

/-- Translation of `invert` in a release build. /repo/src/field/mod.rs:38-59 -/
def Field.invert (self : F) : Option F :=
  let _1 : F := self
  let _10 : F := (FieldBackend.square _1)
  let _11 : F := (_1 *ᶠ _10)
  let _110 : F := (FieldBackend.square _11)
  let _111 : F := (_1 *ᶠ _110)
  (Field.square_n (F := F) _111 (3 : ℕ)).bind fun τ1 =>
  let _111000 : F := τ1
  let _111111 : F := (_111 *ᶠ _111000)
  (Field.square_n (F := F) _111111 (6 : ℕ)).bind fun τ2 =>
  let x12 : F := (τ2 *ᶠ _111111)
  (Field.square_n (F := F) x12 (12 : ℕ)).bind fun τ3 =>
  let x24 : F := (τ3 *ᶠ x12)
  (Field.square_n (F := F) x24 (6 : ℕ)).bind fun τ4 =>
  let i34 : F := τ4
  let x30 : F := (_111111 *ᶠ i34)
  (Field.square_n (F := F) i34 (18 : ℕ)).bind fun τ5 =>
  let x48 : F := (τ5 *ᶠ x24)
  (Field.square_n (F := F) x48 (48 : ℕ)).bind fun τ6 =>
  let x96 : F := (τ6 *ᶠ x48)
  (Field.square_n (F := F) x96 (96 : ℕ)).bind fun τ7 =>
  let x192 : F := (τ7 *ᶠ x96)
  (Field.square_n (F := F) x192 (30 : ℕ)).bind fun τ8 =>
  let x222 : F := (τ8 *ᶠ x30)
  let x223 : F := ((FieldBackend.square x222) *ᶠ _1)
  (Field.square_n (F := F) x223 (223 : ℕ)).bind fun τ9 =>
  (Field.square_n (F := F) (τ9 *ᶠ x222) (2 : ℕ)).bind fun τ10 =>
  some (τ10 *ᶠ _1)

/-- Translation of `inverse_square_root` in a release build. /repo/src/field/mod.rs:77-113 -/
def Field.inverse_square_root (self : F) : Option (F × Bool) :=
  let τ1 := ((FieldBackend.zero : F), (FieldBackend.zero : F), (FieldBackend.zero : F))
  let l0 : F := τ1.1
  let l1 : F := τ1.2.1
  let l2 : F := τ1.2.2
  let l1 := (FieldBackend.square self)
  let l2 := (l1 *ᶠ self)
  let l1 := (FieldBackend.square l2)
  let l2 := (l1 *ᶠ self)
  (Field.square_n (F := F) l2 (3 : ℕ)).bind fun τ2 =>
  let l1 := τ2
  let l0 := (l2 *ᶠ l1)
  (Field.square_n (F := F) l0 (3 : ℕ)).bind fun τ3 =>
  let l1 := τ3
  let l0 := (l2 *ᶠ l1)
  (Field.square_n (F := F) l0 (9 : ℕ)).bind fun τ4 =>
  let l2 := τ4
  let l1 := (l0 *ᶠ l2)
  let l0 := (l1 *ᶠ l1)
  let l2 := (l0 *ᶠ self)
  (Field.square_n (F := F) l2 (18 : ℕ)).bind fun τ5 =>
  let l0 := τ5
  let l2 := (l1 *ᶠ l0)
  (Field.square_n (F := F) l2 (37 : ℕ)).bind fun τ6 =>
  let l0 := τ6
  let l1 := (l2 *ᶠ l0)
  (Field.square_n (F := F) l1 (37 : ℕ)).bind fun τ7 =>
  let l0 := τ7
  let l1 := (l2 *ᶠ l0)
  (Field.square_n (F := F) l1 (111 : ℕ)).bind fun τ8 =>
  let l0 := τ8
  let l2 := (l1 *ᶠ l0)
  let l0 := (FieldBackend.square l2)
  let l1 := (l0 *ᶠ self)
  (Field.square_n (F := F) l1 (223 : ℕ)).bind fun τ9 =>
  let l0 := τ9
  let l1 := (l2 *ᶠ l0)
  let l2 := (FieldBackend.square l1)
  let l0 := (l2 *ᶠ self)
  let is_residue : Bool := (Gen.Field.ct_eq (F := F) l0 (FieldBackend.one : F))
  some (l1, is_residue)

/-- Translation of `sqrt_ratio` in a release build. /repo/src/field/mod.rs:116-125 -/
def Field.sqrt_ratio (u : F) (v : F) : Option (F × Bool) :=
  let x : F := (u *ᶠ v)
  (Field.inverse_square_root (F := F) x).bind fun τ1 =>
  let τ2 := τ1
  let inv_sqrt_x : F := τ2.1
  let is_res : Bool := τ2.2
  let zero_u : Bool := (Gen.Field.ct_eq (F := F) u (FieldBackend.zero : F))
  some ((inv_sqrt_x *ᶠ u), (or zero_u is_res))

/-- Translation of `decompress` in a release build. /repo/src/curve/edwards/extended.rs:41-66 -/
def CompressedEdwardsY.decompress (self : List ℕ) : Option (Option (Model.EdPt F)) :=
  ((Gen.Rt.splitLast self)).bind fun τ1 =>
  let τ2 := τ1
  let sign : ℕ := τ2.1
  let b : List ℕ := τ2.2
  let y_bytes : List ℕ := (List.replicate 56 (0 : ℕ))
  (Gen.Rt.copyFrom y_bytes b).bind fun τ3 =>
  let y_bytes := τ3
  (Gen.Rt.fieldFromBytes F y_bytes).bind fun τ4 =>
  let y : F := τ4
  let yy : F := (FieldBackend.square y)
  let dyy : F := ((FieldBackend.EDWARDS_D F) *ˡ yy)
  let numerator : F := ((FieldBackend.one : F) -ᶠ yy)
  let denominator : F := ((FieldBackend.one : F) -ᶠ dyy)
  (Field.sqrt_ratio (F := F) numerator denominator).bind fun τ5 =>
  let τ6 := τ5
  let x : F := τ6.1
  let is_res : Bool := τ6.2
  if (!((Bool.toNat is_res) == (1 : ℕ))) then
  some (none : Option (Model.EdPt F))
  else
  (Gen.Rt.choice (sign >>> 7)).bind fun τ7 =>
  let compressed_sign_bit : Bool := τ7
  let is_negative : Bool := (FieldBackend.isNegative x)
  let x := (FieldBackend.condNegate x (xor compressed_sign_bit is_negative))
  some (some (Gen.EdAff.to_extended (F := F) ({ x := x, y := y } : Model.EdAff F)))

/-- Translation of `to_affine` in a release build. /repo/src/curve/edwards/extended.rs:230-240 -/
def EdPt.to_affine (self : Model.EdPt F) : Option (Model.EdAff F) :=
  (Field.invert (F := F) self.Z).bind fun τ1 =>
  let INV_Z : F := τ1
  let x : F := (self.X *ᶠ INV_Z)
  let x := (FieldBackend.strongReduce x)
  let y : F := (self.Y *ᶠ INV_Z)
  let y := (FieldBackend.strongReduce y)
  some ({ x := x, y := y } : Model.EdAff F)

/-- Translation of `to_montgomery` in a release build. /repo/src/curve/edwards/extended.rs:109-120 -/
def EdPt.to_montgomery (self : Model.EdPt F) : Option (List ℕ) :=
  (EdPt.to_affine (F := F) self).bind fun τ1 =>
  let affine : Model.EdAff F := τ1
  let yy : F := (FieldBackend.square affine.y)
  let dyy : F := ((FieldBackend.EDWARDS_D F) *ˡ yy)
  (Field.invert (F := F) ((FieldBackend.one : F) -ᶠ yy)).bind fun τ2 =>
  let u : F := ((yy *ᶠ ((FieldBackend.one : F) -ᶠ dyy)) *ᶠ τ2)
  some (FieldBackend.toBytes u).l

/-- Translation of `edwards_isogeny` in a release build. /repo/src/curve/edwards/extended.rs:244-267 -/
def EdPt.edwards_isogeny (self : Model.EdPt F) (a : L) : Option (Model.TwPt F) :=
  (EdPt.to_affine (F := F) self).bind fun τ1 =>
  let affine : Model.EdAff F := τ1
  let x : F := affine.x
  let y : F := affine.y
  let xy : F := (x *ᶠ y)
  let x_numerator : F := (xy +ᶠ xy)
  let x_denom : F := ((FieldBackend.square y) -ᶠ (a *ˡ (FieldBackend.square x)))
  (Field.invert (F := F) x_denom).bind fun τ2 =>
  let new_x : F := (x_numerator *ᶠ τ2)
  let y_numerator : F := ((FieldBackend.square y) +ᶠ (a *ˡ (FieldBackend.square x)))
  let y_denom : F := ((((FieldBackend.one : F) +ᶠ (FieldBackend.one : F)) -ᶠ (FieldBackend.square y)) -ᶠ (a *ˡ (FieldBackend.square x)))
  (Field.invert (F := F) y_denom).bind fun τ3 =>
  let new_y : F := (y_numerator *ᶠ τ3)
  some ({ X := new_x, Y := new_y, Z := (FieldBackend.one : F), T := (new_x *ᶠ new_y) } : Model.TwPt F)

/-- Translation of `to_twisted` in a release build. /repo/src/curve/edwards/extended.rs:268-270 -/
def EdPt.to_twisted (self : Model.EdPt F) : Option (Model.TwPt F) :=
  (EdPt.edwards_isogeny (F := F) self (FieldBackend.relax (FieldBackend.one : F))).bind fun τ1 =>
  some τ1

/-- Translation of `from` in a release build. /repo/src/curve/scalar_mul/window/wnaf/mod.rs:11-21 -/
def LookupTable.from (point : Model.TwPt F) : Option (List (Model.PNiels F)) :=
  let P : Model.TwExt F := (Gen.TwPt.to_extensible (F := F) point)
  let table : List (Model.PNiels F) := (List.replicate 8 (Gen.TwExt.to_projective_niels (F := F) P))
  (List.foldlM (fun (τ1 : (List (Model.PNiels F))) (i : ℕ) =>
  let table := τ1
  (wrSub 32 i (1 : ℕ)).bind fun τ2 =>
  (Gen.Rt.idx table τ2).bind fun τ3 =>
  (Gen.Rt.put table i (Gen.TwExt.to_projective_niels (F := F) (Gen.TwExt.add_projective_niels (F := F) P τ3))).bind fun τ4 =>
  let table := τ4
  some (table)) (table) (Gen.Rt.range (1 : ℕ) (8 : ℕ))).bind fun τ5 =>
  let table := τ5
  some table

/-- Translation of `select` in a release build. /repo/src/curve/scalar_mul/window/wnaf/mod.rs:26-34 -/
def LookupTable.select (self : List (Model.PNiels F)) (index : ℕ) : Option (Model.PNiels F) :=
  let result : Model.PNiels F := (Gen.PNiels.identity (F := F))
  (List.foldlM (fun (τ1 : (Model.PNiels F)) (i : ℕ) =>
  let result := τ1
  let swap : Bool := (index == (i % 2 ^ 32))
  (wrSub 32 i (1 : ℕ)).bind fun τ2 =>
  (Gen.Rt.idx self τ2).bind fun τ3 =>
  let result := (Gen.PNiels.conditional_select (F := F) result τ3 swap)
  some (result)) (result) (Gen.Rt.range (1 : ℕ) (9 : ℕ))).bind fun τ4 =>
  let result := τ4
  some result

/-- Translation of `variable_base` in a release build. /repo/src/curve/scalar_mul/variable_base.rs:8-35 -/
def variable_base.variable_base (point : Model.TwPt F) (s : List ℕ) : Option (Model.TwPt F) :=
  let result : Model.TwExt F := (Gen.TwExt.identity (F := F))
  (Scalar.to_radix_16 s).bind fun τ1 =>
  let scalar : List ℤ := τ1
  (LookupTable.from (F := F) point).bind fun τ2 =>
  let lookup : List (Model.PNiels F) := τ2
  (List.foldlM (fun (τ3 : (Model.TwExt F)) (i : ℕ) =>
  let result := τ3
  let result := (Gen.TwExt.double (F := F) result)
  let result := (Gen.TwExt.double (F := F) result)
  let result := (Gen.TwExt.double (F := F) result)
  let result := (Gen.TwExt.double (F := F) result)
  (Gen.Rt.idx scalar i).bind fun τ4 =>
  let mask : ℤ := (sarZ τ4 7)
  let sign : ℤ := (Gen.Rt.andZ 8 mask (1 : ℤ))
  (Gen.Rt.idx scalar i).bind fun τ5 =>
  (wrI 8 (τ5 + mask)).bind fun τ6 =>
  let abs_value : ℕ := (Gen.Rt.asU 32 (Gen.Rt.xorZ 8 τ6 mask))
  (LookupTable.select (F := F) lookup abs_value).bind fun τ7 =>
  let neg_P : Model.PNiels F := τ7
  (Gen.Rt.choice (Gen.Rt.asU 8 sign)).bind fun τ8 =>
  let neg_P := (Gen.PNiels.conditional_negate (F := F) neg_P τ8)
  let result := (Gen.TwExt.add_projective_niels (F := F) result neg_P)
  some (result)) (result) (List.reverse (Gen.Rt.range (0 : ℕ) (113 : ℕ)))).bind fun τ9 =>
  let result := τ9
  some (Gen.TwExt.to_extended (F := F) result)

/-- Translation of `to_affine` in a release build. /repo/src/curve/twedwards/extended.rs:89-102 -/
def TwPt.to_affine (self : Model.TwPt F) : Option (Model.TwAff F) :=
  (Field.invert (F := F) self.Z).bind fun τ1 =>
  let INV_Z : F := τ1
  let x : F := (self.X *ᶠ INV_Z)
  let x := (FieldBackend.strongReduce x)
  let y : F := (self.Y *ᶠ INV_Z)
  let y := (FieldBackend.strongReduce y)
  some ({ x := x, y := y } : Model.TwAff F)

/-- Translation of `edwards_isogeny` in a release build. /repo/src/curve/twedwards/extended.rs:107-130 -/
def TwPt.edwards_isogeny (self : Model.TwPt F) (a : L) : Option (Model.EdPt F) :=
  (TwPt.to_affine (F := F) self).bind fun τ1 =>
  let affine : Model.TwAff F := τ1
  let x : F := affine.x
  let y : F := affine.y
  let xy : F := (x *ᶠ y)
  let x_numerator : F := (xy +ᶠ xy)
  let x_denom : F := ((FieldBackend.square y) -ᶠ (a *ˡ (FieldBackend.square x)))
  (Field.invert (F := F) x_denom).bind fun τ2 =>
  let new_x : F := (x_numerator *ᶠ τ2)
  let y_numerator : F := ((FieldBackend.square y) +ᶠ (a *ˡ (FieldBackend.square x)))
  let y_denom : F := ((((FieldBackend.one : F) +ᶠ (FieldBackend.one : F)) -ᶠ (FieldBackend.square y)) -ᶠ (a *ˡ (FieldBackend.square x)))
  (Field.invert (F := F) y_denom).bind fun τ3 =>
  let new_y : F := (y_numerator *ᶠ τ3)
  some ({ X := new_x, Y := new_y, Z := (FieldBackend.one : F), T := (new_x *ᶠ new_y) } : Model.EdPt F)

/-- Translation of `to_untwisted` in a release build. /repo/src/curve/twedwards/extended.rs:132-134 -/
def TwPt.to_untwisted (self : Model.TwPt F) : Option (Model.EdPt F) :=
  (TwPt.edwards_isogeny (F := F) self (FieldBackend.minusOne F)).bind fun τ1 =>
  some τ1

/-- Translation of `scalar_mul` in a release build. /repo/src/curve/edwards/extended.rs:122-131 -/
def EdPt.scalar_mul (self : Model.EdPt F) (scalar : List ℕ) : Option (Model.EdPt F) :=
  let scalar_div_four : List ℕ := scalar
  (Scalar.div_by_four scalar_div_four).bind fun τ1 =>
  let scalar_div_four := τ1
  (EdPt.to_twisted (F := F) self).bind fun τ2 =>
  (variable_base.variable_base (F := F) τ2 scalar_div_four).bind fun τ3 =>
  (TwPt.to_untwisted (F := F) τ3).bind fun τ4 =>
  let partial_result : Model.EdPt F := τ4
  (Gen.EdPt.scalar_mod_four (F := F) self scalar).bind fun τ5 =>
  some (Gen.EdPt.add (F := F) partial_result τ5)

/-- Translation of `compress` in a release build. /repo/src/curve/edwards/extended.rs:160-176 -/
def EdPt.compress (self : Model.EdPt F) : Option (List ℕ) :=
  (EdPt.to_affine (F := F) self).bind fun τ1 =>
  let affine : Model.EdAff F := τ1
  let affine_x : F := affine.x
  let affine_y : F := affine.y
  let compressed_bytes : List ℕ := (List.replicate 57 (0 : ℕ))
  let sign : ℕ := (Bool.toNat (FieldBackend.isNegative affine_x))
  let y_bytes : List ℕ := (FieldBackend.toBytes affine_y).l
  (List.foldlM (fun (τ2 : (List ℕ)) (i : ℕ) =>
  let compressed_bytes := τ2
  (Gen.Rt.idx y_bytes i).bind fun τ3 =>
  (Gen.Rt.put compressed_bytes i τ3).bind fun τ4 =>
  let compressed_bytes := τ4
  some (compressed_bytes)) (compressed_bytes) (Gen.Rt.range (0 : ℕ) (List.length y_bytes))).bind fun τ5 =>
  let compressed_bytes := τ5
  (Gen.Rt.putLast compressed_bytes (Gen.Rt.shlU 8 sign 7)).bind fun τ6 =>
  let compressed_bytes := τ6
  some compressed_bytes

/-- Translation of `mul` in a release build. /repo/src/curve/edwards/extended.rs:401-403 -/
def EdPt.op_mul_Scalar (self : Model.EdPt F) (scalar : List ℕ) : Option (Model.EdPt F) :=
  (EdPt.scalar_mul (F := F) self scalar).bind fun τ1 =>
  some τ1

/-- Translation of `is_torsion_free` in a release build. /repo/src/curve/edwards/extended.rs:299-301 -/
def EdPt.is_torsion_free (self : Model.EdPt F) : Option Bool :=
  (EdPt.op_mul_Scalar (F := F) self Gen.C.BASEPOINT_ORDER).bind fun τ1 =>
  some (Gen.EdPt.eq (F := F) τ1 (Gen.EdPt.identity (F := F)))

/-- Translation of `mul_assign` in a release build. /repo/src/curve/edwards/extended.rs:387-390 -/
def EdPt.op_mul_assign_Scalar (self : Model.EdPt F) (scalar : List ℕ) : Option (Model.EdPt F) :=
  (EdPt.op_mul_Scalar (F := F) self scalar).bind fun τ1 =>
  let result : Model.EdPt F := τ1
  let self := result
  some (self)

/-- Translation of `mul` in a release build. /repo/src/curve/edwards/extended.rs:410-412 -/
def Scalar.op_mul_EdPt (self : List ℕ) (point : Model.EdPt F) : Option (Model.EdPt F) :=
  (EdPt.op_mul_Scalar (F := F) point self).bind fun τ1 =>
  some τ1

/-- Translation of `mul_assign` in a release build. /repo/src/macros.rs:119-121 -/
def EdPt.op_mul_assign_Scalar2 (self : Model.EdPt F) (rhs : List ℕ) : Option (Model.EdPt F) :=
  (EdPt.op_mul_assign_Scalar (F := F) self rhs).bind fun τ1 =>
  let self := τ1
  some (self)

/-- Translation of `mul` in a release build. /repo/src/macros.rs:94-96 -/
def EdPt.op_mul_Scalar2 (self : Model.EdPt F) (rhs : List ℕ) : Option (Model.EdPt F) :=
  (EdPt.op_mul_Scalar (F := F) self rhs).bind fun τ1 =>
  some τ1

/-- Translation of `mul` in a release build. /repo/src/macros.rs:101-103 -/
def EdPt.op_mul_Scalar3 (self : Model.EdPt F) (rhs : List ℕ) : Option (Model.EdPt F) :=
  (EdPt.op_mul_Scalar (F := F) self rhs).bind fun τ1 =>
  some τ1

/-- Translation of `mul` in a release build. /repo/src/macros.rs:108-110 -/
def EdPt.op_mul_Scalar4 (self : Model.EdPt F) (rhs : List ℕ) : Option (Model.EdPt F) :=
  (EdPt.op_mul_Scalar (F := F) self rhs).bind fun τ1 =>
  some τ1

/-- Translation of `mul` in a release build. /repo/src/macros.rs:94-96 -/
def Scalar.op_mul_EdPt2 (self : List ℕ) (rhs : Model.EdPt F) : Option (Model.EdPt F) :=
  (Scalar.op_mul_EdPt (F := F) self rhs).bind fun τ1 =>
  some τ1

/-- Translation of `mul` in a release build. /repo/src/macros.rs:101-103 -/
def Scalar.op_mul_EdPt3 (self : List ℕ) (rhs : Model.EdPt F) : Option (Model.EdPt F) :=
  (Scalar.op_mul_EdPt (F := F) self rhs).bind fun τ1 =>
  some τ1

/-- Translation of `mul` in a release build. /repo/src/macros.rs:108-110 -/
def Scalar.op_mul_EdPt4 (self : List ℕ) (rhs : Model.EdPt F) : Option (Model.EdPt F) :=
  (Scalar.op_mul_EdPt (F := F) self rhs).bind fun τ1 =>
  some τ1

/-- Translation of `add` in a release build. /repo/src/curve/twedwards/affine.rs:48-58 -/
def TwAff.add (self : Model.TwAff F) (other : Model.TwAff F) : Option (Model.TwAff F) :=
  let y_numerator : F := ((self.y *ᶠ other.y) +ᶠ (self.x *ᶠ other.x))
  let y_denominator : F := ((FieldBackend.one : F) -ᶠ (((((FieldBackend.TWISTED_D F) *ˡ self.x) *ᶠ other.x) *ᶠ self.y) *ᶠ other.y))
  let x_numerator : F := ((self.x *ᶠ other.y) +ᶠ (self.y *ᶠ other.x))
  let x_denominator : F := ((FieldBackend.one : F) +ᶠ (((((FieldBackend.TWISTED_D F) *ˡ self.x) *ᶠ other.x) *ᶠ self.y) *ᶠ other.y))
  (Field.invert (F := F) x_denominator).bind fun τ1 =>
  let x : F := (x_numerator *ᶠ τ1)
  (Field.invert (F := F) y_denominator).bind fun τ2 =>
  let y : F := (y_numerator *ᶠ τ2)
  some ({ x := x, y := y } : Model.TwAff F)

/-- Translation of `double_and_add` in a release build. /repo/src/curve/scalar_mul/double_and_add.rs:6-20 -/
def double_and_add.double_and_add (point : Model.TwPt F) (s : List ℕ) : Option (Model.TwPt F) :=
  let result : Model.TwPt F := (Gen.TwPt.identity (F := F))
  (Scalar.bits s).bind fun τ1 =>
  (List.foldlM (fun (τ2 : (Model.TwPt F)) (bit : Bool) =>
  let result := τ2
  let result := (Gen.TwPt.double (F := F) result)
  let p : Model.TwPt F := (Gen.TwPt.identity (F := F))
  (Gen.Rt.choice (Bool.toNat bit)).bind fun τ3 =>
  let p := (Gen.TwPt.conditional_select (F := F) p point τ3)
  let result := (Gen.TwPt.add (F := F) result p)
  some (result)) (result) (List.reverse τ1)).bind fun τ4 =>
  let result := τ4
  some result

/-- Translation of `double_base_scalar_mul` in a release build. /repo/src/curve/scalar_mul/double_base.rs:10-14 -/
def double_base.double_base_scalar_mul (a : List ℕ) (A : Model.TwPt F) (b : List ℕ) : Option (Model.TwPt F) :=
  (double_and_add.double_and_add (F := F) A a).bind fun τ1 =>
  let part_a : Model.TwPt F := τ1
  (double_and_add.double_and_add (F := F) (Gen.Rt.ptTwPt (FieldBackend.TWISTED_EDWARDS_BASE_POINT : F × F × F × F)) b).bind fun τ2 =>
  let part_b : Model.TwPt F := τ2
  some (Gen.TwPt.add (F := F) part_a part_b)

/-- Translation of `to_affine` in a release build. /repo/src/curve/montgomery/montgomery.rs:199-202 -/
def ProjMont.to_affine (self : Model.ProjMont F) : Option (List ℕ) :=
  (Field.invert (F := F) self.W).bind fun τ1 =>
  let x : F := (self.U *ᶠ τ1)
  some (FieldBackend.toBytes x).l

/-- Translation of `mul` in a release build. /repo/src/curve/montgomery/montgomery.rs:74-96 -/
def MontgomeryPoint.op_mul_Scalar (self : List ℕ) (scalar : List ℕ) : Option (List ℕ) :=
  (Gen.Rt.fieldFromBytes F self).bind fun τ1 =>
  let affine_u : F := τ1
  let x0 : Model.ProjMont F := (Gen.ProjMont.identity (F := F))
  let x1 : Model.ProjMont F := ({ U := affine_u, W := (FieldBackend.one : F) } : Model.ProjMont F)
  (Scalar.bits scalar).bind fun τ2 =>
  let bits : List Bool := τ2
  let swap : ℕ := (0 : ℕ)
  (List.foldlM (fun (τ3 : (Model.ProjMont F) × (Model.ProjMont F) × (ℕ)) (s : ℕ) =>
  let x0 := τ3.1
  let x1 := τ3.2.1
  let swap := τ3.2.2
  (Gen.Rt.idx bits s).bind fun τ4 =>
  let bit : ℕ := (Bool.toNat τ4)
  let choice : ℕ := (swap ^^^ bit)
  (Gen.Rt.choice choice).bind fun τ5 =>
  let τ6 := x0
  let x0 := (Gen.ProjMont.conditional_select (F := F) x0 x1 τ5)
  let x1 := (Gen.ProjMont.conditional_select (F := F) x1 τ6 τ5)
  let τ7 := (Gen.montgomery.differential_add_and_double (F := F) x0 x1 affine_u)
  let x0 := τ7.1
  let x1 := τ7.2
  let swap := bit
  some (x0, x1, swap)) (x0, x1, swap) (List.reverse (Gen.Rt.range (0 : ℕ) (448 : ℕ)))).bind fun τ8 =>
  let x0 := τ8.1
  let x1 := τ8.2.1
  let swap := τ8.2.2
  (ProjMont.to_affine (F := F) x0).bind fun τ9 =>
  some τ9

/-- Translation of `mul` in a release build. /repo/src/curve/montgomery/montgomery.rs:101-103 -/
def Scalar.op_mul_MontgomeryPoint (self : List ℕ) (point : List ℕ) : Option (List ℕ) :=
  (MontgomeryPoint.op_mul_Scalar (F := F) point self).bind fun τ1 =>
  some τ1

/-- Translation of `compress` in a release build. /repo/src/decaf/decaf.rs:63-81 -/
def DecafPt.compress (self : Model.DecafPt F) : Option (List ℕ) :=
  let X : F := self.pt.X
  let Y : F := self.pt.Y
  let Z : F := self.pt.Z
  let T : F := self.pt.T
  let XX_TT : F := ((X +ᶠ T) *ᶠ (X -ᶠ T))
  (Field.inverse_square_root (F := F) (((FieldBackend.square X) *ᶠ XX_TT) *ᶠ (FieldBackend.NEG_EDWARDS_D : F))).bind fun τ1 =>
  let τ2 := τ1
  let isr : F := τ2.1
  let ratio : F := (isr *ᶠ XX_TT)
  let altx : F := (ratio *ᶠ (FieldBackend.DECAF_FACTOR : F))
  let ratio := (FieldBackend.condNegate ratio (FieldBackend.isNegative altx))
  let k : F := ((ratio *ᶠ Z) -ᶠ T)
  let s : F := (((k *ᶠ (FieldBackend.NEG_EDWARDS_D : F)) *ᶠ isr) *ᶠ X)
  let s := (FieldBackend.condNegate s (FieldBackend.isNegative s))
  some (FieldBackend.toBytes s).l

/-- Translation of `decompress` in a release build. /repo/src/decaf/decaf.rs:91-128 -/
def CompressedDecaf.decompress (self : List ℕ) : Option (Option (Model.DecafPt F)) :=
  (Gen.Rt.fieldFromBytes F self).bind fun τ1 =>
  let s : F := τ1
  let s_bytes_check : List ℕ := (FieldBackend.toBytes s).l
  let s_encoding_is_canonical : Bool := (s_bytes_check == self)
  let s_is_negative : Bool := (FieldBackend.isNegative s)
  if (((Bool.toNat s_encoding_is_canonical) == (0 : ℕ)) || ((Bool.toNat (FieldBackend.isNegative s)) == (1 : ℕ))) then
  some (none : Option (Model.DecafPt F))
  else
  let ss : F := (FieldBackend.square s)
  let u1 : F := ((FieldBackend.one : F) -ᶠ ss)
  let u2 : F := ((FieldBackend.one : F) +ᶠ ss)
  let u1_sqr : F := (FieldBackend.square u1)
  let v : F := ((ss *ᶠ (FieldBackend.NEG_FOUR_TIMES_TWISTED_D : F)) +ᶠ u1_sqr)
  (Field.inverse_square_root (F := F) (v *ᶠ u1_sqr)).bind fun τ2 =>
  let τ3 := τ2
  let I : F := τ3.1
  let ok : Bool := τ3.2
  if ((Bool.toNat ok) == (0 : ℕ)) then
  some (none : Option (Model.DecafPt F))
  else
  let Dx : F := (I *ᶠ u1)
  let Dxs : F := ((s +ᶠ s) *ᶠ Dx)
  let X : F := ((Dxs *ᶠ I) *ᶠ v)
  let k : F := (Dxs *ᶠ (FieldBackend.DECAF_FACTOR : F))
  let X := (FieldBackend.condNegate X (FieldBackend.isNegative k))
  let Y : F := (Dx *ᶠ u2)
  let Z : F := (FieldBackend.one : F)
  let T : F := (X *ᶠ Y)
  some (some (⟨({ X := X, Y := Y, Z := Z, T := T } : Model.TwPt F)⟩ : Model.DecafPt F))

/-- Translation of `mul` in a release build. /repo/src/decaf/ops.rs:10-13 -/
def DecafPt.op_mul_Scalar (self : Model.DecafPt F) (scalar : List ℕ) : Option (Model.DecafPt F) :=
  (double_and_add.double_and_add (F := F) self.pt scalar).bind fun τ1 =>
  some (⟨τ1⟩ : Model.DecafPt F)

/-- Translation of `mul` in a release build. /repo/src/decaf/ops.rs:17-19 -/
def Scalar.op_mul_DecafPt (self : List ℕ) (point : Model.DecafPt F) : Option (Model.DecafPt F) :=
  (double_and_add.double_and_add (F := F) point.pt self).bind fun τ1 =>
  some (⟨τ1⟩ : Model.DecafPt F)

/-- Translation of `mul` in a release build. /repo/src/decaf/ops.rs:23-25 -/
def Scalar.op_mul_DecafPt2 (self : List ℕ) (point : Model.DecafPt F) : Option (Model.DecafPt F) :=
  (double_and_add.double_and_add (F := F) point.pt self).bind fun τ1 =>
  some (⟨τ1⟩ : Model.DecafPt F)

/-- Translation of `mul` in a release build. /repo/src/decaf/ops.rs:29-31 -/
def DecafPt.op_mul_Scalar2 (self : Model.DecafPt F) (scalar : List ℕ) : Option (Model.DecafPt F) :=
  (double_and_add.double_and_add (F := F) self.pt scalar).bind fun τ1 =>
  some (⟨τ1⟩ : Model.DecafPt F)

end Ed448.Rel
