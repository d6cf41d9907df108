import Verif.Gen.U32
import Verif.Gen.Fiat
import Verif.Gen.Curve
/-!
# Mechanical translation of the functions of the repaired source

Generated by tools/gen_fix.py; do not edit. These are the translations of the functions and constants
of /repo/src after the patches in repairs/ that differ from those of the source as it is, and of those
that use them. All other names are those of `Ed448.Gen`. The lines cited are those of the
patched files.
-/

set_option linter.all false

namespace Ed448.Gen.Fix
open Ed448.Model FieldBackend

/-- Translation of `add`. Patched src/field/scalar.rs:348-371 -/
def scalar.add (a : List ℕ) (b : List ℕ) : Option (List ℕ) :=
  (scalar.montgomery_multiply a C.R).bind fun τ1 =>
  let a : List ℕ := τ1
  (scalar.montgomery_multiply b C.R).bind fun τ2 =>
  let b : List ℕ := τ2
  let result : List ℕ := Scalar.zero
  let chain : ℕ := (0 : ℕ)
  (List.foldlM (fun (τ3 : (ℕ) × (List ℕ)) (i : ℕ) =>
  let chain := τ3.1
  let result := τ3.2
  (Rt.idx a i).bind fun τ4 =>
  (Rt.idx b i).bind fun τ5 =>
  (ckU64 (τ4 + τ5)).bind fun τ6 =>
  (ckU64 (chain + τ6)).bind fun τ7 =>
  let chain := τ7
  (Rt.put result i (chain % 2 ^ 32)).bind fun τ8 =>
  let result := τ8
  let chain := (chain >>> 32)
  some (chain, result)) (chain, result) (Rt.range (0 : ℕ) (14 : ℕ))).bind fun τ9 =>
  let chain := τ9.1
  let result := τ9.2
  (scalar.sub_extra result C.MODULUS (chain % 2 ^ 32)).bind fun τ10 =>
  some τ10

/-- Translation of `add`. Uses a patched function. Patched src/field/scalar.rs:62-64 -/
def Scalar.op_add (self : List ℕ) (rhs : List ℕ) : Option (List ℕ) :=
  (scalar.add self rhs).bind fun τ1 =>
  some τ1

/-- Translation of `sub`. Patched src/field/scalar.rs:75-80 -/
def Scalar.op_sub (self : List ℕ) (rhs : List ℕ) : Option (List ℕ) :=
  (scalar.montgomery_multiply self C.R).bind fun τ1 =>
  let lhs : List ℕ := τ1
  (scalar.montgomery_multiply rhs C.R).bind fun τ2 =>
  let rhs : List ℕ := τ2
  (scalar.sub_extra lhs rhs (0 : ℕ)).bind fun τ3 =>
  some τ3

/-- Translation of `from_bytes_mod_order_wide`. Uses a patched function. Patched src/field/scalar.rs:307-329 -/
def Scalar.from_bytes_mod_order_wide (input : List ℕ) : Option (List ℕ) :=
  ((List.range 56).mapM fun (i : ℕ) =>
  (Rt.idx input i).bind fun τ1 =>
  some τ1).bind fun τ2 =>
  let lo : List ℕ := τ2
  (Scalar.from_bytes lo).bind fun τ3 =>
  let lo : List ℕ := τ3
  (scalar.montgomery_multiply lo C.R).bind fun τ4 =>
  let lo : List ℕ := τ4
  ((List.range 56).mapM fun (i : ℕ) =>
  (Rt.ckUsize (i + (56 : ℕ))).bind fun τ5 =>
  (Rt.idx input τ5).bind fun τ6 =>
  some τ6).bind fun τ7 =>
  let hi : List ℕ := τ7
  (Scalar.from_bytes hi).bind fun τ8 =>
  let hi : List ℕ := τ8
  (scalar.montgomery_multiply hi C.R2).bind fun τ9 =>
  let hi : List ℕ := τ9
  ((List.range 56).mapM fun (i : ℕ) =>
  (if (decide (i < (2 : ℕ))) then
  (Rt.ckUsize (i + (112 : ℕ))).bind fun τ10 =>
  (Rt.idx input τ10).bind fun τ11 =>
  some τ11
  else
  some (0 : ℕ)).bind fun τ12 =>
  some τ12).bind fun τ13 =>
  let top : List ℕ := τ13
  (Scalar.from_bytes top).bind fun τ14 =>
  let top : List ℕ := τ14
  (scalar.montgomery_multiply top C.R2).bind fun τ15 =>
  let top : List ℕ := τ15
  (scalar.montgomery_multiply top C.R2).bind fun τ16 =>
  let top : List ℕ := τ16
  (scalar.add lo hi).bind fun τ17 =>
  (Scalar.op_add τ17 top).bind fun τ18 =>
  some τ18

/-- Constant `EDWARDS_D`. Patched src/field/fiat_u64/constants.rs:23-32 -/
def C.fiat_EDWARDS_D : List ℕ := ([(72057594037888854 : ℕ), (72057594037927935 : ℕ), (72057594037927935 : ℕ), (72057594037927935 : ℕ), (72057594037927934 : ℕ), (72057594037927935 : ℕ), (72057594037927935 : ℕ), (72057594037927935 : ℕ)] : List ℕ)

/-- Constant `TWISTED_D`. Patched src/field/fiat_u64/constants.rs:39-48 -/
def C.fiat_TWISTED_D : List ℕ := ([(72057594037888853 : ℕ), (72057594037927935 : ℕ), (72057594037927935 : ℕ), (72057594037927935 : ℕ), (72057594037927934 : ℕ), (72057594037927935 : ℕ), (72057594037927935 : ℕ), (72057594037927935 : ℕ)] : List ℕ)

/-- Constant `TWO_TIMES_TWISTED_D`. Patched src/field/fiat_u64/constants.rs:51-60 -/
def C.fiat_TWO_TIMES_TWISTED_D : List ℕ := ([(72057594037849771 : ℕ), (72057594037927935 : ℕ), (72057594037927935 : ℕ), (72057594037927935 : ℕ), (72057594037927934 : ℕ), (72057594037927935 : ℕ), (72057594037927935 : ℕ), (72057594037927935 : ℕ)] : List ℕ)

/-- Translation of `minus_one`. Patched src/field/fiat_u64/prime_field.rs:120-131 -/
def FieldElement56.minus_one  : List ℕ :=
  ([(72057594037927934 : ℕ), (72057594037927935 : ℕ), (72057594037927935 : ℕ), (72057594037927935 : ℕ), (72057594037927934 : ℕ), (72057594037927935 : ℕ), (72057594037927935 : ℕ), (72057594037927935 : ℕ)] : List ℕ)

variable {F L : Type} [FieldBackend F L]

/-- Translation of `decompress`. Patched src/curve/edwards/extended.rs:41-73 -/
def CompressedEdwardsY.decompress (self : List ℕ) : Option (Option (Model.EdPt F)) :=
  ((Rt.splitLast self)).bind fun τ1 =>
  let τ2 := τ1
  let sign : ℕ := τ2.1
  let b : List ℕ := τ2.2
  let y_bytes : List ℕ := (List.replicate 56 (0 : ℕ))
  (Rt.copyFrom y_bytes b).bind fun τ3 =>
  let y_bytes := τ3
  (Rt.fieldFromBytes F y_bytes).bind fun τ4 =>
  let y : F := τ4
  let yy : F := (FieldBackend.square y)
  let dyy : F := ((FieldBackend.EDWARDS_D F) *ˡ yy)
  let numerator : F := ((FieldBackend.one : F) -ᶠ yy)
  let denominator : F := ((FieldBackend.one : F) -ᶠ dyy)
  (Field.sqrt_ratio (F := F) numerator denominator).bind fun τ5 =>
  let τ6 := τ5
  let x : F := τ6.1
  let is_res : Bool := τ6.2
  if (!((Bool.toNat is_res) == (1 : ℕ))) then
  some (none : Option (Model.EdPt F))
  else
  (Rt.choice (sign >>> 7)).bind fun τ7 =>
  let compressed_sign_bit : Bool := τ7
  let is_negative : Bool := (FieldBackend.isNegative x)
  let x := (FieldBackend.condNegate x (xor compressed_sign_bit is_negative))
  let point : Model.EdPt F := (EdAff.to_extended (F := F) ({ x := x, y := y } : Model.EdAff F))
  (EdPt.compress (F := F) point).bind fun τ8 =>
  let canonical : Bool := (τ8 == self)
  if (!((Bool.toNat canonical) == (1 : ℕ))) then
  some (none : Option (Model.EdPt F))
  else
  some (some point)

/-- Translation of `add_affine_niels`. Patched src/curve/twedwards/extensible.rs:117-134 -/
def TwExt.add_affine_niels (self : Model.TwExt F) (other : Model.ANiels F) : Model.TwExt F :=
  let Z : F := (self.Z +ᶠ self.Z)
  let A : F := (other.YmX *ᶠ (self.Y -ᶠ self.X))
  let B : F := (other.YpX *ᶠ (self.X +ᶠ self.Y))
  let C : F := ((other.td *ᶠ self.T1) *ᶠ self.T2)
  let D : F := (B +ᶠ A)
  let E : F := (B -ᶠ A)
  let F' : F := (Z -ᶠ C)
  let G : F := (Z +ᶠ C)
  ({ X := (E *ᶠ F'), Y := (G *ᶠ D), Z := (F' *ᶠ G), T1 := E, T2 := D } : Model.TwExt F)

/-- Translation of `to_affine_niels`. Patched src/curve/twedwards/affine.rs:70-76 -/
def TwAff.to_affine_niels (self : Model.TwAff F) : Model.ANiels F :=
  ({ YpX := (self.y +ᶠ self.x), YmX := (self.y -ᶠ self.x), td := ((self.x *ᶠ self.y) *ʳ (FieldBackend.TWO_TIMES_TWISTED_D F)) } : Model.ANiels F)

/-- Translation of `to_extended`. Patched src/curve/twedwards/affine.rs:120-130 -/
def ANiels.to_extended (self : Model.ANiels F) : Model.TwPt F :=
  let X : F := (self.YpX -ᶠ self.YmX)
  let Y : F := (self.YmX +ᶠ self.YpX)
  let Z : F := ((FieldBackend.one : F) +ᶠ (FieldBackend.one : F))
  ({ X := (X *ᶠ Z), Y := (Y *ᶠ Z), Z := (Z *ᶠ Z), T := (X *ᶠ Y) } : Model.TwPt F)

/-- Translation of `mul`. Patched src/curve/montgomery/montgomery.rs:74-97 -/
def MontgomeryPoint.op_mul_Scalar (self : List ℕ) (scalar : List ℕ) : Option (List ℕ) :=
  (Rt.fieldFromBytes F self).bind fun τ1 =>
  let affine_u : F := τ1
  let x0 : Model.ProjMont F := (ProjMont.identity (F := F))
  let x1 : Model.ProjMont F := ({ U := affine_u, W := (FieldBackend.one : F) } : Model.ProjMont F)
  (Scalar.bits scalar).bind fun τ2 =>
  let bits : List Bool := τ2
  let swap : ℕ := (0 : ℕ)
  (List.foldlM (fun (τ3 : (Model.ProjMont F) × (Model.ProjMont F) × (ℕ)) (s : ℕ) =>
  let x0 := τ3.1
  let x1 := τ3.2.1
  let swap := τ3.2.2
  (Rt.idx bits s).bind fun τ4 =>
  let bit : ℕ := (Bool.toNat τ4)
  let choice : ℕ := (swap ^^^ bit)
  (Rt.choice choice).bind fun τ5 =>
  let τ6 := x0
  let x0 := (ProjMont.conditional_select (F := F) x0 x1 τ5)
  let x1 := (ProjMont.conditional_select (F := F) x1 τ6 τ5)
  let τ7 := (montgomery.differential_add_and_double (F := F) x0 x1 affine_u)
  let x0 := τ7.1
  let x1 := τ7.2
  let swap := bit
  some (x0, x1, swap)) (x0, x1, swap) (List.reverse (Rt.range (0 : ℕ) (448 : ℕ)))).bind fun τ8 =>
  let x0 := τ8.1
  let x1 := τ8.2.1
  let swap := τ8.2.2
  (Rt.choice swap).bind fun τ9 =>
  let τ10 := x0
  let x0 := (ProjMont.conditional_select (F := F) x0 x1 τ9)
  let x1 := (ProjMont.conditional_select (F := F) x1 τ10 τ9)
  (ProjMont.to_affine (F := F) x0).bind fun τ11 =>
  some τ11

/-- Translation of `mul`. Uses a patched function. Patched src/curve/montgomery/montgomery.rs:102-104 -/
def Scalar.op_mul_MontgomeryPoint (self : List ℕ) (point : List ℕ) : Option (List ℕ) :=
  (MontgomeryPoint.op_mul_Scalar (F := F) point self).bind fun τ1 =>
  some τ1

/-- Translation of `is_low_order`. Patched src/curve/montgomery/montgomery.rs:115-119 -/
def MontgomeryPoint.is_low_order (self : List ℕ) : Option Bool :=
  (Rt.fieldFromBytes F self).bind fun τ1 =>
  let point : List ℕ := (FieldBackend.toBytes τ1).l
  some (((MontgomeryPoint.eq point C.LOW_A) || (MontgomeryPoint.eq point C.LOW_B)) || (MontgomeryPoint.eq point C.LOW_C))

end Ed448.Gen.Fix
