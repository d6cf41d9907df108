import Verif.Gen.LeakCurve
import Verif.Gen.Fix
/-!
# Mechanical translation of the functions of the repaired source with leakage

Generated by tools/gen_fix.py; do not edit. These are the translations of the functions
of /repo/src after the patches in repairs/ that differ from those of the source as it is, and of those
that use them. All other names are those of `Ed448.Leak`. The lines cited are those of the
patched files.
-/

set_option linter.all false

namespace Ed448.Leak.Fix
open Ed448.Model FieldBackend

/-- Translation of `add` with its leakage. Patched src/field/scalar.rs:348-371 -/
def scalar.add (a : List ℕ) (b : List ℕ) : Lk (List ℕ) :=
  (scalar.montgomery_multiply a Gen.C.R).bind fun τ1 =>
  let a : List ℕ := τ1
  (scalar.montgomery_multiply b Gen.C.R).bind fun τ2 =>
  let b : List ℕ := τ2
  let result : List ℕ := Gen.Scalar.zero
  let chain : ℕ := (0 : ℕ)
  (Lk.fold (fun (τ3 : (ℕ) × (List ℕ)) (i : ℕ) =>
  let chain := τ3.1
  let result := τ3.2
  (Lk.idx a i).bind fun τ4 =>
  (Lk.idx b i).bind fun τ5 =>
  (Lk.lift (ckU64 (τ4 + τ5))).bind fun τ6 =>
  (Lk.lift (ckU64 (chain + τ6))).bind fun τ7 =>
  let chain := τ7
  (Lk.put result i (chain % 2 ^ 32)).bind fun τ8 =>
  let result := τ8
  let chain := (chain >>> 32)
  Lk.ret (chain, result)) (chain, result) (Gen.Rt.range (0 : ℕ) (14 : ℕ))).bind fun τ9 =>
  let chain := τ9.1
  let result := τ9.2
  (scalar.sub_extra result Gen.C.MODULUS (chain % 2 ^ 32)).bind fun τ10 =>
  Lk.ret τ10

/-- Translation of `add` with its leakage. Uses a patched function. Patched src/field/scalar.rs:62-64 -/
def Scalar.op_add (self : List ℕ) (rhs : List ℕ) : Lk (List ℕ) :=
  (scalar.add self rhs).bind fun τ1 =>
  Lk.ret τ1

/-- Translation of `sub` with its leakage. Patched src/field/scalar.rs:75-80 -/
def Scalar.op_sub (self : List ℕ) (rhs : List ℕ) : Lk (List ℕ) :=
  (scalar.montgomery_multiply self Gen.C.R).bind fun τ1 =>
  let lhs : List ℕ := τ1
  (scalar.montgomery_multiply rhs Gen.C.R).bind fun τ2 =>
  let rhs : List ℕ := τ2
  (scalar.sub_extra lhs rhs (0 : ℕ)).bind fun τ3 =>
  Lk.ret τ3

/-- Translation of `from_bytes_mod_order_wide` with its leakage. Uses a patched function. Patched src/field/scalar.rs:307-329 -/
def Scalar.from_bytes_mod_order_wide (input : List ℕ) : Lk (List ℕ) :=
  (Lk.mapM (fun (i : ℕ) =>
  (Lk.idx input i).bind fun τ1 =>
  Lk.ret τ1) (List.range 56)).bind fun τ2 =>
  let lo : List ℕ := τ2
  (Scalar.from_bytes lo).bind fun τ3 =>
  let lo : List ℕ := τ3
  (scalar.montgomery_multiply lo Gen.C.R).bind fun τ4 =>
  let lo : List ℕ := τ4
  (Lk.mapM (fun (i : ℕ) =>
  (Lk.lift (Gen.Rt.ckUsize (i + (56 : ℕ)))).bind fun τ5 =>
  (Lk.idx input τ5).bind fun τ6 =>
  Lk.ret τ6) (List.range 56)).bind fun τ7 =>
  let hi : List ℕ := τ7
  (Scalar.from_bytes hi).bind fun τ8 =>
  let hi : List ℕ := τ8
  (scalar.montgomery_multiply hi Gen.C.R2).bind fun τ9 =>
  let hi : List ℕ := τ9
  (Lk.mapM (fun (i : ℕ) =>
  (Lk.ite (decide (i < (2 : ℕ))) (
  (Lk.lift (Gen.Rt.ckUsize (i + (112 : ℕ)))).bind fun τ10 =>
  (Lk.idx input τ10).bind fun τ11 =>
  Lk.ret τ11) (
  Lk.ret (0 : ℕ))).bind fun τ12 =>
  Lk.ret τ12) (List.range 56)).bind fun τ13 =>
  let top : List ℕ := τ13
  (Scalar.from_bytes top).bind fun τ14 =>
  let top : List ℕ := τ14
  (scalar.montgomery_multiply top Gen.C.R2).bind fun τ15 =>
  let top : List ℕ := τ15
  (scalar.montgomery_multiply top Gen.C.R2).bind fun τ16 =>
  let top : List ℕ := τ16
  (scalar.add lo hi).bind fun τ17 =>
  (Scalar.op_add τ17 top).bind fun τ18 =>
  Lk.ret τ18

variable {F L : Type} [FieldBackend F L] [LeakBackend F L]

/-- Translation of `decompress` with its leakage. Patched src/curve/edwards/extended.rs:41-73 -/
def CompressedEdwardsY.decompress (self : List ℕ) : Lk (Option (Model.EdPt F)) :=
  (Lk.lift ((Gen.Rt.splitLast self))).bind fun τ1 =>
  let τ2 := τ1
  let sign : ℕ := τ2.1
  let b : List ℕ := τ2.2
  let y_bytes : List ℕ := (List.replicate 56 (0 : ℕ))
  (Lk.lift (Gen.Rt.copyFrom y_bytes b)).bind fun τ3 =>
  let y_bytes := τ3
  (Lk.fieldFromBytes F y_bytes).bind fun τ4 =>
  let y : F := τ4
  (Lk.tell (LeakBackend.squareTr F (FieldBackend.relax y)) (FieldBackend.square y)).bind fun τ5 =>
  let yy : F := τ5
  (Lk.tell (LeakBackend.mulTr F (FieldBackend.EDWARDS_D F) (FieldBackend.relax yy)) ((FieldBackend.EDWARDS_D F) *ˡ yy)).bind fun τ6 =>
  let dyy : F := τ6
  (Lk.tell (LeakBackend.subTr (FieldBackend.one : F) yy) ((FieldBackend.one : F) -ᶠ yy)).bind fun τ7 =>
  let numerator : F := τ7
  (Lk.tell (LeakBackend.subTr (FieldBackend.one : F) dyy) ((FieldBackend.one : F) -ᶠ dyy)).bind fun τ8 =>
  let denominator : F := τ8
  (Field.sqrt_ratio (F := F) numerator denominator).bind fun τ9 =>
  let τ10 := τ9
  let x : F := τ10.1
  let is_res : Bool := τ10.2
  Lk.ite (!((Bool.toNat is_res) == (1 : ℕ))) (
  Lk.ret (none : Option (Model.EdPt F))) (
  (Lk.lift (Gen.Rt.choice (sign >>> 7))).bind fun τ11 =>
  let compressed_sign_bit : Bool := τ11
  (Lk.tell (LeakBackend.toBytesTr x) (FieldBackend.isNegative x)).bind fun τ12 =>
  let is_negative : Bool := τ12
  (Lk.tell (LeakBackend.condNegateTr x (xor compressed_sign_bit is_negative)) (FieldBackend.condNegate x (xor compressed_sign_bit is_negative))).bind fun τ13 =>
  let x := τ13
  (EdAff.to_extended (F := F) ({ x := x, y := y } : Model.EdAff F)).bind fun τ14 =>
  let point : Model.EdPt F := τ14
  (EdPt.compress (F := F) point).bind fun τ15 =>
  let canonical : Bool := (τ15 == self)
  Lk.ite (!((Bool.toNat canonical) == (1 : ℕ))) (
  Lk.ret (none : Option (Model.EdPt F))) (
  Lk.ret (some point)))

/-- Translation of `add_affine_niels` with its leakage. Patched src/curve/twedwards/extensible.rs:117-134 -/
def TwExt.add_affine_niels (self : Model.TwExt F) (other : Model.ANiels F) : Lk (Model.TwExt F) :=
  (Lk.tell (LeakBackend.addTr self.Z self.Z) (self.Z +ᶠ self.Z)).bind fun τ1 =>
  let Z : F := τ1
  (Lk.tell (LeakBackend.subTr self.Y self.X) (self.Y -ᶠ self.X)).bind fun τ2 =>
  (Lk.tell (LeakBackend.mulTr F (FieldBackend.relax other.YmX) (FieldBackend.relax τ2)) (other.YmX *ᶠ τ2)).bind fun τ3 =>
  let A : F := τ3
  (Lk.tell (LeakBackend.addTr self.X self.Y) (self.X +ᶠ self.Y)).bind fun τ4 =>
  (Lk.tell (LeakBackend.mulTr F (FieldBackend.relax other.YpX) (FieldBackend.relax τ4)) (other.YpX *ᶠ τ4)).bind fun τ5 =>
  let B : F := τ5
  (Lk.tell (LeakBackend.mulTr F (FieldBackend.relax other.td) (FieldBackend.relax self.T1)) (other.td *ᶠ self.T1)).bind fun τ6 =>
  (Lk.tell (LeakBackend.mulTr F (FieldBackend.relax τ6) (FieldBackend.relax self.T2)) (τ6 *ᶠ self.T2)).bind fun τ7 =>
  let C : F := τ7
  (Lk.tell (LeakBackend.addTr B A) (B +ᶠ A)).bind fun τ8 =>
  let D : F := τ8
  (Lk.tell (LeakBackend.subTr B A) (B -ᶠ A)).bind fun τ9 =>
  let E : F := τ9
  (Lk.tell (LeakBackend.subTr Z C) (Z -ᶠ C)).bind fun τ10 =>
  let F' : F := τ10
  (Lk.tell (LeakBackend.addTr Z C) (Z +ᶠ C)).bind fun τ11 =>
  let G : F := τ11
  (Lk.tell (LeakBackend.mulTr F (FieldBackend.relax E) (FieldBackend.relax F')) (E *ᶠ F')).bind fun τ12 =>
  (Lk.tell (LeakBackend.mulTr F (FieldBackend.relax G) (FieldBackend.relax D)) (G *ᶠ D)).bind fun τ13 =>
  (Lk.tell (LeakBackend.mulTr F (FieldBackend.relax F') (FieldBackend.relax G)) (F' *ᶠ G)).bind fun τ14 =>
  Lk.ret ({ X := τ12, Y := τ13, Z := τ14, T1 := E, T2 := D } : Model.TwExt F)

/-- Translation of `to_affine_niels` with its leakage. Patched src/curve/twedwards/affine.rs:70-76 -/
def TwAff.to_affine_niels (self : Model.TwAff F) : Lk (Model.ANiels F) :=
  (Lk.tell (LeakBackend.addTr self.y self.x) (self.y +ᶠ self.x)).bind fun τ1 =>
  (Lk.tell (LeakBackend.subTr self.y self.x) (self.y -ᶠ self.x)).bind fun τ2 =>
  (Lk.tell (LeakBackend.mulTr F (FieldBackend.relax self.x) (FieldBackend.relax self.y)) (self.x *ᶠ self.y)).bind fun τ3 =>
  (Lk.tell (LeakBackend.mulTr F (FieldBackend.relax τ3) (FieldBackend.TWO_TIMES_TWISTED_D F)) (τ3 *ʳ (FieldBackend.TWO_TIMES_TWISTED_D F))).bind fun τ4 =>
  Lk.ret ({ YpX := τ1, YmX := τ2, td := τ4 } : Model.ANiels F)

/-- Translation of `to_extended` with its leakage. Patched src/curve/twedwards/affine.rs:120-130 -/
def ANiels.to_extended (self : Model.ANiels F) : Lk (Model.TwPt F) :=
  (Lk.tell (LeakBackend.subTr self.YpX self.YmX) (self.YpX -ᶠ self.YmX)).bind fun τ1 =>
  let X : F := τ1
  (Lk.tell (LeakBackend.addTr self.YmX self.YpX) (self.YmX +ᶠ self.YpX)).bind fun τ2 =>
  let Y : F := τ2
  (Lk.tell (LeakBackend.addTr (FieldBackend.one : F) (FieldBackend.one : F)) ((FieldBackend.one : F) +ᶠ (FieldBackend.one : F))).bind fun τ3 =>
  let Z : F := τ3
  (Lk.tell (LeakBackend.mulTr F (FieldBackend.relax X) (FieldBackend.relax Z)) (X *ᶠ Z)).bind fun τ4 =>
  (Lk.tell (LeakBackend.mulTr F (FieldBackend.relax Y) (FieldBackend.relax Z)) (Y *ᶠ Z)).bind fun τ5 =>
  (Lk.tell (LeakBackend.mulTr F (FieldBackend.relax Z) (FieldBackend.relax Z)) (Z *ᶠ Z)).bind fun τ6 =>
  (Lk.tell (LeakBackend.mulTr F (FieldBackend.relax X) (FieldBackend.relax Y)) (X *ᶠ Y)).bind fun τ7 =>
  Lk.ret ({ X := τ4, Y := τ5, Z := τ6, T := τ7 } : Model.TwPt F)

/-- Translation of `mul` with its leakage. Patched src/curve/montgomery/montgomery.rs:74-97 -/
def MontgomeryPoint.op_mul_Scalar (self : List ℕ) (scalar : List ℕ) : Lk (List ℕ) :=
  (Lk.fieldFromBytes F self).bind fun τ1 =>
  let affine_u : F := τ1
  let x0 : Model.ProjMont F := (Gen.ProjMont.identity (F := F))
  let x1 : Model.ProjMont F := ({ U := affine_u, W := (FieldBackend.one : F) } : Model.ProjMont F)
  (Scalar.bits scalar).bind fun τ2 =>
  let bits : List Bool := τ2
  let swap : ℕ := (0 : ℕ)
  (Lk.fold (fun (τ3 : (Model.ProjMont F) × (Model.ProjMont F) × (ℕ)) (s : ℕ) =>
  let x0 := τ3.1
  let x1 := τ3.2.1
  let swap := τ3.2.2
  (Lk.idx bits s).bind fun τ4 =>
  let bit : ℕ := (Bool.toNat τ4)
  let choice : ℕ := (swap ^^^ bit)
  (Lk.lift (Gen.Rt.choice choice)).bind fun τ5 =>
  let τ6 := x0
  (ProjMont.conditional_select (F := F) x0 x1 τ5).bind fun τ7 =>
  let x0 := τ7
  (ProjMont.conditional_select (F := F) x1 τ6 τ5).bind fun τ8 =>
  let x1 := τ8
  (montgomery.differential_add_and_double (F := F) x0 x1 affine_u).bind fun τ9 =>
  let τ10 := τ9
  let x0 := τ10.1
  let x1 := τ10.2
  let swap := bit
  Lk.ret (x0, x1, swap)) (x0, x1, swap) (List.reverse (Gen.Rt.range (0 : ℕ) (448 : ℕ)))).bind fun τ11 =>
  let x0 := τ11.1
  let x1 := τ11.2.1
  let swap := τ11.2.2
  (Lk.lift (Gen.Rt.choice swap)).bind fun τ12 =>
  let τ13 := x0
  (ProjMont.conditional_select (F := F) x0 x1 τ12).bind fun τ14 =>
  let x0 := τ14
  (ProjMont.conditional_select (F := F) x1 τ13 τ12).bind fun τ15 =>
  let x1 := τ15
  (ProjMont.to_affine (F := F) x0).bind fun τ16 =>
  Lk.ret τ16

/-- Translation of `mul` with its leakage. Uses a patched function. Patched src/curve/montgomery/montgomery.rs:102-104 -/
def Scalar.op_mul_MontgomeryPoint (self : List ℕ) (point : List ℕ) : Lk (List ℕ) :=
  (MontgomeryPoint.op_mul_Scalar (F := F) point self).bind fun τ1 =>
  Lk.ret τ1

/-- Translation of `is_low_order` with its leakage. Patched src/curve/montgomery/montgomery.rs:115-119 -/
def MontgomeryPoint.is_low_order (self : List ℕ) : Lk Bool :=
  (Lk.fieldFromBytes F self).bind fun τ1 =>
  (Lk.tell (LeakBackend.toBytesTr τ1) (FieldBackend.toBytes τ1).l).bind fun τ2 =>
  let point : List ℕ := τ2
  (Lk.or (Gen.MontgomeryPoint.eq point Gen.C.LOW_A) (
  Lk.ret (Gen.MontgomeryPoint.eq point Gen.C.LOW_B))).bind fun τ3 =>
  (Lk.or τ3 (
  Lk.ret (Gen.MontgomeryPoint.eq point Gen.C.LOW_C))).bind fun τ4 =>
  Lk.ret τ4

end Ed448.Leak.Fix
