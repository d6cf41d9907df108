import Verif.Gen.Leak
import Verif.Gen.Curve
import Verif.Gen.LeakScalar
/-!
# Mechanical translation of src/field/mod.rs, src/curve, src/decaf and src/ristretto with leakage

Generated by tools/rust2lean.py; do not edit. Each definition is the translation of the cited Rust
function in the monad `Lk`, which records the leakage; see `Verif.Gen.Leak`. A function that has no
branch, no loop and no computed address, and calls only such functions, is called without leakage.
-/

set_option linter.all false

namespace Ed448.Leak
open Ed448.Model FieldBackend

variable {F L : Type} [FieldBackend F L] [LeakBackend F L]


/-- Translation of `ct_eq` with its leakage. /repo/src/field/mod.rs:19-21 -/
def Field.ct_eq (self : F) (other : F) : Lk Bool :=
  (Lk.tell (LeakBackend.toBytesTr self) (FieldBackend.toBytes self).l).bind fun τ1 =>
  (Lk.tell (LeakBackend.toBytesTr other) (FieldBackend.toBytes other).l).bind fun τ2 =>
  Lk.ret (τ1 == τ2)

/-- Translation of `eq` with its leakage. /repo/src/field/mod.rs:25-27 -/
def Field.eq (self : F) (other : F) : Lk Bool :=
  (Field.ct_eq (F := F) self other).bind fun τ1 =>
  Lk.ret τ1

/-- Translation of `is_zero` with its leakage. /repo/src/field/mod.rs:33-35 -/
def Field.is_zero (self : F) : Lk Bool :=
  (Field.ct_eq (F := F) self (FieldBackend.zero : F)).bind fun τ1 =>
  Lk.ret τ1

/-- Translation of `square_n` with its leakage. /repo/src/field/mod.rs:61-72 -/
def Field.square_n (self : F) (n : ℕ) : Lk F :=
  (Lk.tell (LeakBackend.squareTr F (FieldBackend.relax self)) (FieldBackend.square self)).bind fun τ1 =>
  let result : F := τ1
  (Lk.lift (ckSub n (1 : ℕ))).bind fun τ2 =>
  let n := τ2
  (Lk.fold (fun (τ3 : (F)) (_ : ℕ) =>
  let result := τ3
  (Lk.tell (LeakBackend.squareTr F (FieldBackend.relax result)) (FieldBackend.square result)).bind fun τ4 =>
  let result := τ4
  Lk.ret (result)) (result) (Gen.Rt.range (0 : ℕ) n)).bind fun τ5 =>
  let result := τ5
  Lk.ret result

/-- Translation of `invert` with its leakage. /repo/src/field/mod.rs:38-59 -/
def Field.invert (self : F) : Lk F :=
  let _1 : F := self
  (Lk.tell (LeakBackend.squareTr F (FieldBackend.relax _1)) (FieldBackend.square _1)).bind fun τ1 =>
  let _10 : F := τ1
  (Lk.tell (LeakBackend.mulTr F (FieldBackend.relax _1) (FieldBackend.relax _10)) (_1 *ᶠ _10)).bind fun τ2 =>
  let _11 : F := τ2
  (Lk.tell (LeakBackend.squareTr F (FieldBackend.relax _11)) (FieldBackend.square _11)).bind fun τ3 =>
  let _110 : F := τ3
  (Lk.tell (LeakBackend.mulTr F (FieldBackend.relax _1) (FieldBackend.relax _110)) (_1 *ᶠ _110)).bind fun τ4 =>
  let _111 : F := τ4
  (Field.square_n (F := F) _111 (3 : ℕ)).bind fun τ5 =>
  let _111000 : F := τ5
  (Lk.tell (LeakBackend.mulTr F (FieldBackend.relax _111) (FieldBackend.relax _111000)) (_111 *ᶠ _111000)).bind fun τ6 =>
  let _111111 : F := τ6
  (Field.square_n (F := F) _111111 (6 : ℕ)).bind fun τ7 =>
  (Lk.tell (LeakBackend.mulTr F (FieldBackend.relax τ7) (FieldBackend.relax _111111)) (τ7 *ᶠ _111111)).bind fun τ8 =>
  let x12 : F := τ8
  (Field.square_n (F := F) x12 (12 : ℕ)).bind fun τ9 =>
  (Lk.tell (LeakBackend.mulTr F (FieldBackend.relax τ9) (FieldBackend.relax x12)) (τ9 *ᶠ x12)).bind fun τ10 =>
  let x24 : F := τ10
  (Field.square_n (F := F) x24 (6 : ℕ)).bind fun τ11 =>
  let i34 : F := τ11
  (Lk.tell (LeakBackend.mulTr F (FieldBackend.relax _111111) (FieldBackend.relax i34)) (_111111 *ᶠ i34)).bind fun τ12 =>
  let x30 : F := τ12
  (Field.square_n (F := F) i34 (18 : ℕ)).bind fun τ13 =>
  (Lk.tell (LeakBackend.mulTr F (FieldBackend.relax τ13) (FieldBackend.relax x24)) (τ13 *ᶠ x24)).bind fun τ14 =>
  let x48 : F := τ14
  (Field.square_n (F := F) x48 (48 : ℕ)).bind fun τ15 =>
  (Lk.tell (LeakBackend.mulTr F (FieldBackend.relax τ15) (FieldBackend.relax x48)) (τ15 *ᶠ x48)).bind fun τ16 =>
  let x96 : F := τ16
  (Field.square_n (F := F) x96 (96 : ℕ)).bind fun τ17 =>
  (Lk.tell (LeakBackend.mulTr F (FieldBackend.relax τ17) (FieldBackend.relax x96)) (τ17 *ᶠ x96)).bind fun τ18 =>
  let x192 : F := τ18
  (Field.square_n (F := F) x192 (30 : ℕ)).bind fun τ19 =>
  (Lk.tell (LeakBackend.mulTr F (FieldBackend.relax τ19) (FieldBackend.relax x30)) (τ19 *ᶠ x30)).bind fun τ20 =>
  let x222 : F := τ20
  (Lk.tell (LeakBackend.squareTr F (FieldBackend.relax x222)) (FieldBackend.square x222)).bind fun τ21 =>
  (Lk.tell (LeakBackend.mulTr F (FieldBackend.relax τ21) (FieldBackend.relax _1)) (τ21 *ᶠ _1)).bind fun τ22 =>
  let x223 : F := τ22
  (Field.square_n (F := F) x223 (223 : ℕ)).bind fun τ23 =>
  (Lk.tell (LeakBackend.mulTr F (FieldBackend.relax τ23) (FieldBackend.relax x222)) (τ23 *ᶠ x222)).bind fun τ24 =>
  (Field.square_n (F := F) τ24 (2 : ℕ)).bind fun τ25 =>
  (Lk.tell (LeakBackend.mulTr F (FieldBackend.relax τ25) (FieldBackend.relax _1)) (τ25 *ᶠ _1)).bind fun τ26 =>
  Lk.ret τ26

/-- Translation of `inverse_square_root` with its leakage. /repo/src/field/mod.rs:77-113 -/
def Field.inverse_square_root (self : F) : Lk (F × Bool) :=
  let τ1 := ((FieldBackend.zero : F), (FieldBackend.zero : F), (FieldBackend.zero : F))
  let l0 : F := τ1.1
  let l1 : F := τ1.2.1
  let l2 : F := τ1.2.2
  (Lk.tell (LeakBackend.squareTr F (FieldBackend.relax self)) (FieldBackend.square self)).bind fun τ2 =>
  let l1 := τ2
  (Lk.tell (LeakBackend.mulTr F (FieldBackend.relax l1) (FieldBackend.relax self)) (l1 *ᶠ self)).bind fun τ3 =>
  let l2 := τ3
  (Lk.tell (LeakBackend.squareTr F (FieldBackend.relax l2)) (FieldBackend.square l2)).bind fun τ4 =>
  let l1 := τ4
  (Lk.tell (LeakBackend.mulTr F (FieldBackend.relax l1) (FieldBackend.relax self)) (l1 *ᶠ self)).bind fun τ5 =>
  let l2 := τ5
  (Field.square_n (F := F) l2 (3 : ℕ)).bind fun τ6 =>
  let l1 := τ6
  (Lk.tell (LeakBackend.mulTr F (FieldBackend.relax l2) (FieldBackend.relax l1)) (l2 *ᶠ l1)).bind fun τ7 =>
  let l0 := τ7
  (Field.square_n (F := F) l0 (3 : ℕ)).bind fun τ8 =>
  let l1 := τ8
  (Lk.tell (LeakBackend.mulTr F (FieldBackend.relax l2) (FieldBackend.relax l1)) (l2 *ᶠ l1)).bind fun τ9 =>
  let l0 := τ9
  (Field.square_n (F := F) l0 (9 : ℕ)).bind fun τ10 =>
  let l2 := τ10
  (Lk.tell (LeakBackend.mulTr F (FieldBackend.relax l0) (FieldBackend.relax l2)) (l0 *ᶠ l2)).bind fun τ11 =>
  let l1 := τ11
  (Lk.tell (LeakBackend.mulTr F (FieldBackend.relax l1) (FieldBackend.relax l1)) (l1 *ᶠ l1)).bind fun τ12 =>
  let l0 := τ12
  (Lk.tell (LeakBackend.mulTr F (FieldBackend.relax l0) (FieldBackend.relax self)) (l0 *ᶠ self)).bind fun τ13 =>
  let l2 := τ13
  (Field.square_n (F := F) l2 (18 : ℕ)).bind fun τ14 =>
  let l0 := τ14
  (Lk.tell (LeakBackend.mulTr F (FieldBackend.relax l1) (FieldBackend.relax l0)) (l1 *ᶠ l0)).bind fun τ15 =>
  let l2 := τ15
  (Field.square_n (F := F) l2 (37 : ℕ)).bind fun τ16 =>
  let l0 := τ16
  (Lk.tell (LeakBackend.mulTr F (FieldBackend.relax l2) (FieldBackend.relax l0)) (l2 *ᶠ l0)).bind fun τ17 =>
  let l1 := τ17
  (Field.square_n (F := F) l1 (37 : ℕ)).bind fun τ18 =>
  let l0 := τ18
  (Lk.tell (LeakBackend.mulTr F (FieldBackend.relax l2) (FieldBackend.relax l0)) (l2 *ᶠ l0)).bind fun τ19 =>
  let l1 := τ19
  (Field.square_n (F := F) l1 (111 : ℕ)).bind fun τ20 =>
  let l0 := τ20
  (Lk.tell (LeakBackend.mulTr F (FieldBackend.relax l1) (FieldBackend.relax l0)) (l1 *ᶠ l0)).bind fun τ21 =>
  let l2 := τ21
  (Lk.tell (LeakBackend.squareTr F (FieldBackend.relax l2)) (FieldBackend.square l2)).bind fun τ22 =>
  let l0 := τ22
  (Lk.tell (LeakBackend.mulTr F (FieldBackend.relax l0) (FieldBackend.relax self)) (l0 *ᶠ self)).bind fun τ23 =>
  let l1 := τ23
  (Field.square_n (F := F) l1 (223 : ℕ)).bind fun τ24 =>
  let l0 := τ24
  (Lk.tell (LeakBackend.mulTr F (FieldBackend.relax l2) (FieldBackend.relax l0)) (l2 *ᶠ l0)).bind fun τ25 =>
  let l1 := τ25
  (Lk.tell (LeakBackend.squareTr F (FieldBackend.relax l1)) (FieldBackend.square l1)).bind fun τ26 =>
  let l2 := τ26
  (Lk.tell (LeakBackend.mulTr F (FieldBackend.relax l2) (FieldBackend.relax self)) (l2 *ᶠ self)).bind fun τ27 =>
  let l0 := τ27
  (Field.ct_eq (F := F) l0 (FieldBackend.one : F)).bind fun τ28 =>
  let is_residue : Bool := τ28
  Lk.ret (l1, is_residue)

/-- Translation of `sqrt_ratio` with its leakage. /repo/src/field/mod.rs:116-125 -/
def Field.sqrt_ratio (u : F) (v : F) : Lk (F × Bool) :=
  (Lk.tell (LeakBackend.mulTr F (FieldBackend.relax u) (FieldBackend.relax v)) (u *ᶠ v)).bind fun τ1 =>
  let x : F := τ1
  (Field.inverse_square_root (F := F) x).bind fun τ2 =>
  let τ3 := τ2
  let inv_sqrt_x : F := τ3.1
  let is_res : Bool := τ3.2
  (Field.ct_eq (F := F) u (FieldBackend.zero : F)).bind fun τ4 =>
  let zero_u : Bool := τ4
  (Lk.tell (LeakBackend.mulTr F (FieldBackend.relax inv_sqrt_x) (FieldBackend.relax u)) (inv_sqrt_x *ᶠ u)).bind fun τ5 =>
  Lk.ret (τ5, (or zero_u is_res))

/-- Translation of `to_extended` with its leakage. /repo/src/curve/edwards/affine.rs:17-24 -/
def EdAff.to_extended (self : Model.EdAff F) : Lk (Model.EdPt F) :=
  (Lk.tell (LeakBackend.mulTr F (FieldBackend.relax self.x) (FieldBackend.relax self.y)) (self.x *ᶠ self.y)).bind fun τ1 =>
  Lk.ret ({ X := self.x, Y := self.y, Z := (FieldBackend.one : F), T := τ1 } : Model.EdPt F)

/-- Translation of `conditional_select` with its leakage. /repo/src/curve/edwards/extended.rs:28-35 -/
def EdPt.conditional_select (a : Model.EdPt F) (b : Model.EdPt F) (choice : Bool) : Lk (Model.EdPt F) :=
  (Lk.tell (LeakBackend.selectTr a.X b.X choice) (FieldBackend.select a.X b.X choice)).bind fun τ1 =>
  (Lk.tell (LeakBackend.selectTr a.Y b.Y choice) (FieldBackend.select a.Y b.Y choice)).bind fun τ2 =>
  (Lk.tell (LeakBackend.selectTr a.Z b.Z choice) (FieldBackend.select a.Z b.Z choice)).bind fun τ3 =>
  (Lk.tell (LeakBackend.selectTr a.T b.T choice) (FieldBackend.select a.T b.T choice)).bind fun τ4 =>
  Lk.ret ({ X := τ1, Y := τ2, Z := τ3, T := τ4 } : Model.EdPt F)

/-- Translation of `decompress` with its leakage. /repo/src/curve/edwards/extended.rs:41-66 -/
def CompressedEdwardsY.decompress (self : List ℕ) : Lk (Option (Model.EdPt F)) :=
  (Lk.lift ((Gen.Rt.splitLast self))).bind fun τ1 =>
  let τ2 := τ1
  let sign : ℕ := τ2.1
  let b : List ℕ := τ2.2
  let y_bytes : List ℕ := (List.replicate 56 (0 : ℕ))
  (Lk.lift (Gen.Rt.copyFrom y_bytes b)).bind fun τ3 =>
  let y_bytes := τ3
  (Lk.fieldFromBytes F y_bytes).bind fun τ4 =>
  let y : F := τ4
  (Lk.tell (LeakBackend.squareTr F (FieldBackend.relax y)) (FieldBackend.square y)).bind fun τ5 =>
  let yy : F := τ5
  (Lk.tell (LeakBackend.mulTr F (FieldBackend.EDWARDS_D F) (FieldBackend.relax yy)) ((FieldBackend.EDWARDS_D F) *ˡ yy)).bind fun τ6 =>
  let dyy : F := τ6
  (Lk.tell (LeakBackend.subTr (FieldBackend.one : F) yy) ((FieldBackend.one : F) -ᶠ yy)).bind fun τ7 =>
  let numerator : F := τ7
  (Lk.tell (LeakBackend.subTr (FieldBackend.one : F) dyy) ((FieldBackend.one : F) -ᶠ dyy)).bind fun τ8 =>
  let denominator : F := τ8
  (Field.sqrt_ratio (F := F) numerator denominator).bind fun τ9 =>
  let τ10 := τ9
  let x : F := τ10.1
  let is_res : Bool := τ10.2
  Lk.ite (!((Bool.toNat is_res) == (1 : ℕ))) (
  Lk.ret (none : Option (Model.EdPt F))) (
  (Lk.lift (Gen.Rt.choice (sign >>> 7))).bind fun τ11 =>
  let compressed_sign_bit : Bool := τ11
  (Lk.tell (LeakBackend.toBytesTr x) (FieldBackend.isNegative x)).bind fun τ12 =>
  let is_negative : Bool := τ12
  (Lk.tell (LeakBackend.condNegateTr x (xor compressed_sign_bit is_negative)) (FieldBackend.condNegate x (xor compressed_sign_bit is_negative))).bind fun τ13 =>
  let x := τ13
  (EdAff.to_extended (F := F) ({ x := x, y := y } : Model.EdAff F)).bind fun τ14 =>
  Lk.ret (some τ14))

/-- Translation of `ct_eq` with its leakage. /repo/src/curve/edwards/extended.rs:70-78 -/
def EdPt.ct_eq (self : Model.EdPt F) (other : Model.EdPt F) : Lk Bool :=
  (Lk.tell (LeakBackend.mulTr F (FieldBackend.relax self.X) (FieldBackend.relax other.Z)) (self.X *ᶠ other.Z)).bind fun τ1 =>
  let XZ : F := τ1
  (Lk.tell (LeakBackend.mulTr F (FieldBackend.relax self.Z) (FieldBackend.relax other.X)) (self.Z *ᶠ other.X)).bind fun τ2 =>
  let ZX : F := τ2
  (Lk.tell (LeakBackend.mulTr F (FieldBackend.relax self.Y) (FieldBackend.relax other.Z)) (self.Y *ᶠ other.Z)).bind fun τ3 =>
  let YZ : F := τ3
  (Lk.tell (LeakBackend.mulTr F (FieldBackend.relax self.Z) (FieldBackend.relax other.Y)) (self.Z *ᶠ other.Y)).bind fun τ4 =>
  let ZY : F := τ4
  (Field.ct_eq (F := F) XZ ZX).bind fun τ5 =>
  (Field.ct_eq (F := F) YZ ZY).bind fun τ6 =>
  Lk.ret (and τ5 τ6)

/-- Translation of `eq` with its leakage. /repo/src/curve/edwards/extended.rs:82-84 -/
def EdPt.eq (self : Model.EdPt F) (other : Model.EdPt F) : Lk Bool :=
  (EdPt.ct_eq (F := F) self other).bind fun τ1 =>
  Lk.ret τ1

/-- Translation of `to_affine` with its leakage. /repo/src/curve/edwards/extended.rs:230-240 -/
def EdPt.to_affine (self : Model.EdPt F) : Lk (Model.EdAff F) :=
  (Field.invert (F := F) self.Z).bind fun τ1 =>
  let INV_Z : F := τ1
  (Lk.tell (LeakBackend.mulTr F (FieldBackend.relax self.X) (FieldBackend.relax INV_Z)) (self.X *ᶠ INV_Z)).bind fun τ2 =>
  let x : F := τ2
  (Lk.tell (LeakBackend.strongReduceTr x) (FieldBackend.strongReduce x)).bind fun τ3 =>
  let x := τ3
  (Lk.tell (LeakBackend.mulTr F (FieldBackend.relax self.Y) (FieldBackend.relax INV_Z)) (self.Y *ᶠ INV_Z)).bind fun τ4 =>
  let y : F := τ4
  (Lk.tell (LeakBackend.strongReduceTr y) (FieldBackend.strongReduce y)).bind fun τ5 =>
  let y := τ5
  Lk.ret ({ x := x, y := y } : Model.EdAff F)

/-- Translation of `to_montgomery` with its leakage. /repo/src/curve/edwards/extended.rs:109-120 -/
def EdPt.to_montgomery (self : Model.EdPt F) : Lk (List ℕ) :=
  (EdPt.to_affine (F := F) self).bind fun τ1 =>
  let affine : Model.EdAff F := τ1
  (Lk.tell (LeakBackend.squareTr F (FieldBackend.relax affine.y)) (FieldBackend.square affine.y)).bind fun τ2 =>
  let yy : F := τ2
  (Lk.tell (LeakBackend.mulTr F (FieldBackend.EDWARDS_D F) (FieldBackend.relax yy)) ((FieldBackend.EDWARDS_D F) *ˡ yy)).bind fun τ3 =>
  let dyy : F := τ3
  (Lk.tell (LeakBackend.subTr (FieldBackend.one : F) dyy) ((FieldBackend.one : F) -ᶠ dyy)).bind fun τ4 =>
  (Lk.tell (LeakBackend.mulTr F (FieldBackend.relax yy) (FieldBackend.relax τ4)) (yy *ᶠ τ4)).bind fun τ5 =>
  (Lk.tell (LeakBackend.subTr (FieldBackend.one : F) yy) ((FieldBackend.one : F) -ᶠ yy)).bind fun τ6 =>
  (Field.invert (F := F) τ6).bind fun τ7 =>
  (Lk.tell (LeakBackend.mulTr F (FieldBackend.relax τ5) (FieldBackend.relax τ7)) (τ5 *ᶠ τ7)).bind fun τ8 =>
  let u : F := τ8
  (Lk.tell (LeakBackend.toBytesTr u) (FieldBackend.toBytes u).l).bind fun τ9 =>
  Lk.ret τ9

/-- Translation of `edwards_isogeny` with its leakage. /repo/src/curve/edwards/extended.rs:244-267 -/
def EdPt.edwards_isogeny (self : Model.EdPt F) (a : L) : Lk (Model.TwPt F) :=
  (EdPt.to_affine (F := F) self).bind fun τ1 =>
  let affine : Model.EdAff F := τ1
  let x : F := affine.x
  let y : F := affine.y
  (Lk.tell (LeakBackend.mulTr F (FieldBackend.relax x) (FieldBackend.relax y)) (x *ᶠ y)).bind fun τ2 =>
  let xy : F := τ2
  (Lk.tell (LeakBackend.addTr xy xy) (xy +ᶠ xy)).bind fun τ3 =>
  let x_numerator : F := τ3
  (Lk.tell (LeakBackend.squareTr F (FieldBackend.relax y)) (FieldBackend.square y)).bind fun τ4 =>
  (Lk.tell (LeakBackend.squareTr F (FieldBackend.relax x)) (FieldBackend.square x)).bind fun τ5 =>
  (Lk.tell (LeakBackend.mulTr F a (FieldBackend.relax τ5)) (a *ˡ τ5)).bind fun τ6 =>
  (Lk.tell (LeakBackend.subTr τ4 τ6) (τ4 -ᶠ τ6)).bind fun τ7 =>
  let x_denom : F := τ7
  (Field.invert (F := F) x_denom).bind fun τ8 =>
  (Lk.tell (LeakBackend.mulTr F (FieldBackend.relax x_numerator) (FieldBackend.relax τ8)) (x_numerator *ᶠ τ8)).bind fun τ9 =>
  let new_x : F := τ9
  (Lk.tell (LeakBackend.squareTr F (FieldBackend.relax y)) (FieldBackend.square y)).bind fun τ10 =>
  (Lk.tell (LeakBackend.squareTr F (FieldBackend.relax x)) (FieldBackend.square x)).bind fun τ11 =>
  (Lk.tell (LeakBackend.mulTr F a (FieldBackend.relax τ11)) (a *ˡ τ11)).bind fun τ12 =>
  (Lk.tell (LeakBackend.addTr τ10 τ12) (τ10 +ᶠ τ12)).bind fun τ13 =>
  let y_numerator : F := τ13
  (Lk.tell (LeakBackend.addTr (FieldBackend.one : F) (FieldBackend.one : F)) ((FieldBackend.one : F) +ᶠ (FieldBackend.one : F))).bind fun τ14 =>
  (Lk.tell (LeakBackend.squareTr F (FieldBackend.relax y)) (FieldBackend.square y)).bind fun τ15 =>
  (Lk.tell (LeakBackend.subTr τ14 τ15) (τ14 -ᶠ τ15)).bind fun τ16 =>
  (Lk.tell (LeakBackend.squareTr F (FieldBackend.relax x)) (FieldBackend.square x)).bind fun τ17 =>
  (Lk.tell (LeakBackend.mulTr F a (FieldBackend.relax τ17)) (a *ˡ τ17)).bind fun τ18 =>
  (Lk.tell (LeakBackend.subTr τ16 τ18) (τ16 -ᶠ τ18)).bind fun τ19 =>
  let y_denom : F := τ19
  (Field.invert (F := F) y_denom).bind fun τ20 =>
  (Lk.tell (LeakBackend.mulTr F (FieldBackend.relax y_numerator) (FieldBackend.relax τ20)) (y_numerator *ᶠ τ20)).bind fun τ21 =>
  let new_y : F := τ21
  (Lk.tell (LeakBackend.mulTr F (FieldBackend.relax new_x) (FieldBackend.relax new_y)) (new_x *ᶠ new_y)).bind fun τ22 =>
  Lk.ret ({ X := new_x, Y := new_y, Z := (FieldBackend.one : F), T := τ22 } : Model.TwPt F)

/-- Translation of `to_twisted` with its leakage. /repo/src/curve/edwards/extended.rs:268-270 -/
def EdPt.to_twisted (self : Model.EdPt F) : Lk (Model.TwPt F) :=
  (EdPt.edwards_isogeny (F := F) self (FieldBackend.relax (FieldBackend.one : F))).bind fun τ1 =>
  Lk.ret τ1

/-- Translation of `to_extensible` with its leakage. /repo/src/curve/twedwards/extended.rs:78-86 -/
def TwPt.to_extensible (self : Model.TwPt F) : Lk (Model.TwExt F) :=
  Lk.ret ({ X := self.X, Y := self.Y, Z := self.Z, T1 := self.T, T2 := (FieldBackend.one : F) } : Model.TwExt F)

/-- Translation of `to_projective_niels` with its leakage. /repo/src/curve/twedwards/extensible.rs:167-174 -/
def TwExt.to_projective_niels (self : Model.TwExt F) : Lk (Model.PNiels F) :=
  (Lk.tell (LeakBackend.addTr self.X self.Y) (self.X +ᶠ self.Y)).bind fun τ1 =>
  (Lk.tell (LeakBackend.subTr self.Y self.X) (self.Y -ᶠ self.X)).bind fun τ2 =>
  (Lk.tell (LeakBackend.addTr self.Z self.Z) (self.Z +ᶠ self.Z)).bind fun τ3 =>
  (Lk.tell (LeakBackend.mulTr F (FieldBackend.relax self.T1) (FieldBackend.relax self.T2)) (self.T1 *ᶠ self.T2)).bind fun τ4 =>
  (Lk.tell (LeakBackend.mulTr F (FieldBackend.relax τ4) (FieldBackend.TWO_TIMES_TWISTED_D F)) (τ4 *ʳ (FieldBackend.TWO_TIMES_TWISTED_D F))).bind fun τ5 =>
  Lk.ret ({ YpX := τ1, YmX := τ2, Z := τ3, Td := τ5 } : Model.PNiels F)

/-- Translation of `add_projective_niels` with its leakage. /repo/src/curve/twedwards/extensible.rs:138-156 -/
def TwExt.add_projective_niels (self : Model.TwExt F) (other : Model.PNiels F) : Lk (Model.TwExt F) :=
  (Lk.tell (LeakBackend.mulTr F (FieldBackend.relax self.Z) (FieldBackend.relax other.Z)) (self.Z *ᶠ other.Z)).bind fun τ1 =>
  let Z : F := τ1
  (Lk.tell (LeakBackend.subTr self.Y self.X) (self.Y -ᶠ self.X)).bind fun τ2 =>
  (Lk.tell (LeakBackend.mulTr F (FieldBackend.relax τ2) (FieldBackend.relax other.YmX)) (τ2 *ᶠ other.YmX)).bind fun τ3 =>
  let A : F := τ3
  (Lk.tell (LeakBackend.addTr self.Y self.X) (self.Y +ᶠ self.X)).bind fun τ4 =>
  (Lk.tell (LeakBackend.mulTr F (FieldBackend.relax τ4) (FieldBackend.relax other.YpX)) (τ4 *ᶠ other.YpX)).bind fun τ5 =>
  let B : F := τ5
  (Lk.tell (LeakBackend.mulTr F (FieldBackend.relax other.Td) (FieldBackend.relax self.T1)) (other.Td *ᶠ self.T1)).bind fun τ6 =>
  (Lk.tell (LeakBackend.mulTr F (FieldBackend.relax τ6) (FieldBackend.relax self.T2)) (τ6 *ᶠ self.T2)).bind fun τ7 =>
  let C : F := τ7
  (Lk.tell (LeakBackend.addTr B A) (B +ᶠ A)).bind fun τ8 =>
  let D : F := τ8
  (Lk.tell (LeakBackend.subTr B A) (B -ᶠ A)).bind fun τ9 =>
  let E : F := τ9
  (Lk.tell (LeakBackend.subTr Z C) (Z -ᶠ C)).bind fun τ10 =>
  let F' : F := τ10
  (Lk.tell (LeakBackend.addTr Z C) (Z +ᶠ C)).bind fun τ11 =>
  let G : F := τ11
  (Lk.tell (LeakBackend.mulTr F (FieldBackend.relax E) (FieldBackend.relax F')) (E *ᶠ F')).bind fun τ12 =>
  (Lk.tell (LeakBackend.mulTr F (FieldBackend.relax G) (FieldBackend.relax D)) (G *ᶠ D)).bind fun τ13 =>
  (Lk.tell (LeakBackend.mulTr F (FieldBackend.relax F') (FieldBackend.relax G)) (F' *ᶠ G)).bind fun τ14 =>
  Lk.ret ({ X := τ12, Y := τ13, Z := τ14, T1 := E, T2 := D } : Model.TwExt F)

/-- Translation of `from` with its leakage. /repo/src/curve/scalar_mul/window/wnaf/mod.rs:11-21 -/
def LookupTable.from (point : Model.TwPt F) : Lk (List (Model.PNiels F)) :=
  let P : Model.TwExt F := (Gen.TwPt.to_extensible (F := F) point)
  (TwExt.to_projective_niels (F := F) P).bind fun τ1 =>
  let table : List (Model.PNiels F) := (List.replicate 8 τ1)
  (Lk.fold (fun (τ2 : (List (Model.PNiels F))) (i : ℕ) =>
  let table := τ2
  (Lk.lift (ckSub i (1 : ℕ))).bind fun τ3 =>
  (Lk.idx table τ3).bind fun τ4 =>
  (TwExt.add_projective_niels (F := F) P τ4).bind fun τ5 =>
  (TwExt.to_projective_niels (F := F) τ5).bind fun τ6 =>
  (Lk.put table i τ6).bind fun τ7 =>
  let table := τ7
  Lk.ret (table)) (table) (Gen.Rt.range (1 : ℕ) (8 : ℕ))).bind fun τ8 =>
  let table := τ8
  Lk.ret table

/-- Translation of `double` with its leakage. /repo/src/curve/twedwards/extensible.rs:53-69 -/
def TwExt.double (self : Model.TwExt F) : Lk (Model.TwExt F) :=
  (Lk.tell (LeakBackend.squareTr F (FieldBackend.relax self.X)) (FieldBackend.square self.X)).bind fun τ1 =>
  let A : F := τ1
  (Lk.tell (LeakBackend.squareTr F (FieldBackend.relax self.Y)) (FieldBackend.square self.Y)).bind fun τ2 =>
  let B : F := τ2
  (Lk.tell (LeakBackend.squareTr F (FieldBackend.relax self.Z)) (FieldBackend.square self.Z)).bind fun τ3 =>
  (Lk.tell (LeakBackend.squareTr F (FieldBackend.relax self.Z)) (FieldBackend.square self.Z)).bind fun τ4 =>
  (Lk.tell (LeakBackend.addTr τ3 τ4) (τ3 +ᶠ τ4)).bind fun τ5 =>
  let C : F := τ5
  (Lk.tell (LeakBackend.negateTr A) (FieldBackend.negate A)).bind fun τ6 =>
  let D : F := τ6
  (Lk.tell (LeakBackend.addTr self.X self.Y) (self.X +ᶠ self.Y)).bind fun τ7 =>
  (Lk.tell (LeakBackend.squareTr F (FieldBackend.relax τ7)) (FieldBackend.square τ7)).bind fun τ8 =>
  (Lk.tell (LeakBackend.subTr τ8 A) (τ8 -ᶠ A)).bind fun τ9 =>
  (Lk.tell (LeakBackend.subTr τ9 B) (τ9 -ᶠ B)).bind fun τ10 =>
  let E : F := τ10
  (Lk.tell (LeakBackend.addTr D B) (D +ᶠ B)).bind fun τ11 =>
  let G : F := τ11
  (Lk.tell (LeakBackend.subTr G C) (G -ᶠ C)).bind fun τ12 =>
  let F' : F := τ12
  (Lk.tell (LeakBackend.subTr D B) (D -ᶠ B)).bind fun τ13 =>
  let H : F := τ13
  (Lk.tell (LeakBackend.mulTr F (FieldBackend.relax E) (FieldBackend.relax F')) (E *ᶠ F')).bind fun τ14 =>
  (Lk.tell (LeakBackend.mulTr F (FieldBackend.relax G) (FieldBackend.relax H)) (G *ᶠ H)).bind fun τ15 =>
  (Lk.tell (LeakBackend.mulTr F (FieldBackend.relax F') (FieldBackend.relax G)) (F' *ᶠ G)).bind fun τ16 =>
  Lk.ret ({ X := τ14, Y := τ15, Z := τ16, T1 := E, T2 := H } : Model.TwExt F)

/-- Translation of `identity` with its leakage. /repo/src/curve/twedwards/projective.rs:48-50 -/
def PNiels.identity  : Lk (Model.PNiels F) :=
  (TwExt.to_projective_niels (F := F) (Gen.TwExt.identity (F := F))).bind fun τ1 =>
  Lk.ret τ1

/-- Translation of `conditional_select` with its leakage. /repo/src/curve/twedwards/projective.rs:31-38 -/
def PNiels.conditional_select (a : Model.PNiels F) (b : Model.PNiels F) (choice : Bool) : Lk (Model.PNiels F) :=
  (Lk.tell (LeakBackend.selectTr a.YpX b.YpX choice) (FieldBackend.select a.YpX b.YpX choice)).bind fun τ1 =>
  (Lk.tell (LeakBackend.selectTr a.YmX b.YmX choice) (FieldBackend.select a.YmX b.YmX choice)).bind fun τ2 =>
  (Lk.tell (LeakBackend.selectTr a.Td b.Td choice) (FieldBackend.select a.Td b.Td choice)).bind fun τ3 =>
  (Lk.tell (LeakBackend.selectTr a.Z b.Z choice) (FieldBackend.select a.Z b.Z choice)).bind fun τ4 =>
  Lk.ret ({ YpX := τ1, YmX := τ2, Td := τ3, Z := τ4 } : Model.PNiels F)

/-- Translation of `select` with its leakage. /repo/src/curve/scalar_mul/window/wnaf/mod.rs:26-34 -/
def LookupTable.select (self : List (Model.PNiels F)) (index : ℕ) : Lk (Model.PNiels F) :=
  (PNiels.identity (F := F)).bind fun τ1 =>
  let result : Model.PNiels F := τ1
  (Lk.fold (fun (τ2 : (Model.PNiels F)) (i : ℕ) =>
  let result := τ2
  let swap : Bool := (index == (i % 2 ^ 32))
  (Lk.lift (ckSub i (1 : ℕ))).bind fun τ3 =>
  (Lk.idx self τ3).bind fun τ4 =>
  (PNiels.conditional_select (F := F) result τ4 swap).bind fun τ5 =>
  let result := τ5
  Lk.ret (result)) (result) (Gen.Rt.range (1 : ℕ) (9 : ℕ))).bind fun τ6 =>
  let result := τ6
  Lk.ret result

/-- Translation of `conditional_negate` with its leakage. /repo/src/curve/twedwards/projective.rs:41-44 -/
def PNiels.conditional_negate (self : Model.PNiels F) (choice : Bool) : Lk (Model.PNiels F) :=
  let τ1 := self.YmX
  (Lk.tell (LeakBackend.selectTr self.YmX self.YpX choice) (FieldBackend.select self.YmX self.YpX choice)).bind fun τ2 =>
  let self := { self with YmX := τ2 }
  (Lk.tell (LeakBackend.selectTr self.YpX τ1 choice) (FieldBackend.select self.YpX τ1 choice)).bind fun τ3 =>
  let self := { self with YpX := τ3 }
  (Lk.tell (LeakBackend.condNegateTr self.Td choice) (FieldBackend.condNegate self.Td choice)).bind fun τ4 =>
  let self := { self with Td := τ4 }
  Lk.ret (self)

/-- Translation of `to_extended` with its leakage. /repo/src/curve/twedwards/extensible.rs:158-165 -/
def TwExt.to_extended (self : Model.TwExt F) : Lk (Model.TwPt F) :=
  (Lk.tell (LeakBackend.mulTr F (FieldBackend.relax self.T1) (FieldBackend.relax self.T2)) (self.T1 *ᶠ self.T2)).bind fun τ1 =>
  Lk.ret ({ X := self.X, Y := self.Y, Z := self.Z, T := τ1 } : Model.TwPt F)

/-- Translation of `variable_base` with its leakage. /repo/src/curve/scalar_mul/variable_base.rs:8-35 -/
def variable_base.variable_base (point : Model.TwPt F) (s : List ℕ) : Lk (Model.TwPt F) :=
  let result : Model.TwExt F := (Gen.TwExt.identity (F := F))
  (Scalar.to_radix_16 s).bind fun τ1 =>
  let scalar : List ℤ := τ1
  (LookupTable.from (F := F) point).bind fun τ2 =>
  let lookup : List (Model.PNiels F) := τ2
  (Lk.fold (fun (τ3 : (Model.TwExt F)) (i : ℕ) =>
  let result := τ3
  (TwExt.double (F := F) result).bind fun τ4 =>
  let result := τ4
  (TwExt.double (F := F) result).bind fun τ5 =>
  let result := τ5
  (TwExt.double (F := F) result).bind fun τ6 =>
  let result := τ6
  (TwExt.double (F := F) result).bind fun τ7 =>
  let result := τ7
  (Lk.idx scalar i).bind fun τ8 =>
  let mask : ℤ := (sarZ τ8 7)
  let sign : ℤ := (Gen.Rt.andZ 8 mask (1 : ℤ))
  (Lk.idx scalar i).bind fun τ9 =>
  (Lk.lift (ckI8 (τ9 + mask))).bind fun τ10 =>
  let abs_value : ℕ := (Gen.Rt.asU 32 (Gen.Rt.xorZ 8 τ10 mask))
  (LookupTable.select (F := F) lookup abs_value).bind fun τ11 =>
  let neg_P : Model.PNiels F := τ11
  (Lk.lift (Gen.Rt.choice (Gen.Rt.asU 8 sign))).bind fun τ12 =>
  (PNiels.conditional_negate (F := F) neg_P τ12).bind fun τ13 =>
  let neg_P := τ13
  (TwExt.add_projective_niels (F := F) result neg_P).bind fun τ14 =>
  let result := τ14
  Lk.ret (result)) (result) (List.reverse (Gen.Rt.range (0 : ℕ) (113 : ℕ)))).bind fun τ15 =>
  let result := τ15
  (TwExt.to_extended (F := F) result).bind fun τ16 =>
  Lk.ret τ16

/-- Translation of `to_affine` with its leakage. /repo/src/curve/twedwards/extended.rs:89-102 -/
def TwPt.to_affine (self : Model.TwPt F) : Lk (Model.TwAff F) :=
  (Field.invert (F := F) self.Z).bind fun τ1 =>
  let INV_Z : F := τ1
  (Lk.tell (LeakBackend.mulTr F (FieldBackend.relax self.X) (FieldBackend.relax INV_Z)) (self.X *ᶠ INV_Z)).bind fun τ2 =>
  let x : F := τ2
  (Lk.tell (LeakBackend.strongReduceTr x) (FieldBackend.strongReduce x)).bind fun τ3 =>
  let x := τ3
  (Lk.tell (LeakBackend.mulTr F (FieldBackend.relax self.Y) (FieldBackend.relax INV_Z)) (self.Y *ᶠ INV_Z)).bind fun τ4 =>
  let y : F := τ4
  (Lk.tell (LeakBackend.strongReduceTr y) (FieldBackend.strongReduce y)).bind fun τ5 =>
  let y := τ5
  Lk.ret ({ x := x, y := y } : Model.TwAff F)

/-- Translation of `edwards_isogeny` with its leakage. /repo/src/curve/twedwards/extended.rs:107-130 -/
def TwPt.edwards_isogeny (self : Model.TwPt F) (a : L) : Lk (Model.EdPt F) :=
  (TwPt.to_affine (F := F) self).bind fun τ1 =>
  let affine : Model.TwAff F := τ1
  let x : F := affine.x
  let y : F := affine.y
  (Lk.tell (LeakBackend.mulTr F (FieldBackend.relax x) (FieldBackend.relax y)) (x *ᶠ y)).bind fun τ2 =>
  let xy : F := τ2
  (Lk.tell (LeakBackend.addTr xy xy) (xy +ᶠ xy)).bind fun τ3 =>
  let x_numerator : F := τ3
  (Lk.tell (LeakBackend.squareTr F (FieldBackend.relax y)) (FieldBackend.square y)).bind fun τ4 =>
  (Lk.tell (LeakBackend.squareTr F (FieldBackend.relax x)) (FieldBackend.square x)).bind fun τ5 =>
  (Lk.tell (LeakBackend.mulTr F a (FieldBackend.relax τ5)) (a *ˡ τ5)).bind fun τ6 =>
  (Lk.tell (LeakBackend.subTr τ4 τ6) (τ4 -ᶠ τ6)).bind fun τ7 =>
  let x_denom : F := τ7
  (Field.invert (F := F) x_denom).bind fun τ8 =>
  (Lk.tell (LeakBackend.mulTr F (FieldBackend.relax x_numerator) (FieldBackend.relax τ8)) (x_numerator *ᶠ τ8)).bind fun τ9 =>
  let new_x : F := τ9
  (Lk.tell (LeakBackend.squareTr F (FieldBackend.relax y)) (FieldBackend.square y)).bind fun τ10 =>
  (Lk.tell (LeakBackend.squareTr F (FieldBackend.relax x)) (FieldBackend.square x)).bind fun τ11 =>
  (Lk.tell (LeakBackend.mulTr F a (FieldBackend.relax τ11)) (a *ˡ τ11)).bind fun τ12 =>
  (Lk.tell (LeakBackend.addTr τ10 τ12) (τ10 +ᶠ τ12)).bind fun τ13 =>
  let y_numerator : F := τ13
  (Lk.tell (LeakBackend.addTr (FieldBackend.one : F) (FieldBackend.one : F)) ((FieldBackend.one : F) +ᶠ (FieldBackend.one : F))).bind fun τ14 =>
  (Lk.tell (LeakBackend.squareTr F (FieldBackend.relax y)) (FieldBackend.square y)).bind fun τ15 =>
  (Lk.tell (LeakBackend.subTr τ14 τ15) (τ14 -ᶠ τ15)).bind fun τ16 =>
  (Lk.tell (LeakBackend.squareTr F (FieldBackend.relax x)) (FieldBackend.square x)).bind fun τ17 =>
  (Lk.tell (LeakBackend.mulTr F a (FieldBackend.relax τ17)) (a *ˡ τ17)).bind fun τ18 =>
  (Lk.tell (LeakBackend.subTr τ16 τ18) (τ16 -ᶠ τ18)).bind fun τ19 =>
  let y_denom : F := τ19
  (Field.invert (F := F) y_denom).bind fun τ20 =>
  (Lk.tell (LeakBackend.mulTr F (FieldBackend.relax y_numerator) (FieldBackend.relax τ20)) (y_numerator *ᶠ τ20)).bind fun τ21 =>
  let new_y : F := τ21
  (Lk.tell (LeakBackend.mulTr F (FieldBackend.relax new_x) (FieldBackend.relax new_y)) (new_x *ᶠ new_y)).bind fun τ22 =>
  Lk.ret ({ X := new_x, Y := new_y, Z := (FieldBackend.one : F), T := τ22 } : Model.EdPt F)

/-- Translation of `to_untwisted` with its leakage. /repo/src/curve/twedwards/extended.rs:132-134 -/
def TwPt.to_untwisted (self : Model.TwPt F) : Lk (Model.EdPt F) :=
  (TwPt.edwards_isogeny (F := F) self (FieldBackend.minusOne F)).bind fun τ1 =>
  Lk.ret τ1

/-- Translation of `add` with its leakage. /repo/src/curve/edwards/extended.rs:180-206 -/
def EdPt.add (self : Model.EdPt F) (other : Model.EdPt F) : Lk (Model.EdPt F) :=
  (Lk.tell (LeakBackend.mulTr F (FieldBackend.relax self.X) (FieldBackend.relax other.X)) (self.X *ᶠ other.X)).bind fun τ1 =>
  let aXX : F := τ1
  (Lk.tell (LeakBackend.mulTr F (FieldBackend.EDWARDS_D F) (FieldBackend.relax self.T)) ((FieldBackend.EDWARDS_D F) *ˡ self.T)).bind fun τ2 =>
  (Lk.tell (LeakBackend.mulTr F (FieldBackend.relax τ2) (FieldBackend.relax other.T)) (τ2 *ᶠ other.T)).bind fun τ3 =>
  let dTT : F := τ3
  (Lk.tell (LeakBackend.mulTr F (FieldBackend.relax self.Z) (FieldBackend.relax other.Z)) (self.Z *ᶠ other.Z)).bind fun τ4 =>
  let ZZ : F := τ4
  (Lk.tell (LeakBackend.mulTr F (FieldBackend.relax self.Y) (FieldBackend.relax other.Y)) (self.Y *ᶠ other.Y)).bind fun τ5 =>
  let YY : F := τ5
  ((Lk.tell (LeakBackend.mulTr F (FieldBackend.relax self.X) (FieldBackend.relax other.Y)) (self.X *ᶠ other.Y)).bind fun τ6 =>
  (Lk.tell (LeakBackend.mulTr F (FieldBackend.relax self.Y) (FieldBackend.relax other.X)) (self.Y *ᶠ other.X)).bind fun τ7 =>
  (Lk.tell (LeakBackend.addTr τ6 τ7) (τ6 +ᶠ τ7)).bind fun τ8 =>
  let x_1 : F := τ8
  (Lk.tell (LeakBackend.subTr ZZ dTT) (ZZ -ᶠ dTT)).bind fun τ9 =>
  let x_2 : F := τ9
  (Lk.tell (LeakBackend.mulTr F (FieldBackend.relax x_1) (FieldBackend.relax x_2)) (x_1 *ᶠ x_2)).bind fun τ10 =>
  Lk.ret τ10).bind fun τ11 =>
  let X : F := τ11
  ((Lk.tell (LeakBackend.subTr YY aXX) (YY -ᶠ aXX)).bind fun τ12 =>
  let y_1 : F := τ12
  (Lk.tell (LeakBackend.addTr ZZ dTT) (ZZ +ᶠ dTT)).bind fun τ13 =>
  let y_2 : F := τ13
  (Lk.tell (LeakBackend.mulTr F (FieldBackend.relax y_1) (FieldBackend.relax y_2)) (y_1 *ᶠ y_2)).bind fun τ14 =>
  Lk.ret τ14).bind fun τ15 =>
  let Y : F := τ15
  ((Lk.tell (LeakBackend.subTr YY aXX) (YY -ᶠ aXX)).bind fun τ16 =>
  let t_1 : F := τ16
  (Lk.tell (LeakBackend.mulTr F (FieldBackend.relax self.X) (FieldBackend.relax other.Y)) (self.X *ᶠ other.Y)).bind fun τ17 =>
  (Lk.tell (LeakBackend.mulTr F (FieldBackend.relax self.Y) (FieldBackend.relax other.X)) (self.Y *ᶠ other.X)).bind fun τ18 =>
  (Lk.tell (LeakBackend.addTr τ17 τ18) (τ17 +ᶠ τ18)).bind fun τ19 =>
  let t_2 : F := τ19
  (Lk.tell (LeakBackend.mulTr F (FieldBackend.relax t_1) (FieldBackend.relax t_2)) (t_1 *ᶠ t_2)).bind fun τ20 =>
  Lk.ret τ20).bind fun τ21 =>
  let T : F := τ21
  (Lk.tell (LeakBackend.subTr ZZ dTT) (ZZ -ᶠ dTT)).bind fun τ22 =>
  (Lk.tell (LeakBackend.addTr ZZ dTT) (ZZ +ᶠ dTT)).bind fun τ23 =>
  (Lk.tell (LeakBackend.mulTr F (FieldBackend.relax τ22) (FieldBackend.relax τ23)) (τ22 *ᶠ τ23)).bind fun τ24 =>
  let Z : F := τ24
  Lk.ret ({ X := X, Y := Y, Z := Z, T := T } : Model.EdPt F)

/-- Translation of `double` with its leakage. /repo/src/curve/edwards/extended.rs:210-212 -/
def EdPt.double (self : Model.EdPt F) : Lk (Model.EdPt F) :=
  (EdPt.add (F := F) self self).bind fun τ1 =>
  Lk.ret τ1

/-- Translation of `scalar_mod_four` with its leakage. /repo/src/curve/edwards/extended.rs:134-156 -/
def EdPt.scalar_mod_four (self : Model.EdPt F) (scalar : List ℕ) : Lk (Model.EdPt F) :=
  let s_mod_four : ℕ := ((scalar.getD 0 0) &&& (3 : ℕ))
  let zero_p : Model.EdPt F := (Gen.EdPt.identity (F := F))
  let one_p : Model.EdPt F := self
  (EdPt.double (F := F) one_p).bind fun τ1 =>
  let two_p : Model.EdPt F := τ1
  (EdPt.add (F := F) two_p self).bind fun τ2 =>
  let three_p : Model.EdPt F := τ2
  let result : Model.EdPt F := (Gen.EdPt.identity (F := F))
  (Lk.lift (Gen.Rt.choice (Bool.toNat (s_mod_four == (0 : ℕ))))).bind fun τ3 =>
  (EdPt.conditional_select (F := F) result zero_p τ3).bind fun τ4 =>
  let result := τ4
  (Lk.lift (Gen.Rt.choice (Bool.toNat (s_mod_four == (1 : ℕ))))).bind fun τ5 =>
  (EdPt.conditional_select (F := F) result one_p τ5).bind fun τ6 =>
  let result := τ6
  (Lk.lift (Gen.Rt.choice (Bool.toNat (s_mod_four == (2 : ℕ))))).bind fun τ7 =>
  (EdPt.conditional_select (F := F) result two_p τ7).bind fun τ8 =>
  let result := τ8
  (Lk.lift (Gen.Rt.choice (Bool.toNat (s_mod_four == (3 : ℕ))))).bind fun τ9 =>
  (EdPt.conditional_select (F := F) result three_p τ9).bind fun τ10 =>
  let result := τ10
  Lk.ret result

/-- Translation of `scalar_mul` with its leakage. /repo/src/curve/edwards/extended.rs:122-131 -/
def EdPt.scalar_mul (self : Model.EdPt F) (scalar : List ℕ) : Lk (Model.EdPt F) :=
  let scalar_div_four : List ℕ := scalar
  (Scalar.div_by_four scalar_div_four).bind fun τ1 =>
  let scalar_div_four := τ1
  (EdPt.to_twisted (F := F) self).bind fun τ2 =>
  (variable_base.variable_base (F := F) τ2 scalar_div_four).bind fun τ3 =>
  (TwPt.to_untwisted (F := F) τ3).bind fun τ4 =>
  let partial_result : Model.EdPt F := τ4
  (EdPt.scalar_mod_four (F := F) self scalar).bind fun τ5 =>
  (EdPt.add (F := F) partial_result τ5).bind fun τ6 =>
  Lk.ret τ6

/-- Translation of `compress` with its leakage. /repo/src/curve/edwards/extended.rs:160-176 -/
def EdPt.compress (self : Model.EdPt F) : Lk (List ℕ) :=
  (EdPt.to_affine (F := F) self).bind fun τ1 =>
  let affine : Model.EdAff F := τ1
  let affine_x : F := affine.x
  let affine_y : F := affine.y
  let compressed_bytes : List ℕ := (List.replicate 57 (0 : ℕ))
  (Lk.tell (LeakBackend.toBytesTr affine_x) (FieldBackend.isNegative affine_x)).bind fun τ2 =>
  let sign : ℕ := (Bool.toNat τ2)
  (Lk.tell (LeakBackend.toBytesTr affine_y) (FieldBackend.toBytes affine_y).l).bind fun τ3 =>
  let y_bytes : List ℕ := τ3
  (Lk.fold (fun (τ4 : (List ℕ)) (i : ℕ) =>
  let compressed_bytes := τ4
  (Lk.idx y_bytes i).bind fun τ5 =>
  (Lk.put compressed_bytes i τ5).bind fun τ6 =>
  let compressed_bytes := τ6
  Lk.ret (compressed_bytes)) (compressed_bytes) (Gen.Rt.range (0 : ℕ) (List.length y_bytes))).bind fun τ7 =>
  let compressed_bytes := τ7
  (Lk.lift (Gen.Rt.putLast compressed_bytes (Gen.Rt.shlU 8 sign 7))).bind fun τ8 =>
  let compressed_bytes := τ8
  Lk.ret compressed_bytes

/-- Translation of `is_on_curve` with its leakage. /repo/src/curve/edwards/extended.rs:214-228 -/
def EdPt.is_on_curve (self : Model.EdPt F) : Lk Bool :=
  (Lk.tell (LeakBackend.mulTr F (FieldBackend.relax self.X) (FieldBackend.relax self.Y)) (self.X *ᶠ self.Y)).bind fun τ1 =>
  let XY : F := τ1
  (Lk.tell (LeakBackend.mulTr F (FieldBackend.relax self.Z) (FieldBackend.relax self.T)) (self.Z *ᶠ self.T)).bind fun τ2 =>
  let ZT : F := τ2
  (Lk.tell (LeakBackend.squareTr F (FieldBackend.relax self.Y)) (FieldBackend.square self.Y)).bind fun τ3 =>
  let YY : F := τ3
  (Lk.tell (LeakBackend.squareTr F (FieldBackend.relax self.X)) (FieldBackend.square self.X)).bind fun τ4 =>
  let XX : F := τ4
  (Lk.tell (LeakBackend.squareTr F (FieldBackend.relax self.Z)) (FieldBackend.square self.Z)).bind fun τ5 =>
  let ZZ : F := τ5
  (Lk.tell (LeakBackend.squareTr F (FieldBackend.relax self.T)) (FieldBackend.square self.T)).bind fun τ6 =>
  let TT : F := τ6
  (Lk.tell (LeakBackend.addTr YY XX) (YY +ᶠ XX)).bind fun τ7 =>
  let lhs : F := τ7
  (Lk.tell (LeakBackend.mulTr F (FieldBackend.relax TT) (FieldBackend.EDWARDS_D F)) (TT *ʳ (FieldBackend.EDWARDS_D F))).bind fun τ8 =>
  (Lk.tell (LeakBackend.addTr ZZ τ8) (ZZ +ᶠ τ8)).bind fun τ9 =>
  let rhs : F := τ9
  (Field.eq (F := F) XY ZT).bind fun τ10 =>
  (Lk.and τ10 (
  (Field.eq (F := F) lhs rhs).bind fun τ11 =>
  Lk.ret τ11)).bind fun τ12 =>
  Lk.ret τ12

/-- Translation of `negate` with its leakage. /repo/src/curve/edwards/extended.rs:272-279 -/
def EdPt.negate (self : Model.EdPt F) : Lk (Model.EdPt F) :=
  (Lk.tell (LeakBackend.negateTr self.X) (FieldBackend.negate self.X)).bind fun τ1 =>
  (Lk.tell (LeakBackend.negateTr self.T) (FieldBackend.negate self.T)).bind fun τ2 =>
  Lk.ret ({ X := τ1, Y := self.Y, Z := self.Z, T := τ2 } : Model.EdPt F)

/-- Translation of `torque` with its leakage. /repo/src/curve/edwards/extended.rs:281-288 -/
def EdPt.torque (self : Model.EdPt F) : Lk (Model.EdPt F) :=
  (Lk.tell (LeakBackend.negateTr self.X) (FieldBackend.negate self.X)).bind fun τ1 =>
  (Lk.tell (LeakBackend.negateTr self.Y) (FieldBackend.negate self.Y)).bind fun τ2 =>
  Lk.ret ({ X := τ1, Y := τ2, Z := self.Z, T := self.T } : Model.EdPt F)

/-- Translation of `mul` with its leakage. /repo/src/curve/edwards/extended.rs:401-403 -/
def EdPt.op_mul_Scalar (self : Model.EdPt F) (scalar : List ℕ) : Lk (Model.EdPt F) :=
  (EdPt.scalar_mul (F := F) self scalar).bind fun τ1 =>
  Lk.ret τ1

/-- Translation of `is_torsion_free` with its leakage. /repo/src/curve/edwards/extended.rs:299-301 -/
def EdPt.is_torsion_free (self : Model.EdPt F) : Lk Bool :=
  (EdPt.op_mul_Scalar (F := F) self Gen.C.BASEPOINT_ORDER).bind fun τ1 =>
  (EdPt.eq (F := F) τ1 (Gen.EdPt.identity (F := F))).bind fun τ2 =>
  Lk.ret τ2

/-- Translation of `add` with its leakage. /repo/src/curve/edwards/extended.rs:310-312 -/
def EdPt.op_add (self : Model.EdPt F) (other : Model.EdPt F) : Lk (Model.EdPt F) :=
  (EdPt.add (F := F) self other).bind fun τ1 =>
  Lk.ret τ1

/-- Translation of `add_assign` with its leakage. /repo/src/curve/edwards/extended.rs:322-324 -/
def EdPt.op_add_assign (self : Model.EdPt F) (_rhs : Model.EdPt F) : Lk (Model.EdPt F) :=
  (EdPt.op_add (F := F) self _rhs).bind fun τ1 =>
  let self := τ1
  Lk.ret (self)

/-- Translation of `sub` with its leakage. /repo/src/curve/edwards/extended.rs:331-333 -/
def EdPt.op_sub (self : Model.EdPt F) (other : Model.EdPt F) : Lk (Model.EdPt F) :=
  (EdPt.negate (F := F) other).bind fun τ1 =>
  (EdPt.add (F := F) self τ1).bind fun τ2 =>
  Lk.ret τ2

/-- Translation of `sub_assign` with its leakage. /repo/src/curve/edwards/extended.rs:343-345 -/
def EdPt.op_sub_assign (self : Model.EdPt F) (_rhs : Model.EdPt F) : Lk (Model.EdPt F) :=
  (EdPt.op_sub (F := F) self _rhs).bind fun τ1 =>
  let self := τ1
  Lk.ret (self)

/-- Translation of `sum` with its leakage. /repo/src/curve/edwards/extended.rs:354-359 -/
def EdPt.sum (iter : List (Model.EdPt F)) : Lk (Model.EdPt F) :=
  (Lk.fold (fun (acc : Model.EdPt F) (item : Model.EdPt F) =>
  (EdPt.op_add (F := F) acc item).bind fun τ1 =>
  Lk.ret τ1) (Gen.EdPt.identity (F := F)) iter).bind fun τ2 =>
  Lk.ret τ2

/-- Translation of `neg` with its leakage. /repo/src/curve/edwards/extended.rs:369-371 -/
def EdPt.op_neg (self : Model.EdPt F) : Lk (Model.EdPt F) :=
  (EdPt.negate (F := F) self).bind fun τ1 =>
  Lk.ret τ1

/-- Translation of `neg` with its leakage. /repo/src/curve/edwards/extended.rs:377-379 -/
def EdPt.op_neg2 (self : Model.EdPt F) : Lk (Model.EdPt F) :=
  (EdPt.op_neg (F := F) self).bind fun τ1 =>
  Lk.ret τ1

/-- Translation of `mul_assign` with its leakage. /repo/src/curve/edwards/extended.rs:387-390 -/
def EdPt.op_mul_assign_Scalar (self : Model.EdPt F) (scalar : List ℕ) : Lk (Model.EdPt F) :=
  (EdPt.op_mul_Scalar (F := F) self scalar).bind fun τ1 =>
  let result : Model.EdPt F := τ1
  let self := result
  Lk.ret (self)

/-- Translation of `mul` with its leakage. /repo/src/curve/edwards/extended.rs:410-412 -/
def Scalar.op_mul_EdPt (self : List ℕ) (point : Model.EdPt F) : Lk (Model.EdPt F) :=
  (EdPt.op_mul_Scalar (F := F) point self).bind fun τ1 =>
  Lk.ret τ1

/-- Translation of `add` with its leakage. /repo/src/macros.rs:20-22 -/
def EdPt.op_add2 (self : Model.EdPt F) (rhs : Model.EdPt F) : Lk (Model.EdPt F) :=
  (EdPt.op_add (F := F) self rhs).bind fun τ1 =>
  Lk.ret τ1

/-- Translation of `add` with its leakage. /repo/src/macros.rs:27-29 -/
def EdPt.op_add3 (self : Model.EdPt F) (rhs : Model.EdPt F) : Lk (Model.EdPt F) :=
  (EdPt.op_add (F := F) self rhs).bind fun τ1 =>
  Lk.ret τ1

/-- Translation of `add` with its leakage. /repo/src/macros.rs:34-36 -/
def EdPt.op_add4 (self : Model.EdPt F) (rhs : Model.EdPt F) : Lk (Model.EdPt F) :=
  (EdPt.op_add (F := F) self rhs).bind fun τ1 =>
  Lk.ret τ1

/-- Translation of `add_assign` with its leakage. /repo/src/macros.rs:45-47 -/
def EdPt.op_add_assign2 (self : Model.EdPt F) (rhs : Model.EdPt F) : Lk (Model.EdPt F) :=
  (EdPt.op_add_assign (F := F) self rhs).bind fun τ1 =>
  let self := τ1
  Lk.ret (self)

/-- Translation of `sub` with its leakage. /repo/src/macros.rs:57-59 -/
def EdPt.op_sub2 (self : Model.EdPt F) (rhs : Model.EdPt F) : Lk (Model.EdPt F) :=
  (EdPt.op_sub (F := F) self rhs).bind fun τ1 =>
  Lk.ret τ1

/-- Translation of `sub` with its leakage. /repo/src/macros.rs:64-66 -/
def EdPt.op_sub3 (self : Model.EdPt F) (rhs : Model.EdPt F) : Lk (Model.EdPt F) :=
  (EdPt.op_sub (F := F) self rhs).bind fun τ1 =>
  Lk.ret τ1

/-- Translation of `sub` with its leakage. /repo/src/macros.rs:71-73 -/
def EdPt.op_sub4 (self : Model.EdPt F) (rhs : Model.EdPt F) : Lk (Model.EdPt F) :=
  (EdPt.op_sub (F := F) self rhs).bind fun τ1 =>
  Lk.ret τ1

/-- Translation of `sub_assign` with its leakage. /repo/src/macros.rs:82-84 -/
def EdPt.op_sub_assign2 (self : Model.EdPt F) (rhs : Model.EdPt F) : Lk (Model.EdPt F) :=
  (EdPt.op_sub_assign (F := F) self rhs).bind fun τ1 =>
  let self := τ1
  Lk.ret (self)

/-- Translation of `mul_assign` with its leakage. /repo/src/macros.rs:119-121 -/
def EdPt.op_mul_assign_Scalar2 (self : Model.EdPt F) (rhs : List ℕ) : Lk (Model.EdPt F) :=
  (EdPt.op_mul_assign_Scalar (F := F) self rhs).bind fun τ1 =>
  let self := τ1
  Lk.ret (self)

/-- Translation of `mul` with its leakage. /repo/src/macros.rs:94-96 -/
def EdPt.op_mul_Scalar2 (self : Model.EdPt F) (rhs : List ℕ) : Lk (Model.EdPt F) :=
  (EdPt.op_mul_Scalar (F := F) self rhs).bind fun τ1 =>
  Lk.ret τ1

/-- Translation of `mul` with its leakage. /repo/src/macros.rs:101-103 -/
def EdPt.op_mul_Scalar3 (self : Model.EdPt F) (rhs : List ℕ) : Lk (Model.EdPt F) :=
  (EdPt.op_mul_Scalar (F := F) self rhs).bind fun τ1 =>
  Lk.ret τ1

/-- Translation of `mul` with its leakage. /repo/src/macros.rs:108-110 -/
def EdPt.op_mul_Scalar4 (self : Model.EdPt F) (rhs : List ℕ) : Lk (Model.EdPt F) :=
  (EdPt.op_mul_Scalar (F := F) self rhs).bind fun τ1 =>
  Lk.ret τ1

/-- Translation of `mul` with its leakage. /repo/src/macros.rs:94-96 -/
def Scalar.op_mul_EdPt2 (self : List ℕ) (rhs : Model.EdPt F) : Lk (Model.EdPt F) :=
  (Scalar.op_mul_EdPt (F := F) self rhs).bind fun τ1 =>
  Lk.ret τ1

/-- Translation of `mul` with its leakage. /repo/src/macros.rs:101-103 -/
def Scalar.op_mul_EdPt3 (self : List ℕ) (rhs : Model.EdPt F) : Lk (Model.EdPt F) :=
  (Scalar.op_mul_EdPt (F := F) self rhs).bind fun τ1 =>
  Lk.ret τ1

/-- Translation of `mul` with its leakage. /repo/src/macros.rs:108-110 -/
def Scalar.op_mul_EdPt4 (self : List ℕ) (rhs : Model.EdPt F) : Lk (Model.EdPt F) :=
  (Scalar.op_mul_EdPt (F := F) self rhs).bind fun τ1 =>
  Lk.ret τ1

/-- Translation of `ct_eq` with its leakage. /repo/src/curve/twedwards/extensible.rs:24-32 -/
def TwExt.ct_eq (self : Model.TwExt F) (other : Model.TwExt F) : Lk Bool :=
  (Lk.tell (LeakBackend.mulTr F (FieldBackend.relax self.X) (FieldBackend.relax other.Z)) (self.X *ᶠ other.Z)).bind fun τ1 =>
  let XZ : F := τ1
  (Lk.tell (LeakBackend.mulTr F (FieldBackend.relax self.Z) (FieldBackend.relax other.X)) (self.Z *ᶠ other.X)).bind fun τ2 =>
  let ZX : F := τ2
  (Lk.tell (LeakBackend.mulTr F (FieldBackend.relax self.Y) (FieldBackend.relax other.Z)) (self.Y *ᶠ other.Z)).bind fun τ3 =>
  let YZ : F := τ3
  (Lk.tell (LeakBackend.mulTr F (FieldBackend.relax self.Z) (FieldBackend.relax other.Y)) (self.Z *ᶠ other.Y)).bind fun τ4 =>
  let ZY : F := τ4
  (Field.ct_eq (F := F) XZ ZX).bind fun τ5 =>
  (Field.ct_eq (F := F) YZ ZY).bind fun τ6 =>
  Lk.ret (and τ5 τ6)

/-- Translation of `eq` with its leakage. /repo/src/curve/twedwards/extensible.rs:35-37 -/
def TwExt.eq (self : Model.TwExt F) (other : Model.TwExt F) : Lk Bool :=
  (TwExt.ct_eq (F := F) self other).bind fun τ1 =>
  Lk.ret τ1

/-- Translation of `add_extended` with its leakage. /repo/src/curve/twedwards/extensible.rs:77-93 -/
def TwExt.add_extended (self : Model.TwExt F) (other : Model.TwPt F) : Lk (Model.TwExt F) :=
  (Lk.tell (LeakBackend.mulTr F (FieldBackend.relax self.X) (FieldBackend.relax other.X)) (self.X *ᶠ other.X)).bind fun τ1 =>
  let A : F := τ1
  (Lk.tell (LeakBackend.mulTr F (FieldBackend.relax self.Y) (FieldBackend.relax other.Y)) (self.Y *ᶠ other.Y)).bind fun τ2 =>
  let B : F := τ2
  (Lk.tell (LeakBackend.mulTr F (FieldBackend.relax self.T1) (FieldBackend.relax self.T2)) (self.T1 *ᶠ self.T2)).bind fun τ3 =>
  (Lk.tell (LeakBackend.mulTr F (FieldBackend.relax τ3) (FieldBackend.relax other.T)) (τ3 *ᶠ other.T)).bind fun τ4 =>
  (Lk.tell (LeakBackend.mulTr F (FieldBackend.relax τ4) (FieldBackend.TWISTED_D F)) (τ4 *ʳ (FieldBackend.TWISTED_D F))).bind fun τ5 =>
  let C : F := τ5
  (Lk.tell (LeakBackend.mulTr F (FieldBackend.relax self.Z) (FieldBackend.relax other.Z)) (self.Z *ᶠ other.Z)).bind fun τ6 =>
  let D : F := τ6
  (Lk.tell (LeakBackend.addTr self.X self.Y) (self.X +ᶠ self.Y)).bind fun τ7 =>
  (Lk.tell (LeakBackend.addTr other.X other.Y) (other.X +ᶠ other.Y)).bind fun τ8 =>
  (Lk.tell (LeakBackend.mulTr F (FieldBackend.relax τ7) (FieldBackend.relax τ8)) (τ7 *ᶠ τ8)).bind fun τ9 =>
  (Lk.tell (LeakBackend.subTr τ9 A) (τ9 -ᶠ A)).bind fun τ10 =>
  (Lk.tell (LeakBackend.subTr τ10 B) (τ10 -ᶠ B)).bind fun τ11 =>
  let E : F := τ11
  (Lk.tell (LeakBackend.subTr D C) (D -ᶠ C)).bind fun τ12 =>
  let F' : F := τ12
  (Lk.tell (LeakBackend.addTr D C) (D +ᶠ C)).bind fun τ13 =>
  let G : F := τ13
  (Lk.tell (LeakBackend.addTr B A) (B +ᶠ A)).bind fun τ14 =>
  let H : F := τ14
  (Lk.tell (LeakBackend.mulTr F (FieldBackend.relax E) (FieldBackend.relax F')) (E *ᶠ F')).bind fun τ15 =>
  (Lk.tell (LeakBackend.mulTr F (FieldBackend.relax G) (FieldBackend.relax H)) (G *ᶠ H)).bind fun τ16 =>
  (Lk.tell (LeakBackend.mulTr F (FieldBackend.relax F') (FieldBackend.relax G)) (F' *ᶠ G)).bind fun τ17 =>
  Lk.ret ({ X := τ15, Y := τ16, T1 := E, T2 := H, Z := τ17 } : Model.TwExt F)

/-- Translation of `add_extensible` with its leakage. /repo/src/curve/twedwards/extensible.rs:71-73 -/
def TwExt.add_extensible (self : Model.TwExt F) (other : Model.TwExt F) : Lk (Model.TwExt F) :=
  (TwExt.to_extended (F := F) other).bind fun τ1 =>
  (TwExt.add_extended (F := F) self τ1).bind fun τ2 =>
  Lk.ret τ2

/-- Translation of `sub_extended` with its leakage. /repo/src/curve/twedwards/extensible.rs:97-113 -/
def TwExt.sub_extended (self : Model.TwExt F) (other : Model.TwPt F) : Lk (Model.TwExt F) :=
  (Lk.tell (LeakBackend.mulTr F (FieldBackend.relax self.X) (FieldBackend.relax other.X)) (self.X *ᶠ other.X)).bind fun τ1 =>
  let A : F := τ1
  (Lk.tell (LeakBackend.mulTr F (FieldBackend.relax self.Y) (FieldBackend.relax other.Y)) (self.Y *ᶠ other.Y)).bind fun τ2 =>
  let B : F := τ2
  (Lk.tell (LeakBackend.mulTr F (FieldBackend.relax self.T1) (FieldBackend.relax self.T2)) (self.T1 *ᶠ self.T2)).bind fun τ3 =>
  (Lk.tell (LeakBackend.mulTr F (FieldBackend.relax τ3) (FieldBackend.relax other.T)) (τ3 *ᶠ other.T)).bind fun τ4 =>
  (Lk.tell (LeakBackend.mulTr F (FieldBackend.relax τ4) (FieldBackend.TWISTED_D F)) (τ4 *ʳ (FieldBackend.TWISTED_D F))).bind fun τ5 =>
  let C : F := τ5
  (Lk.tell (LeakBackend.mulTr F (FieldBackend.relax self.Z) (FieldBackend.relax other.Z)) (self.Z *ᶠ other.Z)).bind fun τ6 =>
  let D : F := τ6
  (Lk.tell (LeakBackend.addTr self.X self.Y) (self.X +ᶠ self.Y)).bind fun τ7 =>
  (Lk.tell (LeakBackend.subTr other.Y other.X) (other.Y -ᶠ other.X)).bind fun τ8 =>
  (Lk.tell (LeakBackend.mulTr F (FieldBackend.relax τ7) (FieldBackend.relax τ8)) (τ7 *ᶠ τ8)).bind fun τ9 =>
  (Lk.tell (LeakBackend.addTr τ9 A) (τ9 +ᶠ A)).bind fun τ10 =>
  (Lk.tell (LeakBackend.subTr τ10 B) (τ10 -ᶠ B)).bind fun τ11 =>
  let E : F := τ11
  (Lk.tell (LeakBackend.addTr D C) (D +ᶠ C)).bind fun τ12 =>
  let F' : F := τ12
  (Lk.tell (LeakBackend.subTr D C) (D -ᶠ C)).bind fun τ13 =>
  let G : F := τ13
  (Lk.tell (LeakBackend.subTr B A) (B -ᶠ A)).bind fun τ14 =>
  let H : F := τ14
  (Lk.tell (LeakBackend.mulTr F (FieldBackend.relax E) (FieldBackend.relax F')) (E *ᶠ F')).bind fun τ15 =>
  (Lk.tell (LeakBackend.mulTr F (FieldBackend.relax G) (FieldBackend.relax H)) (G *ᶠ H)).bind fun τ16 =>
  (Lk.tell (LeakBackend.mulTr F (FieldBackend.relax F') (FieldBackend.relax G)) (F' *ᶠ G)).bind fun τ17 =>
  Lk.ret ({ X := τ15, Y := τ16, T1 := E, T2 := H, Z := τ17 } : Model.TwExt F)

/-- Translation of `add_affine_niels` with its leakage. /repo/src/curve/twedwards/extensible.rs:117-132 -/
def TwExt.add_affine_niels (self : Model.TwExt F) (other : Model.ANiels F) : Lk (Model.TwExt F) :=
  (Lk.tell (LeakBackend.subTr self.Y self.X) (self.Y -ᶠ self.X)).bind fun τ1 =>
  (Lk.tell (LeakBackend.mulTr F (FieldBackend.relax other.YmX) (FieldBackend.relax τ1)) (other.YmX *ᶠ τ1)).bind fun τ2 =>
  let A : F := τ2
  (Lk.tell (LeakBackend.addTr self.X self.Y) (self.X +ᶠ self.Y)).bind fun τ3 =>
  (Lk.tell (LeakBackend.mulTr F (FieldBackend.relax other.YpX) (FieldBackend.relax τ3)) (other.YpX *ᶠ τ3)).bind fun τ4 =>
  let B : F := τ4
  (Lk.tell (LeakBackend.mulTr F (FieldBackend.relax other.td) (FieldBackend.relax self.T1)) (other.td *ᶠ self.T1)).bind fun τ5 =>
  (Lk.tell (LeakBackend.mulTr F (FieldBackend.relax τ5) (FieldBackend.relax self.T2)) (τ5 *ᶠ self.T2)).bind fun τ6 =>
  let C : F := τ6
  (Lk.tell (LeakBackend.addTr B A) (B +ᶠ A)).bind fun τ7 =>
  let D : F := τ7
  (Lk.tell (LeakBackend.subTr B A) (B -ᶠ A)).bind fun τ8 =>
  let E : F := τ8
  (Lk.tell (LeakBackend.subTr self.Z C) (self.Z -ᶠ C)).bind fun τ9 =>
  let F' : F := τ9
  (Lk.tell (LeakBackend.addTr self.Z C) (self.Z +ᶠ C)).bind fun τ10 =>
  let G : F := τ10
  (Lk.tell (LeakBackend.mulTr F (FieldBackend.relax E) (FieldBackend.relax F')) (E *ᶠ F')).bind fun τ11 =>
  (Lk.tell (LeakBackend.mulTr F (FieldBackend.relax G) (FieldBackend.relax D)) (G *ᶠ D)).bind fun τ12 =>
  (Lk.tell (LeakBackend.mulTr F (FieldBackend.relax F') (FieldBackend.relax G)) (F' *ᶠ G)).bind fun τ13 =>
  Lk.ret ({ X := τ11, Y := τ12, Z := τ13, T1 := E, T2 := D } : Model.TwExt F)

/-- Translation of `ct_eq` with its leakage. /repo/src/curve/twedwards/extended.rs:19-27 -/
def TwPt.ct_eq (self : Model.TwPt F) (other : Model.TwPt F) : Lk Bool :=
  (Lk.tell (LeakBackend.mulTr F (FieldBackend.relax self.X) (FieldBackend.relax other.Z)) (self.X *ᶠ other.Z)).bind fun τ1 =>
  let XZ : F := τ1
  (Lk.tell (LeakBackend.mulTr F (FieldBackend.relax self.Z) (FieldBackend.relax other.X)) (self.Z *ᶠ other.X)).bind fun τ2 =>
  let ZX : F := τ2
  (Lk.tell (LeakBackend.mulTr F (FieldBackend.relax self.Y) (FieldBackend.relax other.Z)) (self.Y *ᶠ other.Z)).bind fun τ3 =>
  let YZ : F := τ3
  (Lk.tell (LeakBackend.mulTr F (FieldBackend.relax self.Z) (FieldBackend.relax other.Y)) (self.Z *ᶠ other.Y)).bind fun τ4 =>
  let ZY : F := τ4
  (Field.ct_eq (F := F) XZ ZX).bind fun τ5 =>
  (Field.ct_eq (F := F) YZ ZY).bind fun τ6 =>
  Lk.ret (and τ5 τ6)

/-- Translation of `conditional_select` with its leakage. /repo/src/curve/twedwards/extended.rs:31-38 -/
def TwPt.conditional_select (a : Model.TwPt F) (b : Model.TwPt F) (choice : Bool) : Lk (Model.TwPt F) :=
  (Lk.tell (LeakBackend.selectTr a.X b.X choice) (FieldBackend.select a.X b.X choice)).bind fun τ1 =>
  (Lk.tell (LeakBackend.selectTr a.Y b.Y choice) (FieldBackend.select a.Y b.Y choice)).bind fun τ2 =>
  (Lk.tell (LeakBackend.selectTr a.Z b.Z choice) (FieldBackend.select a.Z b.Z choice)).bind fun τ3 =>
  (Lk.tell (LeakBackend.selectTr a.T b.T choice) (FieldBackend.select a.T b.T choice)).bind fun τ4 =>
  Lk.ret ({ X := τ1, Y := τ2, Z := τ3, T := τ4 } : Model.TwPt F)

/-- Translation of `eq` with its leakage. /repo/src/curve/twedwards/extended.rs:42-44 -/
def TwPt.eq (self : Model.TwPt F) (other : Model.TwPt F) : Lk Bool :=
  (TwPt.ct_eq (F := F) self other).bind fun τ1 =>
  Lk.ret τ1

/-- Translation of `double` with its leakage. /repo/src/curve/twedwards/extended.rs:70-72 -/
def TwPt.double (self : Model.TwPt F) : Lk (Model.TwPt F) :=
  (TwExt.double (F := F) (Gen.TwPt.to_extensible (F := F) self)).bind fun τ1 =>
  (TwExt.to_extended (F := F) τ1).bind fun τ2 =>
  Lk.ret τ2

/-- Translation of `add` with its leakage. /repo/src/curve/twedwards/extended.rs:74-76 -/
def TwPt.add (self : Model.TwPt F) (other : Model.TwPt F) : Lk (Model.TwPt F) :=
  (TwExt.add_extended (F := F) (Gen.TwPt.to_extensible (F := F) self) other).bind fun τ1 =>
  (TwExt.to_extended (F := F) τ1).bind fun τ2 =>
  Lk.ret τ2

/-- Translation of `is_on_curve` with its leakage. /repo/src/curve/twedwards/extended.rs:137-151 -/
def TwPt.is_on_curve (self : Model.TwPt F) : Lk Bool :=
  (Lk.tell (LeakBackend.mulTr F (FieldBackend.relax self.X) (FieldBackend.relax self.Y)) (self.X *ᶠ self.Y)).bind fun τ1 =>
  let XY : F := τ1
  (Lk.tell (LeakBackend.mulTr F (FieldBackend.relax self.Z) (FieldBackend.relax self.T)) (self.Z *ᶠ self.T)).bind fun τ2 =>
  let ZT : F := τ2
  (Lk.tell (LeakBackend.squareTr F (FieldBackend.relax self.Y)) (FieldBackend.square self.Y)).bind fun τ3 =>
  let YY : F := τ3
  (Lk.tell (LeakBackend.squareTr F (FieldBackend.relax self.X)) (FieldBackend.square self.X)).bind fun τ4 =>
  let XX : F := τ4
  (Lk.tell (LeakBackend.squareTr F (FieldBackend.relax self.Z)) (FieldBackend.square self.Z)).bind fun τ5 =>
  let ZZ : F := τ5
  (Lk.tell (LeakBackend.squareTr F (FieldBackend.relax self.T)) (FieldBackend.square self.T)).bind fun τ6 =>
  let TT : F := τ6
  (Lk.tell (LeakBackend.subTr YY XX) (YY -ᶠ XX)).bind fun τ7 =>
  let lhs : F := τ7
  (Lk.tell (LeakBackend.mulTr F (FieldBackend.relax TT) (FieldBackend.TWISTED_D F)) (TT *ʳ (FieldBackend.TWISTED_D F))).bind fun τ8 =>
  (Lk.tell (LeakBackend.addTr ZZ τ8) (ZZ +ᶠ τ8)).bind fun τ9 =>
  let rhs : F := τ9
  (Field.eq (F := F) XY ZT).bind fun τ10 =>
  (Lk.and τ10 (
  (Field.eq (F := F) lhs rhs).bind fun τ11 =>
  Lk.ret τ11)).bind fun τ12 =>
  Lk.ret τ12

/-- Translation of `negate` with its leakage. /repo/src/curve/twedwards/extended.rs:153-160 -/
def TwPt.negate (self : Model.TwPt F) : Lk (Model.TwPt F) :=
  (Lk.tell (LeakBackend.negateTr self.X) (FieldBackend.negate self.X)).bind fun τ1 =>
  (Lk.tell (LeakBackend.negateTr self.T) (FieldBackend.negate self.T)).bind fun τ2 =>
  Lk.ret ({ X := τ1, Y := self.Y, Z := self.Z, T := τ2 } : Model.TwPt F)

/-- Translation of `torque` with its leakage. /repo/src/curve/twedwards/extended.rs:162-169 -/
def TwPt.torque (self : Model.TwPt F) : Lk (Model.TwPt F) :=
  (Lk.tell (LeakBackend.negateTr self.X) (FieldBackend.negate self.X)).bind fun τ1 =>
  (Lk.tell (LeakBackend.negateTr self.Y) (FieldBackend.negate self.Y)).bind fun τ2 =>
  Lk.ret ({ X := τ1, Y := τ2, Z := self.Z, T := self.T } : Model.TwPt F)

/-- Translation of `default` with its leakage. /repo/src/curve/twedwards/projective.rs:8-10 -/
def PNiels.default  : Lk (Model.PNiels F) :=
  (PNiels.identity (F := F)).bind fun τ1 =>
  Lk.ret τ1

/-- Translation of `to_extended` with its leakage. /repo/src/curve/twedwards/projective.rs:51-60 -/
def PNiels.to_extended (self : Model.PNiels F) : Lk (Model.TwPt F) :=
  (Lk.tell (LeakBackend.subTr self.YpX self.YmX) (self.YpX -ᶠ self.YmX)).bind fun τ1 =>
  let A : F := τ1
  (Lk.tell (LeakBackend.addTr self.YpX self.YmX) (self.YpX +ᶠ self.YmX)).bind fun τ2 =>
  let B : F := τ2
  (Lk.tell (LeakBackend.mulTr F (FieldBackend.relax self.Z) (FieldBackend.relax A)) (self.Z *ᶠ A)).bind fun τ3 =>
  (Lk.tell (LeakBackend.mulTr F (FieldBackend.relax self.Z) (FieldBackend.relax B)) (self.Z *ᶠ B)).bind fun τ4 =>
  (Lk.tell (LeakBackend.squareTr F (FieldBackend.relax self.Z)) (FieldBackend.square self.Z)).bind fun τ5 =>
  (Lk.tell (LeakBackend.mulTr F (FieldBackend.relax B) (FieldBackend.relax A)) (B *ᶠ A)).bind fun τ6 =>
  Lk.ret ({ X := τ3, Y := τ4, Z := τ5, T := τ6 } : Model.TwPt F)

/-- Translation of `eq` with its leakage. /repo/src/curve/twedwards/projective.rs:24-26 -/
def PNiels.eq (self : Model.PNiels F) (other : Model.PNiels F) : Lk Bool :=
  (PNiels.to_extended (F := F) self).bind fun τ1 =>
  (PNiels.to_extended (F := F) other).bind fun τ2 =>
  (TwPt.eq (F := F) τ1 τ2).bind fun τ3 =>
  Lk.ret τ3

/-- Translation of `is_on_curve` with its leakage. /repo/src/curve/twedwards/affine.rs:34-39 -/
def TwAff.is_on_curve (self : Model.TwAff F) : Lk Bool :=
  (Lk.tell (LeakBackend.squareTr F (FieldBackend.relax self.x)) (FieldBackend.square self.x)).bind fun τ1 =>
  let xx : F := τ1
  (Lk.tell (LeakBackend.squareTr F (FieldBackend.relax self.y)) (FieldBackend.square self.y)).bind fun τ2 =>
  let yy : F := τ2
  (Lk.tell (LeakBackend.subTr yy xx) (yy -ᶠ xx)).bind fun τ3 =>
  (Lk.tell (LeakBackend.mulTr F (FieldBackend.TWISTED_D F) (FieldBackend.relax xx)) ((FieldBackend.TWISTED_D F) *ˡ xx)).bind fun τ4 =>
  (Lk.tell (LeakBackend.mulTr F (FieldBackend.relax τ4) (FieldBackend.relax yy)) (τ4 *ᶠ yy)).bind fun τ5 =>
  (Lk.tell (LeakBackend.addTr (FieldBackend.one : F) τ5) ((FieldBackend.one : F) +ᶠ τ5)).bind fun τ6 =>
  (Field.eq (F := F) τ3 τ6).bind fun τ7 =>
  Lk.ret τ7

/-- Translation of `negate` with its leakage. /repo/src/curve/twedwards/affine.rs:41-46 -/
def TwAff.negate (self : Model.TwAff F) : Lk (Model.TwAff F) :=
  (Lk.tell (LeakBackend.negateTr self.x) (FieldBackend.negate self.x)).bind fun τ1 =>
  Lk.ret ({ x := τ1, y := self.y } : Model.TwAff F)

/-- Translation of `add` with its leakage. /repo/src/curve/twedwards/affine.rs:48-58 -/
def TwAff.add (self : Model.TwAff F) (other : Model.TwAff F) : Lk (Model.TwAff F) :=
  (Lk.tell (LeakBackend.mulTr F (FieldBackend.relax self.y) (FieldBackend.relax other.y)) (self.y *ᶠ other.y)).bind fun τ1 =>
  (Lk.tell (LeakBackend.mulTr F (FieldBackend.relax self.x) (FieldBackend.relax other.x)) (self.x *ᶠ other.x)).bind fun τ2 =>
  (Lk.tell (LeakBackend.addTr τ1 τ2) (τ1 +ᶠ τ2)).bind fun τ3 =>
  let y_numerator : F := τ3
  (Lk.tell (LeakBackend.mulTr F (FieldBackend.TWISTED_D F) (FieldBackend.relax self.x)) ((FieldBackend.TWISTED_D F) *ˡ self.x)).bind fun τ4 =>
  (Lk.tell (LeakBackend.mulTr F (FieldBackend.relax τ4) (FieldBackend.relax other.x)) (τ4 *ᶠ other.x)).bind fun τ5 =>
  (Lk.tell (LeakBackend.mulTr F (FieldBackend.relax τ5) (FieldBackend.relax self.y)) (τ5 *ᶠ self.y)).bind fun τ6 =>
  (Lk.tell (LeakBackend.mulTr F (FieldBackend.relax τ6) (FieldBackend.relax other.y)) (τ6 *ᶠ other.y)).bind fun τ7 =>
  (Lk.tell (LeakBackend.subTr (FieldBackend.one : F) τ7) ((FieldBackend.one : F) -ᶠ τ7)).bind fun τ8 =>
  let y_denominator : F := τ8
  (Lk.tell (LeakBackend.mulTr F (FieldBackend.relax self.x) (FieldBackend.relax other.y)) (self.x *ᶠ other.y)).bind fun τ9 =>
  (Lk.tell (LeakBackend.mulTr F (FieldBackend.relax self.y) (FieldBackend.relax other.x)) (self.y *ᶠ other.x)).bind fun τ10 =>
  (Lk.tell (LeakBackend.addTr τ9 τ10) (τ9 +ᶠ τ10)).bind fun τ11 =>
  let x_numerator : F := τ11
  (Lk.tell (LeakBackend.mulTr F (FieldBackend.TWISTED_D F) (FieldBackend.relax self.x)) ((FieldBackend.TWISTED_D F) *ˡ self.x)).bind fun τ12 =>
  (Lk.tell (LeakBackend.mulTr F (FieldBackend.relax τ12) (FieldBackend.relax other.x)) (τ12 *ᶠ other.x)).bind fun τ13 =>
  (Lk.tell (LeakBackend.mulTr F (FieldBackend.relax τ13) (FieldBackend.relax self.y)) (τ13 *ᶠ self.y)).bind fun τ14 =>
  (Lk.tell (LeakBackend.mulTr F (FieldBackend.relax τ14) (FieldBackend.relax other.y)) (τ14 *ᶠ other.y)).bind fun τ15 =>
  (Lk.tell (LeakBackend.addTr (FieldBackend.one : F) τ15) ((FieldBackend.one : F) +ᶠ τ15)).bind fun τ16 =>
  let x_denominator : F := τ16
  (Field.invert (F := F) x_denominator).bind fun τ17 =>
  (Lk.tell (LeakBackend.mulTr F (FieldBackend.relax x_numerator) (FieldBackend.relax τ17)) (x_numerator *ᶠ τ17)).bind fun τ18 =>
  let x : F := τ18
  (Field.invert (F := F) y_denominator).bind fun τ19 =>
  (Lk.tell (LeakBackend.mulTr F (FieldBackend.relax y_numerator) (FieldBackend.relax τ19)) (y_numerator *ᶠ τ19)).bind fun τ20 =>
  let y : F := τ20
  Lk.ret ({ x := x, y := y } : Model.TwAff F)

/-- Translation of `to_extensible` with its leakage. /repo/src/curve/twedwards/affine.rs:60-68 -/
def TwAff.to_extensible (self : Model.TwAff F) : Lk (Model.TwExt F) :=
  Lk.ret ({ X := self.x, Y := self.y, Z := (FieldBackend.one : F), T1 := self.x, T2 := self.y } : Model.TwExt F)

/-- Translation of `to_affine_niels` with its leakage. /repo/src/curve/twedwards/affine.rs:70-76 -/
def TwAff.to_affine_niels (self : Model.TwAff F) : Lk (Model.ANiels F) :=
  (Lk.tell (LeakBackend.addTr self.y self.x) (self.y +ᶠ self.x)).bind fun τ1 =>
  (Lk.tell (LeakBackend.subTr self.y self.x) (self.y -ᶠ self.x)).bind fun τ2 =>
  (Lk.tell (LeakBackend.mulTr F (FieldBackend.relax self.x) (FieldBackend.relax self.y)) (self.x *ᶠ self.y)).bind fun τ3 =>
  (Lk.tell (LeakBackend.mulTr F (FieldBackend.relax τ3) (FieldBackend.TWISTED_D F)) (τ3 *ʳ (FieldBackend.TWISTED_D F))).bind fun τ4 =>
  Lk.ret ({ YpX := τ1, YmX := τ2, td := τ4 } : Model.ANiels F)

/-- Translation of `to_extended` with its leakage. /repo/src/curve/twedwards/affine.rs:78-80 -/
def TwAff.to_extended (self : Model.TwAff F) : Lk (Model.TwPt F) :=
  (TwExt.to_extended (F := F) (Gen.TwAff.to_extensible (F := F) self)).bind fun τ1 =>
  Lk.ret τ1

/-- Translation of `conditional_select` with its leakage. /repo/src/curve/twedwards/affine.rs:93-99 -/
def ANiels.conditional_select (a : Model.ANiels F) (b : Model.ANiels F) (choice : Bool) : Lk (Model.ANiels F) :=
  (Lk.tell (LeakBackend.selectTr a.YpX b.YpX choice) (FieldBackend.select a.YpX b.YpX choice)).bind fun τ1 =>
  (Lk.tell (LeakBackend.selectTr a.YmX b.YmX choice) (FieldBackend.select a.YmX b.YmX choice)).bind fun τ2 =>
  (Lk.tell (LeakBackend.selectTr a.td b.td choice) (FieldBackend.select a.td b.td choice)).bind fun τ3 =>
  Lk.ret ({ YpX := τ1, YmX := τ2, td := τ3 } : Model.ANiels F)

/-- Translation of `equals` with its leakage. /repo/src/curve/twedwards/affine.rs:105-109 -/
def ANiels.equals (self : Model.ANiels F) (other : Model.ANiels F) : Lk Bool :=
  (Field.eq (F := F) self.YmX other.YmX).bind fun τ1 =>
  (Lk.and τ1 (
  (Field.eq (F := F) self.YpX other.YpX).bind fun τ2 =>
  Lk.ret τ2)).bind fun τ3 =>
  (Lk.and τ3 (
  (Field.eq (F := F) self.td other.td).bind fun τ4 =>
  Lk.ret τ4)).bind fun τ5 =>
  Lk.ret τ5

/-- Translation of `to_extended` with its leakage. /repo/src/curve/twedwards/affine.rs:120-127 -/
def ANiels.to_extended (self : Model.ANiels F) : Lk (Model.TwPt F) :=
  (Lk.tell (LeakBackend.subTr self.YpX self.YmX) (self.YpX -ᶠ self.YmX)).bind fun τ1 =>
  (Lk.tell (LeakBackend.addTr self.YmX self.YpX) (self.YmX +ᶠ self.YpX)).bind fun τ2 =>
  (Lk.tell (LeakBackend.mulTr F (FieldBackend.relax self.YpX) (FieldBackend.relax self.YmX)) (self.YpX *ᶠ self.YmX)).bind fun τ3 =>
  Lk.ret ({ X := τ1, Y := τ2, Z := (FieldBackend.one : F), T := τ3 } : Model.TwPt F)

/-- Translation of `double_and_add` with its leakage. /repo/src/curve/scalar_mul/double_and_add.rs:6-20 -/
def double_and_add.double_and_add (point : Model.TwPt F) (s : List ℕ) : Lk (Model.TwPt F) :=
  let result : Model.TwPt F := (Gen.TwPt.identity (F := F))
  (Scalar.bits s).bind fun τ1 =>
  (Lk.fold (fun (τ2 : (Model.TwPt F)) (bit : Bool) =>
  let result := τ2
  (TwPt.double (F := F) result).bind fun τ3 =>
  let result := τ3
  let p : Model.TwPt F := (Gen.TwPt.identity (F := F))
  (Lk.lift (Gen.Rt.choice (Bool.toNat bit))).bind fun τ4 =>
  (TwPt.conditional_select (F := F) p point τ4).bind fun τ5 =>
  let p := τ5
  (TwPt.add (F := F) result p).bind fun τ6 =>
  let result := τ6
  Lk.ret (result)) (result) (List.reverse τ1)).bind fun τ7 =>
  let result := τ7
  Lk.ret result

/-- Translation of `double_base_scalar_mul` with its leakage. /repo/src/curve/scalar_mul/double_base.rs:10-14 -/
def double_base.double_base_scalar_mul (a : List ℕ) (A : Model.TwPt F) (b : List ℕ) : Lk (Model.TwPt F) :=
  (double_and_add.double_and_add (F := F) A a).bind fun τ1 =>
  let part_a : Model.TwPt F := τ1
  (double_and_add.double_and_add (F := F) (Gen.Rt.ptTwPt (FieldBackend.TWISTED_EDWARDS_BASE_POINT : F × F × F × F)) b).bind fun τ2 =>
  let part_b : Model.TwPt F := τ2
  (TwPt.add (F := F) part_a part_b).bind fun τ3 =>
  Lk.ret τ3

/-- Translation of `ct_eq` with its leakage. /repo/src/curve/montgomery/montgomery.rs:54-56 -/
def MontgomeryPoint.ct_eq (self : List ℕ) (other : List ℕ) : Lk Bool :=
  Lk.ret (self == other)

/-- Translation of `eq` with its leakage. /repo/src/curve/montgomery/montgomery.rs:60-62 -/
def MontgomeryPoint.eq (self : List ℕ) (other : List ℕ) : Lk Bool :=
  Lk.ret (Gen.MontgomeryPoint.ct_eq self other)

/-- Translation of `conditional_select` with its leakage. /repo/src/curve/montgomery/montgomery.rs:141-150 -/
def ProjMont.conditional_select (a : Model.ProjMont F) (b : Model.ProjMont F) (choice : Bool) : Lk (Model.ProjMont F) :=
  (Lk.tell (LeakBackend.selectTr a.U b.U choice) (FieldBackend.select a.U b.U choice)).bind fun τ1 =>
  (Lk.tell (LeakBackend.selectTr a.W b.W choice) (FieldBackend.select a.W b.W choice)).bind fun τ2 =>
  Lk.ret ({ U := τ1, W := τ2 } : Model.ProjMont F)

/-- Translation of `differential_add_and_double` with its leakage. /repo/src/curve/montgomery/montgomery.rs:153-189 -/
def montgomery.differential_add_and_double (P : Model.ProjMont F) (Q : Model.ProjMont F) (affine_PmQ : F) : Lk ((Model.ProjMont F) × (Model.ProjMont F)) :=
  (Lk.tell (LeakBackend.addTr P.U P.W) (P.U +ᶠ P.W)).bind fun τ1 =>
  let t0 : F := τ1
  (Lk.tell (LeakBackend.subTr P.U P.W) (P.U -ᶠ P.W)).bind fun τ2 =>
  let t1 : F := τ2
  (Lk.tell (LeakBackend.addTr Q.U Q.W) (Q.U +ᶠ Q.W)).bind fun τ3 =>
  let t2 : F := τ3
  (Lk.tell (LeakBackend.subTr Q.U Q.W) (Q.U -ᶠ Q.W)).bind fun τ4 =>
  let t3 : F := τ4
  (Lk.tell (LeakBackend.squareTr F (FieldBackend.relax t0)) (FieldBackend.square t0)).bind fun τ5 =>
  let t4 : F := τ5
  (Lk.tell (LeakBackend.squareTr F (FieldBackend.relax t1)) (FieldBackend.square t1)).bind fun τ6 =>
  let t5 : F := τ6
  (Lk.tell (LeakBackend.subTr t4 t5) (t4 -ᶠ t5)).bind fun τ7 =>
  let t6 : F := τ7
  (Lk.tell (LeakBackend.mulTr F (FieldBackend.relax t0) (FieldBackend.relax t3)) (t0 *ᶠ t3)).bind fun τ8 =>
  let t7 : F := τ8
  (Lk.tell (LeakBackend.mulTr F (FieldBackend.relax t1) (FieldBackend.relax t2)) (t1 *ᶠ t2)).bind fun τ9 =>
  let t8 : F := τ9
  (Lk.tell (LeakBackend.addTr t7 t8) (t7 +ᶠ t8)).bind fun τ10 =>
  let t9 : F := τ10
  (Lk.tell (LeakBackend.subTr t7 t8) (t7 -ᶠ t8)).bind fun τ11 =>
  let t10 : F := τ11
  (Lk.tell (LeakBackend.squareTr F (FieldBackend.relax t9)) (FieldBackend.square t9)).bind fun τ12 =>
  let t11 : F := τ12
  (Lk.tell (LeakBackend.squareTr F (FieldBackend.relax t10)) (FieldBackend.square t10)).bind fun τ13 =>
  let t12 : F := τ13
  (Lk.tell (LeakBackend.mulTr F (FieldBackend.relax (FieldBackend.A_PLUS_TWO_OVER_FOUR : F)) (FieldBackend.relax t6)) ((FieldBackend.A_PLUS_TWO_OVER_FOUR : F) *ᶠ t6)).bind fun τ14 =>
  let t13 : F := τ14
  (Lk.tell (LeakBackend.mulTr F (FieldBackend.relax t4) (FieldBackend.relax t5)) (t4 *ᶠ t5)).bind fun τ15 =>
  let t14 : F := τ15
  (Lk.tell (LeakBackend.addTr t13 t5) (t13 +ᶠ t5)).bind fun τ16 =>
  let t15 : F := τ16
  (Lk.tell (LeakBackend.mulTr F (FieldBackend.relax t6) (FieldBackend.relax t15)) (t6 *ᶠ t15)).bind fun τ17 =>
  let t16 : F := τ17
  (Lk.tell (LeakBackend.mulTr F (FieldBackend.relax affine_PmQ) (FieldBackend.relax t12)) (affine_PmQ *ᶠ t12)).bind fun τ18 =>
  let t17 : F := τ18
  let t18 : F := t11
  let P := { P with U := t14 }
  let P := { P with W := t16 }
  let Q := { Q with U := t18 }
  let Q := { Q with W := t17 }
  Lk.ret (P, Q)

/-- Translation of `to_affine` with its leakage. /repo/src/curve/montgomery/montgomery.rs:199-202 -/
def ProjMont.to_affine (self : Model.ProjMont F) : Lk (List ℕ) :=
  (Field.invert (F := F) self.W).bind fun τ1 =>
  (Lk.tell (LeakBackend.mulTr F (FieldBackend.relax self.U) (FieldBackend.relax τ1)) (self.U *ᶠ τ1)).bind fun τ2 =>
  let x : F := τ2
  (Lk.tell (LeakBackend.toBytesTr x) (FieldBackend.toBytes x).l).bind fun τ3 =>
  Lk.ret τ3

/-- Translation of `mul` with its leakage. /repo/src/curve/montgomery/montgomery.rs:74-96 -/
def MontgomeryPoint.op_mul_Scalar (self : List ℕ) (scalar : List ℕ) : Lk (List ℕ) :=
  (Lk.fieldFromBytes F self).bind fun τ1 =>
  let affine_u : F := τ1
  let x0 : Model.ProjMont F := (Gen.ProjMont.identity (F := F))
  let x1 : Model.ProjMont F := ({ U := affine_u, W := (FieldBackend.one : F) } : Model.ProjMont F)
  (Scalar.bits scalar).bind fun τ2 =>
  let bits : List Bool := τ2
  let swap : ℕ := (0 : ℕ)
  (Lk.fold (fun (τ3 : (Model.ProjMont F) × (Model.ProjMont F) × (ℕ)) (s : ℕ) =>
  let x0 := τ3.1
  let x1 := τ3.2.1
  let swap := τ3.2.2
  (Lk.idx bits s).bind fun τ4 =>
  let bit : ℕ := (Bool.toNat τ4)
  let choice : ℕ := (swap ^^^ bit)
  (Lk.lift (Gen.Rt.choice choice)).bind fun τ5 =>
  let τ6 := x0
  (ProjMont.conditional_select (F := F) x0 x1 τ5).bind fun τ7 =>
  let x0 := τ7
  (ProjMont.conditional_select (F := F) x1 τ6 τ5).bind fun τ8 =>
  let x1 := τ8
  (montgomery.differential_add_and_double (F := F) x0 x1 affine_u).bind fun τ9 =>
  let τ10 := τ9
  let x0 := τ10.1
  let x1 := τ10.2
  let swap := bit
  Lk.ret (x0, x1, swap)) (x0, x1, swap) (List.reverse (Gen.Rt.range (0 : ℕ) (448 : ℕ)))).bind fun τ11 =>
  let x0 := τ11.1
  let x1 := τ11.2.1
  let swap := τ11.2.2
  (ProjMont.to_affine (F := F) x0).bind fun τ12 =>
  Lk.ret τ12

/-- Translation of `mul` with its leakage. /repo/src/curve/montgomery/montgomery.rs:101-103 -/
def Scalar.op_mul_MontgomeryPoint (self : List ℕ) (point : List ℕ) : Lk (List ℕ) :=
  (MontgomeryPoint.op_mul_Scalar (F := F) point self).bind fun τ1 =>
  Lk.ret τ1

/-- Translation of `to_edwards` with its leakage. /repo/src/curve/montgomery/montgomery.rs:107-111 -/
def MontgomeryPoint.to_edwards (self : List ℕ) (sign : ℕ) : Lk (Option (Model.EdPt F)) :=
  none

/-- Translation of `is_low_order` with its leakage. /repo/src/curve/montgomery/montgomery.rs:114-116 -/
def MontgomeryPoint.is_low_order (self : List ℕ) : Lk Bool :=
  (Lk.or (Gen.MontgomeryPoint.eq self Gen.C.LOW_A) (
  Lk.ret (Gen.MontgomeryPoint.eq self Gen.C.LOW_B))).bind fun τ1 =>
  (Lk.or τ1 (
  Lk.ret (Gen.MontgomeryPoint.eq self Gen.C.LOW_C))).bind fun τ2 =>
  Lk.ret τ2

/-- Translation of `as_bytes` with its leakage. /repo/src/curve/montgomery/montgomery.rs:118-120 -/
def MontgomeryPoint.as_bytes (self : List ℕ) : Lk (List ℕ) :=
  Lk.ret self

/-- Translation of `to_projective` with its leakage. /repo/src/curve/montgomery/montgomery.rs:132-137 -/
def MontgomeryPoint.to_projective (self : List ℕ) : Lk (Model.ProjMont F) :=
  (Lk.fieldFromBytes F self).bind fun τ1 =>
  Lk.ret ({ U := τ1, W := (FieldBackend.one : F) } : Model.ProjMont F)

/-- Translation of `as_bytes` with its leakage. /repo/src/decaf/decaf.rs:35-37 -/
def CompressedDecaf.as_bytes (self : List ℕ) : Lk (List ℕ) :=
  Lk.ret self

/-- Translation of `ct_eq` with its leakage. /repo/src/decaf/decaf.rs:22-24 -/
def CompressedDecaf.ct_eq (self : List ℕ) (other : List ℕ) : Lk Bool :=
  Lk.ret ((Gen.CompressedDecaf.as_bytes self) == (Gen.CompressedDecaf.as_bytes other))

/-- Translation of `eq` with its leakage. /repo/src/decaf/decaf.rs:28-30 -/
def CompressedDecaf.eq (self : List ℕ) (other : List ℕ) : Lk Bool :=
  Lk.ret (Gen.CompressedDecaf.ct_eq self other)

/-- Translation of `equals` with its leakage. /repo/src/decaf/decaf.rs:49-51 -/
def DecafPt.equals (self : Model.DecafPt F) (other : Model.DecafPt F) : Lk Bool :=
  (Lk.tell (LeakBackend.mulTr F (FieldBackend.relax self.pt.X) (FieldBackend.relax other.pt.Y)) (self.pt.X *ᶠ other.pt.Y)).bind fun τ1 =>
  (Lk.tell (LeakBackend.mulTr F (FieldBackend.relax self.pt.Y) (FieldBackend.relax other.pt.X)) (self.pt.Y *ᶠ other.pt.X)).bind fun τ2 =>
  (Field.eq (F := F) τ1 τ2).bind fun τ3 =>
  Lk.ret τ3

/-- Translation of `sub` with its leakage. /repo/src/decaf/decaf.rs:57-59 -/
def DecafPt.sub (self : Model.DecafPt F) (other : Model.DecafPt F) : Lk (Model.DecafPt F) :=
  (TwExt.sub_extended (F := F) (Gen.TwPt.to_extensible (F := F) self.pt) other.pt).bind fun τ1 =>
  (TwExt.to_extended (F := F) τ1).bind fun τ2 =>
  Lk.ret (⟨τ2⟩ : Model.DecafPt F)

/-- Translation of `compress` with its leakage. /repo/src/decaf/decaf.rs:63-81 -/
def DecafPt.compress (self : Model.DecafPt F) : Lk (List ℕ) :=
  let X : F := self.pt.X
  let Y : F := self.pt.Y
  let Z : F := self.pt.Z
  let T : F := self.pt.T
  (Lk.tell (LeakBackend.addTr X T) (X +ᶠ T)).bind fun τ1 =>
  (Lk.tell (LeakBackend.subTr X T) (X -ᶠ T)).bind fun τ2 =>
  (Lk.tell (LeakBackend.mulTr F (FieldBackend.relax τ1) (FieldBackend.relax τ2)) (τ1 *ᶠ τ2)).bind fun τ3 =>
  let XX_TT : F := τ3
  (Lk.tell (LeakBackend.squareTr F (FieldBackend.relax X)) (FieldBackend.square X)).bind fun τ4 =>
  (Lk.tell (LeakBackend.mulTr F (FieldBackend.relax τ4) (FieldBackend.relax XX_TT)) (τ4 *ᶠ XX_TT)).bind fun τ5 =>
  (Lk.tell (LeakBackend.mulTr F (FieldBackend.relax τ5) (FieldBackend.relax (FieldBackend.NEG_EDWARDS_D : F))) (τ5 *ᶠ (FieldBackend.NEG_EDWARDS_D : F))).bind fun τ6 =>
  (Field.inverse_square_root (F := F) τ6).bind fun τ7 =>
  let τ8 := τ7
  let isr : F := τ8.1
  (Lk.tell (LeakBackend.mulTr F (FieldBackend.relax isr) (FieldBackend.relax XX_TT)) (isr *ᶠ XX_TT)).bind fun τ9 =>
  let ratio : F := τ9
  (Lk.tell (LeakBackend.mulTr F (FieldBackend.relax ratio) (FieldBackend.relax (FieldBackend.DECAF_FACTOR : F))) (ratio *ᶠ (FieldBackend.DECAF_FACTOR : F))).bind fun τ10 =>
  let altx : F := τ10
  (Lk.tell (LeakBackend.toBytesTr altx) (FieldBackend.isNegative altx)).bind fun τ11 =>
  (Lk.tell (LeakBackend.condNegateTr ratio τ11) (FieldBackend.condNegate ratio τ11)).bind fun τ12 =>
  let ratio := τ12
  (Lk.tell (LeakBackend.mulTr F (FieldBackend.relax ratio) (FieldBackend.relax Z)) (ratio *ᶠ Z)).bind fun τ13 =>
  (Lk.tell (LeakBackend.subTr τ13 T) (τ13 -ᶠ T)).bind fun τ14 =>
  let k : F := τ14
  (Lk.tell (LeakBackend.mulTr F (FieldBackend.relax k) (FieldBackend.relax (FieldBackend.NEG_EDWARDS_D : F))) (k *ᶠ (FieldBackend.NEG_EDWARDS_D : F))).bind fun τ15 =>
  (Lk.tell (LeakBackend.mulTr F (FieldBackend.relax τ15) (FieldBackend.relax isr)) (τ15 *ᶠ isr)).bind fun τ16 =>
  (Lk.tell (LeakBackend.mulTr F (FieldBackend.relax τ16) (FieldBackend.relax X)) (τ16 *ᶠ X)).bind fun τ17 =>
  let s : F := τ17
  (Lk.tell (LeakBackend.toBytesTr s) (FieldBackend.isNegative s)).bind fun τ18 =>
  (Lk.tell (LeakBackend.condNegateTr s τ18) (FieldBackend.condNegate s τ18)).bind fun τ19 =>
  let s := τ19
  (Lk.tell (LeakBackend.toBytesTr s) (FieldBackend.toBytes s).l).bind fun τ20 =>
  Lk.ret τ20

/-- Translation of `decompress` with its leakage. /repo/src/decaf/decaf.rs:91-128 -/
def CompressedDecaf.decompress (self : List ℕ) : Lk (Option (Model.DecafPt F)) :=
  (Lk.fieldFromBytes F self).bind fun τ1 =>
  let s : F := τ1
  (Lk.tell (LeakBackend.toBytesTr s) (FieldBackend.toBytes s).l).bind fun τ2 =>
  let s_bytes_check : List ℕ := τ2
  let s_encoding_is_canonical : Bool := (s_bytes_check == self)
  (Lk.tell (LeakBackend.toBytesTr s) (FieldBackend.isNegative s)).bind fun τ3 =>
  let s_is_negative : Bool := τ3
  (Lk.or ((Bool.toNat s_encoding_is_canonical) == (0 : ℕ)) (
  (Lk.tell (LeakBackend.toBytesTr s) (FieldBackend.isNegative s)).bind fun τ4 =>
  Lk.ret ((Bool.toNat τ4) == (1 : ℕ)))).bind fun τ5 =>
  Lk.ite τ5 (
  Lk.ret (none : Option (Model.DecafPt F))) (
  (Lk.tell (LeakBackend.squareTr F (FieldBackend.relax s)) (FieldBackend.square s)).bind fun τ6 =>
  let ss : F := τ6
  (Lk.tell (LeakBackend.subTr (FieldBackend.one : F) ss) ((FieldBackend.one : F) -ᶠ ss)).bind fun τ7 =>
  let u1 : F := τ7
  (Lk.tell (LeakBackend.addTr (FieldBackend.one : F) ss) ((FieldBackend.one : F) +ᶠ ss)).bind fun τ8 =>
  let u2 : F := τ8
  (Lk.tell (LeakBackend.squareTr F (FieldBackend.relax u1)) (FieldBackend.square u1)).bind fun τ9 =>
  let u1_sqr : F := τ9
  (Lk.tell (LeakBackend.mulTr F (FieldBackend.relax ss) (FieldBackend.relax (FieldBackend.NEG_FOUR_TIMES_TWISTED_D : F))) (ss *ᶠ (FieldBackend.NEG_FOUR_TIMES_TWISTED_D : F))).bind fun τ10 =>
  (Lk.tell (LeakBackend.addTr τ10 u1_sqr) (τ10 +ᶠ u1_sqr)).bind fun τ11 =>
  let v : F := τ11
  (Lk.tell (LeakBackend.mulTr F (FieldBackend.relax v) (FieldBackend.relax u1_sqr)) (v *ᶠ u1_sqr)).bind fun τ12 =>
  (Field.inverse_square_root (F := F) τ12).bind fun τ13 =>
  let τ14 := τ13
  let I : F := τ14.1
  let ok : Bool := τ14.2
  Lk.ite ((Bool.toNat ok) == (0 : ℕ)) (
  Lk.ret (none : Option (Model.DecafPt F))) (
  (Lk.tell (LeakBackend.mulTr F (FieldBackend.relax I) (FieldBackend.relax u1)) (I *ᶠ u1)).bind fun τ15 =>
  let Dx : F := τ15
  (Lk.tell (LeakBackend.addTr s s) (s +ᶠ s)).bind fun τ16 =>
  (Lk.tell (LeakBackend.mulTr F (FieldBackend.relax τ16) (FieldBackend.relax Dx)) (τ16 *ᶠ Dx)).bind fun τ17 =>
  let Dxs : F := τ17
  (Lk.tell (LeakBackend.mulTr F (FieldBackend.relax Dxs) (FieldBackend.relax I)) (Dxs *ᶠ I)).bind fun τ18 =>
  (Lk.tell (LeakBackend.mulTr F (FieldBackend.relax τ18) (FieldBackend.relax v)) (τ18 *ᶠ v)).bind fun τ19 =>
  let X : F := τ19
  (Lk.tell (LeakBackend.mulTr F (FieldBackend.relax Dxs) (FieldBackend.relax (FieldBackend.DECAF_FACTOR : F))) (Dxs *ᶠ (FieldBackend.DECAF_FACTOR : F))).bind fun τ20 =>
  let k : F := τ20
  (Lk.tell (LeakBackend.toBytesTr k) (FieldBackend.isNegative k)).bind fun τ21 =>
  (Lk.tell (LeakBackend.condNegateTr X τ21) (FieldBackend.condNegate X τ21)).bind fun τ22 =>
  let X := τ22
  (Lk.tell (LeakBackend.mulTr F (FieldBackend.relax Dx) (FieldBackend.relax u2)) (Dx *ᶠ u2)).bind fun τ23 =>
  let Y : F := τ23
  let Z : F := (FieldBackend.one : F)
  (Lk.tell (LeakBackend.mulTr F (FieldBackend.relax X) (FieldBackend.relax Y)) (X *ᶠ Y)).bind fun τ24 =>
  let T : F := τ24
  Lk.ret (some (⟨({ X := X, Y := Y, Z := Z, T := T } : Model.TwPt F)⟩ : Model.DecafPt F))))

/-- Translation of `mul` with its leakage. /repo/src/decaf/ops.rs:10-13 -/
def DecafPt.op_mul_Scalar (self : Model.DecafPt F) (scalar : List ℕ) : Lk (Model.DecafPt F) :=
  (double_and_add.double_and_add (F := F) self.pt scalar).bind fun τ1 =>
  Lk.ret (⟨τ1⟩ : Model.DecafPt F)

/-- Translation of `mul` with its leakage. /repo/src/decaf/ops.rs:17-19 -/
def Scalar.op_mul_DecafPt (self : List ℕ) (point : Model.DecafPt F) : Lk (Model.DecafPt F) :=
  (double_and_add.double_and_add (F := F) point.pt self).bind fun τ1 =>
  Lk.ret (⟨τ1⟩ : Model.DecafPt F)

/-- Translation of `mul` with its leakage. /repo/src/decaf/ops.rs:23-25 -/
def Scalar.op_mul_DecafPt2 (self : List ℕ) (point : Model.DecafPt F) : Lk (Model.DecafPt F) :=
  (double_and_add.double_and_add (F := F) point.pt self).bind fun τ1 =>
  Lk.ret (⟨τ1⟩ : Model.DecafPt F)

/-- Translation of `mul` with its leakage. /repo/src/decaf/ops.rs:29-31 -/
def DecafPt.op_mul_Scalar2 (self : Model.DecafPt F) (scalar : List ℕ) : Lk (Model.DecafPt F) :=
  (double_and_add.double_and_add (F := F) self.pt scalar).bind fun τ1 =>
  Lk.ret (⟨τ1⟩ : Model.DecafPt F)

/-- Translation of `add` with its leakage. /repo/src/decaf/ops.rs:38-40 -/
def DecafPt.op_add (self : Model.DecafPt F) (other : Model.DecafPt F) : Lk (Model.DecafPt F) :=
  (TwExt.add_extended (F := F) (Gen.TwPt.to_extensible (F := F) self.pt) other.pt).bind fun τ1 =>
  (TwExt.to_extended (F := F) τ1).bind fun τ2 =>
  Lk.ret (⟨τ2⟩ : Model.DecafPt F)

/-- Translation of `add` with its leakage. /repo/src/decaf/ops.rs:44-46 -/
def DecafPt.op_add2 (self : Model.DecafPt F) (other : Model.DecafPt F) : Lk (Model.DecafPt F) :=
  (DecafPt.op_add (F := F) self other).bind fun τ1 =>
  Lk.ret τ1

/-- Translation of `sub` with its leakage. /repo/src/decaf/ops.rs:53-55 -/
def DecafPt.op_sub (self : Model.DecafPt F) (other : Model.DecafPt F) : Lk (Model.DecafPt F) :=
  (TwExt.sub_extended (F := F) (Gen.TwPt.to_extensible (F := F) self.pt) other.pt).bind fun τ1 =>
  (TwExt.to_extended (F := F) τ1).bind fun τ2 =>
  Lk.ret (⟨τ2⟩ : Model.DecafPt F)

/-- Translation of `sub` with its leakage. /repo/src/decaf/ops.rs:59-61 -/
def DecafPt.op_sub2 (self : Model.DecafPt F) (other : Model.DecafPt F) : Lk (Model.DecafPt F) :=
  (DecafPt.sub (F := F) self other).bind fun τ1 =>
  Lk.ret τ1

/-- Translation of `neg` with its leakage. /repo/src/decaf/ops.rs:68-70 -/
def DecafPt.op_neg (self : Model.DecafPt F) : Lk (Model.DecafPt F) :=
  (TwPt.negate (F := F) self.pt).bind fun τ1 =>
  Lk.ret (⟨τ1⟩ : Model.DecafPt F)

/-- Translation of `neg` with its leakage. /repo/src/decaf/ops.rs:74-76 -/
def DecafPt.op_neg2 (self : Model.DecafPt F) : Lk (Model.DecafPt F) :=
  (DecafPt.op_neg (F := F) self).bind fun τ1 =>
  Lk.ret τ1

/-- Translation of `as_bytes` with its leakage. /repo/src/ristretto/ristretto.rs:32-34 -/
def CompressedRistretto.as_bytes (self : List ℕ) : Lk (List ℕ) :=
  Lk.ret self

/-- Translation of `ct_eq` with its leakage. /repo/src/ristretto/ristretto.rs:19-21 -/
def CompressedRistretto.ct_eq (self : List ℕ) (other : List ℕ) : Lk Bool :=
  Lk.ret ((Gen.CompressedRistretto.as_bytes self) == (Gen.CompressedRistretto.as_bytes other))

/-- Translation of `eq` with its leakage. /repo/src/ristretto/ristretto.rs:25-27 -/
def CompressedRistretto.eq (self : List ℕ) (other : List ℕ) : Lk Bool :=
  Lk.ret (Gen.CompressedRistretto.ct_eq self other)

/-- Translation of `equals` with its leakage. /repo/src/ristretto/ristretto.rs:42-46 -/
def RistPt.equals (self : Model.RistPt F) (other : Model.RistPt F) : Lk Bool :=
  (Lk.tell (LeakBackend.mulTr F (FieldBackend.relax self.pt.X) (FieldBackend.relax other.pt.Y)) (self.pt.X *ᶠ other.pt.Y)).bind fun τ1 =>
  let XY : F := τ1
  (Lk.tell (LeakBackend.mulTr F (FieldBackend.relax self.pt.Y) (FieldBackend.relax other.pt.X)) (self.pt.Y *ᶠ other.pt.X)).bind fun τ2 =>
  let YX : F := τ2
  (Field.eq (F := F) XY YX).bind fun τ3 =>
  Lk.ret τ3

/-- Translation of `encode` with its leakage. /repo/src/ristretto/ristretto.rs:48-50 -/
def RistPt.encode (self : Model.RistPt F) : Lk (List ℕ) :=
  none

/-- Translation of `decode` with its leakage. /repo/src/ristretto/ristretto.rs:58-60 -/
def CompressedRistretto.decode (self : List ℕ) : Lk (Option (Model.RistPt F)) :=
  none

end Ed448.Leak
