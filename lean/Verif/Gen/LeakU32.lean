import Verif.Gen.Leak
import Verif.Gen.U32
/-!
# Mechanical translation of src/field/u32 with leakage

Generated by tools/rust2lean.py; do not edit. Each definition is the translation of the cited Rust
function in the monad `Lk`, which records the leakage; see `Verif.Gen.Leak`. A function that has no
branch, no loop and no computed address, and calls only such functions, is called without leakage.
-/

set_option linter.all false

namespace Ed448.Leak
open Ed448.Model FieldBackend


/-- Translation of `index` with its leakage. /repo/src/field/u32/prime_field.rs:19-21 -/
def FieldElement28.index (self : List ℕ) (a : ℕ) : Lk ℕ :=
  (Lk.idx self a).bind fun τ1 =>
  Lk.ret τ1

/-- Translation of `index_mut` with its leakage. /repo/src/field/u32/prime_field.rs:25-27 -/
def FieldElement28.index_mut (self : List ℕ) (a : ℕ) (v : ℕ) : Lk (List ℕ) :=
  (Lk.put self a v).bind fun τ1 =>
  let self := τ1
  Lk.ret (self)

/-- Translation of `mul` with its leakage. /repo/src/field/u32/karatsuba.rs:17-284 -/
def karatsuba.mul (a : List ℕ) (b : List ℕ) : Lk (List ℕ) :=
  let τ3 := Gen.karatsuba.mul.part1 a b
  let MASK : ℤ := τ3.1
  let c : List ℕ := τ3.2.1
  let aa : List ℕ := τ3.2.2.1
  let bb : List ℕ := τ3.2.2.2.1
  let z0 : ℤ := τ3.2.2.2.2.1
  let z1 : ℤ := τ3.2.2.2.2.2.1
  let z2 : ℤ := τ3.2.2.2.2.2.2
  (Lk.lift (Gen.karatsuba.mul.part2 a b MASK c aa bb z0 z1 z2)).bind fun τ54 =>
  let c : List ℕ := τ54.1
  let z0 : ℤ := τ54.2.1
  let z1 : ℤ := τ54.2.2.1
  let z2 : ℤ := τ54.2.2.2
  (Lk.lift (Gen.karatsuba.mul.part3 a b MASK c aa bb z0 z1 z2)).bind fun τ106 =>
  let c : List ℕ := τ106.1
  let z0 : ℤ := τ106.2.1
  let z1 : ℤ := τ106.2.2.1
  let z2 : ℤ := τ106.2.2.2
  (Lk.lift (Gen.karatsuba.mul.part4 a b MASK c aa bb z0 z1 z2)).bind fun τ158 =>
  let c : List ℕ := τ158.1
  let z0 : ℤ := τ158.2.1
  let z1 : ℤ := τ158.2.2.1
  let z2 : ℤ := τ158.2.2.2
  (Lk.lift (Gen.karatsuba.mul.part5 a b MASK c aa bb z0 z1 z2)).bind fun τ210 =>
  let c : List ℕ := τ210.1
  let z0 : ℤ := τ210.2.1
  let z1 : ℤ := τ210.2.2.1
  let z2 : ℤ := τ210.2.2.2
  (Lk.lift (Gen.karatsuba.mul.part6 a b MASK c aa bb z0 z1 z2)).bind fun τ262 =>
  let c : List ℕ := τ262.1
  let z0 : ℤ := τ262.2.1
  let z1 : ℤ := τ262.2.2.1
  let z2 : ℤ := τ262.2.2.2
  (Lk.lift (Gen.karatsuba.mul.part7 a b MASK c aa bb z0 z1 z2)).bind fun τ314 =>
  let c : List ℕ := τ314.1
  let z0 : ℤ := τ314.2.1
  let z1 : ℤ := τ314.2.2.1
  let z2 : ℤ := τ314.2.2.2
  (Lk.lift (Gen.karatsuba.mul.part8 a b MASK c aa bb z0 z1 z2)).bind fun τ366 =>
  let c : List ℕ := τ366.1
  let z0 : ℤ := τ366.2.1
  let z1 : ℤ := τ366.2.2.1
  let z2 : ℤ := τ366.2.2.2
  (Lk.lift (Gen.karatsuba.mul.part9 a b MASK c aa bb z0 z1 z2)).bind fun τ419 =>
  let c : List ℕ := τ419.1
  let z0 : ℤ := τ419.2.1
  let z1 : ℤ := τ419.2.2.1
  let z2 : ℤ := τ419.2.2.2
  let m := fun (a : ℕ) (b : ℕ) =>
  (ckI128 ((a : ℤ) * (b : ℤ))).bind fun τ420 =>
  some τ420
  (Lk.lift (ckI128 (z1 + ((c.getD 8 0) : ℤ)))).bind fun τ421 =>
  (Lk.lift (ckI128 (z0 + τ421))).bind fun τ422 =>
  let z0 := τ422
  (Lk.lift (ckI128 (z1 + ((c.getD 0 0) : ℤ)))).bind fun τ423 =>
  let z1 := τ423
  let c := (c.set 8 (Gen.Rt.asU 32 (Gen.Rt.andZ 128 z0 MASK)))
  let c := (c.set 0 (Gen.Rt.asU 32 (Gen.Rt.andZ 128 z1 MASK)))
  let z0 := (sarZ z0 28)
  let z1 := (sarZ z1 28)
  (Lk.lift (ckU32 ((c.getD 9 0) + (Gen.Rt.asU 32 (Gen.Rt.andZ 128 z0 MASK))))).bind fun τ424 =>
  let c := (c.set 9 τ424)
  (Lk.lift (ckU32 ((c.getD 1 0) + (Gen.Rt.asU 32 (Gen.Rt.andZ 128 z1 MASK))))).bind fun τ425 =>
  let c := (c.set 1 τ425)
  Lk.ret c

/-- Translation of `mul` with its leakage. /repo/src/field/u32/prime_field.rs:31-33 -/
def FieldElement28.op_mul (self : List ℕ) (rhs : List ℕ) : Lk (List ℕ) :=
  (Lk.lift (Gen.karatsuba.mul self rhs)).bind fun τ1 =>
  Lk.ret τ1

/-- Translation of `mul` with its leakage. /repo/src/field/u32/prime_field.rs:37-39 -/
def FieldElement28.op_mul2 (self : List ℕ) (rhs : List ℕ) : Lk (List ℕ) :=
  (Lk.lift (Gen.karatsuba.mul self rhs)).bind fun τ1 =>
  Lk.ret τ1

/-- Translation of `add_no_reduce` with its leakage. /repo/src/field/u32/prime_field.rs:395-414 -/
def FieldElement28.add_no_reduce (self : List ℕ) (rhs : List ℕ) : Lk (List ℕ) :=
  (Lk.lift (ckU32 ((self.getD 0 0) + (rhs.getD 0 0)))).bind fun τ1 =>
  (Lk.lift (ckU32 ((self.getD 1 0) + (rhs.getD 1 0)))).bind fun τ2 =>
  (Lk.lift (ckU32 ((self.getD 2 0) + (rhs.getD 2 0)))).bind fun τ3 =>
  (Lk.lift (ckU32 ((self.getD 3 0) + (rhs.getD 3 0)))).bind fun τ4 =>
  (Lk.lift (ckU32 ((self.getD 4 0) + (rhs.getD 4 0)))).bind fun τ5 =>
  (Lk.lift (ckU32 ((self.getD 5 0) + (rhs.getD 5 0)))).bind fun τ6 =>
  (Lk.lift (ckU32 ((self.getD 6 0) + (rhs.getD 6 0)))).bind fun τ7 =>
  (Lk.lift (ckU32 ((self.getD 7 0) + (rhs.getD 7 0)))).bind fun τ8 =>
  (Lk.lift (ckU32 ((self.getD 8 0) + (rhs.getD 8 0)))).bind fun τ9 =>
  (Lk.lift (ckU32 ((self.getD 9 0) + (rhs.getD 9 0)))).bind fun τ10 =>
  (Lk.lift (ckU32 ((self.getD 10 0) + (rhs.getD 10 0)))).bind fun τ11 =>
  (Lk.lift (ckU32 ((self.getD 11 0) + (rhs.getD 11 0)))).bind fun τ12 =>
  (Lk.lift (ckU32 ((self.getD 12 0) + (rhs.getD 12 0)))).bind fun τ13 =>
  (Lk.lift (ckU32 ((self.getD 13 0) + (rhs.getD 13 0)))).bind fun τ14 =>
  (Lk.lift (ckU32 ((self.getD 14 0) + (rhs.getD 14 0)))).bind fun τ15 =>
  (Lk.lift (ckU32 ((self.getD 15 0) + (rhs.getD 15 0)))).bind fun τ16 =>
  Lk.ret ([τ1, τ2, τ3, τ4, τ5, τ6, τ7, τ8, τ9, τ10, τ11, τ12, τ13, τ14, τ15, τ16] : List ℕ)

/-- Translation of `weak_reduce` with its leakage. /repo/src/field/u32/prime_field.rs:226-249 -/
def FieldElement28.weak_reduce (self : List ℕ) : Lk (List ℕ) :=
  let MASK : ℕ := (268435455 : ℕ)
  let limb16_mod : ℕ := ((self.getD 15 0) >>> 28)
  (Lk.lift (ckU32 ((self.getD 8 0) + limb16_mod))).bind fun τ1 =>
  let self := (self.set 8 τ1)
  (Lk.lift (ckU32 (((self.getD 15 0) &&& MASK) + ((self.getD 14 0) >>> 28)))).bind fun τ2 =>
  let self := (self.set 15 τ2)
  (Lk.lift (ckU32 (((self.getD 14 0) &&& MASK) + ((self.getD 13 0) >>> 28)))).bind fun τ3 =>
  let self := (self.set 14 τ3)
  (Lk.lift (ckU32 (((self.getD 13 0) &&& MASK) + ((self.getD 12 0) >>> 28)))).bind fun τ4 =>
  let self := (self.set 13 τ4)
  (Lk.lift (ckU32 (((self.getD 12 0) &&& MASK) + ((self.getD 11 0) >>> 28)))).bind fun τ5 =>
  let self := (self.set 12 τ5)
  (Lk.lift (ckU32 (((self.getD 11 0) &&& MASK) + ((self.getD 10 0) >>> 28)))).bind fun τ6 =>
  let self := (self.set 11 τ6)
  (Lk.lift (ckU32 (((self.getD 10 0) &&& MASK) + ((self.getD 9 0) >>> 28)))).bind fun τ7 =>
  let self := (self.set 10 τ7)
  (Lk.lift (ckU32 (((self.getD 9 0) &&& MASK) + ((self.getD 8 0) >>> 28)))).bind fun τ8 =>
  let self := (self.set 9 τ8)
  (Lk.lift (ckU32 (((self.getD 8 0) &&& MASK) + ((self.getD 7 0) >>> 28)))).bind fun τ9 =>
  let self := (self.set 8 τ9)
  (Lk.lift (ckU32 (((self.getD 7 0) &&& MASK) + ((self.getD 6 0) >>> 28)))).bind fun τ10 =>
  let self := (self.set 7 τ10)
  (Lk.lift (ckU32 (((self.getD 6 0) &&& MASK) + ((self.getD 5 0) >>> 28)))).bind fun τ11 =>
  let self := (self.set 6 τ11)
  (Lk.lift (ckU32 (((self.getD 5 0) &&& MASK) + ((self.getD 4 0) >>> 28)))).bind fun τ12 =>
  let self := (self.set 5 τ12)
  (Lk.lift (ckU32 (((self.getD 4 0) &&& MASK) + ((self.getD 3 0) >>> 28)))).bind fun τ13 =>
  let self := (self.set 4 τ13)
  (Lk.lift (ckU32 (((self.getD 3 0) &&& MASK) + ((self.getD 2 0) >>> 28)))).bind fun τ14 =>
  let self := (self.set 3 τ14)
  (Lk.lift (ckU32 (((self.getD 2 0) &&& MASK) + ((self.getD 1 0) >>> 28)))).bind fun τ15 =>
  let self := (self.set 2 τ15)
  (Lk.lift (ckU32 (((self.getD 1 0) &&& MASK) + ((self.getD 0 0) >>> 28)))).bind fun τ16 =>
  let self := (self.set 1 τ16)
  (Lk.lift (ckU32 (((self.getD 0 0) &&& MASK) + limb16_mod))).bind fun τ17 =>
  let self := (self.set 0 τ17)
  Lk.ret (self)

/-- Translation of `add` with its leakage. /repo/src/field/u32/prime_field.rs:44-48 -/
def FieldElement28.op_add (self : List ℕ) (rhs : List ℕ) : Lk (List ℕ) :=
  (Lk.lift (Gen.FieldElement28.add_no_reduce self rhs)).bind fun τ1 =>
  let inter_res : List ℕ := τ1
  (Lk.lift (Gen.FieldElement28.weak_reduce inter_res)).bind fun τ2 =>
  let inter_res := τ2
  Lk.ret inter_res

/-- Translation of `bias` with its leakage. /repo/src/field/u32/prime_field.rs:197-224 -/
def FieldElement28.bias (a : List ℕ) (b : ℕ) : Lk (List ℕ) :=
  let MASK : ℕ := (268435455 : ℕ)
  (Lk.lift (ckU32 (b * MASK))).bind fun τ1 =>
  let co1 : ℕ := τ1
  (Lk.lift (ckSub co1 b)).bind fun τ2 =>
  let co2 : ℕ := τ2
  let lo : List ℕ := (List.replicate 4 co1)
  let hi : List ℕ := ([co2, co1, co1, co1] : List ℕ)
  Lk.ret ([(Gen.Rt.waddU 32 (a.getD 0 0) (lo.getD 0 0)), (Gen.Rt.waddU 32 (a.getD 1 0) (lo.getD 1 0)), (Gen.Rt.waddU 32 (a.getD 2 0) (lo.getD 2 0)), (Gen.Rt.waddU 32 (a.getD 3 0) (lo.getD 3 0)), (Gen.Rt.waddU 32 (a.getD 4 0) (lo.getD 0 0)), (Gen.Rt.waddU 32 (a.getD 5 0) (lo.getD 1 0)), (Gen.Rt.waddU 32 (a.getD 6 0) (lo.getD 2 0)), (Gen.Rt.waddU 32 (a.getD 7 0) (lo.getD 3 0)), (Gen.Rt.waddU 32 (a.getD 8 0) (hi.getD 0 0)), (Gen.Rt.waddU 32 (a.getD 9 0) (hi.getD 1 0)), (Gen.Rt.waddU 32 (a.getD 10 0) (hi.getD 2 0)), (Gen.Rt.waddU 32 (a.getD 11 0) (hi.getD 3 0)), (Gen.Rt.waddU 32 (a.getD 12 0) (lo.getD 0 0)), (Gen.Rt.waddU 32 (a.getD 13 0) (lo.getD 1 0)), (Gen.Rt.waddU 32 (a.getD 14 0) (lo.getD 2 0)), (Gen.Rt.waddU 32 (a.getD 15 0) (lo.getD 3 0))] : List ℕ)

/-- Translation of `sub_no_reduce` with its leakage. /repo/src/field/u32/prime_field.rs:418-437 -/
def FieldElement28.sub_no_reduce (self : List ℕ) (rhs : List ℕ) : Lk (List ℕ) :=
  Lk.ret ([(Gen.Rt.wsubU 32 (self.getD 0 0) (rhs.getD 0 0)), (Gen.Rt.wsubU 32 (self.getD 1 0) (rhs.getD 1 0)), (Gen.Rt.wsubU 32 (self.getD 2 0) (rhs.getD 2 0)), (Gen.Rt.wsubU 32 (self.getD 3 0) (rhs.getD 3 0)), (Gen.Rt.wsubU 32 (self.getD 4 0) (rhs.getD 4 0)), (Gen.Rt.wsubU 32 (self.getD 5 0) (rhs.getD 5 0)), (Gen.Rt.wsubU 32 (self.getD 6 0) (rhs.getD 6 0)), (Gen.Rt.wsubU 32 (self.getD 7 0) (rhs.getD 7 0)), (Gen.Rt.wsubU 32 (self.getD 8 0) (rhs.getD 8 0)), (Gen.Rt.wsubU 32 (self.getD 9 0) (rhs.getD 9 0)), (Gen.Rt.wsubU 32 (self.getD 10 0) (rhs.getD 10 0)), (Gen.Rt.wsubU 32 (self.getD 11 0) (rhs.getD 11 0)), (Gen.Rt.wsubU 32 (self.getD 12 0) (rhs.getD 12 0)), (Gen.Rt.wsubU 32 (self.getD 13 0) (rhs.getD 13 0)), (Gen.Rt.wsubU 32 (self.getD 14 0) (rhs.getD 14 0)), (Gen.Rt.wsubU 32 (self.getD 15 0) (rhs.getD 15 0))] : List ℕ)

/-- Translation of `sub` with its leakage. /repo/src/field/u32/prime_field.rs:52-57 -/
def FieldElement28.op_sub (self : List ℕ) (rhs : List ℕ) : Lk (List ℕ) :=
  (Lk.lift (Gen.FieldElement28.bias self (2 : ℕ))).bind fun τ1 =>
  let self := τ1
  let inter_res : List ℕ := (Gen.FieldElement28.sub_no_reduce self rhs)
  (Lk.lift (Gen.FieldElement28.weak_reduce inter_res)).bind fun τ2 =>
  let inter_res := τ2
  Lk.ret inter_res

/-- Translation of `negate` with its leakage. /repo/src/field/u32/prime_field.rs:192-194 -/
def FieldElement28.negate (self : List ℕ) : Lk (List ℕ) :=
  (Lk.lift (Gen.FieldElement28.op_sub Gen.FieldElement28.zero self)).bind fun τ1 =>
  Lk.ret τ1

/-- Translation of `conditional_select` with its leakage. /repo/src/field/u32/prime_field.rs:68-91 -/
def FieldElement28.conditional_select (a : List ℕ) (b : List ℕ) (choice : Bool) : Lk (List ℕ) :=
  Lk.ret ([(Gen.Rt.selectWord (a.getD 0 0) (b.getD 0 0) choice), (Gen.Rt.selectWord (a.getD 1 0) (b.getD 1 0) choice), (Gen.Rt.selectWord (a.getD 2 0) (b.getD 2 0) choice), (Gen.Rt.selectWord (a.getD 3 0) (b.getD 3 0) choice), (Gen.Rt.selectWord (a.getD 4 0) (b.getD 4 0) choice), (Gen.Rt.selectWord (a.getD 5 0) (b.getD 5 0) choice), (Gen.Rt.selectWord (a.getD 6 0) (b.getD 6 0) choice), (Gen.Rt.selectWord (a.getD 7 0) (b.getD 7 0) choice), (Gen.Rt.selectWord (a.getD 8 0) (b.getD 8 0) choice), (Gen.Rt.selectWord (a.getD 9 0) (b.getD 9 0) choice), (Gen.Rt.selectWord (a.getD 10 0) (b.getD 10 0) choice), (Gen.Rt.selectWord (a.getD 11 0) (b.getD 11 0) choice), (Gen.Rt.selectWord (a.getD 12 0) (b.getD 12 0) choice), (Gen.Rt.selectWord (a.getD 13 0) (b.getD 13 0) choice), (Gen.Rt.selectWord (a.getD 14 0) (b.getD 14 0) choice), (Gen.Rt.selectWord (a.getD 15 0) (b.getD 15 0) choice)] : List ℕ)

/-- Translation of `conditional_negate` with its leakage. /repo/src/field/u32/prime_field.rs:61-64 -/
def FieldElement28.conditional_negate (self : List ℕ) (choice : Bool) : Lk (List ℕ) :=
  (Lk.lift (Gen.FieldElement28.negate self)).bind fun τ1 =>
  let self_neg : List ℕ := τ1
  let self := (Gen.FieldElement28.conditional_select self self_neg choice)
  Lk.ret (self)

/-- Translation of `strong_reduce` with its leakage. /repo/src/field/u32/prime_field.rs:254-391 -/
def FieldElement28.strong_reduce (self : List ℕ) : Lk (List ℕ) :=
  let MASK : ℕ := (268435455 : ℕ)
  (Lk.lift (Gen.FieldElement28.weak_reduce self)).bind fun τ1 =>
  let self := τ1
  let sub_carry := fun (a : ℕ) (b : ℤ) =>
  let x : ℤ := (a : ℤ)
  (ckI64 (x - b)).bind fun τ2 =>
  some τ2
  let add_carry := fun (a : ℕ) (b : ℕ) =>
  let x : ℕ := a
  (ckU64 (x + b)).bind fun τ3 =>
  some τ3
  let scarry : ℤ := (0 : ℤ)
  (Lk.lift (sub_carry (self.getD 0 0) (268435455 : ℤ))).bind fun τ4 =>
  (Lk.lift (ckI64 (scarry + τ4))).bind fun τ5 =>
  let scarry := τ5
  let self := (self.set 0 ((Gen.Rt.asU 32 scarry) &&& MASK))
  let scarry := (sarZ scarry 28)
  (Lk.lift (sub_carry (self.getD 1 0) (268435455 : ℤ))).bind fun τ6 =>
  (Lk.lift (ckI64 (scarry + τ6))).bind fun τ7 =>
  let scarry := τ7
  let self := (self.set 1 ((Gen.Rt.asU 32 scarry) &&& MASK))
  let scarry := (sarZ scarry 28)
  (Lk.lift (sub_carry (self.getD 2 0) (268435455 : ℤ))).bind fun τ8 =>
  (Lk.lift (ckI64 (scarry + τ8))).bind fun τ9 =>
  let scarry := τ9
  let self := (self.set 2 ((Gen.Rt.asU 32 scarry) &&& MASK))
  let scarry := (sarZ scarry 28)
  (Lk.lift (sub_carry (self.getD 3 0) (268435455 : ℤ))).bind fun τ10 =>
  (Lk.lift (ckI64 (scarry + τ10))).bind fun τ11 =>
  let scarry := τ11
  let self := (self.set 3 ((Gen.Rt.asU 32 scarry) &&& MASK))
  let scarry := (sarZ scarry 28)
  (Lk.lift (sub_carry (self.getD 4 0) (268435455 : ℤ))).bind fun τ12 =>
  (Lk.lift (ckI64 (scarry + τ12))).bind fun τ13 =>
  let scarry := τ13
  let self := (self.set 4 ((Gen.Rt.asU 32 scarry) &&& MASK))
  let scarry := (sarZ scarry 28)
  (Lk.lift (sub_carry (self.getD 5 0) (268435455 : ℤ))).bind fun τ14 =>
  (Lk.lift (ckI64 (scarry + τ14))).bind fun τ15 =>
  let scarry := τ15
  let self := (self.set 5 ((Gen.Rt.asU 32 scarry) &&& MASK))
  let scarry := (sarZ scarry 28)
  (Lk.lift (sub_carry (self.getD 6 0) (268435455 : ℤ))).bind fun τ16 =>
  (Lk.lift (ckI64 (scarry + τ16))).bind fun τ17 =>
  let scarry := τ17
  let self := (self.set 6 ((Gen.Rt.asU 32 scarry) &&& MASK))
  let scarry := (sarZ scarry 28)
  (Lk.lift (sub_carry (self.getD 7 0) (268435455 : ℤ))).bind fun τ18 =>
  (Lk.lift (ckI64 (scarry + τ18))).bind fun τ19 =>
  let scarry := τ19
  let self := (self.set 7 ((Gen.Rt.asU 32 scarry) &&& MASK))
  let scarry := (sarZ scarry 28)
  (Lk.lift (sub_carry (self.getD 8 0) (268435454 : ℤ))).bind fun τ20 =>
  (Lk.lift (ckI64 (scarry + τ20))).bind fun τ21 =>
  let scarry := τ21
  let self := (self.set 8 ((Gen.Rt.asU 32 scarry) &&& MASK))
  let scarry := (sarZ scarry 28)
  (Lk.lift (sub_carry (self.getD 9 0) (268435455 : ℤ))).bind fun τ22 =>
  (Lk.lift (ckI64 (scarry + τ22))).bind fun τ23 =>
  let scarry := τ23
  let self := (self.set 9 ((Gen.Rt.asU 32 scarry) &&& MASK))
  let scarry := (sarZ scarry 28)
  (Lk.lift (sub_carry (self.getD 10 0) (268435455 : ℤ))).bind fun τ24 =>
  (Lk.lift (ckI64 (scarry + τ24))).bind fun τ25 =>
  let scarry := τ25
  let self := (self.set 10 ((Gen.Rt.asU 32 scarry) &&& MASK))
  let scarry := (sarZ scarry 28)
  (Lk.lift (sub_carry (self.getD 11 0) (268435455 : ℤ))).bind fun τ26 =>
  (Lk.lift (ckI64 (scarry + τ26))).bind fun τ27 =>
  let scarry := τ27
  let self := (self.set 11 ((Gen.Rt.asU 32 scarry) &&& MASK))
  let scarry := (sarZ scarry 28)
  (Lk.lift (sub_carry (self.getD 12 0) (268435455 : ℤ))).bind fun τ28 =>
  (Lk.lift (ckI64 (scarry + τ28))).bind fun τ29 =>
  let scarry := τ29
  let self := (self.set 12 ((Gen.Rt.asU 32 scarry) &&& MASK))
  let scarry := (sarZ scarry 28)
  (Lk.lift (sub_carry (self.getD 13 0) (268435455 : ℤ))).bind fun τ30 =>
  (Lk.lift (ckI64 (scarry + τ30))).bind fun τ31 =>
  let scarry := τ31
  let self := (self.set 13 ((Gen.Rt.asU 32 scarry) &&& MASK))
  let scarry := (sarZ scarry 28)
  (Lk.lift (sub_carry (self.getD 14 0) (268435455 : ℤ))).bind fun τ32 =>
  (Lk.lift (ckI64 (scarry + τ32))).bind fun τ33 =>
  let scarry := τ33
  let self := (self.set 14 ((Gen.Rt.asU 32 scarry) &&& MASK))
  let scarry := (sarZ scarry 28)
  (Lk.lift (sub_carry (self.getD 15 0) (268435455 : ℤ))).bind fun τ34 =>
  (Lk.lift (ckI64 (scarry + τ34))).bind fun τ35 =>
  let scarry := τ35
  let self := (self.set 15 ((Gen.Rt.asU 32 scarry) &&& MASK))
  let scarry := (sarZ scarry 28)
  let scarry_mask : ℕ := ((Gen.Rt.asU 32 scarry) &&& MASK)
  let carry : ℕ := (0 : ℕ)
  let m : ℕ := scarry_mask
  (Lk.lift (add_carry (self.getD 0 0) m)).bind fun τ36 =>
  (Lk.lift (ckU64 (carry + τ36))).bind fun τ37 =>
  let carry := τ37
  let self := (self.set 0 ((carry % 2 ^ 32) &&& MASK))
  let carry := (carry >>> 28)
  (Lk.lift (add_carry (self.getD 1 0) m)).bind fun τ38 =>
  (Lk.lift (ckU64 (carry + τ38))).bind fun τ39 =>
  let carry := τ39
  let self := (self.set 1 ((carry % 2 ^ 32) &&& MASK))
  let carry := (carry >>> 28)
  (Lk.lift (add_carry (self.getD 2 0) m)).bind fun τ40 =>
  (Lk.lift (ckU64 (carry + τ40))).bind fun τ41 =>
  let carry := τ41
  let self := (self.set 2 ((carry % 2 ^ 32) &&& MASK))
  let carry := (carry >>> 28)
  (Lk.lift (add_carry (self.getD 3 0) m)).bind fun τ42 =>
  (Lk.lift (ckU64 (carry + τ42))).bind fun τ43 =>
  let carry := τ43
  let self := (self.set 3 ((carry % 2 ^ 32) &&& MASK))
  let carry := (carry >>> 28)
  (Lk.lift (add_carry (self.getD 4 0) m)).bind fun τ44 =>
  (Lk.lift (ckU64 (carry + τ44))).bind fun τ45 =>
  let carry := τ45
  let self := (self.set 4 ((carry % 2 ^ 32) &&& MASK))
  let carry := (carry >>> 28)
  (Lk.lift (add_carry (self.getD 5 0) m)).bind fun τ46 =>
  (Lk.lift (ckU64 (carry + τ46))).bind fun τ47 =>
  let carry := τ47
  let self := (self.set 5 ((carry % 2 ^ 32) &&& MASK))
  let carry := (carry >>> 28)
  (Lk.lift (add_carry (self.getD 6 0) m)).bind fun τ48 =>
  (Lk.lift (ckU64 (carry + τ48))).bind fun τ49 =>
  let carry := τ49
  let self := (self.set 6 ((carry % 2 ^ 32) &&& MASK))
  let carry := (carry >>> 28)
  (Lk.lift (add_carry (self.getD 7 0) m)).bind fun τ50 =>
  (Lk.lift (ckU64 (carry + τ50))).bind fun τ51 =>
  let carry := τ51
  let self := (self.set 7 ((carry % 2 ^ 32) &&& MASK))
  let carry := (carry >>> 28)
  (Lk.lift (add_carry (self.getD 8 0) (m &&& (18446744073709551614 : ℕ)))).bind fun τ52 =>
  (Lk.lift (ckU64 (carry + τ52))).bind fun τ53 =>
  let carry := τ53
  let self := (self.set 8 ((carry % 2 ^ 32) &&& MASK))
  let carry := (carry >>> 28)
  (Lk.lift (add_carry (self.getD 9 0) m)).bind fun τ54 =>
  (Lk.lift (ckU64 (carry + τ54))).bind fun τ55 =>
  let carry := τ55
  let self := (self.set 9 ((carry % 2 ^ 32) &&& MASK))
  let carry := (carry >>> 28)
  (Lk.lift (add_carry (self.getD 10 0) m)).bind fun τ56 =>
  (Lk.lift (ckU64 (carry + τ56))).bind fun τ57 =>
  let carry := τ57
  let self := (self.set 10 ((carry % 2 ^ 32) &&& MASK))
  let carry := (carry >>> 28)
  (Lk.lift (add_carry (self.getD 11 0) m)).bind fun τ58 =>
  (Lk.lift (ckU64 (carry + τ58))).bind fun τ59 =>
  let carry := τ59
  let self := (self.set 11 ((carry % 2 ^ 32) &&& MASK))
  let carry := (carry >>> 28)
  (Lk.lift (add_carry (self.getD 12 0) m)).bind fun τ60 =>
  (Lk.lift (ckU64 (carry + τ60))).bind fun τ61 =>
  let carry := τ61
  let self := (self.set 12 ((carry % 2 ^ 32) &&& MASK))
  let carry := (carry >>> 28)
  (Lk.lift (add_carry (self.getD 13 0) m)).bind fun τ62 =>
  (Lk.lift (ckU64 (carry + τ62))).bind fun τ63 =>
  let carry := τ63
  let self := (self.set 13 ((carry % 2 ^ 32) &&& MASK))
  let carry := (carry >>> 28)
  (Lk.lift (add_carry (self.getD 14 0) m)).bind fun τ64 =>
  (Lk.lift (ckU64 (carry + τ64))).bind fun τ65 =>
  let carry := τ65
  let self := (self.set 14 ((carry % 2 ^ 32) &&& MASK))
  let carry := (carry >>> 28)
  (Lk.lift (add_carry (self.getD 15 0) m)).bind fun τ66 =>
  (Lk.lift (ckU64 (carry + τ66))).bind fun τ67 =>
  let carry := τ67
  let self := (self.set 15 ((carry % 2 ^ 32) &&& MASK))
  let carry := (carry >>> 28)
  (Lk.lift (Gen.Rt.require (decide (carry < (2 : ℕ))))).bind fun τ68 =>
  (Lk.lift (ckI64 ((Int.bmod (carry : ℤ) (2 ^ 64)) + scarry))).bind fun τ69 =>
  (Lk.lift (Gen.Rt.require (τ69 == (0 : ℤ)))).bind fun τ70 =>
  Lk.ret (self)

/-- Translation of `to_bytes` with its leakage. /repo/src/field/u32/prime_field.rs:166-182 -/
def FieldElement28.to_bytes (self : List ℕ) : Lk (List ℕ) :=
  let limbs : List ℕ := self
  (Lk.lift (Gen.FieldElement28.strong_reduce limbs)).bind fun τ1 =>
  let limbs := τ1
  let res : List ℕ := (List.replicate 56 (0 : ℕ))
  (Lk.fold (fun (τ2 : (List ℕ)) (i : ℕ) =>
  let res := τ2
  (Lk.lift (Gen.Rt.ckUsize ((2 : ℕ) * i))).bind fun τ3 =>
  (Lk.idx limbs τ3).bind fun τ4 =>
  (Lk.lift (Gen.Rt.ckUsize ((2 : ℕ) * i))).bind fun τ5 =>
  (Lk.lift (Gen.Rt.ckUsize (τ5 + (1 : ℕ)))).bind fun τ6 =>
  (Lk.idx limbs τ6).bind fun τ7 =>
  (Lk.lift (ckU64 (τ4 + (Gen.Rt.shlU 64 τ7 28)))).bind fun τ8 =>
  let l : ℕ := τ8
  (Lk.fold (fun (τ9 : (List ℕ) × (ℕ)) (j : ℕ) =>
  let res := τ9.1
  let l := τ9.2
  (Lk.lift (Gen.Rt.ckUsize ((7 : ℕ) * i))).bind fun τ10 =>
  (Lk.lift (Gen.Rt.ckUsize (τ10 + j))).bind fun τ11 =>
  (Lk.put res τ11 (l % 2 ^ 8)).bind fun τ12 =>
  let res := τ12
  let l := (l >>> 8)
  Lk.ret (res, l)) (res, l) (Gen.Rt.range (0 : ℕ) (7 : ℕ))).bind fun τ13 =>
  let res := τ13.1
  let l := τ13.2
  Lk.ret (res)) (res) (Gen.Rt.range (0 : ℕ) (8 : ℕ))).bind fun τ14 =>
  let res := τ14
  Lk.ret res

/-- Translation of `is_negative` with its leakage. /repo/src/field/u32/prime_field.rs:123-126 -/
def FieldElement28.is_negative (self : List ℕ) : Lk Bool :=
  (FieldElement28.to_bytes self).bind fun τ1 =>
  let bytes : List ℕ := τ1
  (Lk.lift (Gen.Rt.choice ((bytes.getD 0 0) &&& (1 : ℕ)))).bind fun τ2 =>
  Lk.ret τ2

/-- Translation of `from_raw_slice` with its leakage. /repo/src/field/u32/prime_field.rs:134-136 -/
def FieldElement28.from_raw_slice (slice : List ℕ) : Lk (List ℕ) :=
  Lk.ret slice

/-- Translation of `from_bytes` with its leakage. /repo/src/field/u32/prime_field.rs:141-163 -/
def FieldElement28.from_bytes (bytes : List ℕ) : Lk (List ℕ) :=
  let load7 := fun (input : List ℕ) =>
  (Lk.idx input (0 : ℕ)).bind fun τ1 =>
  (Lk.idx input (1 : ℕ)).bind fun τ2 =>
  (Lk.idx input (2 : ℕ)).bind fun τ3 =>
  (Lk.idx input (3 : ℕ)).bind fun τ4 =>
  (Lk.idx input (4 : ℕ)).bind fun τ5 =>
  (Lk.idx input (5 : ℕ)).bind fun τ6 =>
  (Lk.idx input (6 : ℕ)).bind fun τ7 =>
  Lk.ret ((((((τ1 ||| (Gen.Rt.shlU 64 τ2 8)) ||| (Gen.Rt.shlU 64 τ3 16)) ||| (Gen.Rt.shlU 64 τ4 24)) ||| (Gen.Rt.shlU 64 τ5 32)) ||| (Gen.Rt.shlU 64 τ6 40)) ||| (Gen.Rt.shlU 64 τ7 48))
  let MASK : ℕ := (268435455 : ℕ)
  let res : List ℕ := Gen.FieldElement28.zero
  (Lk.fold (fun (τ8 : (List ℕ)) (i : ℕ) =>
  let res := τ8
  (Lk.lift (Gen.Rt.ckUsize (i * (7 : ℕ)))).bind fun τ9 =>
  (Lk.sliceFrom bytes τ9).bind fun τ10 =>
  (load7 τ10).bind fun τ11 =>
  let out : ℕ := τ11
  (Lk.lift (Gen.Rt.ckUsize ((2 : ℕ) * i))).bind fun τ12 =>
  (Lk.put res τ12 ((out % 2 ^ 32) &&& MASK)).bind fun τ13 =>
  let res := τ13
  (Lk.lift (Gen.Rt.ckUsize ((2 : ℕ) * i))).bind fun τ14 =>
  (Lk.lift (Gen.Rt.ckUsize (τ14 + (1 : ℕ)))).bind fun τ15 =>
  (Lk.put res τ15 ((out >>> 28) % 2 ^ 32)).bind fun τ16 =>
  let res := τ16
  Lk.ret (res)) (res) (Gen.Rt.range (0 : ℕ) (8 : ℕ))).bind fun τ17 =>
  let res := τ17
  Lk.ret res

/-- Part 1 of `square`: lines 288-297. /repo/src/field/u32/karatsuba.rs:288-297 -/
def karatsuba.square.part1 (a : List ℕ) : Lk (ℕ × ℕ × ℕ × (List ℕ) × (List ℕ)) :=
  let τ1 := ((0 : ℕ), (0 : ℕ), (0 : ℕ))
  let accum0 : ℕ := τ1.1
  let accum1 : ℕ := τ1.2.1
  let accum2 : ℕ := τ1.2.2
  let c : List ℕ := Gen.FieldElement28.zero
  let widemul := fun (a : ℕ) (b : ℕ) =>
  (ckU64 (a * b)).bind fun τ2 =>
  some τ2
  let aa : List ℕ := (List.replicate 8 (0 : ℕ))
  (Lk.fold (fun (τ3 : (List ℕ)) (i : ℕ) =>
  let aa := τ3
  (Lk.idx a i).bind fun τ4 =>
  (Lk.lift (Gen.Rt.ckUsize (i + (8 : ℕ)))).bind fun τ5 =>
  (Lk.idx a τ5).bind fun τ6 =>
  (Lk.lift (ckU64 (τ4 + τ6))).bind fun τ7 =>
  (Lk.put aa i τ7).bind fun τ8 =>
  let aa := τ8
  Lk.ret (aa)) (aa) (Gen.Rt.range (0 : ℕ) (8 : ℕ))).bind fun τ9 =>
  let aa := τ9
  Lk.ret (accum0, accum1, accum2, c, aa)

/-- Part 2 of `square`: lines 301-323. /repo/src/field/u32/karatsuba.rs:301-323 -/
def karatsuba.square.part2 (a : List ℕ) (accum0 : ℕ) (accum1 : ℕ) (accum2 : ℕ) (c : List ℕ) (aa : List ℕ) : Lk (ℕ × ℕ × ℕ × (List ℕ)) :=
  let widemul := fun (a : ℕ) (b : ℕ) =>
  (ckU64 (a * b)).bind fun τ11 =>
  some τ11
  let accum2 := (0 : ℕ)
  (Lk.lift (widemul (a.getD 0 0) (a.getD 0 0))).bind fun τ12 =>
  let accum2 := (Gen.Rt.waddU 64 accum2 τ12)
  let accum1 := (Gen.Rt.waddU 64 accum1 (Gen.Rt.wmulU 64 (aa.getD 0 0) (aa.getD 0 0)))
  (Lk.lift (widemul (a.getD 8 0) (a.getD 8 0))).bind fun τ13 =>
  let accum0 := (Gen.Rt.waddU 64 accum0 τ13)
  let accum1 := (Gen.Rt.wsubU 64 accum1 accum2)
  let accum0 := (Gen.Rt.waddU 64 accum0 accum2)
  let accum2 := (0 : ℕ)
  (Lk.fold (fun (τ14 : (ℕ) × (ℕ) × (ℕ)) (i : ℕ) =>
  let accum2 := τ14.1
  let accum1 := τ14.2.1
  let accum0 := τ14.2.2
  (Lk.idx aa i).bind fun τ15 =>
  (Lk.lift (ckSub (8 : ℕ) i)).bind fun τ16 =>
  (Lk.idx aa τ16).bind fun τ17 =>
  let accum2 := (Gen.Rt.waddU 64 accum2 (Gen.Rt.shlU 64 (Gen.Rt.wmulU 64 τ15 τ17) 1))
  (Lk.lift (Gen.Rt.ckUsize ((8 : ℕ) + i))).bind fun τ18 =>
  (Lk.idx a τ18).bind fun τ19 =>
  (Lk.lift (ckSub (16 : ℕ) i)).bind fun τ20 =>
  (Lk.idx a τ20).bind fun τ21 =>
  (Lk.lift (widemul τ19 τ21)).bind fun τ22 =>
  let accum1 := (Gen.Rt.waddU 64 accum1 (Gen.Rt.shlU 64 τ22 1))
  (Lk.idx a i).bind fun τ23 =>
  (Lk.lift (ckSub (8 : ℕ) i)).bind fun τ24 =>
  (Lk.idx a τ24).bind fun τ25 =>
  (Lk.lift (widemul τ23 τ25)).bind fun τ26 =>
  let accum0 := (Gen.Rt.wsubU 64 accum0 (Gen.Rt.shlU 64 τ26 1))
  Lk.ret (accum2, accum1, accum0)) (accum2, accum1, accum0) (Gen.Rt.range (1 : ℕ) (4 : ℕ))).bind fun τ27 =>
  let accum2 := τ27.1
  let accum1 := τ27.2.1
  let accum0 := τ27.2.2
  let accum2 := (Gen.Rt.waddU 64 accum2 (Gen.Rt.wmulU 64 (aa.getD 4 0) (aa.getD 4 0)))
  (Lk.lift (widemul (a.getD 12 0) (a.getD 12 0))).bind fun τ28 =>
  let accum1 := (Gen.Rt.waddU 64 (Gen.Rt.waddU 64 accum1 τ28) accum2)
  (Lk.lift (widemul (a.getD 4 0) (a.getD 4 0))).bind fun τ29 =>
  let accum0 := (Gen.Rt.waddU 64 (Gen.Rt.wsubU 64 accum0 τ29) accum2)
  let c := (c.set 0 ((accum0 % 2 ^ 32) &&& Gen.C.karatsuba_MASK))
  let c := (c.set 8 ((accum1 % 2 ^ 32) &&& Gen.C.karatsuba_MASK))
  let accum0 := (accum0 >>> 28)
  let accum1 := (accum1 >>> 28)
  Lk.ret (accum0, accum1, accum2, c)

/-- Part 3 of `square`: lines 327-363. /repo/src/field/u32/karatsuba.rs:327-363 -/
def karatsuba.square.part3 (a : List ℕ) (accum0 : ℕ) (accum1 : ℕ) (accum2 : ℕ) (c : List ℕ) (aa : List ℕ) : Lk (ℕ × ℕ × ℕ × (List ℕ)) :=
  let widemul := fun (a : ℕ) (b : ℕ) =>
  (ckU64 (a * b)).bind fun τ31 =>
  some τ31
  (Lk.fold (fun (τ32 : (ℕ) × (ℕ) × (ℕ) × (List ℕ)) (j : ℕ) =>
  let accum2 := τ32.1
  let accum1 := τ32.2.1
  let accum0 := τ32.2.2.1
  let c := τ32.2.2.2
  let accum2 := (0 : ℕ)
  (Lk.lift (Gen.Rt.ckUsize ((j / (2 : ℕ)) + (1 : ℕ)))).bind fun τ33 =>
  (Lk.fold (fun (τ34 : (ℕ) × (ℕ) × (ℕ)) (i : ℕ) =>
  let accum2 := τ34.1
  let accum1 := τ34.2.1
  let accum0 := τ34.2.2
  (Lk.lift (ckSub j i)).bind fun τ35 =>
  (Lk.ite (!(i == τ35)) (
  (Lk.lift (ckSub j i)).bind fun τ36 =>
  (Lk.idx a τ36).bind fun τ37 =>
  (Lk.idx a i).bind fun τ38 =>
  (Lk.lift (widemul τ37 τ38)).bind fun τ39 =>
  let accum2 := (Gen.Rt.waddU 64 accum2 (Gen.Rt.shlU 64 τ39 1))
  (Lk.lift (ckSub j i)).bind fun τ40 =>
  (Lk.idx aa τ40).bind fun τ41 =>
  (Lk.idx aa i).bind fun τ42 =>
  let accum1 := (Gen.Rt.waddU 64 accum1 (Gen.Rt.shlU 64 (Gen.Rt.wmulU 64 τ41 τ42) 1))
  (Lk.lift (ckSub j i)).bind fun τ43 =>
  (Lk.lift (Gen.Rt.ckUsize ((8 : ℕ) + τ43))).bind fun τ44 =>
  (Lk.idx a τ44).bind fun τ45 =>
  (Lk.lift (Gen.Rt.ckUsize ((8 : ℕ) + i))).bind fun τ46 =>
  (Lk.idx a τ46).bind fun τ47 =>
  (Lk.lift (widemul τ45 τ47)).bind fun τ48 =>
  let accum0 := (Gen.Rt.waddU 64 accum0 (Gen.Rt.shlU 64 τ48 1))
  Lk.ret (accum2, accum1, accum0)) (
  (Lk.idx a (j / (2 : ℕ))).bind fun τ49 =>
  (Lk.idx a (j / (2 : ℕ))).bind fun τ50 =>
  (Lk.lift (widemul τ49 τ50)).bind fun τ51 =>
  let accum2 := (Gen.Rt.waddU 64 accum2 τ51)
  (Lk.idx aa (j / (2 : ℕ))).bind fun τ52 =>
  (Lk.idx aa (j / (2 : ℕ))).bind fun τ53 =>
  let accum1 := (Gen.Rt.waddU 64 accum1 (Gen.Rt.wmulU 64 τ52 τ53))
  (Lk.lift (Gen.Rt.ckUsize ((8 : ℕ) + (j / (2 : ℕ))))).bind fun τ54 =>
  (Lk.idx a τ54).bind fun τ55 =>
  (Lk.lift (Gen.Rt.ckUsize ((8 : ℕ) + (j / (2 : ℕ))))).bind fun τ56 =>
  (Lk.idx a τ56).bind fun τ57 =>
  (Lk.lift (widemul τ55 τ57)).bind fun τ58 =>
  let accum0 := (Gen.Rt.waddU 64 accum0 τ58)
  Lk.ret (accum2, accum1, accum0))).bind fun τ59 =>
  let accum2 := τ59.1
  let accum1 := τ59.2.1
  let accum0 := τ59.2.2
  Lk.ret (accum2, accum1, accum0)) (accum2, accum1, accum0) (Gen.Rt.range (0 : ℕ) τ33)).bind fun τ60 =>
  let accum2 := τ60.1
  let accum1 := τ60.2.1
  let accum0 := τ60.2.2
  let accum1 := (Gen.Rt.wsubU 64 accum1 accum2)
  let accum0 := (Gen.Rt.waddU 64 accum0 accum2)
  let accum2 := (0 : ℕ)
  (Lk.lift (ckSub (8 : ℕ) j)).bind fun τ61 =>
  (Lk.lift (Gen.Rt.ckUsize ((τ61 / (2 : ℕ)) + (1 : ℕ)))).bind fun τ62 =>
  (Lk.fold (fun (τ63 : (ℕ) × (ℕ) × (ℕ)) (i : ℕ) =>
  let accum2 := τ63.1
  let accum1 := τ63.2.1
  let accum0 := τ63.2.2
  (Lk.lift (Gen.Rt.ckUsize (j + i))).bind fun τ64 =>
  (Lk.lift (ckSub (8 : ℕ) i)).bind fun τ65 =>
  (Lk.ite (!(τ64 == τ65)) (
  (Lk.lift (ckSub (8 : ℕ) i)).bind fun τ66 =>
  (Lk.idx aa τ66).bind fun τ67 =>
  (Lk.lift (Gen.Rt.ckUsize (j + i))).bind fun τ68 =>
  (Lk.idx aa τ68).bind fun τ69 =>
  let accum2 := (Gen.Rt.waddU 64 accum2 (Gen.Rt.shlU 64 (Gen.Rt.wmulU 64 τ67 τ69) 1))
  (Lk.lift (ckSub (16 : ℕ) i)).bind fun τ70 =>
  (Lk.idx a τ70).bind fun τ71 =>
  (Lk.lift (Gen.Rt.ckUsize ((8 : ℕ) + j))).bind fun τ72 =>
  (Lk.lift (Gen.Rt.ckUsize (τ72 + i))).bind fun τ73 =>
  (Lk.idx a τ73).bind fun τ74 =>
  (Lk.lift (widemul τ71 τ74)).bind fun τ75 =>
  let accum1 := (Gen.Rt.waddU 64 accum1 (Gen.Rt.shlU 64 τ75 1))
  (Lk.lift (ckSub (8 : ℕ) i)).bind fun τ76 =>
  (Lk.idx a τ76).bind fun τ77 =>
  (Lk.lift (Gen.Rt.ckUsize (j + i))).bind fun τ78 =>
  (Lk.idx a τ78).bind fun τ79 =>
  (Lk.lift (widemul τ77 τ79)).bind fun τ80 =>
  let accum0 := (Gen.Rt.wsubU 64 accum0 (Gen.Rt.shlU 64 τ80 1))
  Lk.ret (accum2, accum1, accum0)) (
  (Lk.lift (Gen.Rt.ckUsize (j + i))).bind fun τ81 =>
  (Lk.idx aa τ81).bind fun τ82 =>
  (Lk.lift (Gen.Rt.ckUsize (j + i))).bind fun τ83 =>
  (Lk.idx aa τ83).bind fun τ84 =>
  let accum2 := (Gen.Rt.waddU 64 accum2 (Gen.Rt.wmulU 64 τ82 τ84))
  (Lk.lift (Gen.Rt.ckUsize ((8 : ℕ) + j))).bind fun τ85 =>
  (Lk.lift (Gen.Rt.ckUsize (τ85 + i))).bind fun τ86 =>
  (Lk.idx a τ86).bind fun τ87 =>
  (Lk.lift (Gen.Rt.ckUsize ((8 : ℕ) + j))).bind fun τ88 =>
  (Lk.lift (Gen.Rt.ckUsize (τ88 + i))).bind fun τ89 =>
  (Lk.idx a τ89).bind fun τ90 =>
  (Lk.lift (widemul τ87 τ90)).bind fun τ91 =>
  let accum1 := (Gen.Rt.waddU 64 accum1 τ91)
  (Lk.lift (Gen.Rt.ckUsize (j + i))).bind fun τ92 =>
  (Lk.idx a τ92).bind fun τ93 =>
  (Lk.lift (Gen.Rt.ckUsize (j + i))).bind fun τ94 =>
  (Lk.idx a τ94).bind fun τ95 =>
  (Lk.lift (widemul τ93 τ95)).bind fun τ96 =>
  let accum0 := (Gen.Rt.wsubU 64 accum0 τ96)
  Lk.ret (accum2, accum1, accum0))).bind fun τ97 =>
  let accum2 := τ97.1
  let accum1 := τ97.2.1
  let accum0 := τ97.2.2
  Lk.ret (accum2, accum1, accum0)) (accum2, accum1, accum0) (Gen.Rt.range (1 : ℕ) τ62)).bind fun τ98 =>
  let accum2 := τ98.1
  let accum1 := τ98.2.1
  let accum0 := τ98.2.2
  let accum1 := (Gen.Rt.waddU 64 accum1 accum2)
  let accum0 := (Gen.Rt.waddU 64 accum0 accum2)
  (Lk.put c j ((accum0 % 2 ^ 32) &&& Gen.C.karatsuba_MASK)).bind fun τ99 =>
  let c := τ99
  (Lk.lift (Gen.Rt.ckUsize (j + (8 : ℕ)))).bind fun τ100 =>
  (Lk.put c τ100 ((accum1 % 2 ^ 32) &&& Gen.C.karatsuba_MASK)).bind fun τ101 =>
  let c := τ101
  let accum0 := (accum0 >>> 28)
  let accum1 := (accum1 >>> 28)
  Lk.ret (accum2, accum1, accum0, c)) (accum2, accum1, accum0, c) (Gen.Rt.range (1 : ℕ) (7 : ℕ))).bind fun τ102 =>
  let accum2 := τ102.1
  let accum1 := τ102.2.1
  let accum0 := τ102.2.2.1
  let c := τ102.2.2.2
  Lk.ret (accum0, accum1, accum2, c)

/-- Part 4 of `square`: lines 368-379. /repo/src/field/u32/karatsuba.rs:368-379 -/
def karatsuba.square.part4 (a : List ℕ) (accum0 : ℕ) (accum1 : ℕ) (accum2 : ℕ) (c : List ℕ) (aa : List ℕ) : Lk (ℕ × ℕ × ℕ × (List ℕ)) :=
  let widemul := fun (a : ℕ) (b : ℕ) =>
  (ckU64 (a * b)).bind fun τ104 =>
  some τ104
  let accum2 := (0 : ℕ)
  (Lk.fold (fun (τ105 : (ℕ) × (ℕ) × (ℕ)) (i : ℕ) =>
  let accum2 := τ105.1
  let accum1 := τ105.2.1
  let accum0 := τ105.2.2
  (Lk.lift (ckSub (7 : ℕ) i)).bind fun τ106 =>
  (Lk.idx a τ106).bind fun τ107 =>
  (Lk.idx a i).bind fun τ108 =>
  (Lk.lift (widemul τ107 τ108)).bind fun τ109 =>
  let accum2 := (Gen.Rt.waddU 64 accum2 (Gen.Rt.shlU 64 τ109 1))
  (Lk.lift (ckSub (7 : ℕ) i)).bind fun τ110 =>
  (Lk.idx aa τ110).bind fun τ111 =>
  (Lk.idx aa i).bind fun τ112 =>
  let accum1 := (Gen.Rt.waddU 64 accum1 (Gen.Rt.shlU 64 (Gen.Rt.wmulU 64 τ111 τ112) 1))
  (Lk.lift (ckSub (15 : ℕ) i)).bind fun τ113 =>
  (Lk.idx a τ113).bind fun τ114 =>
  (Lk.lift (Gen.Rt.ckUsize ((8 : ℕ) + i))).bind fun τ115 =>
  (Lk.idx a τ115).bind fun τ116 =>
  (Lk.lift (widemul τ114 τ116)).bind fun τ117 =>
  let accum0 := (Gen.Rt.waddU 64 accum0 (Gen.Rt.shlU 64 τ117 1))
  Lk.ret (accum2, accum1, accum0)) (accum2, accum1, accum0) (Gen.Rt.range (0 : ℕ) (4 : ℕ))).bind fun τ118 =>
  let accum2 := τ118.1
  let accum1 := τ118.2.1
  let accum0 := τ118.2.2
  let accum1 := (Gen.Rt.wsubU 64 accum1 accum2)
  let accum0 := (Gen.Rt.waddU 64 accum0 accum2)
  let c := (c.set 7 ((accum0 % 2 ^ 32) &&& Gen.C.karatsuba_MASK))
  let c := (c.set 15 ((accum1 % 2 ^ 32) &&& Gen.C.karatsuba_MASK))
  let accum0 := (accum0 >>> 28)
  let accum1 := (accum1 >>> 28)
  Lk.ret (accum0, accum1, accum2, c)

/-- Translation of `square` with its leakage. /repo/src/field/u32/karatsuba.rs:287-394 -/
def karatsuba.square (a : List ℕ) : Lk (List ℕ) :=
  (karatsuba.square.part1 a).bind fun τ10 =>
  let accum0 : ℕ := τ10.1
  let accum1 : ℕ := τ10.2.1
  let accum2 : ℕ := τ10.2.2.1
  let c : List ℕ := τ10.2.2.2.1
  let aa : List ℕ := τ10.2.2.2.2
  (karatsuba.square.part2 a accum0 accum1 accum2 c aa).bind fun τ30 =>
  let accum0 : ℕ := τ30.1
  let accum1 : ℕ := τ30.2.1
  let accum2 : ℕ := τ30.2.2.1
  let c : List ℕ := τ30.2.2.2
  (karatsuba.square.part3 a accum0 accum1 accum2 c aa).bind fun τ103 =>
  let accum0 : ℕ := τ103.1
  let accum1 : ℕ := τ103.2.1
  let accum2 : ℕ := τ103.2.2.1
  let c : List ℕ := τ103.2.2.2
  (karatsuba.square.part4 a accum0 accum1 accum2 c aa).bind fun τ119 =>
  let accum0 : ℕ := τ119.1
  let accum1 : ℕ := τ119.2.1
  let accum2 : ℕ := τ119.2.2.1
  let c : List ℕ := τ119.2.2.2
  let widemul := fun (a : ℕ) (b : ℕ) =>
  (ckU64 (a * b)).bind fun τ120 =>
  some τ120
  (Lk.lift (ckU64 (accum0 + accum1))).bind fun τ121 =>
  let accum0 := τ121
  (Lk.lift (ckU64 (accum0 + (c.getD 8 0)))).bind fun τ122 =>
  let accum0 := τ122
  (Lk.lift (ckU64 (accum1 + (c.getD 0 0)))).bind fun τ123 =>
  let accum1 := τ123
  let c := (c.set 8 ((accum0 % 2 ^ 32) &&& Gen.C.karatsuba_MASK))
  let c := (c.set 0 ((accum1 % 2 ^ 32) &&& Gen.C.karatsuba_MASK))
  let accum0 := (accum0 >>> 28)
  let accum1 := (accum1 >>> 28)
  (Lk.lift (ckU32 ((c.getD 9 0) + (accum0 % 2 ^ 32)))).bind fun τ124 =>
  let c := (c.set 9 τ124)
  (Lk.lift (ckU32 ((c.getD 1 0) + (accum1 % 2 ^ 32)))).bind fun τ125 =>
  let c := (c.set 1 τ125)
  Lk.ret c

/-- Translation of `square` with its leakage. /repo/src/field/u32/prime_field.rs:187-189 -/
def FieldElement28.square (self : List ℕ) : Lk (List ℕ) :=
  (karatsuba.square self).bind fun τ1 =>
  Lk.ret τ1

end Ed448.Leak
