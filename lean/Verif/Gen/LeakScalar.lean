import Verif.Gen.Leak
import Verif.Gen.Scalar
/-!
# Mechanical translation of src/field/scalar.rs with leakage

Generated by tools/rust2lean.py; do not edit. Each definition is the translation of the cited Rust
function in the monad `Lk`, which records the leakage; see `Verif.Gen.Leak`. A function that has no
branch, no loop and no computed address, and calls only such functions, is called without leakage.
-/

set_option linter.all false

namespace Ed448.Leak
open Ed448.Model FieldBackend


/-- Translation of `to_bytes` with its leakage. /repo/src/field/scalar.rs:166-177 -/
def Scalar.to_bytes (self : List ℕ) : Lk (List ℕ) :=
  let res : List ℕ := (List.replicate 56 (0 : ℕ))
  (Lk.fold (fun (τ1 : (List ℕ)) (i : ℕ) =>
  let res := τ1
  (Lk.idx self i).bind fun τ2 =>
  let l : ℕ := τ2
  (Lk.fold (fun (τ3 : (List ℕ) × (ℕ)) (j : ℕ) =>
  let res := τ3.1
  let l := τ3.2
  (Lk.lift (Gen.Rt.ckUsize ((4 : ℕ) * i))).bind fun τ4 =>
  (Lk.lift (Gen.Rt.ckUsize (τ4 + j))).bind fun τ5 =>
  (Lk.put res τ5 (l % 2 ^ 8)).bind fun τ6 =>
  let res := τ6
  let l := (l >>> 8)
  Lk.ret (res, l)) (res, l) (Gen.Rt.range (0 : ℕ) (4 : ℕ))).bind fun τ7 =>
  let res := τ7.1
  let l := τ7.2
  Lk.ret (res)) (res) (Gen.Rt.range (0 : ℕ) (14 : ℕ))).bind fun τ8 =>
  let res := τ8
  Lk.ret res

/-- Translation of `ct_eq` with its leakage. /repo/src/field/scalar.rs:28-30 -/
def Scalar.ct_eq (self : List ℕ) (other : List ℕ) : Lk Bool :=
  (Scalar.to_bytes self).bind fun τ1 =>
  (Scalar.to_bytes other).bind fun τ2 =>
  Lk.ret (τ1 == τ2)

/-- Translation of `eq` with its leakage. /repo/src/field/scalar.rs:34-36 -/
def Scalar.eq (self : List ℕ) (other : List ℕ) : Lk Bool :=
  (Scalar.ct_eq self other).bind fun τ1 =>
  Lk.ret τ1

/-- Translation of `from` with its leakage. /repo/src/field/scalar.rs:41-43 -/
def Scalar.from (a : ℕ) : Lk (List ℕ) :=
  Lk.ret ([a, (0 : ℕ), (0 : ℕ), (0 : ℕ), (0 : ℕ), (0 : ℕ), (0 : ℕ), (0 : ℕ), (0 : ℕ), (0 : ℕ), (0 : ℕ), (0 : ℕ), (0 : ℕ), (0 : ℕ)] : List ℕ)

/-- Translation of `index` with its leakage. /repo/src/field/scalar.rs:48-50 -/
def Scalar.index (self : List ℕ) (index : ℕ) : Lk ℕ :=
  (Lk.idx self index).bind fun τ1 =>
  Lk.ret τ1

/-- Translation of `index_mut` with its leakage. /repo/src/field/scalar.rs:53-55 -/
def Scalar.index_mut (self : List ℕ) (index : ℕ) (v : ℕ) : Lk (List ℕ) :=
  (Lk.put self index v).bind fun τ1 =>
  let self := τ1
  Lk.ret (self)

/-- Translation of `sub_extra` with its leakage. /repo/src/field/scalar.rs:368-398 -/
def scalar.sub_extra (a : List ℕ) (b : List ℕ) (carry : ℕ) : Lk (List ℕ) :=
  let result : List ℕ := Gen.Scalar.zero
  let chain : ℤ := (0 : ℤ)
  (Lk.fold (fun (τ1 : (ℤ) × (List ℕ)) (i : ℕ) =>
  let chain := τ1.1
  let result := τ1.2
  (Lk.idx a i).bind fun τ2 =>
  (Lk.idx b i).bind fun τ3 =>
  (Lk.lift (ckI64 ((τ2 : ℤ) - (τ3 : ℤ)))).bind fun τ4 =>
  (Lk.lift (ckI64 (chain + τ4))).bind fun τ5 =>
  let chain := τ5
  (Lk.put result i (Gen.Rt.asU 32 chain)).bind fun τ6 =>
  let result := τ6
  let chain := (sarZ chain 32)
  Lk.ret (chain, result)) (chain, result) (Gen.Rt.range (0 : ℕ) (14 : ℕ))).bind fun τ7 =>
  let chain := τ7.1
  let result := τ7.2
  (Lk.lift (ckI64 (chain + (carry : ℤ)))).bind fun τ8 =>
  let borrow : ℤ := τ8
  let chain := (0 : ℤ)
  (Lk.fold (fun (τ9 : (ℤ) × (List ℕ)) (i : ℕ) =>
  let chain := τ9.1
  let result := τ9.2
  (Lk.idx result i).bind fun τ10 =>
  (Lk.idx Gen.C.MODULUS i).bind fun τ11 =>
  (Lk.lift (ckI64 ((τ10 : ℤ) + (Gen.Rt.andZ 64 (τ11 : ℤ) borrow)))).bind fun τ12 =>
  (Lk.lift (ckI64 (chain + τ12))).bind fun τ13 =>
  let chain := τ13
  (Lk.put result i (Gen.Rt.asU 32 chain)).bind fun τ14 =>
  let result := τ14
  let chain := (sarZ chain 32)
  Lk.ret (chain, result)) (chain, result) (Gen.Rt.range (0 : ℕ) (14 : ℕ))).bind fun τ15 =>
  let chain := τ15.1
  let result := τ15.2
  Lk.ret result

/-- Translation of `add` with its leakage. /repo/src/field/scalar.rs:345-364 -/
def scalar.add (a : List ℕ) (b : List ℕ) : Lk (List ℕ) :=
  let result : List ℕ := Gen.Scalar.zero
  let chain : ℕ := (0 : ℕ)
  (Lk.fold (fun (τ1 : (ℕ) × (List ℕ)) (i : ℕ) =>
  let chain := τ1.1
  let result := τ1.2
  (Lk.idx a i).bind fun τ2 =>
  (Lk.idx b i).bind fun τ3 =>
  (Lk.lift (ckU64 (τ2 + τ3))).bind fun τ4 =>
  (Lk.lift (ckU64 (chain + τ4))).bind fun τ5 =>
  let chain := τ5
  (Lk.put result i (chain % 2 ^ 32)).bind fun τ6 =>
  let result := τ6
  let chain := (chain >>> 32)
  Lk.ret (chain, result)) (chain, result) (Gen.Rt.range (0 : ℕ) (14 : ℕ))).bind fun τ7 =>
  let chain := τ7.1
  let result := τ7.2
  (scalar.sub_extra result Gen.C.MODULUS (chain % 2 ^ 32)).bind fun τ8 =>
  Lk.ret τ8

/-- Translation of `add` with its leakage. /repo/src/field/scalar.rs:62-64 -/
def Scalar.op_add (self : List ℕ) (rhs : List ℕ) : Lk (List ℕ) :=
  (scalar.add self rhs).bind fun τ1 =>
  Lk.ret τ1

/-- Translation of `montgomery_multiply` with its leakage. /repo/src/field/scalar.rs:400-434 -/
def scalar.montgomery_multiply (x : List ℕ) (y : List ℕ) : Lk (List ℕ) :=
  let MONTGOMERY_FACTOR : ℕ := (2928774085 : ℕ)
  let result : List ℕ := Gen.Scalar.zero
  let carry : ℕ := (0 : ℕ)
  let mul_add := fun (a : ℕ) (b : ℕ) (c : ℕ) =>
  (ckU64 (a * b)).bind fun τ1 =>
  (ckU64 (τ1 + c)).bind fun τ2 =>
  some τ2
  (Lk.fold (fun (τ3 : (List ℕ) × (ℕ)) (i : ℕ) =>
  let result := τ3.1
  let carry := τ3.2
  let chain : ℕ := (0 : ℕ)
  (Lk.fold (fun (τ4 : (ℕ) × (List ℕ)) (j : ℕ) =>
  let chain := τ4.1
  let result := τ4.2
  (Lk.idx x i).bind fun τ5 =>
  (Lk.idx y j).bind fun τ6 =>
  (Lk.idx result j).bind fun τ7 =>
  (Lk.lift (mul_add τ5 τ6 τ7)).bind fun τ8 =>
  (Lk.lift (ckU64 (chain + τ8))).bind fun τ9 =>
  let chain := τ9
  (Lk.put result j (chain % 2 ^ 32)).bind fun τ10 =>
  let result := τ10
  let chain := (chain >>> 32)
  Lk.ret (chain, result)) (chain, result) (Gen.Rt.range (0 : ℕ) (14 : ℕ))).bind fun τ11 =>
  let chain := τ11.1
  let result := τ11.2
  let saved : ℕ := (chain % 2 ^ 32)
  let multiplicand : ℕ := (Gen.Rt.wmulU 32 (result.getD 0 0) MONTGOMERY_FACTOR)
  let chain := (0 : ℕ)
  (Lk.fold (fun (τ12 : (ℕ) × (List ℕ)) (j : ℕ) =>
  let chain := τ12.1
  let result := τ12.2
  (Lk.idx Gen.C.MODULUS j).bind fun τ13 =>
  (Lk.idx result j).bind fun τ14 =>
  (Lk.lift (mul_add multiplicand τ13 τ14)).bind fun τ15 =>
  (Lk.lift (ckU64 (chain + τ15))).bind fun τ16 =>
  let chain := τ16
  (Lk.ite (decide (j > (0 : ℕ))) (
  (Lk.lift (ckSub j (1 : ℕ))).bind fun τ17 =>
  (Lk.put result τ17 (chain % 2 ^ 32)).bind fun τ18 =>
  let result := τ18
  Lk.ret (result)) (
  Lk.ret (result))).bind fun τ19 =>
  let result := τ19
  let chain := (chain >>> 32)
  Lk.ret (chain, result)) (chain, result) (Gen.Rt.range (0 : ℕ) (14 : ℕ))).bind fun τ20 =>
  let chain := τ20.1
  let result := τ20.2
  (Lk.lift (ckU64 (saved + carry))).bind fun τ21 =>
  (Lk.lift (ckU64 (chain + τ21))).bind fun τ22 =>
  let chain := τ22
  let result := (result.set 13 (chain % 2 ^ 32))
  let carry := ((chain >>> 32) % 2 ^ 32)
  Lk.ret (result, carry)) (result, carry) (Gen.Rt.range (0 : ℕ) (14 : ℕ))).bind fun τ23 =>
  let result := τ23.1
  let carry := τ23.2
  (scalar.sub_extra result Gen.C.MODULUS carry).bind fun τ24 =>
  Lk.ret τ24

/-- Translation of `mul` with its leakage. /repo/src/field/scalar.rs:68-71 -/
def Scalar.op_mul (self : List ℕ) (rhs : List ℕ) : Lk (List ℕ) :=
  (scalar.montgomery_multiply self rhs).bind fun τ1 =>
  let unreduced : List ℕ := τ1
  (scalar.montgomery_multiply unreduced Gen.C.R2).bind fun τ2 =>
  Lk.ret τ2

/-- Translation of `sub` with its leakage. /repo/src/field/scalar.rs:75-77 -/
def Scalar.op_sub (self : List ℕ) (rhs : List ℕ) : Lk (List ℕ) :=
  (scalar.sub_extra self rhs (0 : ℕ)).bind fun τ1 =>
  Lk.ret τ1

/-- Translation of `div_by_four` with its leakage. /repo/src/field/scalar.rs:95-100 -/
def Scalar.div_by_four (self : List ℕ) : Lk (List ℕ) :=
  (Lk.fold (fun (τ1 : (List ℕ)) (i : ℕ) =>
  let self := τ1
  (Lk.lift (Gen.Rt.ckUsize (i + (1 : ℕ)))).bind fun τ2 =>
  (Lk.idx self τ2).bind fun τ3 =>
  (Lk.idx self i).bind fun τ4 =>
  (Lk.put self i ((Gen.Rt.shlU 32 τ3 30) ||| (τ4 >>> 2))).bind fun τ5 =>
  let self := τ5
  Lk.ret (self)) (self) (Gen.Rt.rangeIncl (0 : ℕ) (12 : ℕ))).bind fun τ6 =>
  let self := τ6
  let self := (self.set 13 ((self.getD 13 0) >>> 2))
  Lk.ret (self)

/-- Translation of `to_radix_16` with its leakage. /repo/src/field/scalar.rs:105-133 -/
def Scalar.to_radix_16 (self : List ℕ) : Lk (List ℤ) :=
  (Scalar.to_bytes self).bind fun τ1 =>
  let bytes : List ℕ := τ1
  let output : List ℤ := (List.replicate 113 (0 : ℤ))
  let bot_half := fun (x : ℕ) =>
  ((x >>> 0) &&& (15 : ℕ))
  let top_half := fun (x : ℕ) =>
  ((x >>> 4) &&& (15 : ℕ))
  (Lk.fold (fun (τ2 : (List ℤ)) (i : ℕ) =>
  let output := τ2
  (Lk.idx bytes i).bind fun τ3 =>
  (Lk.lift (Gen.Rt.ckUsize ((2 : ℕ) * i))).bind fun τ4 =>
  (Lk.put output τ4 (Int.bmod ((bot_half τ3) : ℤ) (2 ^ 8))).bind fun τ5 =>
  let output := τ5
  (Lk.idx bytes i).bind fun τ6 =>
  (Lk.lift (Gen.Rt.ckUsize ((2 : ℕ) * i))).bind fun τ7 =>
  (Lk.lift (Gen.Rt.ckUsize (τ7 + (1 : ℕ)))).bind fun τ8 =>
  (Lk.put output τ8 (Int.bmod ((top_half τ6) : ℤ) (2 ^ 8))).bind fun τ9 =>
  let output := τ9
  Lk.ret (output)) (output) (Gen.Rt.range (0 : ℕ) (56 : ℕ))).bind fun τ10 =>
  let output := τ10
  (Lk.fold (fun (τ11 : (List ℤ)) (i : ℕ) =>
  let output := τ11
  (Lk.idx output i).bind fun τ12 =>
  (Lk.lift (ckI8 (τ12 + (8 : ℤ)))).bind fun τ13 =>
  let carry : ℤ := (sarZ τ13 4)
  (Lk.idx output i).bind fun τ14 =>
  (Lk.lift (ckI8 (τ14 - (Gen.Rt.shlZ 8 carry 4)))).bind fun τ15 =>
  (Lk.put output i τ15).bind fun τ16 =>
  let output := τ16
  (Lk.lift (Gen.Rt.ckUsize (i + (1 : ℕ)))).bind fun τ17 =>
  (Lk.idx output τ17).bind fun τ18 =>
  (Lk.lift (ckI8 (τ18 + carry))).bind fun τ19 =>
  (Lk.lift (Gen.Rt.ckUsize (i + (1 : ℕ)))).bind fun τ20 =>
  (Lk.put output τ20 τ19).bind fun τ21 =>
  let output := τ21
  Lk.ret (output)) (output) (Gen.Rt.range (0 : ℕ) (112 : ℕ))).bind fun τ22 =>
  let output := τ22
  Lk.ret output

/-- Translation of `bits` with its leakage. /repo/src/field/scalar.rs:135-148 -/
def Scalar.bits (self : List ℕ) : Lk (List Bool) :=
  let bits : List Bool := ([] : List Bool)
  (Lk.fold (fun (τ1 : (List Bool)) (limb : ℕ) =>
  let bits := τ1
  (Lk.fold (fun (τ2 : (List Bool)) (j : ℤ) =>
  let bits := τ2
  (Lk.shiftAmountZ 32 j).bind fun τ3 =>
  let bits := (bits ++ [(!((limb &&& (Gen.Rt.shlU 32 (1 : ℕ) τ3)) == (0 : ℕ)))])
  Lk.ret (bits)) (bits) (Gen.Rt.rangeZ (0 : ℤ) (32 : ℤ))).bind fun τ4 =>
  let bits := τ4
  Lk.ret (bits)) (bits) self).bind fun τ5 =>
  let bits := τ5
  Lk.ret bits

/-- Translation of `from_bytes` with its leakage. /repo/src/field/scalar.rs:149-165 -/
def Scalar.from_bytes (bytes : List ℕ) : Lk (List ℕ) :=
  let load7 := fun (input : List ℕ) =>
  (Lk.idx input (0 : ℕ)).bind fun τ1 =>
  (Lk.idx input (1 : ℕ)).bind fun τ2 =>
  (Lk.idx input (2 : ℕ)).bind fun τ3 =>
  (Lk.idx input (3 : ℕ)).bind fun τ4 =>
  Lk.ret (((τ1 ||| (Gen.Rt.shlU 64 τ2 8)) ||| (Gen.Rt.shlU 64 τ3 16)) ||| (Gen.Rt.shlU 64 τ4 24))
  let res : List ℕ := Gen.Scalar.zero
  (Lk.fold (fun (τ5 : (List ℕ)) (i : ℕ) =>
  let res := τ5
  (Lk.lift (Gen.Rt.ckUsize (i * (4 : ℕ)))).bind fun τ6 =>
  (Lk.sliceFrom bytes τ6).bind fun τ7 =>
  (load7 τ7).bind fun τ8 =>
  let out : ℕ := τ8
  (Lk.put res i (out % 2 ^ 32)).bind fun τ9 =>
  let res := τ9
  Lk.ret (res)) (res) (Gen.Rt.range (0 : ℕ) (14 : ℕ))).bind fun τ10 =>
  let res := τ10
  Lk.ret res

/-- Translation of `square` with its leakage. /repo/src/field/scalar.rs:178-180 -/
def Scalar.square (self : List ℕ) : Lk (List ℕ) :=
  (scalar.montgomery_multiply self self).bind fun τ1 =>
  Lk.ret τ1

/-- Translation of `invert` with its leakage. /repo/src/field/scalar.rs:181-247 -/
def Scalar.invert (self : List ℕ) : Lk (List ℕ) :=
  let pre_comp : List (List ℕ) := (List.replicate 8 Gen.Scalar.zero)
  let result : List ℕ := Gen.Scalar.zero
  let scalar_window_bits : ℤ := (3 : ℤ)
  (Lk.shiftAmountZ 64 scalar_window_bits).bind fun τ1 =>
  (Lk.lift (ckSub (Gen.Rt.shlU 64 (1 : ℕ) τ1) (1 : ℕ))).bind fun τ2 =>
  let last : ℕ := τ2
  (scalar.montgomery_multiply self Gen.C.R2).bind fun τ3 =>
  (Lk.put pre_comp (0 : ℕ) τ3).bind fun τ4 =>
  let pre_comp := τ4
  (Lk.ite (decide (last > (0 : ℕ))) (
  (Lk.idx pre_comp (0 : ℕ)).bind fun τ5 =>
  (Lk.idx pre_comp (0 : ℕ)).bind fun τ6 =>
  (scalar.montgomery_multiply τ5 τ6).bind fun τ7 =>
  (Lk.put pre_comp last τ7).bind fun τ8 =>
  let pre_comp := τ8
  Lk.ret (pre_comp)) (
  Lk.ret (pre_comp))).bind fun τ9 =>
  let pre_comp := τ9
  (Lk.fold (fun (τ10 : (List (List ℕ))) (i : ℕ) =>
  let pre_comp := τ10
  (Lk.lift (ckSub i (1 : ℕ))).bind fun τ11 =>
  (Lk.idx pre_comp τ11).bind fun τ12 =>
  (Lk.idx pre_comp last).bind fun τ13 =>
  (scalar.montgomery_multiply τ12 τ13).bind fun τ14 =>
  (Lk.put pre_comp i τ14).bind fun τ15 =>
  let pre_comp := τ15
  Lk.ret (pre_comp)) (pre_comp) (Gen.Rt.rangeIncl (1 : ℕ) last)).bind fun τ16 =>
  let pre_comp := τ16
  let residue : ℕ := (0 : ℕ)
  let trailing : ℕ := (0 : ℕ)
  let started : ℕ := (0 : ℕ)
  (Lk.lift (Gen.Rt.ckI32 (-scalar_window_bits))).bind fun τ17 =>
  let loop_start : ℤ := τ17
  let loop_end : ℤ := (445 : ℤ)
  (Lk.fold (fun (τ18 : (List ℕ) × (ℕ) × (ℕ) × (ℕ)) (i : ℤ) =>
  let result := τ18.1
  let residue := τ18.2.1
  let trailing := τ18.2.2.1
  let started := τ18.2.2.2
  (Lk.ite (!(started == (0 : ℕ))) (
  (Scalar.square result).bind fun τ19 =>
  let result := τ19
  Lk.ret (result)) (
  Lk.ret (result))).bind fun τ20 =>
  let result := τ20
  let w : ℕ := 0
  (Lk.ite (decide (i ≥ (0 : ℤ))) (
  (Lk.idx Gen.C.MODULUS (Gen.Rt.asU 64 (Int.tdiv i (32 : ℤ)))).bind fun τ21 =>
  let w := τ21
  Lk.ret (w)) (
  let w := (0 : ℕ)
  Lk.ret (w))).bind fun τ22 =>
  let w := τ22
  (Lk.and (decide (i ≥ (0 : ℤ))) (
  Lk.ret (decide (i < (32 : ℤ))))).bind fun τ23 =>
  (Lk.ite τ23 (
  (Lk.lift (ckSub w (2 : ℕ))).bind fun τ24 =>
  let w := τ24
  Lk.ret (w)) (
  Lk.ret (w))).bind fun τ25 =>
  let w := τ25
  (Lk.shiftAmount 32 ((Gen.Rt.asU 32 i) % (32 : ℕ))).bind fun τ26 =>
  let residue := ((Gen.Rt.shlU 32 (residue % 2 ^ 32) 1) ||| ((w >>> τ26) &&& (1 : ℕ)))
  (Lk.shiftAmountZ 64 scalar_window_bits).bind fun τ27 =>
  (Lk.ite (!((residue >>> τ27) == (0 : ℕ))) (
  let trailing := residue
  let residue := (0 : ℕ)
  Lk.ret (trailing, residue)) (
  Lk.ret (trailing, residue))).bind fun τ28 =>
  let trailing := τ28.1
  let residue := τ28.2
  (Lk.and (decide (trailing > (0 : ℕ))) (
  (Lk.shiftAmountZ 64 scalar_window_bits).bind fun τ29 =>
  (Lk.lift (ckSub (Gen.Rt.shlU 64 (1 : ℕ) τ29) (1 : ℕ))).bind fun τ30 =>
  Lk.ret ((trailing &&& τ30) == (0 : ℕ)))).bind fun τ31 =>
  (Lk.ite τ31 (
  (Lk.ite (!(started == (0 : ℕ))) (
  (Lk.lift (Gen.Rt.ckI32 (scalar_window_bits + (1 : ℤ)))).bind fun τ32 =>
  (Lk.shiftAmountZ 64 τ32).bind fun τ33 =>
  (Lk.idx pre_comp (trailing >>> τ33)).bind fun τ34 =>
  (scalar.montgomery_multiply result τ34).bind fun τ35 =>
  let result := τ35
  Lk.ret (result, started)) (
  (Lk.lift (Gen.Rt.ckI32 (scalar_window_bits + (1 : ℤ)))).bind fun τ36 =>
  (Lk.shiftAmountZ 64 τ36).bind fun τ37 =>
  (Lk.idx pre_comp (trailing >>> τ37)).bind fun τ38 =>
  let result := τ38
  let started := (1 : ℕ)
  Lk.ret (result, started))).bind fun τ39 =>
  let result := τ39.1
  let started := τ39.2
  let trailing := (0 : ℕ)
  Lk.ret (result, started, trailing)) (
  Lk.ret (result, started, trailing))).bind fun τ40 =>
  let result := τ40.1
  let started := τ40.2.1
  let trailing := τ40.2.2
  let trailing := (Gen.Rt.shlU 64 trailing 1)
  Lk.ret (result, residue, trailing, started)) (result, residue, trailing, started) (List.reverse (Gen.Rt.rangeInclZ loop_start loop_end))).bind fun τ41 =>
  let result := τ41.1
  let residue := τ41.2.1
  let trailing := τ41.2.2.1
  let started := τ41.2.2.2
  (scalar.montgomery_multiply result Gen.Scalar.one).bind fun τ42 =>
  Lk.ret τ42

/-- Translation of `halve` with its leakage. /repo/src/field/scalar.rs:250-268 -/
def Scalar.halve (self : List ℕ) : Lk (List ℕ) :=
  let result : List ℕ := Gen.Scalar.zero
  let mask : ℕ := (Gen.Rt.wsubU 32 (0 : ℕ) ((self.getD 0 0) &&& (1 : ℕ)))
  let chain : ℕ := (0 : ℕ)
  (Lk.fold (fun (τ1 : (ℕ) × (List ℕ)) (i : ℕ) =>
  let chain := τ1.1
  let result := τ1.2
  (Lk.idx self i).bind fun τ2 =>
  (Lk.idx Gen.C.MODULUS i).bind fun τ3 =>
  (Lk.lift (ckU64 (τ2 + (τ3 &&& mask)))).bind fun τ4 =>
  (Lk.lift (ckU64 (chain + τ4))).bind fun τ5 =>
  let chain := τ5
  (Lk.put result i (chain % 2 ^ 32)).bind fun τ6 =>
  let result := τ6
  let chain := (chain >>> 32)
  Lk.ret (chain, result)) (chain, result) (Gen.Rt.range (0 : ℕ) (14 : ℕ))).bind fun τ7 =>
  let chain := τ7.1
  let result := τ7.2
  (Lk.fold (fun (τ8 : (List ℕ)) (i : ℕ) =>
  let result := τ8
  (Lk.idx result i).bind fun τ9 =>
  (Lk.lift (Gen.Rt.ckUsize (i + (1 : ℕ)))).bind fun τ10 =>
  (Lk.idx result τ10).bind fun τ11 =>
  (Lk.put result i ((τ9 >>> 1) ||| (Gen.Rt.shlU 32 τ11 31))).bind fun τ12 =>
  let result := τ12
  Lk.ret (result)) (result) (Gen.Rt.range (0 : ℕ) (13 : ℕ))).bind fun τ13 =>
  let result := τ13
  let result := (result.set 13 (((result.getD 13 0) >>> 1) ||| ((Gen.Rt.shlU 64 chain 31) % 2 ^ 32)))
  Lk.ret result

/-- Translation of `from_canonical_bytes` with its leakage. /repo/src/field/scalar.rs:277-292 -/
def Scalar.from_canonical_bytes (bytes : List ℕ) : Lk (Option (List ℕ)) :=
  (Lk.or (!((bytes.getD 56 0) == (0 : ℕ))) (
  Lk.ret (!(((bytes.getD 55 0) >>> 6) == (0 : ℕ))))).bind fun τ1 =>
  Lk.ite τ1 (
  Lk.ret (none : Option (List ℕ))) (
  (Lk.mapM (fun (i : ℕ) =>
  (Lk.idx bytes i).bind fun τ2 =>
  Lk.ret τ2) (List.range 56)).bind fun τ3 =>
  let bytes : List ℕ := τ3
  (Scalar.from_bytes bytes).bind fun τ4 =>
  let candidate : List ℕ := τ4
  (scalar.sub_extra candidate Gen.C.MODULUS (0 : ℕ)).bind fun τ5 =>
  let reduced : List ℕ := τ5
  (Scalar.eq candidate reduced).bind fun τ6 =>
  (Lk.ite τ6 (
  Lk.ret (some candidate)) (
  Lk.ret (none : Option (List ℕ)))).bind fun τ7 =>
  Lk.ret τ7)

/-- Translation of `to_bytes_rfc_8032` with its leakage. /repo/src/field/scalar.rs:296-300 -/
def Scalar.to_bytes_rfc_8032 (self : List ℕ) : Lk (List ℕ) :=
  (Scalar.to_bytes self).bind fun τ1 =>
  let bytes : List ℕ := τ1
  (Lk.mapM (fun (i : ℕ) =>
  (Lk.ite (decide (i < (56 : ℕ))) (
  (Lk.idx bytes i).bind fun τ2 =>
  Lk.ret τ2) (
  Lk.ret (0 : ℕ))).bind fun τ3 =>
  Lk.ret τ3) (List.range 57)).bind fun τ4 =>
  let res : List ℕ := τ4
  Lk.ret res

/-- Translation of `from_bytes_mod_order_wide` with its leakage. /repo/src/field/scalar.rs:304-326 -/
def Scalar.from_bytes_mod_order_wide (input : List ℕ) : Lk (List ℕ) :=
  (Lk.mapM (fun (i : ℕ) =>
  (Lk.idx input i).bind fun τ1 =>
  Lk.ret τ1) (List.range 56)).bind fun τ2 =>
  let lo : List ℕ := τ2
  (Scalar.from_bytes lo).bind fun τ3 =>
  let lo : List ℕ := τ3
  (scalar.montgomery_multiply lo Gen.C.R).bind fun τ4 =>
  let lo : List ℕ := τ4
  (Lk.mapM (fun (i : ℕ) =>
  (Lk.lift (Gen.Rt.ckUsize (i + (56 : ℕ)))).bind fun τ5 =>
  (Lk.idx input τ5).bind fun τ6 =>
  Lk.ret τ6) (List.range 56)).bind fun τ7 =>
  let hi : List ℕ := τ7
  (Scalar.from_bytes hi).bind fun τ8 =>
  let hi : List ℕ := τ8
  (scalar.montgomery_multiply hi Gen.C.R2).bind fun τ9 =>
  let hi : List ℕ := τ9
  (Lk.mapM (fun (i : ℕ) =>
  (Lk.ite (decide (i < (2 : ℕ))) (
  (Lk.lift (Gen.Rt.ckUsize (i + (112 : ℕ)))).bind fun τ10 =>
  (Lk.idx input τ10).bind fun τ11 =>
  Lk.ret τ11) (
  Lk.ret (0 : ℕ))).bind fun τ12 =>
  Lk.ret τ12) (List.range 56)).bind fun τ13 =>
  let top : List ℕ := τ13
  (Scalar.from_bytes top).bind fun τ14 =>
  let top : List ℕ := τ14
  (scalar.montgomery_multiply top Gen.C.R2).bind fun τ15 =>
  let top : List ℕ := τ15
  (scalar.montgomery_multiply top Gen.C.R2).bind fun τ16 =>
  let top : List ℕ := τ16
  (scalar.add lo hi).bind fun τ17 =>
  (Scalar.op_add τ17 top).bind fun τ18 =>
  Lk.ret τ18

end Ed448.Leak
