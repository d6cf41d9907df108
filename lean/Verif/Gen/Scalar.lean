import Verif.Gen.Rt

/-!
# Mechanical translation of src/field/scalar.rs

Generated by tools/rust2lean.py; do not edit. Each definition is the translation of the cited Rust
function; see tools/rust2lean.py for the rules and `Verif.Gen.Rt` for the operations.
-/

set_option linter.all false

namespace Ed448.Gen
open Ed448.Model FieldBackend


/-- Constant `BASEPOINT_ORDER`. /repo/src/constants.rs:15-18 -/
def C.BASEPOINT_ORDER : List ℕ := ([(2874688755 : ℕ), (595116690 : ℕ), (2378534741 : ℕ), (560775794 : ℕ), (2933274256 : ℕ), (3293502281 : ℕ), (2093622249 : ℕ), (4294967295 : ℕ), (4294967295 : ℕ), (4294967295 : ℕ), (4294967295 : ℕ), (4294967295 : ℕ), (4294967295 : ℕ), (1073741823 : ℕ)] : List ℕ)

/-- Constant `MODULUS`. /repo/src/field/scalar.rs:15-15 -/
def C.MODULUS : List ℕ := C.BASEPOINT_ORDER

/-- Constant `R2`. /repo/src/field/scalar.rs:18-21 -/
def C.R2 : List ℕ := ([(77306720 : ℕ), (3813904983 : ℕ), (3249640921 : ℕ), (2062756939 : ℕ), (2297043033 : ℕ), (224845347 : ℕ), (1592055864 : ℕ), (2920796018 : ℕ), (2747563076 : ℕ), (446480715 : ℕ), (3838865583 : ℕ), (542293175 : ℕ), (4163090217 : ℕ), (872589625 : ℕ)] : List ℕ)

/-- Constant `R`. /repo/src/field/scalar.rs:22-25 -/
def C.R : List ℕ := ([(1386146868 : ℕ), (1914500533 : ℕ), (3370762923 : ℕ), (2051864117 : ℕ), (1151804863 : ℕ), (4005860057 : ℕ), (215445592 : ℕ), (2 : ℕ), (0 : ℕ), (0 : ℕ), (0 : ℕ), (0 : ℕ), (0 : ℕ), (0 : ℕ)] : List ℕ)

/-- Translation of `to_bytes`. /repo/src/field/scalar.rs:166-177 -/
def Scalar.to_bytes (self : List ℕ) : Option (List ℕ) :=
  let res : List ℕ := (List.replicate 56 (0 : ℕ))
  (List.foldlM (fun (τ1 : (List ℕ)) (i : ℕ) =>
  let res := τ1
  (Rt.idx self i).bind fun τ2 =>
  let l : ℕ := τ2
  (List.foldlM (fun (τ3 : (List ℕ) × (ℕ)) (j : ℕ) =>
  let res := τ3.1
  let l := τ3.2
  (Rt.ckUsize ((4 : ℕ) * i)).bind fun τ4 =>
  (Rt.ckUsize (τ4 + j)).bind fun τ5 =>
  (Rt.put res τ5 (l % 2 ^ 8)).bind fun τ6 =>
  let res := τ6
  let l := (l >>> 8)
  some (res, l)) (res, l) (Rt.range (0 : ℕ) (4 : ℕ))).bind fun τ7 =>
  let res := τ7.1
  let l := τ7.2
  some (res)) (res) (Rt.range (0 : ℕ) (14 : ℕ))).bind fun τ8 =>
  let res := τ8
  some res

/-- Translation of `ct_eq`. /repo/src/field/scalar.rs:28-30 -/
def Scalar.ct_eq (self : List ℕ) (other : List ℕ) : Option Bool :=
  (Scalar.to_bytes self).bind fun τ1 =>
  (Scalar.to_bytes other).bind fun τ2 =>
  some (τ1 == τ2)

/-- Translation of `eq`. /repo/src/field/scalar.rs:34-36 -/
def Scalar.eq (self : List ℕ) (other : List ℕ) : Option Bool :=
  (Scalar.ct_eq self other).bind fun τ1 =>
  some τ1

/-- Translation of `from`. /repo/src/field/scalar.rs:41-43 -/
def Scalar.from (a : ℕ) : List ℕ :=
  ([a, (0 : ℕ), (0 : ℕ), (0 : ℕ), (0 : ℕ), (0 : ℕ), (0 : ℕ), (0 : ℕ), (0 : ℕ), (0 : ℕ), (0 : ℕ), (0 : ℕ), (0 : ℕ), (0 : ℕ)] : List ℕ)

/-- Translation of `index`. /repo/src/field/scalar.rs:48-50 -/
def Scalar.index (self : List ℕ) (index : ℕ) : Option ℕ :=
  (Rt.idx self index).bind fun τ1 =>
  some τ1

/-- Translation of `index_mut`. /repo/src/field/scalar.rs:53-55 -/
def Scalar.index_mut (self : List ℕ) (index : ℕ) (v : ℕ) : Option (List ℕ) :=
  (Rt.put self index v).bind fun τ1 =>
  let self := τ1
  some (self)

/-- Translation of `zero`. /repo/src/field/scalar.rs:89-91 -/
def Scalar.zero  : List ℕ :=
  (List.replicate 14 (0 : ℕ))

/-- Translation of `sub_extra`. /repo/src/field/scalar.rs:368-398 -/
def scalar.sub_extra (a : List ℕ) (b : List ℕ) (carry : ℕ) : Option (List ℕ) :=
  let result : List ℕ := Scalar.zero
  let chain : ℤ := (0 : ℤ)
  (List.foldlM (fun (τ1 : (ℤ) × (List ℕ)) (i : ℕ) =>
  let chain := τ1.1
  let result := τ1.2
  (Rt.idx a i).bind fun τ2 =>
  (Rt.idx b i).bind fun τ3 =>
  (ckI64 ((τ2 : ℤ) - (τ3 : ℤ))).bind fun τ4 =>
  (ckI64 (chain + τ4)).bind fun τ5 =>
  let chain := τ5
  (Rt.put result i (Rt.asU 32 chain)).bind fun τ6 =>
  let result := τ6
  let chain := (sarZ chain 32)
  some (chain, result)) (chain, result) (Rt.range (0 : ℕ) (14 : ℕ))).bind fun τ7 =>
  let chain := τ7.1
  let result := τ7.2
  (ckI64 (chain + (carry : ℤ))).bind fun τ8 =>
  let borrow : ℤ := τ8
  let chain := (0 : ℤ)
  (List.foldlM (fun (τ9 : (ℤ) × (List ℕ)) (i : ℕ) =>
  let chain := τ9.1
  let result := τ9.2
  (Rt.idx result i).bind fun τ10 =>
  (Rt.idx C.MODULUS i).bind fun τ11 =>
  (ckI64 ((τ10 : ℤ) + (Rt.andZ 64 (τ11 : ℤ) borrow))).bind fun τ12 =>
  (ckI64 (chain + τ12)).bind fun τ13 =>
  let chain := τ13
  (Rt.put result i (Rt.asU 32 chain)).bind fun τ14 =>
  let result := τ14
  let chain := (sarZ chain 32)
  some (chain, result)) (chain, result) (Rt.range (0 : ℕ) (14 : ℕ))).bind fun τ15 =>
  let chain := τ15.1
  let result := τ15.2
  some result

/-- Translation of `add`. /repo/src/field/scalar.rs:345-364 -/
def scalar.add (a : List ℕ) (b : List ℕ) : Option (List ℕ) :=
  let result : List ℕ := Scalar.zero
  let chain : ℕ := (0 : ℕ)
  (List.foldlM (fun (τ1 : (ℕ) × (List ℕ)) (i : ℕ) =>
  let chain := τ1.1
  let result := τ1.2
  (Rt.idx a i).bind fun τ2 =>
  (Rt.idx b i).bind fun τ3 =>
  (ckU64 (τ2 + τ3)).bind fun τ4 =>
  (ckU64 (chain + τ4)).bind fun τ5 =>
  let chain := τ5
  (Rt.put result i (chain % 2 ^ 32)).bind fun τ6 =>
  let result := τ6
  let chain := (chain >>> 32)
  some (chain, result)) (chain, result) (Rt.range (0 : ℕ) (14 : ℕ))).bind fun τ7 =>
  let chain := τ7.1
  let result := τ7.2
  (scalar.sub_extra result C.MODULUS (chain % 2 ^ 32)).bind fun τ8 =>
  some τ8

/-- Translation of `add`. /repo/src/field/scalar.rs:62-64 -/
def Scalar.op_add (self : List ℕ) (rhs : List ℕ) : Option (List ℕ) :=
  (scalar.add self rhs).bind fun τ1 =>
  some τ1

/-- Translation of `montgomery_multiply`. /repo/src/field/scalar.rs:400-434 -/
def scalar.montgomery_multiply (x : List ℕ) (y : List ℕ) : Option (List ℕ) :=
  let MONTGOMERY_FACTOR : ℕ := (2928774085 : ℕ)
  let result : List ℕ := Scalar.zero
  let carry : ℕ := (0 : ℕ)
  let mul_add := fun (a : ℕ) (b : ℕ) (c : ℕ) =>
  (ckU64 (a * b)).bind fun τ1 =>
  (ckU64 (τ1 + c)).bind fun τ2 =>
  some τ2
  (List.foldlM (fun (τ3 : (List ℕ) × (ℕ)) (i : ℕ) =>
  let result := τ3.1
  let carry := τ3.2
  let chain : ℕ := (0 : ℕ)
  (List.foldlM (fun (τ4 : (ℕ) × (List ℕ)) (j : ℕ) =>
  let chain := τ4.1
  let result := τ4.2
  (Rt.idx x i).bind fun τ5 =>
  (Rt.idx y j).bind fun τ6 =>
  (Rt.idx result j).bind fun τ7 =>
  (mul_add τ5 τ6 τ7).bind fun τ8 =>
  (ckU64 (chain + τ8)).bind fun τ9 =>
  let chain := τ9
  (Rt.put result j (chain % 2 ^ 32)).bind fun τ10 =>
  let result := τ10
  let chain := (chain >>> 32)
  some (chain, result)) (chain, result) (Rt.range (0 : ℕ) (14 : ℕ))).bind fun τ11 =>
  let chain := τ11.1
  let result := τ11.2
  let saved : ℕ := (chain % 2 ^ 32)
  let multiplicand : ℕ := (Rt.wmulU 32 (result.getD 0 0) MONTGOMERY_FACTOR)
  let chain := (0 : ℕ)
  (List.foldlM (fun (τ12 : (ℕ) × (List ℕ)) (j : ℕ) =>
  let chain := τ12.1
  let result := τ12.2
  (Rt.idx C.MODULUS j).bind fun τ13 =>
  (Rt.idx result j).bind fun τ14 =>
  (mul_add multiplicand τ13 τ14).bind fun τ15 =>
  (ckU64 (chain + τ15)).bind fun τ16 =>
  let chain := τ16
  (if (decide (j > (0 : ℕ))) then
  (ckSub j (1 : ℕ)).bind fun τ17 =>
  (Rt.put result τ17 (chain % 2 ^ 32)).bind fun τ18 =>
  let result := τ18
  some (result)
  else
  some (result)).bind fun τ19 =>
  let result := τ19
  let chain := (chain >>> 32)
  some (chain, result)) (chain, result) (Rt.range (0 : ℕ) (14 : ℕ))).bind fun τ20 =>
  let chain := τ20.1
  let result := τ20.2
  (ckU64 (saved + carry)).bind fun τ21 =>
  (ckU64 (chain + τ21)).bind fun τ22 =>
  let chain := τ22
  let result := (result.set 13 (chain % 2 ^ 32))
  let carry := ((chain >>> 32) % 2 ^ 32)
  some (result, carry)) (result, carry) (Rt.range (0 : ℕ) (14 : ℕ))).bind fun τ23 =>
  let result := τ23.1
  let carry := τ23.2
  (scalar.sub_extra result C.MODULUS carry).bind fun τ24 =>
  some τ24

/-- Translation of `mul`. /repo/src/field/scalar.rs:68-71 -/
def Scalar.op_mul (self : List ℕ) (rhs : List ℕ) : Option (List ℕ) :=
  (scalar.montgomery_multiply self rhs).bind fun τ1 =>
  let unreduced : List ℕ := τ1
  (scalar.montgomery_multiply unreduced C.R2).bind fun τ2 =>
  some τ2

/-- Translation of `sub`. /repo/src/field/scalar.rs:75-77 -/
def Scalar.op_sub (self : List ℕ) (rhs : List ℕ) : Option (List ℕ) :=
  (scalar.sub_extra self rhs (0 : ℕ)).bind fun τ1 =>
  some τ1

/-- Translation of `default`. /repo/src/field/scalar.rs:80-82 -/
def Scalar.default  : List ℕ :=
  Scalar.zero

/-- Translation of `one`. /repo/src/field/scalar.rs:86-88 -/
def Scalar.one  : List ℕ :=
  ([(1 : ℕ), (0 : ℕ), (0 : ℕ), (0 : ℕ), (0 : ℕ), (0 : ℕ), (0 : ℕ), (0 : ℕ), (0 : ℕ), (0 : ℕ), (0 : ℕ), (0 : ℕ), (0 : ℕ), (0 : ℕ)] : List ℕ)

/-- Translation of `div_by_four`. /repo/src/field/scalar.rs:95-100 -/
def Scalar.div_by_four (self : List ℕ) : Option (List ℕ) :=
  (List.foldlM (fun (τ1 : (List ℕ)) (i : ℕ) =>
  let self := τ1
  (Rt.ckUsize (i + (1 : ℕ))).bind fun τ2 =>
  (Rt.idx self τ2).bind fun τ3 =>
  (Rt.idx self i).bind fun τ4 =>
  (Rt.put self i ((Rt.shlU 32 τ3 30) ||| (τ4 >>> 2))).bind fun τ5 =>
  let self := τ5
  some (self)) (self) (Rt.rangeIncl (0 : ℕ) (12 : ℕ))).bind fun τ6 =>
  let self := τ6
  let self := (self.set 13 ((self.getD 13 0) >>> 2))
  some (self)

/-- Translation of `to_radix_16`. /repo/src/field/scalar.rs:105-133 -/
def Scalar.to_radix_16 (self : List ℕ) : Option (List ℤ) :=
  (Scalar.to_bytes self).bind fun τ1 =>
  let bytes : List ℕ := τ1
  let output : List ℤ := (List.replicate 113 (0 : ℤ))
  let bot_half := fun (x : ℕ) =>
  ((x >>> 0) &&& (15 : ℕ))
  let top_half := fun (x : ℕ) =>
  ((x >>> 4) &&& (15 : ℕ))
  (List.foldlM (fun (τ2 : (List ℤ)) (i : ℕ) =>
  let output := τ2
  (Rt.idx bytes i).bind fun τ3 =>
  (Rt.ckUsize ((2 : ℕ) * i)).bind fun τ4 =>
  (Rt.put output τ4 (Int.bmod ((bot_half τ3) : ℤ) (2 ^ 8))).bind fun τ5 =>
  let output := τ5
  (Rt.idx bytes i).bind fun τ6 =>
  (Rt.ckUsize ((2 : ℕ) * i)).bind fun τ7 =>
  (Rt.ckUsize (τ7 + (1 : ℕ))).bind fun τ8 =>
  (Rt.put output τ8 (Int.bmod ((top_half τ6) : ℤ) (2 ^ 8))).bind fun τ9 =>
  let output := τ9
  some (output)) (output) (Rt.range (0 : ℕ) (56 : ℕ))).bind fun τ10 =>
  let output := τ10
  (List.foldlM (fun (τ11 : (List ℤ)) (i : ℕ) =>
  let output := τ11
  (Rt.idx output i).bind fun τ12 =>
  (ckI8 (τ12 + (8 : ℤ))).bind fun τ13 =>
  let carry : ℤ := (sarZ τ13 4)
  (Rt.idx output i).bind fun τ14 =>
  (ckI8 (τ14 - (Rt.shlZ 8 carry 4))).bind fun τ15 =>
  (Rt.put output i τ15).bind fun τ16 =>
  let output := τ16
  (Rt.ckUsize (i + (1 : ℕ))).bind fun τ17 =>
  (Rt.idx output τ17).bind fun τ18 =>
  (ckI8 (τ18 + carry)).bind fun τ19 =>
  (Rt.ckUsize (i + (1 : ℕ))).bind fun τ20 =>
  (Rt.put output τ20 τ19).bind fun τ21 =>
  let output := τ21
  some (output)) (output) (Rt.range (0 : ℕ) (112 : ℕ))).bind fun τ22 =>
  let output := τ22
  some output

/-- Translation of `bits`. /repo/src/field/scalar.rs:135-148 -/
def Scalar.bits (self : List ℕ) : Option (List Bool) :=
  let bits : List Bool := ([] : List Bool)
  (List.foldlM (fun (τ1 : (List Bool)) (limb : ℕ) =>
  let bits := τ1
  (List.foldlM (fun (τ2 : (List Bool)) (j : ℤ) =>
  let bits := τ2
  (Rt.shiftAmountZ 32 j).bind fun τ3 =>
  let bits := (bits ++ [(!((limb &&& (Rt.shlU 32 (1 : ℕ) τ3)) == (0 : ℕ)))])
  some (bits)) (bits) (Rt.rangeZ (0 : ℤ) (32 : ℤ))).bind fun τ4 =>
  let bits := τ4
  some (bits)) (bits) self).bind fun τ5 =>
  let bits := τ5
  some bits

/-- Translation of `from_bytes`. /repo/src/field/scalar.rs:149-165 -/
def Scalar.from_bytes (bytes : List ℕ) : Option (List ℕ) :=
  let load7 := fun (input : List ℕ) =>
  (Rt.idx input (0 : ℕ)).bind fun τ1 =>
  (Rt.idx input (1 : ℕ)).bind fun τ2 =>
  (Rt.idx input (2 : ℕ)).bind fun τ3 =>
  (Rt.idx input (3 : ℕ)).bind fun τ4 =>
  some (((τ1 ||| (Rt.shlU 64 τ2 8)) ||| (Rt.shlU 64 τ3 16)) ||| (Rt.shlU 64 τ4 24))
  let res : List ℕ := Scalar.zero
  (List.foldlM (fun (τ5 : (List ℕ)) (i : ℕ) =>
  let res := τ5
  (Rt.ckUsize (i * (4 : ℕ))).bind fun τ6 =>
  (Rt.sliceFrom bytes τ6).bind fun τ7 =>
  (load7 τ7).bind fun τ8 =>
  let out : ℕ := τ8
  (Rt.put res i (out % 2 ^ 32)).bind fun τ9 =>
  let res := τ9
  some (res)) (res) (Rt.range (0 : ℕ) (14 : ℕ))).bind fun τ10 =>
  let res := τ10
  some res

/-- Translation of `square`. /repo/src/field/scalar.rs:178-180 -/
def Scalar.square (self : List ℕ) : Option (List ℕ) :=
  (scalar.montgomery_multiply self self).bind fun τ1 =>
  some τ1

/-- Translation of `invert`. /repo/src/field/scalar.rs:181-247 -/
def Scalar.invert (self : List ℕ) : Option (List ℕ) :=
  let pre_comp : List (List ℕ) := (List.replicate 8 Scalar.zero)
  let result : List ℕ := Scalar.zero
  let scalar_window_bits : ℤ := (3 : ℤ)
  (Rt.shiftAmountZ 64 scalar_window_bits).bind fun τ1 =>
  (ckSub (Rt.shlU 64 (1 : ℕ) τ1) (1 : ℕ)).bind fun τ2 =>
  let last : ℕ := τ2
  (scalar.montgomery_multiply self C.R2).bind fun τ3 =>
  (Rt.put pre_comp (0 : ℕ) τ3).bind fun τ4 =>
  let pre_comp := τ4
  (if (decide (last > (0 : ℕ))) then
  (Rt.idx pre_comp (0 : ℕ)).bind fun τ5 =>
  (Rt.idx pre_comp (0 : ℕ)).bind fun τ6 =>
  (scalar.montgomery_multiply τ5 τ6).bind fun τ7 =>
  (Rt.put pre_comp last τ7).bind fun τ8 =>
  let pre_comp := τ8
  some (pre_comp)
  else
  some (pre_comp)).bind fun τ9 =>
  let pre_comp := τ9
  (List.foldlM (fun (τ10 : (List (List ℕ))) (i : ℕ) =>
  let pre_comp := τ10
  (ckSub i (1 : ℕ)).bind fun τ11 =>
  (Rt.idx pre_comp τ11).bind fun τ12 =>
  (Rt.idx pre_comp last).bind fun τ13 =>
  (scalar.montgomery_multiply τ12 τ13).bind fun τ14 =>
  (Rt.put pre_comp i τ14).bind fun τ15 =>
  let pre_comp := τ15
  some (pre_comp)) (pre_comp) (Rt.rangeIncl (1 : ℕ) last)).bind fun τ16 =>
  let pre_comp := τ16
  let residue : ℕ := (0 : ℕ)
  let trailing : ℕ := (0 : ℕ)
  let started : ℕ := (0 : ℕ)
  (Rt.ckI32 (-scalar_window_bits)).bind fun τ17 =>
  let loop_start : ℤ := τ17
  let loop_end : ℤ := (445 : ℤ)
  (List.foldlM (fun (τ18 : (List ℕ) × (ℕ) × (ℕ) × (ℕ)) (i : ℤ) =>
  let result := τ18.1
  let residue := τ18.2.1
  let trailing := τ18.2.2.1
  let started := τ18.2.2.2
  (if (!(started == (0 : ℕ))) then
  (Scalar.square result).bind fun τ19 =>
  let result := τ19
  some (result)
  else
  some (result)).bind fun τ20 =>
  let result := τ20
  let w : ℕ := 0
  (if (decide (i ≥ (0 : ℤ))) then
  (Rt.idx C.MODULUS (Rt.asU 64 (Int.tdiv i (32 : ℤ)))).bind fun τ21 =>
  let w := τ21
  some (w)
  else
  let w := (0 : ℕ)
  some (w)).bind fun τ22 =>
  let w := τ22
  (if ((decide (i ≥ (0 : ℤ))) && (decide (i < (32 : ℤ)))) then
  (ckSub w (2 : ℕ)).bind fun τ23 =>
  let w := τ23
  some (w)
  else
  some (w)).bind fun τ24 =>
  let w := τ24
  (Rt.shiftAmount 32 ((Rt.asU 32 i) % (32 : ℕ))).bind fun τ25 =>
  let residue := ((Rt.shlU 32 (residue % 2 ^ 32) 1) ||| ((w >>> τ25) &&& (1 : ℕ)))
  (Rt.shiftAmountZ 64 scalar_window_bits).bind fun τ26 =>
  let τ27 :=
  if (!((residue >>> τ26) == (0 : ℕ))) then
  let trailing := residue
  let residue := (0 : ℕ)
  (trailing, residue)
  else
  (trailing, residue)
  let trailing := τ27.1
  let residue := τ27.2
  (if (decide (trailing > (0 : ℕ))) then
  (Rt.shiftAmountZ 64 scalar_window_bits).bind fun τ28 =>
  (ckSub (Rt.shlU 64 (1 : ℕ) τ28) (1 : ℕ)).bind fun τ29 =>
  some ((trailing &&& τ29) == (0 : ℕ))
  else some false).bind fun τ30 =>
  (if τ30 then
  (if (!(started == (0 : ℕ))) then
  (Rt.ckI32 (scalar_window_bits + (1 : ℤ))).bind fun τ31 =>
  (Rt.shiftAmountZ 64 τ31).bind fun τ32 =>
  (Rt.idx pre_comp (trailing >>> τ32)).bind fun τ33 =>
  (scalar.montgomery_multiply result τ33).bind fun τ34 =>
  let result := τ34
  some (result, started)
  else
  (Rt.ckI32 (scalar_window_bits + (1 : ℤ))).bind fun τ35 =>
  (Rt.shiftAmountZ 64 τ35).bind fun τ36 =>
  (Rt.idx pre_comp (trailing >>> τ36)).bind fun τ37 =>
  let result := τ37
  let started := (1 : ℕ)
  some (result, started)).bind fun τ38 =>
  let result := τ38.1
  let started := τ38.2
  let trailing := (0 : ℕ)
  some (result, started, trailing)
  else
  some (result, started, trailing)).bind fun τ39 =>
  let result := τ39.1
  let started := τ39.2.1
  let trailing := τ39.2.2
  let trailing := (Rt.shlU 64 trailing 1)
  some (result, residue, trailing, started)) (result, residue, trailing, started) (List.reverse (Rt.rangeInclZ loop_start loop_end))).bind fun τ40 =>
  let result := τ40.1
  let residue := τ40.2.1
  let trailing := τ40.2.2.1
  let started := τ40.2.2.2
  (scalar.montgomery_multiply result Scalar.one).bind fun τ41 =>
  some τ41

/-- Translation of `halve`. /repo/src/field/scalar.rs:250-268 -/
def Scalar.halve (self : List ℕ) : Option (List ℕ) :=
  let result : List ℕ := Scalar.zero
  let mask : ℕ := (Rt.wsubU 32 (0 : ℕ) ((self.getD 0 0) &&& (1 : ℕ)))
  let chain : ℕ := (0 : ℕ)
  (List.foldlM (fun (τ1 : (ℕ) × (List ℕ)) (i : ℕ) =>
  let chain := τ1.1
  let result := τ1.2
  (Rt.idx self i).bind fun τ2 =>
  (Rt.idx C.MODULUS i).bind fun τ3 =>
  (ckU64 (τ2 + (τ3 &&& mask))).bind fun τ4 =>
  (ckU64 (chain + τ4)).bind fun τ5 =>
  let chain := τ5
  (Rt.put result i (chain % 2 ^ 32)).bind fun τ6 =>
  let result := τ6
  let chain := (chain >>> 32)
  some (chain, result)) (chain, result) (Rt.range (0 : ℕ) (14 : ℕ))).bind fun τ7 =>
  let chain := τ7.1
  let result := τ7.2
  (List.foldlM (fun (τ8 : (List ℕ)) (i : ℕ) =>
  let result := τ8
  (Rt.idx result i).bind fun τ9 =>
  (Rt.ckUsize (i + (1 : ℕ))).bind fun τ10 =>
  (Rt.idx result τ10).bind fun τ11 =>
  (Rt.put result i ((τ9 >>> 1) ||| (Rt.shlU 32 τ11 31))).bind fun τ12 =>
  let result := τ12
  some (result)) (result) (Rt.range (0 : ℕ) (13 : ℕ))).bind fun τ13 =>
  let result := τ13
  let result := (result.set 13 (((result.getD 13 0) >>> 1) ||| ((Rt.shlU 64 chain 31) % 2 ^ 32)))
  some result

/-- Translation of `from_canonical_bytes`. /repo/src/field/scalar.rs:277-292 -/
def Scalar.from_canonical_bytes (bytes : List ℕ) : Option (Option (List ℕ)) :=
  if ((!((bytes.getD 56 0) == (0 : ℕ))) || (!(((bytes.getD 55 0) >>> 6) == (0 : ℕ)))) then
  some (none : Option (List ℕ))
  else
  ((List.range 56).mapM fun (i : ℕ) =>
  (Rt.idx bytes i).bind fun τ1 =>
  some τ1).bind fun τ2 =>
  let bytes : List ℕ := τ2
  (Scalar.from_bytes bytes).bind fun τ3 =>
  let candidate : List ℕ := τ3
  (scalar.sub_extra candidate C.MODULUS (0 : ℕ)).bind fun τ4 =>
  let reduced : List ℕ := τ4
  (Scalar.eq candidate reduced).bind fun τ5 =>
  let τ6 :=
  if τ5 then
  (some candidate)
  else
  (none : Option (List ℕ))
  some τ6

/-- Translation of `to_bytes_rfc_8032`. /repo/src/field/scalar.rs:296-300 -/
def Scalar.to_bytes_rfc_8032 (self : List ℕ) : Option (List ℕ) :=
  (Scalar.to_bytes self).bind fun τ1 =>
  let bytes : List ℕ := τ1
  ((List.range 57).mapM fun (i : ℕ) =>
  (if (decide (i < (56 : ℕ))) then
  (Rt.idx bytes i).bind fun τ2 =>
  some τ2
  else
  some (0 : ℕ)).bind fun τ3 =>
  some τ3).bind fun τ4 =>
  let res : List ℕ := τ4
  some res

/-- Translation of `from_bytes_mod_order_wide`. /repo/src/field/scalar.rs:304-326 -/
def Scalar.from_bytes_mod_order_wide (input : List ℕ) : Option (List ℕ) :=
  ((List.range 56).mapM fun (i : ℕ) =>
  (Rt.idx input i).bind fun τ1 =>
  some τ1).bind fun τ2 =>
  let lo : List ℕ := τ2
  (Scalar.from_bytes lo).bind fun τ3 =>
  let lo : List ℕ := τ3
  (scalar.montgomery_multiply lo C.R).bind fun τ4 =>
  let lo : List ℕ := τ4
  ((List.range 56).mapM fun (i : ℕ) =>
  (Rt.ckUsize (i + (56 : ℕ))).bind fun τ5 =>
  (Rt.idx input τ5).bind fun τ6 =>
  some τ6).bind fun τ7 =>
  let hi : List ℕ := τ7
  (Scalar.from_bytes hi).bind fun τ8 =>
  let hi : List ℕ := τ8
  (scalar.montgomery_multiply hi C.R2).bind fun τ9 =>
  let hi : List ℕ := τ9
  ((List.range 56).mapM fun (i : ℕ) =>
  (if (decide (i < (2 : ℕ))) then
  (Rt.ckUsize (i + (112 : ℕ))).bind fun τ10 =>
  (Rt.idx input τ10).bind fun τ11 =>
  some τ11
  else
  some (0 : ℕ)).bind fun τ12 =>
  some τ12).bind fun τ13 =>
  let top : List ℕ := τ13
  (Scalar.from_bytes top).bind fun τ14 =>
  let top : List ℕ := τ14
  (scalar.montgomery_multiply top C.R2).bind fun τ15 =>
  let top : List ℕ := τ15
  (scalar.montgomery_multiply top C.R2).bind fun τ16 =>
  let top : List ℕ := τ16
  (scalar.add lo hi).bind fun τ17 =>
  (Scalar.op_add τ17 top).bind fun τ18 =>
  some τ18

end Ed448.Gen
