import Verif.Gen.Ops
import Verif.Gen.Scalar
/-!
# Mechanical translation of src/field/scalar.rs with a parameter for the arithmetic

Generated by tools/rust2lean.py; do not edit. Each definition is the translation of the cited Rust
function in a release build, with the arithmetic as a parameter; see `Verif.Gen.Ops`.
-/

set_option linter.all false

namespace Ed448.Par
open Ed448.Model FieldBackend


/-- Translation of `to_bytes` with a parameter for the arithmetic. /repo/src/field/scalar.rs:166-177 -/
def Scalar.to_bytes (o : Ops) (self : List ℕ) : Option (List ℕ) :=
  let res : List ℕ := (List.replicate 56 (0 : ℕ))
  (List.foldlM (fun (τ1 : (List ℕ)) (i : ℕ) =>
  let res := τ1
  (Gen.Rt.idx self i).bind fun τ2 =>
  let l : ℕ := τ2
  (List.foldlM (fun (τ3 : (List ℕ) × (ℕ)) (j : ℕ) =>
  let res := τ3.1
  let l := τ3.2
  (Rel.wrU 32 ((4 : ℕ) * i)).bind fun τ4 =>
  (Rel.wrU 32 (τ4 + j)).bind fun τ5 =>
  (Gen.Rt.put res τ5 (o.modU 8 l)).bind fun τ6 =>
  let res := τ6
  let l := (o.shrU l 8)
  some (res, l)) (res, l) (Gen.Rt.range (0 : ℕ) (4 : ℕ))).bind fun τ7 =>
  let res := τ7.1
  let l := τ7.2
  some (res)) (res) (Gen.Rt.range (0 : ℕ) (14 : ℕ))).bind fun τ8 =>
  let res := τ8
  some res

/-- Translation of `ct_eq` with a parameter for the arithmetic. /repo/src/field/scalar.rs:28-30 -/
def Scalar.ct_eq (o : Ops) (self : List ℕ) (other : List ℕ) : Option Bool :=
  (Scalar.to_bytes o self).bind fun τ1 =>
  (Scalar.to_bytes o other).bind fun τ2 =>
  some (τ1 == τ2)

/-- Translation of `eq` with a parameter for the arithmetic. /repo/src/field/scalar.rs:34-36 -/
def Scalar.eq (o : Ops) (self : List ℕ) (other : List ℕ) : Option Bool :=
  (Scalar.ct_eq o self other).bind fun τ1 =>
  some τ1

/-- Translation of `sub_extra` with a parameter for the arithmetic. /repo/src/field/scalar.rs:368-398 -/
def scalar.sub_extra (o : Ops) (a : List ℕ) (b : List ℕ) (carry : ℕ) : Option (List ℕ) :=
  let result : List ℕ := Gen.Scalar.zero
  let chain : ℤ := (0 : ℤ)
  (List.foldlM (fun (τ1 : (ℤ) × (List ℕ)) (i : ℕ) =>
  let chain := τ1.1
  let result := τ1.2
  (Gen.Rt.idx a i).bind fun τ2 =>
  (Gen.Rt.idx b i).bind fun τ3 =>
  (some (o.subI 64 (o.ext τ2) (o.ext τ3))).bind fun τ4 =>
  (some (o.addI 64 chain τ4)).bind fun τ5 =>
  let chain := τ5
  (Gen.Rt.put result i (o.asU 32 chain)).bind fun τ6 =>
  let result := τ6
  let chain := (o.shrI chain 32)
  some (chain, result)) (chain, result) (Gen.Rt.range (0 : ℕ) (14 : ℕ))).bind fun τ7 =>
  let chain := τ7.1
  let result := τ7.2
  (some (o.addI 64 chain (o.ext carry))).bind fun τ8 =>
  let borrow : ℤ := τ8
  let chain := (0 : ℤ)
  (List.foldlM (fun (τ9 : (ℤ) × (List ℕ)) (i : ℕ) =>
  let chain := τ9.1
  let result := τ9.2
  (Gen.Rt.idx result i).bind fun τ10 =>
  (Gen.Rt.idx Gen.C.MODULUS i).bind fun τ11 =>
  (some (o.addI 64 (o.ext τ10) (o.andI 64 (o.ext τ11) borrow))).bind fun τ12 =>
  (some (o.addI 64 chain τ12)).bind fun τ13 =>
  let chain := τ13
  (Gen.Rt.put result i (o.asU 32 chain)).bind fun τ14 =>
  let result := τ14
  let chain := (o.shrI chain 32)
  some (chain, result)) (chain, result) (Gen.Rt.range (0 : ℕ) (14 : ℕ))).bind fun τ15 =>
  let chain := τ15.1
  let result := τ15.2
  some result

/-- Translation of `add` with a parameter for the arithmetic. /repo/src/field/scalar.rs:345-364 -/
def scalar.add (o : Ops) (a : List ℕ) (b : List ℕ) : Option (List ℕ) :=
  let result : List ℕ := Gen.Scalar.zero
  let chain : ℕ := (0 : ℕ)
  (List.foldlM (fun (τ1 : (ℕ) × (List ℕ)) (i : ℕ) =>
  let chain := τ1.1
  let result := τ1.2
  (Gen.Rt.idx a i).bind fun τ2 =>
  (Gen.Rt.idx b i).bind fun τ3 =>
  (some (o.addU 64 τ2 τ3)).bind fun τ4 =>
  (some (o.addU 64 chain τ4)).bind fun τ5 =>
  let chain := τ5
  (Gen.Rt.put result i (o.modU 32 chain)).bind fun τ6 =>
  let result := τ6
  let chain := (o.shrU chain 32)
  some (chain, result)) (chain, result) (Gen.Rt.range (0 : ℕ) (14 : ℕ))).bind fun τ7 =>
  let chain := τ7.1
  let result := τ7.2
  (scalar.sub_extra o result Gen.C.MODULUS (o.modU 32 chain)).bind fun τ8 =>
  some τ8

/-- Translation of `add` with a parameter for the arithmetic. /repo/src/field/scalar.rs:62-64 -/
def Scalar.op_add (o : Ops) (self : List ℕ) (rhs : List ℕ) : Option (List ℕ) :=
  (scalar.add o self rhs).bind fun τ1 =>
  some τ1

/-- Translation of `montgomery_multiply` with a parameter for the arithmetic. /repo/src/field/scalar.rs:400-434 -/
def scalar.montgomery_multiply (o : Ops) (x : List ℕ) (y : List ℕ) : Option (List ℕ) :=
  let MONTGOMERY_FACTOR : ℕ := (2928774085 : ℕ)
  let result : List ℕ := Gen.Scalar.zero
  let carry : ℕ := (0 : ℕ)
  let mul_add := fun (a : ℕ) (b : ℕ) (c : ℕ) =>
  (some (o.mulU 64 a b)).bind fun τ1 =>
  (some (o.addU 64 τ1 c)).bind fun τ2 =>
  some τ2
  (List.foldlM (fun (τ3 : (List ℕ) × (ℕ)) (i : ℕ) =>
  let result := τ3.1
  let carry := τ3.2
  let chain : ℕ := (0 : ℕ)
  (List.foldlM (fun (τ4 : (ℕ) × (List ℕ)) (j : ℕ) =>
  let chain := τ4.1
  let result := τ4.2
  (Gen.Rt.idx x i).bind fun τ5 =>
  (Gen.Rt.idx y j).bind fun τ6 =>
  (Gen.Rt.idx result j).bind fun τ7 =>
  (mul_add τ5 τ6 τ7).bind fun τ8 =>
  (some (o.addU 64 chain τ8)).bind fun τ9 =>
  let chain := τ9
  (Gen.Rt.put result j (o.modU 32 chain)).bind fun τ10 =>
  let result := τ10
  let chain := (o.shrU chain 32)
  some (chain, result)) (chain, result) (Gen.Rt.range (0 : ℕ) (14 : ℕ))).bind fun τ11 =>
  let chain := τ11.1
  let result := τ11.2
  let saved : ℕ := (o.modU 32 chain)
  let multiplicand : ℕ := (o.wmulU 32 (result.getD 0 0) MONTGOMERY_FACTOR)
  let chain := (0 : ℕ)
  (List.foldlM (fun (τ12 : (ℕ) × (List ℕ)) (j : ℕ) =>
  let chain := τ12.1
  let result := τ12.2
  (Gen.Rt.idx Gen.C.MODULUS j).bind fun τ13 =>
  (Gen.Rt.idx result j).bind fun τ14 =>
  (mul_add multiplicand τ13 τ14).bind fun τ15 =>
  (some (o.addU 64 chain τ15)).bind fun τ16 =>
  let chain := τ16
  (if (decide (j > (0 : ℕ))) then
  (Rel.wrSub 32 j (1 : ℕ)).bind fun τ17 =>
  (Gen.Rt.put result τ17 (o.modU 32 chain)).bind fun τ18 =>
  let result := τ18
  some (result)
  else
  some (result)).bind fun τ19 =>
  let result := τ19
  let chain := (o.shrU chain 32)
  some (chain, result)) (chain, result) (Gen.Rt.range (0 : ℕ) (14 : ℕ))).bind fun τ20 =>
  let chain := τ20.1
  let result := τ20.2
  (some (o.addU 64 saved carry)).bind fun τ21 =>
  (some (o.addU 64 chain τ21)).bind fun τ22 =>
  let chain := τ22
  let result := (result.set 13 (o.modU 32 chain))
  let carry := (o.modU 32 (o.shrU chain 32))
  some (result, carry)) (result, carry) (Gen.Rt.range (0 : ℕ) (14 : ℕ))).bind fun τ23 =>
  let result := τ23.1
  let carry := τ23.2
  (scalar.sub_extra o result Gen.C.MODULUS carry).bind fun τ24 =>
  some τ24

/-- Translation of `mul` with a parameter for the arithmetic. /repo/src/field/scalar.rs:68-71 -/
def Scalar.op_mul (o : Ops) (self : List ℕ) (rhs : List ℕ) : Option (List ℕ) :=
  (scalar.montgomery_multiply o self rhs).bind fun τ1 =>
  let unreduced : List ℕ := τ1
  (scalar.montgomery_multiply o unreduced Gen.C.R2).bind fun τ2 =>
  some τ2

/-- Translation of `sub` with a parameter for the arithmetic. /repo/src/field/scalar.rs:75-77 -/
def Scalar.op_sub (o : Ops) (self : List ℕ) (rhs : List ℕ) : Option (List ℕ) :=
  (scalar.sub_extra o self rhs (0 : ℕ)).bind fun τ1 =>
  some τ1

/-- Translation of `div_by_four` with a parameter for the arithmetic. /repo/src/field/scalar.rs:95-100 -/
def Scalar.div_by_four (o : Ops) (self : List ℕ) : Option (List ℕ) :=
  (List.foldlM (fun (τ1 : (List ℕ)) (i : ℕ) =>
  let self := τ1
  (Rel.wrU 32 (i + (1 : ℕ))).bind fun τ2 =>
  (Gen.Rt.idx self τ2).bind fun τ3 =>
  (Gen.Rt.idx self i).bind fun τ4 =>
  (Gen.Rt.put self i (o.orU (o.shlU 32 τ3 30) (o.shrU τ4 2))).bind fun τ5 =>
  let self := τ5
  some (self)) (self) (Gen.Rt.rangeIncl (0 : ℕ) (12 : ℕ))).bind fun τ6 =>
  let self := τ6
  let self := (self.set 13 (o.shrU (self.getD 13 0) 2))
  some (self)

/-- Translation of `to_radix_16` with a parameter for the arithmetic. /repo/src/field/scalar.rs:105-133 -/
def Scalar.to_radix_16 (o : Ops) (self : List ℕ) : Option (List ℤ) :=
  (Scalar.to_bytes o self).bind fun τ1 =>
  let bytes : List ℕ := τ1
  let output : List ℤ := (List.replicate 113 (0 : ℤ))
  let bot_half := fun (x : ℕ) =>
  (o.andU (o.shrU x 0) (15 : ℕ))
  let top_half := fun (x : ℕ) =>
  (o.andU (o.shrU x 4) (15 : ℕ))
  (List.foldlM (fun (τ2 : (List ℤ)) (i : ℕ) =>
  let output := τ2
  (Gen.Rt.idx bytes i).bind fun τ3 =>
  (Rel.wrU 32 ((2 : ℕ) * i)).bind fun τ4 =>
  (Gen.Rt.put output τ4 (o.toI 8 (bot_half τ3))).bind fun τ5 =>
  let output := τ5
  (Gen.Rt.idx bytes i).bind fun τ6 =>
  (Rel.wrU 32 ((2 : ℕ) * i)).bind fun τ7 =>
  (Rel.wrU 32 (τ7 + (1 : ℕ))).bind fun τ8 =>
  (Gen.Rt.put output τ8 (o.toI 8 (top_half τ6))).bind fun τ9 =>
  let output := τ9
  some (output)) (output) (Gen.Rt.range (0 : ℕ) (56 : ℕ))).bind fun τ10 =>
  let output := τ10
  (List.foldlM (fun (τ11 : (List ℤ)) (i : ℕ) =>
  let output := τ11
  (Gen.Rt.idx output i).bind fun τ12 =>
  (some (o.addI 8 τ12 (8 : ℤ))).bind fun τ13 =>
  let carry : ℤ := (o.shrI τ13 4)
  (Gen.Rt.idx output i).bind fun τ14 =>
  (some (o.subI 8 τ14 (o.shlI 8 carry 4))).bind fun τ15 =>
  (Gen.Rt.put output i τ15).bind fun τ16 =>
  let output := τ16
  (Rel.wrU 32 (i + (1 : ℕ))).bind fun τ17 =>
  (Gen.Rt.idx output τ17).bind fun τ18 =>
  (some (o.addI 8 τ18 carry)).bind fun τ19 =>
  (Rel.wrU 32 (i + (1 : ℕ))).bind fun τ20 =>
  (Gen.Rt.put output τ20 τ19).bind fun τ21 =>
  let output := τ21
  some (output)) (output) (Gen.Rt.range (0 : ℕ) (112 : ℕ))).bind fun τ22 =>
  let output := τ22
  some output

/-- Translation of `bits` with a parameter for the arithmetic. /repo/src/field/scalar.rs:135-148 -/
def Scalar.bits (o : Ops) (self : List ℕ) : Option (List Bool) :=
  let bits : List Bool := ([] : List Bool)
  (List.foldlM (fun (τ1 : (List Bool)) (limb : ℕ) =>
  let bits := τ1
  (List.foldlM (fun (τ2 : (List Bool)) (j : ℤ) =>
  let bits := τ2
  (Rel.shiftAmountZ 32 j).bind fun τ3 =>
  let bits := (bits ++ [(!((o.andU limb (o.shlU 32 (1 : ℕ) τ3)) == (0 : ℕ)))])
  some (bits)) (bits) (Gen.Rt.rangeZ (0 : ℤ) (32 : ℤ))).bind fun τ4 =>
  let bits := τ4
  some (bits)) (bits) self).bind fun τ5 =>
  let bits := τ5
  some bits

/-- Translation of `from_bytes` with a parameter for the arithmetic. /repo/src/field/scalar.rs:149-165 -/
def Scalar.from_bytes (o : Ops) (bytes : List ℕ) : Option (List ℕ) :=
  let load7 := fun (input : List ℕ) =>
  (Gen.Rt.idx input (0 : ℕ)).bind fun τ1 =>
  (Gen.Rt.idx input (1 : ℕ)).bind fun τ2 =>
  (Gen.Rt.idx input (2 : ℕ)).bind fun τ3 =>
  (Gen.Rt.idx input (3 : ℕ)).bind fun τ4 =>
  some (o.orU (o.orU (o.orU τ1 (o.shlU 64 τ2 8)) (o.shlU 64 τ3 16)) (o.shlU 64 τ4 24))
  let res : List ℕ := Gen.Scalar.zero
  (List.foldlM (fun (τ5 : (List ℕ)) (i : ℕ) =>
  let res := τ5
  (Rel.wrU 32 (i * (4 : ℕ))).bind fun τ6 =>
  (Gen.Rt.sliceFrom bytes τ6).bind fun τ7 =>
  (load7 τ7).bind fun τ8 =>
  let out : ℕ := τ8
  (Gen.Rt.put res i (o.modU 32 out)).bind fun τ9 =>
  let res := τ9
  some (res)) (res) (Gen.Rt.range (0 : ℕ) (14 : ℕ))).bind fun τ10 =>
  let res := τ10
  some res

/-- Translation of `square` with a parameter for the arithmetic. /repo/src/field/scalar.rs:178-180 -/
def Scalar.square (o : Ops) (self : List ℕ) : Option (List ℕ) :=
  (scalar.montgomery_multiply o self self).bind fun τ1 =>
  some τ1

/-- Translation of `invert` with a parameter for the arithmetic. /repo/src/field/scalar.rs:181-247 -/
def Scalar.invert (o : Ops) (self : List ℕ) : Option (List ℕ) :=
  let pre_comp : List (List ℕ) := (List.replicate 8 Gen.Scalar.zero)
  let result : List ℕ := Gen.Scalar.zero
  let scalar_window_bits : ℤ := (3 : ℤ)
  (Rel.shiftAmountZ 64 scalar_window_bits).bind fun τ1 =>
  (Rel.wrSub 32 (Gen.Rt.shlU 64 (1 : ℕ) τ1) (1 : ℕ)).bind fun τ2 =>
  let last : ℕ := τ2
  (scalar.montgomery_multiply o self Gen.C.R2).bind fun τ3 =>
  (Gen.Rt.put pre_comp (0 : ℕ) τ3).bind fun τ4 =>
  let pre_comp := τ4
  (if (decide (last > (0 : ℕ))) then
  (Gen.Rt.idx pre_comp (0 : ℕ)).bind fun τ5 =>
  (Gen.Rt.idx pre_comp (0 : ℕ)).bind fun τ6 =>
  (scalar.montgomery_multiply o τ5 τ6).bind fun τ7 =>
  (Gen.Rt.put pre_comp last τ7).bind fun τ8 =>
  let pre_comp := τ8
  some (pre_comp)
  else
  some (pre_comp)).bind fun τ9 =>
  let pre_comp := τ9
  (List.foldlM (fun (τ10 : (List (List ℕ))) (i : ℕ) =>
  let pre_comp := τ10
  (Rel.wrSub 32 i (1 : ℕ)).bind fun τ11 =>
  (Gen.Rt.idx pre_comp τ11).bind fun τ12 =>
  (Gen.Rt.idx pre_comp last).bind fun τ13 =>
  (scalar.montgomery_multiply o τ12 τ13).bind fun τ14 =>
  (Gen.Rt.put pre_comp i τ14).bind fun τ15 =>
  let pre_comp := τ15
  some (pre_comp)) (pre_comp) (Gen.Rt.rangeIncl (1 : ℕ) last)).bind fun τ16 =>
  let pre_comp := τ16
  let residue : ℕ := (0 : ℕ)
  let trailing : ℕ := (0 : ℕ)
  let started : ℕ := (0 : ℕ)
  (some (o.negI 32 scalar_window_bits)).bind fun τ17 =>
  let loop_start : ℤ := τ17
  let loop_end : ℤ := (445 : ℤ)
  (List.foldlM (fun (τ18 : (List ℕ) × (ℕ) × (ℕ) × (ℕ)) (i : ℤ) =>
  let result := τ18.1
  let residue := τ18.2.1
  let trailing := τ18.2.2.1
  let started := τ18.2.2.2
  (if (!(started == (0 : ℕ))) then
  (Scalar.square o result).bind fun τ19 =>
  let result := τ19
  some (result)
  else
  some (result)).bind fun τ20 =>
  let result := τ20
  let w : ℕ := 0
  (if (decide (i ≥ (0 : ℤ))) then
  (Gen.Rt.idx Gen.C.MODULUS (o.asU 64 (Int.tdiv i (32 : ℤ)))).bind fun τ21 =>
  let w := τ21
  some (w)
  else
  let w := (0 : ℕ)
  some (w)).bind fun τ22 =>
  let w := τ22
  (if ((decide (i ≥ (0 : ℤ))) && (decide (i < (32 : ℤ)))) then
  (some (o.subU 32 w (2 : ℕ))).bind fun τ23 =>
  let w := τ23
  some (w)
  else
  some (w)).bind fun τ24 =>
  let w := τ24
  (Rel.shiftAmount 32 ((o.asU 32 i) % (32 : ℕ))).bind fun τ25 =>
  let residue := (o.orU (o.shlU 32 (o.modU 32 residue) 1) (o.andU (o.shrU w τ25) (1 : ℕ)))
  (Rel.shiftAmountZ 64 scalar_window_bits).bind fun τ26 =>
  let τ27 :=
  if (!((residue >>> τ26) == (0 : ℕ))) then
  let trailing := residue
  let residue := (0 : ℕ)
  (trailing, residue)
  else
  (trailing, residue)
  let trailing := τ27.1
  let residue := τ27.2
  (if (decide (trailing > (0 : ℕ))) then
  (Rel.shiftAmountZ 64 scalar_window_bits).bind fun τ28 =>
  (Rel.wrSub 32 (Gen.Rt.shlU 64 (1 : ℕ) τ28) (1 : ℕ)).bind fun τ29 =>
  some ((trailing &&& τ29) == (0 : ℕ))
  else some false).bind fun τ30 =>
  (if τ30 then
  (if (!(started == (0 : ℕ))) then
  (some (o.addI 32 scalar_window_bits (1 : ℤ))).bind fun τ31 =>
  (Rel.shiftAmountZ 64 τ31).bind fun τ32 =>
  (Gen.Rt.idx pre_comp (trailing >>> τ32)).bind fun τ33 =>
  (scalar.montgomery_multiply o result τ33).bind fun τ34 =>
  let result := τ34
  some (result, started)
  else
  (some (o.addI 32 scalar_window_bits (1 : ℤ))).bind fun τ35 =>
  (Rel.shiftAmountZ 64 τ35).bind fun τ36 =>
  (Gen.Rt.idx pre_comp (trailing >>> τ36)).bind fun τ37 =>
  let result := τ37
  let started := (1 : ℕ)
  some (result, started)).bind fun τ38 =>
  let result := τ38.1
  let started := τ38.2
  let trailing := (0 : ℕ)
  some (result, started, trailing)
  else
  some (result, started, trailing)).bind fun τ39 =>
  let result := τ39.1
  let started := τ39.2.1
  let trailing := τ39.2.2
  let trailing := (Gen.Rt.shlU 64 trailing 1)
  some (result, residue, trailing, started)) (result, residue, trailing, started) (List.reverse (Gen.Rt.rangeInclZ loop_start loop_end))).bind fun τ40 =>
  let result := τ40.1
  let residue := τ40.2.1
  let trailing := τ40.2.2.1
  let started := τ40.2.2.2
  (scalar.montgomery_multiply o result Gen.Scalar.one).bind fun τ41 =>
  some τ41

/-- Translation of `halve` with a parameter for the arithmetic. /repo/src/field/scalar.rs:250-268 -/
def Scalar.halve (o : Ops) (self : List ℕ) : Option (List ℕ) :=
  let result : List ℕ := Gen.Scalar.zero
  let mask : ℕ := (o.wsubU 32 (0 : ℕ) (o.andU (self.getD 0 0) (1 : ℕ)))
  let chain : ℕ := (0 : ℕ)
  (List.foldlM (fun (τ1 : (ℕ) × (List ℕ)) (i : ℕ) =>
  let chain := τ1.1
  let result := τ1.2
  (Gen.Rt.idx self i).bind fun τ2 =>
  (Gen.Rt.idx Gen.C.MODULUS i).bind fun τ3 =>
  (some (o.addU 64 τ2 (o.andU τ3 mask))).bind fun τ4 =>
  (some (o.addU 64 chain τ4)).bind fun τ5 =>
  let chain := τ5
  (Gen.Rt.put result i (o.modU 32 chain)).bind fun τ6 =>
  let result := τ6
  let chain := (o.shrU chain 32)
  some (chain, result)) (chain, result) (Gen.Rt.range (0 : ℕ) (14 : ℕ))).bind fun τ7 =>
  let chain := τ7.1
  let result := τ7.2
  (List.foldlM (fun (τ8 : (List ℕ)) (i : ℕ) =>
  let result := τ8
  (Gen.Rt.idx result i).bind fun τ9 =>
  (Rel.wrU 32 (i + (1 : ℕ))).bind fun τ10 =>
  (Gen.Rt.idx result τ10).bind fun τ11 =>
  (Gen.Rt.put result i (o.orU (o.shrU τ9 1) (o.shlU 32 τ11 31))).bind fun τ12 =>
  let result := τ12
  some (result)) (result) (Gen.Rt.range (0 : ℕ) (13 : ℕ))).bind fun τ13 =>
  let result := τ13
  let result := (result.set 13 (o.orU (o.shrU (result.getD 13 0) 1) (o.modU 32 (o.shlU 64 chain 31))))
  some result

/-- Translation of `from_canonical_bytes` with a parameter for the arithmetic. /repo/src/field/scalar.rs:277-292 -/
def Scalar.from_canonical_bytes (o : Ops) (bytes : List ℕ) : Option (Option (List ℕ)) :=
  if ((!((bytes.getD 56 0) == (0 : ℕ))) || (!((o.shrU (bytes.getD 55 0) 6) == (0 : ℕ)))) then
  some (none : Option (List ℕ))
  else
  ((List.range 56).mapM fun (i : ℕ) =>
  (Gen.Rt.idx bytes i).bind fun τ1 =>
  some τ1).bind fun τ2 =>
  let bytes : List ℕ := τ2
  (Scalar.from_bytes o bytes).bind fun τ3 =>
  let candidate : List ℕ := τ3
  (scalar.sub_extra o candidate Gen.C.MODULUS (0 : ℕ)).bind fun τ4 =>
  let reduced : List ℕ := τ4
  (Scalar.eq o candidate reduced).bind fun τ5 =>
  let τ6 :=
  if τ5 then
  (some candidate)
  else
  (none : Option (List ℕ))
  some τ6

/-- Translation of `to_bytes_rfc_8032` with a parameter for the arithmetic. /repo/src/field/scalar.rs:296-300 -/
def Scalar.to_bytes_rfc_8032 (o : Ops) (self : List ℕ) : Option (List ℕ) :=
  (Scalar.to_bytes o self).bind fun τ1 =>
  let bytes : List ℕ := τ1
  ((List.range 57).mapM fun (i : ℕ) =>
  (if (decide (i < (56 : ℕ))) then
  (Gen.Rt.idx bytes i).bind fun τ2 =>
  some τ2
  else
  some (0 : ℕ)).bind fun τ3 =>
  some τ3).bind fun τ4 =>
  let res : List ℕ := τ4
  some res

/-- Translation of `from_bytes_mod_order_wide` with a parameter for the arithmetic. /repo/src/field/scalar.rs:304-326 -/
def Scalar.from_bytes_mod_order_wide (o : Ops) (input : List ℕ) : Option (List ℕ) :=
  ((List.range 56).mapM fun (i : ℕ) =>
  (Gen.Rt.idx input i).bind fun τ1 =>
  some τ1).bind fun τ2 =>
  let lo : List ℕ := τ2
  (Scalar.from_bytes o lo).bind fun τ3 =>
  let lo : List ℕ := τ3
  (scalar.montgomery_multiply o lo Gen.C.R).bind fun τ4 =>
  let lo : List ℕ := τ4
  ((List.range 56).mapM fun (i : ℕ) =>
  (Rel.wrU 32 (i + (56 : ℕ))).bind fun τ5 =>
  (Gen.Rt.idx input τ5).bind fun τ6 =>
  some τ6).bind fun τ7 =>
  let hi : List ℕ := τ7
  (Scalar.from_bytes o hi).bind fun τ8 =>
  let hi : List ℕ := τ8
  (scalar.montgomery_multiply o hi Gen.C.R2).bind fun τ9 =>
  let hi : List ℕ := τ9
  ((List.range 56).mapM fun (i : ℕ) =>
  (if (decide (i < (2 : ℕ))) then
  (Rel.wrU 32 (i + (112 : ℕ))).bind fun τ10 =>
  (Gen.Rt.idx input τ10).bind fun τ11 =>
  some τ11
  else
  some (0 : ℕ)).bind fun τ12 =>
  some τ12).bind fun τ13 =>
  let top : List ℕ := τ13
  (Scalar.from_bytes o top).bind fun τ14 =>
  let top : List ℕ := τ14
  (scalar.montgomery_multiply o top Gen.C.R2).bind fun τ15 =>
  let top : List ℕ := τ15
  (scalar.montgomery_multiply o top Gen.C.R2).bind fun τ16 =>
  let top : List ℕ := τ16
  (scalar.add o lo hi).bind fun τ17 =>
  (Scalar.op_add o τ17 top).bind fun τ18 =>
  some τ18

end Ed448.Par
