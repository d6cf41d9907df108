import Verif.Gen.RelScalar
import Verif.Gen.RelU32
import Verif.Proofs.RelLogic

/-!
# Release builds refine debug builds: scalars and the 32-bit field

Written by tools/gen_relref.py from the definitions of `Verif.Gen.Rel*`: wherever a function of the translation with
overflow checks returns, the function of the translation with wrapping arithmetic returns the same value.
-/

namespace Ed448.Rel
open Ed448.Model

set_option maxRecDepth 10000

instance {self : List ℕ} :
    Ref (Gen.Scalar.to_bytes self) (Scalar.to_bytes self) := by
  unfold Gen.Scalar.to_bytes Scalar.to_bytes
  ref

instance {self other : List ℕ} :
    Ref (Gen.Scalar.ct_eq self other) (Scalar.ct_eq self other) := by
  unfold Gen.Scalar.ct_eq Scalar.ct_eq
  ref

instance {self other : List ℕ} :
    Ref (Gen.Scalar.eq self other) (Scalar.eq self other) := by
  unfold Gen.Scalar.eq Scalar.eq
  ref

instance {a b : List ℕ} {carry : ℕ} :
    Ref (Gen.scalar.sub_extra a b carry) (scalar.sub_extra a b carry) := by
  unfold Gen.scalar.sub_extra scalar.sub_extra
  ref

instance {a b : List ℕ} :
    Ref (Gen.scalar.add a b) (scalar.add a b) := by
  unfold Gen.scalar.add scalar.add
  ref

instance {self rhs : List ℕ} :
    Ref (Gen.Scalar.op_add self rhs) (Scalar.op_add self rhs) := by
  unfold Gen.Scalar.op_add Scalar.op_add
  ref

instance {x y : List ℕ} :
    Ref (Gen.scalar.montgomery_multiply x y) (scalar.montgomery_multiply x y) := by
  unfold Gen.scalar.montgomery_multiply scalar.montgomery_multiply
  ref

instance {self rhs : List ℕ} :
    Ref (Gen.Scalar.op_mul self rhs) (Scalar.op_mul self rhs) := by
  unfold Gen.Scalar.op_mul Scalar.op_mul
  ref

instance {self rhs : List ℕ} :
    Ref (Gen.Scalar.op_sub self rhs) (Scalar.op_sub self rhs) := by
  unfold Gen.Scalar.op_sub Scalar.op_sub
  ref

instance {self : List ℕ} :
    Ref (Gen.Scalar.div_by_four self) (Scalar.div_by_four self) := by
  unfold Gen.Scalar.div_by_four Scalar.div_by_four
  ref

instance {self : List ℕ} :
    Ref (Gen.Scalar.to_radix_16 self) (Scalar.to_radix_16 self) := by
  unfold Gen.Scalar.to_radix_16 Scalar.to_radix_16
  ref

instance {self : List ℕ} :
    Ref (Gen.Scalar.bits self) (Scalar.bits self) := by
  unfold Gen.Scalar.bits Scalar.bits
  ref

instance {bytes : List ℕ} :
    Ref (Gen.Scalar.from_bytes bytes) (Scalar.from_bytes bytes) := by
  unfold Gen.Scalar.from_bytes Scalar.from_bytes
  ref

instance {self : List ℕ} :
    Ref (Gen.Scalar.square self) (Scalar.square self) := by
  unfold Gen.Scalar.square Scalar.square
  ref

instance {self : List ℕ} :
    Ref (Gen.Scalar.invert self) (Scalar.invert self) := by
  unfold Gen.Scalar.invert Scalar.invert
  ref

instance {self : List ℕ} :
    Ref (Gen.Scalar.halve self) (Scalar.halve self) := by
  unfold Gen.Scalar.halve Scalar.halve
  ref

instance {bytes : List ℕ} :
    Ref (Gen.Scalar.from_canonical_bytes bytes) (Scalar.from_canonical_bytes bytes) := by
  unfold Gen.Scalar.from_canonical_bytes Scalar.from_canonical_bytes
  ref

instance {self : List ℕ} :
    Ref (Gen.Scalar.to_bytes_rfc_8032 self) (Scalar.to_bytes_rfc_8032 self) := by
  unfold Gen.Scalar.to_bytes_rfc_8032 Scalar.to_bytes_rfc_8032
  ref

instance {input : List ℕ} :
    Ref (Gen.Scalar.from_bytes_mod_order_wide input) (Scalar.from_bytes_mod_order_wide input) := by
  unfold Gen.Scalar.from_bytes_mod_order_wide Scalar.from_bytes_mod_order_wide
  ref

instance {a b : List ℕ} {MASK : ℤ} {c aa bb : List ℕ} {z0 z1 z2 : ℤ} :
    Ref (Gen.karatsuba.mul.part2 a b MASK c aa bb z0 z1 z2) (karatsuba.mul.part2 a b MASK c aa bb z0 z1 z2) := by
  unfold Gen.karatsuba.mul.part2 karatsuba.mul.part2
  ref

instance {a b : List ℕ} {MASK : ℤ} {c aa bb : List ℕ} {z0 z1 z2 : ℤ} :
    Ref (Gen.karatsuba.mul.part3 a b MASK c aa bb z0 z1 z2) (karatsuba.mul.part3 a b MASK c aa bb z0 z1 z2) := by
  unfold Gen.karatsuba.mul.part3 karatsuba.mul.part3
  ref

instance {a b : List ℕ} {MASK : ℤ} {c aa bb : List ℕ} {z0 z1 z2 : ℤ} :
    Ref (Gen.karatsuba.mul.part4 a b MASK c aa bb z0 z1 z2) (karatsuba.mul.part4 a b MASK c aa bb z0 z1 z2) := by
  unfold Gen.karatsuba.mul.part4 karatsuba.mul.part4
  ref

instance {a b : List ℕ} {MASK : ℤ} {c aa bb : List ℕ} {z0 z1 z2 : ℤ} :
    Ref (Gen.karatsuba.mul.part5 a b MASK c aa bb z0 z1 z2) (karatsuba.mul.part5 a b MASK c aa bb z0 z1 z2) := by
  unfold Gen.karatsuba.mul.part5 karatsuba.mul.part5
  ref

instance {a b : List ℕ} {MASK : ℤ} {c aa bb : List ℕ} {z0 z1 z2 : ℤ} :
    Ref (Gen.karatsuba.mul.part6 a b MASK c aa bb z0 z1 z2) (karatsuba.mul.part6 a b MASK c aa bb z0 z1 z2) := by
  unfold Gen.karatsuba.mul.part6 karatsuba.mul.part6
  ref

instance {a b : List ℕ} {MASK : ℤ} {c aa bb : List ℕ} {z0 z1 z2 : ℤ} :
    Ref (Gen.karatsuba.mul.part7 a b MASK c aa bb z0 z1 z2) (karatsuba.mul.part7 a b MASK c aa bb z0 z1 z2) := by
  unfold Gen.karatsuba.mul.part7 karatsuba.mul.part7
  ref

instance {a b : List ℕ} {MASK : ℤ} {c aa bb : List ℕ} {z0 z1 z2 : ℤ} :
    Ref (Gen.karatsuba.mul.part8 a b MASK c aa bb z0 z1 z2) (karatsuba.mul.part8 a b MASK c aa bb z0 z1 z2) := by
  unfold Gen.karatsuba.mul.part8 karatsuba.mul.part8
  ref

instance {a b : List ℕ} {MASK : ℤ} {c aa bb : List ℕ} {z0 z1 z2 : ℤ} :
    Ref (Gen.karatsuba.mul.part9 a b MASK c aa bb z0 z1 z2) (karatsuba.mul.part9 a b MASK c aa bb z0 z1 z2) := by
  unfold Gen.karatsuba.mul.part9 karatsuba.mul.part9
  ref

instance {a b : List ℕ} :
    Ref (Gen.karatsuba.mul a b) (karatsuba.mul a b) := by
  unfold Gen.karatsuba.mul karatsuba.mul
  rw [show karatsuba.mul.part1 a b = Gen.karatsuba.mul.part1 a b from rfl]
  ref

instance {self rhs : List ℕ} :
    Ref (Gen.FieldElement28.op_mul self rhs) (FieldElement28.op_mul self rhs) := by
  unfold Gen.FieldElement28.op_mul FieldElement28.op_mul
  ref

instance {self rhs : List ℕ} :
    Ref (Gen.FieldElement28.op_mul2 self rhs) (FieldElement28.op_mul2 self rhs) := by
  unfold Gen.FieldElement28.op_mul2 FieldElement28.op_mul2
  ref

instance {self rhs : List ℕ} :
    Ref (Gen.FieldElement28.add_no_reduce self rhs) (FieldElement28.add_no_reduce self rhs) := by
  unfold Gen.FieldElement28.add_no_reduce FieldElement28.add_no_reduce
  ref

instance {self : List ℕ} :
    Ref (Gen.FieldElement28.weak_reduce self) (FieldElement28.weak_reduce self) := by
  unfold Gen.FieldElement28.weak_reduce FieldElement28.weak_reduce
  ref

instance {self rhs : List ℕ} :
    Ref (Gen.FieldElement28.op_add self rhs) (FieldElement28.op_add self rhs) := by
  unfold Gen.FieldElement28.op_add FieldElement28.op_add
  ref

instance {a : List ℕ} {b : ℕ} :
    Ref (Gen.FieldElement28.bias a b) (FieldElement28.bias a b) := by
  unfold Gen.FieldElement28.bias FieldElement28.bias
  ref

instance {self rhs : List ℕ} :
    Ref (Gen.FieldElement28.op_sub self rhs) (FieldElement28.op_sub self rhs) := by
  unfold Gen.FieldElement28.op_sub FieldElement28.op_sub
  ref

instance {self : List ℕ} :
    Ref (Gen.FieldElement28.negate self) (FieldElement28.negate self) := by
  unfold Gen.FieldElement28.negate FieldElement28.negate
  ref

instance {self : List ℕ} {choice : Bool} :
    Ref (Gen.FieldElement28.conditional_negate self choice) (FieldElement28.conditional_negate self choice) := by
  unfold Gen.FieldElement28.conditional_negate FieldElement28.conditional_negate
  ref

instance {self : List ℕ} :
    Ref (Gen.FieldElement28.strong_reduce self) (FieldElement28.strong_reduce self) := by
  unfold Gen.FieldElement28.strong_reduce FieldElement28.strong_reduce
  ref

instance {self : List ℕ} :
    Ref (Gen.FieldElement28.to_bytes self) (FieldElement28.to_bytes self) := by
  unfold Gen.FieldElement28.to_bytes FieldElement28.to_bytes
  ref

instance {self : List ℕ} :
    Ref (Gen.FieldElement28.is_negative self) (FieldElement28.is_negative self) := by
  unfold Gen.FieldElement28.is_negative FieldElement28.is_negative
  ref

instance {bytes : List ℕ} :
    Ref (Gen.FieldElement28.from_bytes bytes) (FieldElement28.from_bytes bytes) := by
  unfold Gen.FieldElement28.from_bytes FieldElement28.from_bytes
  ref

instance {a : List ℕ} :
    Ref (Gen.karatsuba.square.part1 a) (karatsuba.square.part1 a) := by
  unfold Gen.karatsuba.square.part1 karatsuba.square.part1
  ref

instance {a : List ℕ} {accum0 accum1 accum2 : ℕ} {c aa : List ℕ} :
    Ref (Gen.karatsuba.square.part2 a accum0 accum1 accum2 c aa) (karatsuba.square.part2 a accum0 accum1 accum2 c aa) := by
  unfold Gen.karatsuba.square.part2 karatsuba.square.part2
  ref

instance {a : List ℕ} {accum0 accum1 accum2 : ℕ} {c aa : List ℕ} :
    Ref (Gen.karatsuba.square.part3 a accum0 accum1 accum2 c aa) (karatsuba.square.part3 a accum0 accum1 accum2 c aa) := by
  unfold Gen.karatsuba.square.part3 karatsuba.square.part3
  ref

instance {a : List ℕ} {accum0 accum1 accum2 : ℕ} {c aa : List ℕ} :
    Ref (Gen.karatsuba.square.part4 a accum0 accum1 accum2 c aa) (karatsuba.square.part4 a accum0 accum1 accum2 c aa) := by
  unfold Gen.karatsuba.square.part4 karatsuba.square.part4
  ref

instance {a : List ℕ} :
    Ref (Gen.karatsuba.square a) (karatsuba.square a) := by
  unfold Gen.karatsuba.square karatsuba.square
  ref

instance {self : List ℕ} :
    Ref (Gen.FieldElement28.square self) (FieldElement28.square self) := by
  unfold Gen.FieldElement28.square FieldElement28.square
  ref

end Ed448.Rel
