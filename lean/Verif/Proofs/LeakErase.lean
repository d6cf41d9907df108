import Verif.Gen.LeakScalar
import Verif.Gen.LeakU32
import Verif.Gen.LeakFiat
import Verif.Proofs.LeakLogic

/-!
# Forgetting the leakage: scalars and fields

Every function of the translation with leakage (`Verif.Gen.LeakScalar`) is, once the recorded
observations are dropped, the function of the translation without (`Verif.Gen.Scalar`): both passes of
`tools/rust2lean.py` describe the same program.
-/

namespace Ed448.Leak
open Ed448.Model

instance {self : List ℕ} : Er (Scalar.to_bytes self) (Gen.Scalar.to_bytes self) := by
  unfold Scalar.to_bytes Gen.Scalar.to_bytes
  er

instance {self other : List ℕ} : Er (Scalar.ct_eq self other) (Gen.Scalar.ct_eq self other) := by
  unfold Scalar.ct_eq Gen.Scalar.ct_eq
  er

instance {self other : List ℕ} : Er (Scalar.eq self other) (Gen.Scalar.eq self other) := by
  unfold Scalar.eq Gen.Scalar.eq
  er

instance {a : ℕ} : Er (Scalar.from a) (some (Gen.Scalar.from a)) := by
  unfold Scalar.from Gen.Scalar.from
  er

instance {self : List ℕ} {index : ℕ} :
    Er (Scalar.index self index) (Gen.Scalar.index self index) := by
  unfold Scalar.index Gen.Scalar.index
  er

instance {self : List ℕ} {index v : ℕ} :
    Er (Scalar.index_mut self index v) (Gen.Scalar.index_mut self index v) := by
  unfold Scalar.index_mut Gen.Scalar.index_mut
  er

instance {a b : List ℕ} {carry : ℕ} :
    Er (scalar.sub_extra a b carry) (Gen.scalar.sub_extra a b carry) := by
  unfold scalar.sub_extra Gen.scalar.sub_extra
  er

instance {a b : List ℕ} : Er (scalar.add a b) (Gen.scalar.add a b) := by
  unfold scalar.add Gen.scalar.add
  er

instance {self rhs : List ℕ} : Er (Scalar.op_add self rhs) (Gen.Scalar.op_add self rhs) := by
  unfold Scalar.op_add Gen.Scalar.op_add
  er

instance {x y : List ℕ} :
    Er (scalar.montgomery_multiply x y) (Gen.scalar.montgomery_multiply x y) := by
  unfold scalar.montgomery_multiply Gen.scalar.montgomery_multiply
  er

instance {self rhs : List ℕ} : Er (Scalar.op_mul self rhs) (Gen.Scalar.op_mul self rhs) := by
  unfold Scalar.op_mul Gen.Scalar.op_mul
  er

instance {self rhs : List ℕ} : Er (Scalar.op_sub self rhs) (Gen.Scalar.op_sub self rhs) := by
  unfold Scalar.op_sub Gen.Scalar.op_sub
  er

instance {self : List ℕ} : Er (Scalar.div_by_four self) (Gen.Scalar.div_by_four self) := by
  unfold Scalar.div_by_four Gen.Scalar.div_by_four
  er

instance {self : List ℕ} : Er (Scalar.to_radix_16 self) (Gen.Scalar.to_radix_16 self) := by
  unfold Scalar.to_radix_16 Gen.Scalar.to_radix_16
  er

instance {self : List ℕ} : Er (Scalar.bits self) (Gen.Scalar.bits self) := by
  unfold Scalar.bits Gen.Scalar.bits
  er

instance {bytes : List ℕ} : Er (Scalar.from_bytes bytes) (Gen.Scalar.from_bytes bytes) := by
  unfold Scalar.from_bytes Gen.Scalar.from_bytes
  er

instance {self : List ℕ} : Er (Scalar.square self) (Gen.Scalar.square self) := by
  unfold Scalar.square Gen.Scalar.square
  er

instance {self : List ℕ} : Er (Scalar.invert self) (Gen.Scalar.invert self) := by
  unfold Scalar.invert Gen.Scalar.invert
  er

instance {self : List ℕ} : Er (Scalar.halve self) (Gen.Scalar.halve self) := by
  unfold Scalar.halve Gen.Scalar.halve
  er

instance {bytes : List ℕ} :
    Er (Scalar.from_canonical_bytes bytes) (Gen.Scalar.from_canonical_bytes bytes) := by
  unfold Scalar.from_canonical_bytes Gen.Scalar.from_canonical_bytes
  er

instance {self : List ℕ} :
    Er (Scalar.to_bytes_rfc_8032 self) (Gen.Scalar.to_bytes_rfc_8032 self) := by
  unfold Scalar.to_bytes_rfc_8032 Gen.Scalar.to_bytes_rfc_8032
  er

instance {input : List ℕ} :
    Er (Scalar.from_bytes_mod_order_wide input) (Gen.Scalar.from_bytes_mod_order_wide input) := by
  unfold Scalar.from_bytes_mod_order_wide Gen.Scalar.from_bytes_mod_order_wide
  er

instance {self : List ℕ} {a : ℕ} :
    Er (FieldElement28.index self a) (Gen.FieldElement28.index self a) := by
  unfold FieldElement28.index Gen.FieldElement28.index
  er

instance {self : List ℕ} {a v : ℕ} :
    Er (FieldElement28.index_mut self a v) (Gen.FieldElement28.index_mut self a v) := by
  unfold FieldElement28.index_mut Gen.FieldElement28.index_mut
  er

instance {a b : List ℕ} : Er (karatsuba.mul a b) (Gen.karatsuba.mul a b) := by
  unfold karatsuba.mul Gen.karatsuba.mul
  er

instance {self rhs : List ℕ} :
    Er (FieldElement28.op_mul self rhs) (Gen.FieldElement28.op_mul self rhs) := by
  unfold FieldElement28.op_mul Gen.FieldElement28.op_mul
  er

instance {self rhs : List ℕ} :
    Er (FieldElement28.op_mul2 self rhs) (Gen.FieldElement28.op_mul2 self rhs) := by
  unfold FieldElement28.op_mul2 Gen.FieldElement28.op_mul2
  er

instance {self rhs : List ℕ} :
    Er (FieldElement28.add_no_reduce self rhs) (Gen.FieldElement28.add_no_reduce self rhs) := by
  unfold FieldElement28.add_no_reduce Gen.FieldElement28.add_no_reduce
  er

instance {self : List ℕ} :
    Er (FieldElement28.weak_reduce self) (Gen.FieldElement28.weak_reduce self) := by
  unfold FieldElement28.weak_reduce Gen.FieldElement28.weak_reduce
  er

instance {self rhs : List ℕ} :
    Er (FieldElement28.op_add self rhs) (Gen.FieldElement28.op_add self rhs) := by
  unfold FieldElement28.op_add Gen.FieldElement28.op_add
  er

instance {a : List ℕ} {b : ℕ} : Er (FieldElement28.bias a b) (Gen.FieldElement28.bias a b) := by
  unfold FieldElement28.bias Gen.FieldElement28.bias
  er

instance {self rhs : List ℕ} :
    Er (FieldElement28.sub_no_reduce self rhs) (some (Gen.FieldElement28.sub_no_reduce self rhs)) := by
  unfold FieldElement28.sub_no_reduce Gen.FieldElement28.sub_no_reduce
  er

instance {self rhs : List ℕ} :
    Er (FieldElement28.op_sub self rhs) (Gen.FieldElement28.op_sub self rhs) := by
  unfold FieldElement28.op_sub Gen.FieldElement28.op_sub
  er

instance {self : List ℕ} : Er (FieldElement28.negate self) (Gen.FieldElement28.negate self) := by
  unfold FieldElement28.negate Gen.FieldElement28.negate
  er

instance {a b : List ℕ} {choice : Bool} :
    Er (FieldElement28.conditional_select a b choice) (some (Gen.FieldElement28.conditional_select a b choice)) := by
  unfold FieldElement28.conditional_select Gen.FieldElement28.conditional_select
  er

instance {self : List ℕ} {choice : Bool} :
    Er (FieldElement28.conditional_negate self choice) (Gen.FieldElement28.conditional_negate self choice) := by
  unfold FieldElement28.conditional_negate Gen.FieldElement28.conditional_negate
  er

instance {self : List ℕ} :
    Er (FieldElement28.strong_reduce self) (Gen.FieldElement28.strong_reduce self) := by
  unfold FieldElement28.strong_reduce Gen.FieldElement28.strong_reduce
  er

instance {self : List ℕ} :
    Er (FieldElement28.to_bytes self) (Gen.FieldElement28.to_bytes self) := by
  unfold FieldElement28.to_bytes Gen.FieldElement28.to_bytes
  er

instance {self : List ℕ} :
    Er (FieldElement28.is_negative self) (Gen.FieldElement28.is_negative self) := by
  unfold FieldElement28.is_negative Gen.FieldElement28.is_negative
  er

instance {slice : List ℕ} :
    Er (FieldElement28.from_raw_slice slice) (some (Gen.FieldElement28.from_raw_slice slice)) := by
  unfold FieldElement28.from_raw_slice Gen.FieldElement28.from_raw_slice
  er

instance {bytes : List ℕ} :
    Er (FieldElement28.from_bytes bytes) (Gen.FieldElement28.from_bytes bytes) := by
  unfold FieldElement28.from_bytes Gen.FieldElement28.from_bytes
  er

instance {a : List ℕ} : Er (karatsuba.square.part1 a) (Gen.karatsuba.square.part1 a) := by
  unfold karatsuba.square.part1 Gen.karatsuba.square.part1
  er

instance {a c aa : List ℕ} {accum0 accum1 accum2 : ℕ} :
    Er (karatsuba.square.part2 a accum0 accum1 accum2 c aa) (Gen.karatsuba.square.part2 a accum0 accum1 accum2 c aa) := by
  unfold karatsuba.square.part2 Gen.karatsuba.square.part2
  er

instance {a c aa : List ℕ} {accum0 accum1 accum2 : ℕ} :
    Er (karatsuba.square.part3 a accum0 accum1 accum2 c aa) (Gen.karatsuba.square.part3 a accum0 accum1 accum2 c aa) := by
  unfold karatsuba.square.part3 Gen.karatsuba.square.part3
  er

instance {a c aa : List ℕ} {accum0 accum1 accum2 : ℕ} :
    Er (karatsuba.square.part4 a accum0 accum1 accum2 c aa) (Gen.karatsuba.square.part4 a accum0 accum1 accum2 c aa) := by
  unfold karatsuba.square.part4 Gen.karatsuba.square.part4
  er

instance {a : List ℕ} : Er (karatsuba.square a) (Gen.karatsuba.square a) := by
  unfold karatsuba.square Gen.karatsuba.square
  er

instance {self : List ℕ} : Er (FieldElement28.square self) (Gen.FieldElement28.square self) := by
  unfold FieldElement28.square Gen.FieldElement28.square
  er

instance {self : List ℕ} {a : ℕ} :
    Er (FieldElement56.index self a) (Gen.FieldElement56.index self a) := by
  unfold FieldElement56.index Gen.FieldElement56.index
  er

instance {self : List ℕ} {a v : ℕ} :
    Er (FieldElement56.index_mut self a v) (Gen.FieldElement56.index_mut self a v) := by
  unfold FieldElement56.index_mut Gen.FieldElement56.index_mut
  er

instance {fns : Model.Fiat.Fns} {self rhs : List ℕ} :
    Er (FieldElement56.op_mul fns self rhs) (Gen.FieldElement56.op_mul fns self rhs) := by
  unfold FieldElement56.op_mul Gen.FieldElement56.op_mul
  er

instance {fns : Model.Fiat.Fns} {self rhs : List ℕ} :
    Er (FieldElement56.op_mul2 fns self rhs) (Gen.FieldElement56.op_mul2 fns self rhs) := by
  unfold FieldElement56.op_mul2 Gen.FieldElement56.op_mul2
  er

instance {fns : Model.Fiat.Fns} {self rhs : List ℕ} :
    Er (FieldElement56.op_mul3 fns self rhs) (Gen.FieldElement56.op_mul3 fns self rhs) := by
  unfold FieldElement56.op_mul3 Gen.FieldElement56.op_mul3
  er

instance {fns : Model.Fiat.Fns} {self rhs : List ℕ} :
    Er (FieldElement56.op_add fns self rhs) (Gen.FieldElement56.op_add fns self rhs) := by
  unfold FieldElement56.op_add Gen.FieldElement56.op_add
  er

instance {fns : Model.Fiat.Fns} {self rhs : List ℕ} :
    Er (FieldElement56.op_sub fns self rhs) (Gen.FieldElement56.op_sub fns self rhs) := by
  unfold FieldElement56.op_sub Gen.FieldElement56.op_sub
  er

instance {fns : Model.Fiat.Fns} {self : List ℕ} :
    Er (FieldElement56.negate fns self) (Gen.FieldElement56.negate fns self) := by
  unfold FieldElement56.negate Gen.FieldElement56.negate
  er

instance {fns : Model.Fiat.Fns} {a b : List ℕ} {choice : Bool} :
    Er (FieldElement56.conditional_select fns a b choice) (Gen.FieldElement56.conditional_select fns a b choice) := by
  unfold FieldElement56.conditional_select Gen.FieldElement56.conditional_select
  er

instance {fns : Model.Fiat.Fns} {self : List ℕ} {choice : Bool} :
    Er (FieldElement56.conditional_negate fns self choice) (Gen.FieldElement56.conditional_negate fns self choice) := by
  unfold FieldElement56.conditional_negate Gen.FieldElement56.conditional_negate
  er

instance {fns : Model.Fiat.Fns} {self : List ℕ} :
    Er (FieldElement56.to_bytes fns self) (Gen.FieldElement56.to_bytes fns self) := by
  unfold FieldElement56.to_bytes Gen.FieldElement56.to_bytes
  er

instance {fns : Model.Fiat.Fns} {self : List ℕ} :
    Er (FieldElement56.is_negative fns self) (Gen.FieldElement56.is_negative fns self) := by
  unfold FieldElement56.is_negative Gen.FieldElement56.is_negative
  er

instance {slice : List ℕ} :
    Er (FieldElement56.from_raw_slice slice) (some (Gen.FieldElement56.from_raw_slice slice)) := by
  unfold FieldElement56.from_raw_slice Gen.FieldElement56.from_raw_slice
  er

instance {fns : Model.Fiat.Fns} {bytes : List ℕ} :
    Er (FieldElement56.from_bytes fns bytes) (Gen.FieldElement56.from_bytes fns bytes) := by
  unfold FieldElement56.from_bytes Gen.FieldElement56.from_bytes
  er

instance {fns : Model.Fiat.Fns} {self : List ℕ} :
    Er (FieldElement56.square fns self) (Gen.FieldElement56.square fns self) := by
  unfold FieldElement56.square Gen.FieldElement56.square
  er

instance {fns : Model.Fiat.Fns} {self : List ℕ} :
    Er (FieldElement56.strong_reduce fns self) (Gen.FieldElement56.strong_reduce fns self) := by
  unfold FieldElement56.strong_reduce Gen.FieldElement56.strong_reduce
  er

end Ed448.Leak
