import Verif.Text.Parsed
import Verif.Gen.ParScalar
import Verif.Gen.ParU32
import Verif.Gen.RelScalar
import Verif.Gen.RelU32

/-!
# The parametric translation with the arithmetic of a release build

For `Ops.release` the definitions of `Ed448.Par` are those of `Ed448.Rel`.
-/

set_option linter.all false

namespace Ed448.Text

theorem Scalar_to_bytes_release : Par.Scalar.to_bytes Ops.release = Rel.Scalar.to_bytes := by krfl
theorem Scalar_ct_eq_release : Par.Scalar.ct_eq Ops.release = Rel.Scalar.ct_eq := by krfl
theorem Scalar_eq_release : Par.Scalar.eq Ops.release = Rel.Scalar.eq := by krfl
theorem scalar_sub_extra_release : Par.scalar.sub_extra Ops.release = Rel.scalar.sub_extra := by krfl
theorem scalar_add_release : Par.scalar.add Ops.release = Rel.scalar.add := by krfl
theorem Scalar_op_add_release : Par.Scalar.op_add Ops.release = Rel.Scalar.op_add := by krfl
theorem scalar_montgomery_multiply_release : Par.scalar.montgomery_multiply Ops.release = Rel.scalar.montgomery_multiply := by krfl
theorem Scalar_op_mul_release : Par.Scalar.op_mul Ops.release = Rel.Scalar.op_mul := by krfl
theorem Scalar_op_sub_release : Par.Scalar.op_sub Ops.release = Rel.Scalar.op_sub := by krfl
theorem Scalar_div_by_four_release : Par.Scalar.div_by_four Ops.release = Rel.Scalar.div_by_four := by krfl
theorem Scalar_to_radix_16_release : Par.Scalar.to_radix_16 Ops.release = Rel.Scalar.to_radix_16 := by krfl
theorem Scalar_bits_release : Par.Scalar.bits Ops.release = Rel.Scalar.bits := by krfl
theorem Scalar_from_bytes_release : Par.Scalar.from_bytes Ops.release = Rel.Scalar.from_bytes := by krfl
theorem Scalar_square_release : Par.Scalar.square Ops.release = Rel.Scalar.square := by krfl
theorem Scalar_invert_release : Par.Scalar.invert Ops.release = Rel.Scalar.invert := by krfl
theorem Scalar_halve_release : Par.Scalar.halve Ops.release = Rel.Scalar.halve := by krfl
theorem Scalar_from_canonical_bytes_release : Par.Scalar.from_canonical_bytes Ops.release = Rel.Scalar.from_canonical_bytes := by krfl
theorem Scalar_to_bytes_rfc_8032_release : Par.Scalar.to_bytes_rfc_8032 Ops.release = Rel.Scalar.to_bytes_rfc_8032 := by krfl
theorem Scalar_from_bytes_mod_order_wide_release : Par.Scalar.from_bytes_mod_order_wide Ops.release = Rel.Scalar.from_bytes_mod_order_wide := by krfl
theorem karatsuba_mul_part1_release : Par.karatsuba.mul.part1 Ops.release = Rel.karatsuba.mul.part1 := by krfl
theorem karatsuba_mul_part2_release : Par.karatsuba.mul.part2 Ops.release = Rel.karatsuba.mul.part2 := by krfl
theorem karatsuba_mul_part3_release : Par.karatsuba.mul.part3 Ops.release = Rel.karatsuba.mul.part3 := by krfl
theorem karatsuba_mul_part4_release : Par.karatsuba.mul.part4 Ops.release = Rel.karatsuba.mul.part4 := by krfl
theorem karatsuba_mul_part5_release : Par.karatsuba.mul.part5 Ops.release = Rel.karatsuba.mul.part5 := by krfl
theorem karatsuba_mul_part6_release : Par.karatsuba.mul.part6 Ops.release = Rel.karatsuba.mul.part6 := by krfl
theorem karatsuba_mul_part7_release : Par.karatsuba.mul.part7 Ops.release = Rel.karatsuba.mul.part7 := by krfl
theorem karatsuba_mul_part8_release : Par.karatsuba.mul.part8 Ops.release = Rel.karatsuba.mul.part8 := by krfl
theorem karatsuba_mul_part9_release : Par.karatsuba.mul.part9 Ops.release = Rel.karatsuba.mul.part9 := by krfl
theorem karatsuba_mul_release : Par.karatsuba.mul Ops.release = Rel.karatsuba.mul := by krfl
theorem FieldElement28_op_mul_release : Par.FieldElement28.op_mul Ops.release = Rel.FieldElement28.op_mul := by krfl
theorem FieldElement28_op_mul2_release : Par.FieldElement28.op_mul2 Ops.release = Rel.FieldElement28.op_mul2 := by krfl
theorem FieldElement28_add_no_reduce_release : Par.FieldElement28.add_no_reduce Ops.release = Rel.FieldElement28.add_no_reduce := by krfl
theorem FieldElement28_weak_reduce_release : Par.FieldElement28.weak_reduce Ops.release = Rel.FieldElement28.weak_reduce := by krfl
theorem FieldElement28_op_add_release : Par.FieldElement28.op_add Ops.release = Rel.FieldElement28.op_add := by krfl
theorem FieldElement28_bias_release : Par.FieldElement28.bias Ops.release = Rel.FieldElement28.bias := by krfl
theorem FieldElement28_sub_no_reduce_release : Par.FieldElement28.sub_no_reduce Ops.release = Gen.FieldElement28.sub_no_reduce := by krfl
theorem FieldElement28_op_sub_release : Par.FieldElement28.op_sub Ops.release = Rel.FieldElement28.op_sub := by krfl
theorem FieldElement28_negate_release : Par.FieldElement28.negate Ops.release = Rel.FieldElement28.negate := by krfl
theorem FieldElement28_conditional_negate_release : Par.FieldElement28.conditional_negate Ops.release = Rel.FieldElement28.conditional_negate := by krfl
theorem FieldElement28_strong_reduce_release : Par.FieldElement28.strong_reduce Ops.release = Rel.FieldElement28.strong_reduce := by krfl
theorem FieldElement28_to_bytes_release : Par.FieldElement28.to_bytes Ops.release = Rel.FieldElement28.to_bytes := by krfl
theorem FieldElement28_is_negative_release : Par.FieldElement28.is_negative Ops.release = Rel.FieldElement28.is_negative := by krfl
theorem FieldElement28_from_bytes_release : Par.FieldElement28.from_bytes Ops.release = Rel.FieldElement28.from_bytes := by krfl
theorem karatsuba_square_part1_release : Par.karatsuba.square.part1 Ops.release = Rel.karatsuba.square.part1 := by krfl
theorem karatsuba_square_part2_release : Par.karatsuba.square.part2 Ops.release = Rel.karatsuba.square.part2 := by krfl
theorem karatsuba_square_part3_release : Par.karatsuba.square.part3 Ops.release = Rel.karatsuba.square.part3 := by krfl
theorem karatsuba_square_part4_release : Par.karatsuba.square.part4 Ops.release = Rel.karatsuba.square.part4 := by krfl
theorem karatsuba_square_release : Par.karatsuba.square Ops.release = Rel.karatsuba.square := by krfl
theorem FieldElement28_square_release : Par.FieldElement28.square Ops.release = Rel.FieldElement28.square := by krfl

end Ed448.Text
