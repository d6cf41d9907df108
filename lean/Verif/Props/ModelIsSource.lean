import Verif.Props.Release

/-!
# The model is the translated source (C96)

`Verif.Model` is written by hand, in a form that suits proofs, and most properties are stated on it. The
theorems here list the functions of the crate one by one: the mechanical translation of the Rust text and
the function of the model are equal on all inputs, panics included.
-/

namespace Ed448.Props
open Ed448.Model Ed448.Proofs FieldBackend

set_option exponentiation.threshold 1000
set_option maxRecDepth 10000
set_option linter.unusedVariables false

variable {F L : Type} [FieldBackend F L]

/-- src/field/scalar.rs: on every scalar, reduced or not, the translated function panics exactly when the function of the model
does and returns the same words. -/
theorem C96_scalar :
    (Gen.C.BASEPOINT_ORDER = EdPt.BASEPOINT_ORDER.l) ∧ (Gen.C.MODULUS = modulusLimbs) ∧
    (∀ (a b : Scalar) (carry : ℕ), Gen.scalar.sub_extra a.l b.l carry = (subExtra a b carry).map (·.l)) ∧
    (∀ (a b : Scalar), Gen.scalar.add a.l b.l = (Scalar.add a b).map (·.l)) ∧
    (∀ (a b : Scalar), Gen.Scalar.op_add a.l b.l = (Scalar.add a b).map (·.l)) ∧
    (∀ (a b : Scalar), Gen.Scalar.op_sub a.l b.l = (Scalar.sub a b).map (·.l)) ∧
    (∀ (x y : Scalar), Gen.scalar.montgomery_multiply x.l y.l = (montMul x y).map (·.l)) ∧
    (∀ (a b : Scalar), Gen.Scalar.op_mul a.l b.l = (Scalar.mul a b).map (·.l)) ∧
    (∀ (a : Scalar), Gen.Scalar.square a.l = (Scalar.square a).map (·.l)) ∧
    (Gen.Scalar.zero = Scalar.zero.l) ∧
    (Gen.Scalar.one = Scalar.one.l) ∧
    (Gen.Scalar.default = Scalar.zero.l) ∧
    (∀ (a : ℕ) (h : a < 2 ^ 32), Gen.Scalar.from a = (Scalar.ofU32 a h).l) ∧
    (Gen.C.R2 = R2.l) ∧
    (Gen.C.R = Rconst.l) ∧
    (∀ (s : Scalar), Gen.Scalar.to_bytes s.l = some s.toBytes.l) ∧
    (∀ (a b : Scalar), Gen.Scalar.ct_eq a.l b.l = some (Scalar.eq a b)) ∧
    (∀ (a b : Scalar), Gen.Scalar.eq a.l b.l = some (Scalar.eq a b)) ∧
    (∀ (b : Bytes 56), Gen.Scalar.from_bytes b.l = some (Scalar.fromBytes b).l) ∧
    (∀ (s : Scalar), Gen.Scalar.div_by_four s.l = (s.divByFour).map (·.l)) ∧
    (∀ (s : Scalar), Gen.Scalar.halve s.l = (s.halve).map (·.l)) ∧
    (∀ (s : Scalar), Gen.Scalar.bits s.l = some s.bits) ∧
    (∀ (s : Scalar), Gen.Scalar.to_radix_16 s.l = s.toRadix16) ∧
    (∀ (b : Bytes 57), Gen.Scalar.from_canonical_bytes b.l = (Scalar.fromCanonicalBytes b).map (Option.map (·.l))) ∧
    (∀ (s : Scalar), Gen.Scalar.to_bytes_rfc_8032 s.l = some s.toBytesRfc8032.l) ∧
    (∀ (b : Bytes 114), Gen.Scalar.from_bytes_mod_order_wide b.l = (Scalar.fromBytesModOrderWide b).map (·.l)) ∧
    (∀ (a : Scalar), Gen.Scalar.invert a.l = (a.invert).map (·.l)) ∧
    (∀ (a : Scalar) (i : ℕ), Gen.Scalar.index a.l i = a.index i) ∧
    (∀ (a : Scalar) (i v : ℕ) (hv : v < 2 ^ 32), Gen.Scalar.index_mut a.l i v = (a.indexMut i v).map (·.l)) := by
  exact ⟨rfl, Source.modulus_eq,
    fun a b carry => Source.sub_extra a b carry,
    fun a b => Source.scalar_add a b,
    fun a b => Source.op_add a b,
    fun a b => Source.op_sub a b,
    fun x y => Source.montgomery_multiply x y,
    fun a b => Source.op_mul a b,
    fun a => Source.scalar_square a,
    Source.scalar_zero,
    Source.scalar_one,
    Source.scalar_default,
    fun a h => Source.scalar_from a h,
    Source.const_R2,
    Source.const_R,
    fun s => Source.to_bytes s,
    fun a b => Source.scalar_ct_eq a b,
    fun a b => Source.scalar_eq a b,
    fun b => Source.from_bytes b,
    fun s => Source.div_by_four s,
    fun s => Source.halve s,
    fun s => Source.bits s,
    fun s => Source.to_radix_16 s,
    fun b => Source.from_canonical_bytes b,
    fun s => Source.to_bytes_rfc_8032 s,
    fun b => Source.from_bytes_mod_order_wide b,
    fun a => Source.invert a,
    fun a i => Source.scalar_index a i,
    fun a i v hv => Source.scalar_index_mut a i v hv⟩

/-- src/field/u32: on all limbs, also those for which a function panics or wraps. -/
theorem C96_field32 :
    (∀ (x y : U32.Raw), Gen.karatsuba.mul x.l y.l = (U32.mul x y).map (·.l)) ∧
    (∀ (x : U32.Raw), Gen.karatsuba.square x.l = (U32.square x).map (·.l)) ∧
    (∀ (a : U32.Raw), Gen.FieldElement28.weak_reduce a.l = (U32.weakReduce a).map (·.l)) ∧
    (∀ (a b : U32.Raw), Gen.FieldElement28.add_no_reduce a.l b.l = (U32.addNoReduce a b).map (·.l)) ∧
    (∀ (a b : U32.Raw), Gen.FieldElement28.op_add a.l b.l = (U32.add a b).map (·.l)) ∧
    (∀ (a : U32.Raw) (b : ℕ), Gen.FieldElement28.bias a.l b = (U32.bias a b).map (·.l)) ∧
    (∀ (a b : U32.Raw), some (Gen.FieldElement28.sub_no_reduce a.l b.l) = (U32.subNoReduce a b).map (·.l)) ∧
    (∀ (a b : U32.Raw), Gen.FieldElement28.op_sub a.l b.l = (U32.sub a b).map (·.l)) ∧
    (Gen.FieldElement28.zero = U32.zero.l) ∧
    (Gen.FieldElement28.default = U32.zero.l) ∧
    (Gen.FieldElement28.one = U32.one.l) ∧
    (Gen.FieldElement28.minus_one = U32.minusOne.l) ∧
    (∀ (a : U32.Raw), Gen.FieldElement28.negate a.l = (U32.negate a).map (·.l)) ∧
    (∀ (a b : U32.Raw) (c : Bool), Gen.FieldElement28.conditional_select a.l b.l c = (U32.select a b c).l) ∧
    (∀ (a : U32.Raw) (c : Bool), Gen.FieldElement28.conditional_negate a.l c =
      ((U32.negate a).map fun n => U32.select a n c).map (·.l)) ∧
    (∀ (a : U32.Raw), Gen.FieldElement28.strong_reduce a.l = (U32.strongReduce a).map (·.l)) ∧
    (∀ (x : U32.Raw), Gen.FieldElement28.to_bytes x.l = (U32.toBytes x).map (·.l)) ∧
    (∀ (x : U32.Raw), Gen.FieldElement28.is_negative x.l = (U32.toBytes x).map fun b => b.l.headD 0 &&& 1 == 1) ∧
    (∀ (b : Bytes 56), Gen.FieldElement28.from_bytes b.l = (U32.fromBytes b).map (·.l)) ∧
    (∀ (x : U32.Raw), Gen.FieldElement28.from_raw_slice x.l = x.l) ∧
    (∀ (x y : U32.Raw), Gen.FieldElement28.op_mul x.l y.l = (U32.mul x y).map (·.l)) ∧
    (∀ (x y : U32.Raw), Gen.FieldElement28.op_mul2 x.l y.l = (U32.mul x y).map (·.l)) ∧
    (∀ (x : U32.Raw), Gen.FieldElement28.square x.l = (U32.square x).map (·.l)) ∧
    (Gen.C.NEG_FOUR_TIMES_TWISTED_D = U32.NEG_FOUR_TIMES_TWISTED_D.l) ∧
    (Gen.C.EDWARDS_D = U32.EDWARDS_D.l) ∧
    (Gen.C.NEG_EDWARDS_D = U32.NEG_EDWARDS_D.l) ∧
    (Gen.C.TWISTED_D = U32.TWISTED_D.l) ∧
    (Gen.C.TWO_TIMES_TWISTED_D = U32.TWO_TIMES_TWISTED_D.l) ∧
    (Gen.C.DECAF_FACTOR = U32.DECAF_FACTOR.l) ∧
    (Gen.C.A_PLUS_TWO_OVER_FOUR = U32.A_PLUS_TWO_OVER_FOUR.l) ∧
    (∀ (a : U32.Raw) (i : ℕ), Gen.FieldElement28.index a.l i = a.l[i]?) ∧
    (∀ (a : U32.Raw) (i v : ℕ), Gen.FieldElement28.index_mut a.l i v = if i < 16 then some (a.l.set i v) else none) ∧
    (Gen.C.GOLDILOCKS_BASE_POINT = (U32.G_X.l, U32.G_Y.l, U32.G_Z.l, U32.G_T.l)) ∧
    (Gen.C.TWISTED_EDWARDS_BASE_POINT = (U32.TG_X.l, U32.TG_Y.l, U32.TG_Z.l, U32.TG_T.l)) := by
  exact ⟨fun x y => Source.karatsuba_mul x y,
    fun x => Source.karatsuba_square x,
    fun a => Source.weak_reduce a,
    fun a b => Source.add_no_reduce a b,
    fun a b => Source.fe_add a b,
    fun a b => Source.bias_eq a b,
    fun a b => Source.sub_no_reduce a b,
    fun a b => Source.fe_sub a b,
    Source.fe_zero,
    Source.fe_default,
    Source.fe_one,
    Source.fe_minus_one,
    fun a => Source.fe_negate a,
    fun a b c => Source.fe_select a b c,
    fun a c => Source.fe_condNegate a c,
    fun a => Source.strong_reduce a,
    fun x => Source.fe_to_bytes x,
    fun x => Source.fe_is_negative x,
    fun b => Source.fe_from_bytes b,
    fun x => Source.fe_from_raw_slice x,
    fun x y => Source.fe_mul x y,
    fun x y => Source.fe_mul2 x y,
    fun x => Source.fe_square x,
    Source.const_NEG_FOUR_TIMES_TWISTED_D,
    Source.const_EDWARDS_D,
    Source.const_NEG_EDWARDS_D,
    Source.const_TWISTED_D,
    Source.const_TWO_TIMES_TWISTED_D,
    Source.const_DECAF_FACTOR,
    Source.const_A_PLUS_TWO_OVER_FOUR,
    fun a i => Source.fe_index a i,
    fun a i v => Source.fe_index_mut a i v,
    Source.const_GOLDILOCKS_BASE_POINT,
    Source.const_TWISTED_EDWARDS_BASE_POINT⟩

/-- src/field/fiat_u64, around any functions `f` in place of those of fiat-crypto. -/
theorem C96_field64 (f : Fiat.Fns) :
    (Gen.FieldElement56.zero = Fiat.zero.l) ∧
    (Gen.FieldElement56.one = Fiat.one.l) ∧
    (Gen.FieldElement56.default = Fiat.zero.l) ∧
    (Gen.FieldElement56.minus_one = Fiat.minusOne.l) ∧
    (∀ (a : Fiat.Limbs), Gen.FieldElement56.from_raw_slice a.l = a.l) ∧
    (∀ (a b : Fiat.Limbs), Gen.FieldElement56.op_mul f a.l b.l = (Fiat.mul f a b).map (·.l)) ∧
    (∀ (a b : Fiat.Limbs), Gen.FieldElement56.op_mul2 f a.l b.l = (Fiat.mul f a b).map (·.l)) ∧
    (∀ (a b : Fiat.Limbs), Gen.FieldElement56.op_mul3 f a.l b.l = (Fiat.mul f a b).map (·.l)) ∧
    (∀ (a b : Fiat.Limbs), Gen.FieldElement56.op_add f a.l b.l = (Fiat.add f a b).map (·.l)) ∧
    (∀ (a b : Fiat.Limbs), Gen.FieldElement56.op_sub f a.l b.l = (Fiat.sub f a b).map (·.l)) ∧
    (∀ (a : Fiat.Limbs), Gen.FieldElement56.negate f a.l = (Fiat.negate f a).map (·.l)) ∧
    (∀ (a : Fiat.Limbs), Gen.FieldElement56.square f a.l = (Fiat.square f a).map (·.l)) ∧
    (∀ (a : Fiat.Limbs), Gen.FieldElement56.strong_reduce f a.l = (Fiat.strongReduce f a).map (·.l)) ∧
    (∀ (a b : Fiat.Limbs) (c : Bool), Gen.FieldElement56.conditional_select f a.l b.l c =
      (Fiat.select f a b c).map (·.l)) ∧
    (∀ (a : Fiat.Limbs) (c : Bool), Gen.FieldElement56.conditional_negate f a.l c =
      ((Fiat.negate f a).bind fun n => Fiat.select f a n c).map (·.l)) ∧
    (∀ (a : Fiat.Limbs), Gen.FieldElement56.to_bytes f a.l = (Fiat.toBytes f a).map (·.l)) ∧
    (∀ (b : Bytes 56), Gen.FieldElement56.from_bytes f b.l = (Fiat.fromBytes f b).map (·.l)) ∧
    (∀ (a : Fiat.Limbs), Gen.FieldElement56.is_negative f a.l =
      (Fiat.toBytes f a).map fun b => b.l.headD 0 &&& 1 == 1) ∧
    (∀ (a : Fiat.Limbs) (i : ℕ), Gen.FieldElement56.index a.l i = a.l[i]?) ∧
    (∀ (a : Fiat.Limbs) (i v : ℕ), Gen.FieldElement56.index_mut a.l i v =
      if i < 8 then some (a.l.set i v) else none) ∧
    (Gen.C.fiat_NEG_FOUR_TIMES_TWISTED_D = Fiat.NEG_FOUR_TIMES_TWISTED_D.l) ∧
    (Gen.C.fiat_EDWARDS_D = Fiat.EDWARDS_D.l) ∧
    (Gen.C.fiat_NEG_EDWARDS_D = Fiat.NEG_EDWARDS_D.l) ∧
    (Gen.C.fiat_TWISTED_D = Fiat.TWISTED_D.l) ∧
    (Gen.C.fiat_TWO_TIMES_TWISTED_D = Fiat.TWO_TIMES_TWISTED_D.l) ∧
    (Gen.C.fiat_DECAF_FACTOR = Fiat.DECAF_FACTOR.l) ∧
    (Gen.C.fiat_A_PLUS_TWO_OVER_FOUR = Fiat.A_PLUS_TWO_OVER_FOUR.l) ∧
    (Gen.C.fiat_GOLDILOCKS_BASE_POINT = (Fiat.G_X.l, Fiat.G_Y.l, Fiat.G_Z.l, Fiat.G_T.l)) ∧
    (Gen.C.fiat_TWISTED_EDWARDS_BASE_POINT = (Fiat.TG_X.l, Fiat.TG_Y.l, Fiat.TG_Z.l, Fiat.TG_T.l)) := by
  exact ⟨Source.fiat_zero,
    Source.fiat_one,
    Source.fiat_default,
    Source.fiat_minus_one,
    fun a => Source.fiat_from_raw_slice a,
    fun a b => Source.fiat_mul f a b,
    fun a b => Source.fiat_mul2 f a b,
    fun a b => Source.fiat_mul3 f a b,
    fun a b => Source.fiat_add f a b,
    fun a b => Source.fiat_sub f a b,
    fun a => Source.fiat_negate f a,
    fun a => Source.fiat_square f a,
    fun a => Source.fiat_strong_reduce f a,
    fun a b c => Source.fiat_select f a b c,
    fun a c => Source.fiat_cond_negate f a c,
    fun a => Source.fiat_to_bytes f a,
    fun b => Source.fiat_from_bytes f b,
    fun a => Source.fiat_is_negative f a,
    fun a i => Source.fiat_index a i,
    fun a i v => Source.fiat_index_mut a i v,
    Source.fiat_NEG_FOUR_TIMES_TWISTED_D,
    Source.fiat_EDWARDS_D,
    Source.fiat_NEG_EDWARDS_D,
    Source.fiat_TWISTED_D,
    Source.fiat_TWO_TIMES_TWISTED_D,
    Source.fiat_DECAF_FACTOR,
    Source.fiat_A_PLUS_TWO_OVER_FOUR,
    Source.fiat_GOLDILOCKS_BASE_POINT,
    Source.fiat_TWISTED_EDWARDS_BASE_POINT⟩

/-- src/field/mod.rs, for every field backend. -/
theorem C96_field :
    (∀ (a b : F), Gen.Field.ct_eq a b = feq a b) ∧
    (∀ (a b : F), Gen.Field.eq a b = feq a b) ∧
    (∀ (a : F), Gen.Field.is_zero a = isZero a) ∧
    (∀ (x : F) (n : ℕ) (h : 1 ≤ n), Gen.Field.square_n x n = some (squareN x n)) ∧
    (∀ (x : F), Gen.Field.square_n x 0 = none) ∧
    (∀ (x : F), Gen.Field.invert x = some (Model.invert x)) ∧
    (∀ (x : F), Gen.Field.inverse_square_root x = some (inverseSquareRoot x)) ∧
    (∀ (u v : F), Gen.Field.sqrt_ratio u v = some (sqrtRatio u v)) := by
  exact ⟨fun a b => Source.field_ct_eq a b,
    fun a b => Source.field_eq a b,
    fun a => Source.field_is_zero a,
    fun x n h => Source.square_n x h,
    fun x => Source.square_n_zero x,
    fun x => Source.field_invert x,
    fun x => Source.field_isr x,
    fun u v => Source.field_sqrt_ratio u v⟩

/-- src/curve/edwards, with every form of the operators. -/
theorem C96_edwards :
    ((Gen.EdAff.identity : EdAff F) = EdAff.identity) ∧
    (∀ (p : EdAff F), Gen.EdAff.to_extended p = p.toExtended) ∧
    (∀ (a b : EdPt F) (c : Bool), Gen.EdPt.conditional_select a b c = a.select b c) ∧
    (∀ (a b : EdPt F), Gen.EdPt.ct_eq a b = a.eq b) ∧
    (∀ (a b : EdPt F), Gen.EdPt.eq a b = a.eq b) ∧
    ((Gen.EdPt.identity : EdPt F) = EdPt.identity) ∧
    ((Gen.EdPt.default : EdPt F) = EdPt.default) ∧
    ((Gen.EdPt.generator : EdPt F) = EdPt.generator) ∧
    (∀ (a b : EdPt F), Gen.EdPt.add a b = a.add b) ∧
    (∀ (a : EdPt F), Gen.EdPt.double a = a.double) ∧
    (∀ (a : EdPt F), Gen.EdPt.is_on_curve a = a.isOnCurve) ∧
    (∀ (a : EdPt F), Gen.EdPt.negate a = a.negate) ∧
    (∀ (a : EdPt F), Gen.EdPt.torque a = a.torque) ∧
    (∀ (a b : EdPt F), Gen.EdPt.op_add a b = a.opAdd b) ∧
    (∀ (a b : EdPt F), Gen.EdPt.op_add_assign a b = a.addAssign b) ∧
    (∀ (a b : EdPt F), Gen.EdPt.op_sub a b = a.sub b) ∧
    (∀ (a b : EdPt F), Gen.EdPt.op_sub_assign a b = a.subAssign b) ∧
    (∀ (a b : EdPt F), Gen.EdPt.op_add2 a b = a.opAdd b) ∧
    (∀ (a b : EdPt F), Gen.EdPt.op_add3 a b = a.opAdd b) ∧
    (∀ (a b : EdPt F), Gen.EdPt.op_add4 a b = a.opAdd b) ∧
    (∀ (a b : EdPt F), Gen.EdPt.op_add_assign2 a b = a.addAssign b) ∧
    (∀ (a b : EdPt F), Gen.EdPt.op_sub2 a b = a.sub b) ∧
    (∀ (a b : EdPt F), Gen.EdPt.op_sub3 a b = a.sub b) ∧
    (∀ (a b : EdPt F), Gen.EdPt.op_sub4 a b = a.sub b) ∧
    (∀ (a b : EdPt F), Gen.EdPt.op_sub_assign2 a b = a.subAssign b) ∧
    (∀ (l : List (EdPt F)), Gen.EdPt.sum l = EdPt.sum l) ∧
    (∀ (a : EdPt F), Gen.EdPt.op_neg a = a.opNeg) ∧
    (∀ (a : EdPt F), Gen.EdPt.op_neg2 a = a.opNeg) ∧
    (∀ (a : EdPt F), Gen.EdPt.to_affine a = some a.toAffine) ∧
    (∀ (a : EdPt F), Gen.EdPt.to_montgomery a = some a.toMontgomery.l) ∧
    (∀ (p : EdPt F) (a : L), Gen.EdPt.edwards_isogeny p a = some (p.edwardsIsogeny a)) ∧
    (∀ (p : EdPt F), Gen.EdPt.to_twisted p = some p.toTwisted) ∧
    (∀ (p : EdPt F) (s : Scalar), Gen.EdPt.scalar_mod_four p s.l = some (p.scalarModFour s)) ∧
    (∀ (p : EdPt F) (s : Scalar), Gen.EdPt.scalar_mul p s.l = p.scalarMul s) ∧
    (∀ (p : EdPt F) (s : Scalar), Gen.EdPt.op_mul_Scalar p s.l = p.opMul s) ∧
    (∀ (p : EdPt F) (s : Scalar), Gen.EdPt.op_mul_assign_Scalar p s.l = p.mulAssign s) ∧
    (∀ (p : EdPt F) (s : Scalar), Gen.Scalar.op_mul_EdPt s.l p = s.mulEd p) ∧
    (∀ (p : EdPt F) (s : Scalar), Gen.EdPt.op_mul_Scalar2 p s.l = p.opMul s) ∧
    (∀ (p : EdPt F) (s : Scalar), Gen.EdPt.op_mul_Scalar3 p s.l = p.opMul s) ∧
    (∀ (p : EdPt F) (s : Scalar), Gen.EdPt.op_mul_Scalar4 p s.l = p.opMul s) ∧
    (∀ (p : EdPt F) (s : Scalar), Gen.EdPt.op_mul_assign_Scalar2 p s.l = p.mulAssign s) ∧
    (∀ (p : EdPt F) (s : Scalar), Gen.Scalar.op_mul_EdPt2 s.l p = s.mulEd p) ∧
    (∀ (p : EdPt F) (s : Scalar), Gen.Scalar.op_mul_EdPt3 s.l p = s.mulEd p) ∧
    (∀ (p : EdPt F) (s : Scalar), Gen.Scalar.op_mul_EdPt4 s.l p = s.mulEd p) ∧
    (∀ (p : EdPt F), Gen.EdPt.is_torsion_free p = p.isTorsionFree) ∧
    (∀ (p : EdPt F), Gen.EdPt.compress p = some p.compress.l) ∧
    (∀ (b : Bytes 57), Gen.CompressedEdwardsY.decompress b.l = some (edDecompress F b)) := by
  exact ⟨Source.EdAff_identity,
    fun p => Source.EdAff_to_extended p,
    fun a b c => Source.EdPt_conditional_select a b c,
    fun a b => Source.EdPt_ct_eq a b,
    fun a b => Source.EdPt_eq a b,
    Source.EdPt_identity,
    Source.EdPt_default,
    Source.EdPt_generator,
    fun a b => Source.EdPt_add a b,
    fun a => Source.EdPt_double a,
    fun a => Source.EdPt_is_on_curve a,
    fun a => Source.EdPt_negate a,
    fun a => Source.EdPt_torque a,
    fun a b => Source.EdPt_op_add a b,
    fun a b => Source.EdPt_op_add_assign a b,
    fun a b => Source.EdPt_op_sub a b,
    fun a b => Source.EdPt_op_sub_assign a b,
    fun a b => Source.EdPt_op_add2 a b,
    fun a b => Source.EdPt_op_add3 a b,
    fun a b => Source.EdPt_op_add4 a b,
    fun a b => Source.EdPt_op_add_assign2 a b,
    fun a b => Source.EdPt_op_sub2 a b,
    fun a b => Source.EdPt_op_sub3 a b,
    fun a b => Source.EdPt_op_sub4 a b,
    fun a b => Source.EdPt_op_sub_assign2 a b,
    fun l => Source.EdPt_sum l,
    fun a => Source.EdPt_op_neg a,
    fun a => Source.EdPt_op_neg2 a,
    fun a => Source.EdPt_to_affine a,
    fun a => Source.EdPt_to_montgomery a,
    fun p a => Source.EdPt_edwards_isogeny p a,
    fun p => Source.EdPt_to_twisted p,
    fun p s => Source.EdPt_scalar_mod_four p s,
    fun p s => Source.EdPt_scalar_mul p s,
    fun p s => Source.EdPt_op_mul p s,
    fun p s => Source.EdPt_op_mul_assign p s,
    fun p s => Source.Scalar_op_mul_EdPt p s,
    fun p s => Source.EdPt_op_mul2 p s,
    fun p s => Source.EdPt_op_mul3 p s,
    fun p s => Source.EdPt_op_mul4 p s,
    fun p s => Source.EdPt_op_mul_assign2 p s,
    fun p s => Source.Scalar_op_mul_EdPt2 p s,
    fun p s => Source.Scalar_op_mul_EdPt3 p s,
    fun p s => Source.Scalar_op_mul_EdPt4 p s,
    fun p => Source.EdPt_is_torsion_free p,
    fun p => Source.EdPt_compress p,
    fun b => Source.Ed_decompress b⟩

/-- src/curve/twedwards and src/curve/scalar_mul. -/
theorem C96_twisted :
    ((Gen.TwExt.identity : TwExt F) = TwExt.identity) ∧
    (∀ (a : TwExt F), Gen.TwExt.to_projective_niels a = a.toProjectiveNiels) ∧
    (∀ (a : TwExt F) (b : PNiels F), Gen.TwExt.add_projective_niels a b = a.addProjectiveNiels b) ∧
    (∀ (a : TwExt F), Gen.TwExt.double a = a.double) ∧
    (∀ (a : TwExt F), Gen.TwExt.to_extended a = a.toExtended) ∧
    (∀ (a b : TwExt F), Gen.TwExt.ct_eq a b = a.eq b) ∧
    (∀ (a b : TwExt F), Gen.TwExt.eq a b = a.eq b) ∧
    (∀ (a : TwExt F) (b : TwPt F), Gen.TwExt.add_extended a b = a.addExtended b) ∧
    (∀ (a b : TwExt F), Gen.TwExt.add_extensible a b = a.addExtensible b) ∧
    (∀ (a : TwExt F) (b : TwPt F), Gen.TwExt.sub_extended a b = a.subExtended b) ∧
    (∀ (a : TwExt F) (b : ANiels F), Gen.TwExt.add_affine_niels a b = a.addAffineNiels b) ∧
    ((Gen.PNiels.identity : PNiels F) = PNiels.identity) ∧
    ((Gen.PNiels.default : PNiels F) = PNiels.default) ∧
    (∀ (a b : PNiels F) (c : Bool), Gen.PNiels.conditional_select a b c = a.select b c) ∧
    (∀ (a : PNiels F) (c : Bool), Gen.PNiels.conditional_negate a c = a.condNegate c) ∧
    (∀ (a : PNiels F), Gen.PNiels.to_extended a = a.toExtended) ∧
    (∀ (a : TwPt F), Gen.TwPt.to_extensible a = a.toExtensible) ∧
    (∀ (a b : TwPt F), Gen.TwPt.ct_eq a b = a.eq b) ∧
    (∀ (a b : TwPt F), Gen.TwPt.eq a b = a.eq b) ∧
    (∀ (a b : TwPt F) (c : Bool), Gen.TwPt.conditional_select a b c = a.select b c) ∧
    ((Gen.TwPt.identity : TwPt F) = TwPt.identity) ∧
    ((Gen.TwPt.default : TwPt F) = TwPt.default) ∧
    ((Gen.TwPt.generator : TwPt F) = TwPt.generator) ∧
    (∀ (a : TwPt F), Gen.TwPt.double a = a.double) ∧
    (∀ (a b : TwPt F), Gen.TwPt.add a b = a.add b) ∧
    (∀ (a : TwPt F), Gen.TwPt.is_on_curve a = a.isOnCurve) ∧
    (∀ (a : TwPt F), Gen.TwPt.negate a = a.negate) ∧
    (∀ (a : TwPt F), Gen.TwPt.torque a = a.torque) ∧
    (∀ (a b : PNiels F), Gen.PNiels.eq a b = a.eq b) ∧
    (∀ (a : TwPt F), Gen.TwPt.to_affine a = some a.toAffine) ∧
    (∀ (p : TwPt F) (a : L), Gen.TwPt.edwards_isogeny p a = some (p.edwardsIsogeny a)) ∧
    (∀ (p : TwPt F), Gen.TwPt.to_untwisted p = some p.toUntwisted) ∧
    ((Gen.TwAff.identity : TwAff F) = TwAff.identity) ∧
    ((Gen.TwAff.default : TwAff F) = TwAff.default) ∧
    (∀ (a : TwAff F), Gen.TwAff.is_on_curve a = a.isOnCurve) ∧
    (∀ (a : TwAff F), Gen.TwAff.negate a = a.negate) ∧
    (∀ (a b : TwAff F), Gen.TwAff.add a b = some (a.add b)) ∧
    (∀ (a : TwAff F), Gen.TwAff.to_extensible a = a.toExtensible) ∧
    (∀ (a : TwAff F), Gen.TwAff.to_affine_niels a = a.toAffineNiels) ∧
    (∀ (a : TwAff F), Gen.TwAff.to_extended a = a.toExtended) ∧
    (∀ (a b : ANiels F) (c : Bool), Gen.ANiels.conditional_select a b c = a.select b c) ∧
    (∀ (a b : ANiels F), Gen.ANiels.equals a b = a.equals b) ∧
    ((Gen.ANiels.identity : ANiels F) = ANiels.identity) ∧
    (∀ (a : ANiels F), Gen.ANiels.to_extended a = a.toExtended) ∧
    (∀ (p : TwPt F), Gen.LookupTable.from p = some (lookupTable p)) ∧
    (∀ (t : List (PNiels F)) (ht : t.length = 8) (i : ℕ), Gen.LookupTable.select t i = some (tableSelect t i)) ∧
    (∀ (p : TwPt F) (s : Scalar), Gen.variable_base.variable_base p s.l = variableBase p s) ∧
    (∀ (p : TwPt F) (s : Scalar), Gen.double_and_add.double_and_add p s.l = some (doubleAndAdd p s)) ∧
    (∀ (a : Scalar) (A : TwPt F) (b : Scalar), Gen.double_base.double_base_scalar_mul a.l A b.l =
      some (doubleBaseScalarMul a A b)) := by
  exact ⟨Source.TwExt_identity,
    fun a => Source.TwExt_to_projective_niels a,
    fun a b => Source.TwExt_add_projective_niels a b,
    fun a => Source.TwExt_double a,
    fun a => Source.TwExt_to_extended a,
    fun a b => Source.TwExt_ct_eq a b,
    fun a b => Source.TwExt_eq a b,
    fun a b => Source.TwExt_add_extended a b,
    fun a b => Source.TwExt_add_extensible a b,
    fun a b => Source.TwExt_sub_extended a b,
    fun a b => Source.TwExt_add_affine_niels a b,
    Source.PNiels_identity,
    Source.PNiels_default,
    fun a b c => Source.PNiels_conditional_select a b c,
    fun a c => Source.PNiels_conditional_negate a c,
    fun a => Source.PNiels_to_extended a,
    fun a => Source.TwPt_to_extensible a,
    fun a b => Source.TwPt_ct_eq a b,
    fun a b => Source.TwPt_eq a b,
    fun a b c => Source.TwPt_conditional_select a b c,
    Source.TwPt_identity,
    Source.TwPt_default,
    Source.TwPt_generator,
    fun a => Source.TwPt_double a,
    fun a b => Source.TwPt_add a b,
    fun a => Source.TwPt_is_on_curve a,
    fun a => Source.TwPt_negate a,
    fun a => Source.TwPt_torque a,
    fun a b => Source.PNiels_eq a b,
    fun a => Source.TwPt_to_affine a,
    fun p a => Source.TwPt_edwards_isogeny p a,
    fun p => Source.TwPt_to_untwisted p,
    Source.TwAff_identity,
    Source.TwAff_default,
    fun a => Source.TwAff_is_on_curve a,
    fun a => Source.TwAff_negate a,
    fun a b => Source.TwAff_add a b,
    fun a => Source.TwAff_to_extensible a,
    fun a => Source.TwAff_to_affine_niels a,
    fun a => Source.TwAff_to_extended a,
    fun a b c => Source.ANiels_conditional_select a b c,
    fun a b => Source.ANiels_equals a b,
    Source.ANiels_identity,
    fun a => Source.ANiels_to_extended a,
    fun p => Source.LookupTable_from p,
    fun t ht i => Source.LookupTable_select t ht i,
    fun p s => Source.variable_base p s,
    fun p s => Source.double_and_add p s,
    fun a A b => Source.double_base_scalar_mul a A b⟩

/-- src/curve/montgomery. -/
theorem C96_montgomery :
    (Gen.C.LOW_A = LOW_A ∧ Gen.C.LOW_B = LOW_B ∧ Gen.C.LOW_C = LOW_C) ∧
    (∀ (a b : Bytes 56), Gen.MontgomeryPoint.ct_eq a.l b.l = montEq a b) ∧
    (∀ (a b : Bytes 56), Gen.MontgomeryPoint.eq a.l b.l = montEq a b) ∧
    ((Gen.ProjMont.identity : ProjMont F) = ProjMont.identity) ∧
    (∀ (a b : ProjMont F) (c : Bool), Gen.ProjMont.conditional_select a b c = a.select b c) ∧
    (∀ (P Q : ProjMont F) (u : F), Gen.montgomery.differential_add_and_double P Q u = diffAddDouble P Q u) ∧
    (∀ (p : ProjMont F), Gen.ProjMont.to_affine p = some p.toAffine.l) ∧
    (∀ (u : Bytes 56), Gen.MontgomeryPoint.to_projective u.l = some (montToProjective u : ProjMont F)) ∧
    (∀ (u : Bytes 56) (s : Scalar), Gen.MontgomeryPoint.op_mul_Scalar (F := F) u.l s.l =
      some (montMulScalar F u s).l) ∧
    (∀ (u : Bytes 56) (s : Scalar), Gen.Scalar.op_mul_MontgomeryPoint (F := F) s.l u.l = some (s.mulMont F u).l) ∧
    (∀ (u : Bytes 56) (sign : ℕ), (Gen.MontgomeryPoint.to_edwards u.l sign : Option (Option (EdPt F))) =
      none ∧ montToEdwards u sign = none) ∧
    (∀ (u : Bytes 56), Gen.MontgomeryPoint.is_low_order u.l = isLowOrder u) ∧
    (∀ (u : Bytes 56), Gen.MontgomeryPoint.as_bytes u.l = u.l) ∧
    (Gen.MontgomeryPoint.generator = montGenerator.l) := by
  exact ⟨⟨rfl, rfl, rfl⟩,
    fun a b => Source.Mont_ct_eq a b,
    fun a b => Source.Mont_eq a b,
    Source.ProjMont_identity,
    fun a b c => Source.ProjMont_conditional_select a b c,
    fun P Q u => Source.Mont_differential_add_and_double P Q u,
    fun p => Source.ProjMont_to_affine p,
    fun u => Source.Mont_to_projective u,
    fun u s => Source.Mont_mul u s,
    fun u s => Source.Scalar_mul_Mont u s,
    fun u sign => Source.Mont_to_edwards u sign,
    fun u => Source.Mont_is_low_order u,
    fun u => Source.Mont_as_bytes u,
    Source.Mont_generator⟩

/-- src/decaf and src/ristretto. -/
theorem C96_decaf :
    (∀ (b : Bytes 56), Gen.CompressedDecaf.as_bytes b.l = b.l) ∧
    (∀ (a b : Bytes 56), Gen.CompressedDecaf.ct_eq a.l b.l = compressedDecafEq a b) ∧
    (∀ (a b : Bytes 56), Gen.CompressedDecaf.eq a.l b.l = compressedDecafEq a b) ∧
    ((Gen.DecafPt.identity : DecafPt F) = DecafPt.identity) ∧
    ((Gen.DecafPt.generator : DecafPt F) = DecafPt.generator) ∧
    (∀ (a b : DecafPt F), Gen.DecafPt.equals a b = a.equals b) ∧
    (∀ (a b : DecafPt F), Gen.DecafPt.sub a b = a.sub b) ∧
    (∀ (a b : DecafPt F), Gen.DecafPt.op_add a b = a.add b) ∧
    (∀ (a b : DecafPt F), Gen.DecafPt.op_add2 a b = a.add b) ∧
    (∀ (a b : DecafPt F), Gen.DecafPt.op_sub a b = a.sub b) ∧
    (∀ (a b : DecafPt F), Gen.DecafPt.op_sub2 a b = a.sub b) ∧
    (∀ (a : DecafPt F), Gen.DecafPt.op_neg a = a.neg) ∧
    (∀ (a : DecafPt F), Gen.DecafPt.op_neg2 a = a.neg) ∧
    (∀ (a : DecafPt F) (s : Scalar), Gen.DecafPt.op_mul_Scalar a s.l = some (a.scalarMul s)) ∧
    (∀ (a : DecafPt F) (s : Scalar), Gen.DecafPt.op_mul_Scalar2 a s.l = some (a.scalarMul s)) ∧
    (∀ (a : DecafPt F) (s : Scalar), Gen.Scalar.op_mul_DecafPt s.l a = some (s.mulDecaf a)) ∧
    (∀ (a : DecafPt F) (s : Scalar), Gen.Scalar.op_mul_DecafPt2 s.l a = some (s.mulDecaf a)) ∧
    (∀ (a : DecafPt F), Gen.DecafPt.compress a = some a.compress.l) ∧
    (Gen.CompressedDecaf.identity = compressedDecafIdentity.l) ∧
    (∀ (b : Bytes 56), Gen.CompressedDecaf.decompress b.l = some (decafDecompress F b)) ∧
    (∀ (b : Bytes 56), Gen.CompressedRistretto.as_bytes b.l = b.l) ∧
    (∀ (a b : Bytes 56), Gen.CompressedRistretto.ct_eq a.l b.l = compressedRistEq a b) ∧
    (∀ (a b : Bytes 56), Gen.CompressedRistretto.eq a.l b.l = compressedRistEq a b) ∧
    ((Gen.RistPt.identity : RistPt F) = RistPt.identity) ∧
    (∀ (a b : RistPt F), Gen.RistPt.equals a b = a.equals b) ∧
    (∀ (a : RistPt F), Gen.RistPt.encode a = a.encode.map (·.l)) ∧
    (Gen.CompressedRistretto.identity = compressedRistIdentity.l) ∧
    (∀ (b : Bytes 56), Gen.CompressedRistretto.decode b.l = ristDecode F b) := by
  exact ⟨fun b => Source.Decaf_as_bytes b,
    fun a b => Source.CompressedDecaf_ct_eq a b,
    fun a b => Source.CompressedDecaf_eq a b,
    Source.Decaf_identity,
    Source.Decaf_generator,
    fun a b => Source.Decaf_equals a b,
    fun a b => Source.Decaf_sub a b,
    fun a b => Source.Decaf_op_add a b,
    fun a b => Source.Decaf_op_add2 a b,
    fun a b => Source.Decaf_op_sub a b,
    fun a b => Source.Decaf_op_sub2 a b,
    fun a => Source.Decaf_op_neg a,
    fun a => Source.Decaf_op_neg2 a,
    fun a s => Source.Decaf_op_mul a s,
    fun a s => Source.Decaf_op_mul2 a s,
    fun a s => Source.Scalar_op_mul_Decaf a s,
    fun a s => Source.Scalar_op_mul_Decaf2 a s,
    fun a => Source.Decaf_compress a,
    Source.CompressedDecaf_identity,
    fun b => Source.Decaf_decompress b,
    fun b => Source.Rist_as_bytes b,
    fun a b => Source.CompressedRist_ct_eq a b,
    fun a b => Source.CompressedRist_eq a b,
    Source.Rist_identity,
    fun a b => Source.Rist_equals a b,
    fun a => Source.Rist_encode a,
    Source.CompressedRist_identity,
    fun b => Source.Rist_decode b⟩

/-- Not all sides are panics: the translated functions return on these inputs, and the values are known. -/
example : Gen.Scalar.halve Scalar.one.l = (Scalar.one.halve).map (·.l) ∧ (Scalar.one.halve).isSome = true ∧
    Gen.Scalar.to_radix_16 (Scalar.ofU32 4095 (by norm_num)).l =
      some ([-1, 0, 0, 1] ++ List.replicate 109 0) := by decide +kernel

end Ed448.Props
