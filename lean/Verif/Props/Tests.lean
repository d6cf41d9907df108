import Verif.Gen.Tests
import Verif.Proofs.Fast
import Verif.Proofs.SourceScalar
import Verif.Proofs.SourceFiat
import Verif.Proofs.FiatInstance
import Verif.Props.Scalar
import Verif.Props.Vectors

/-!
# The tests of the crate pass on the translated source (C75)

`Verif.Gen.Tests` is the mechanical translation of all forty `#[test]` functions of /repo/src. Each of
them runs to the end: no assertion fails and nothing panics. This checks the translator and
`Verif.Gen.Rt` against the expectations of the authors of the crate. The curve tests run on the exact
field `Fast`; `C57` has the same computations of the model on every lawful backend.
-/

namespace Ed448.Props
open Ed448.Model Ed448.Proofs

set_option maxRecDepth 20000
set_option exponentiation.threshold 2000

/-- The tests of /repo/src/field/scalar.rs:436-615, but `test_basic_inversion`. -/
theorem C75_scalar_tests :
    Gen.Test.field_scalar.test_basic_add = some () ∧
    Gen.Test.field_scalar.test_basic_sub = some () ∧
    Gen.Test.field_scalar.test_basic_mul = some () ∧
    Gen.Test.field_scalar.test_mul = some () ∧
    Gen.Test.field_scalar.test_basic_square = some () ∧
    Gen.Test.field_scalar.test_sanity_check_index_mut = some () ∧
    Gen.Test.field_scalar.test_basic_halving = some () ∧
    Gen.Test.field_scalar.test_equals = some () ∧
    Gen.Test.field_scalar.test_serialise = some () ∧
    Gen.Test.field_scalar.test_debug = some () ∧
    Gen.Test.field_scalar.test_from_canonical_bytes = some () ∧
    Gen.Test.field_scalar.test_from_bytes_mod_order_wide = some () ∧
    Gen.Test.field_scalar.test_to_bytes_rfc8032 = some () := by
  refine ⟨?_, ?_, ?_, ?_, ?_, ?_, ?_, ?_, ?_, ?_, ?_, ?_, ?_⟩ <;> decide +kernel

theorem tests_bind {α β : Type} {x : Option α} {v : α} (h : x = some v) (f : α → Option β) :
    x.bind f = f v := by
  rw [h, Option.bind_some]

/-- One round of `test_basic_inversion`. -/
theorem inversion_round (i : ℕ) (hi : 1 ≤ i ∧ i ≤ 100) :
    ((Gen.Scalar.invert (Gen.Scalar.from i)).bind fun x_inv =>
      (Gen.Scalar.op_mul x_inv (Gen.Scalar.from i)).bind fun m =>
      (Gen.Scalar.eq m Gen.Scalar.one).bind fun b =>
      (Gen.Rt.require b).bind fun _ => some ()) = some () := by
  have hb : i < 2 ^ 32 := by omega
  have h3 := C57_scalar_inversion_test.1 i hi
  rw [Source.scalar_from i hb, Source.invert]
  cases hv : (Scalar.ofU32 i hb).invert with
  | none => rw [hv] at h3; cases h3
  | some x =>
    rw [hv] at h3
    replace h3 : x.mul (Scalar.ofU32 i hb) = some Scalar.one := h3
    rw [Option.map_some, Option.bind_some, Source.op_mul, h3, Option.map_some, Option.bind_some,
      show Gen.Scalar.one = Scalar.one.l from rfl, Source.scalar_eq,
      show Scalar.eq Scalar.one Scalar.one = true by decide +kernel]
    rfl

/-- `test_basic_inversion`. /repo/src/field/scalar.rs:521-534 -/
theorem C75_scalar_inversion_test : Gen.Test.field_scalar.test_basic_inversion = some () := by
  unfold Gen.Test.field_scalar.test_basic_inversion
  generalize hl : Gen.Rt.rangeIncl 1 100 = l
  have hm : ∀ i ∈ l, 1 ≤ i ∧ i ≤ 100 := by
    intro i hi
    subst hl
    simp only [Gen.Rt.rangeIncl, List.mem_range'_1] at hi
    omega
  clear hl
  have h2 := C57_scalar_inversion_test.2
  refine (tests_bind (v := ()) ?_ _).trans ?_
  · induction l with
    | nil => rfl
    | cons i l ih =>
      rw [List.foldlM_cons]
      refine (tests_bind (inversion_round i (hm i (List.mem_cons_self ..))) _).trans ?_
      exact ih fun j hj => hm j (List.mem_cons_of_mem _ hj)
  · have e : Gen.Scalar.invert Gen.Scalar.zero = some Scalar.zero.l := by
      rw [show Gen.Scalar.zero = Scalar.zero.l from rfl, Source.invert, h2]; rfl
    refine (tests_bind e _).trans ?_
    refine (tests_bind (v := true) ?_ _).trans rfl
    rw [show Gen.Scalar.zero = Scalar.zero.l from rfl, Source.scalar_eq]
    decide +kernel

/-- The tests of the 32-bit field backend. /repo/src/field/u32/karatsuba.rs:396-455 -/
theorem C75_u32_tests :
    Gen.Test.field_u32_karatsuba.test_basic_mul = some () ∧
    Gen.Test.field_u32_karatsuba.test_mul = some () ∧
    Gen.Test.field_u32_karatsuba.test_naive_square = some () ∧
    Gen.Test.field_u32_karatsuba.test_karatsuba_square = some () := by
  refine ⟨?_, ?_, ?_, ?_⟩ <;> decide +kernel

/-- The test of the 64-bit field backend, for all external functions that keep the documented
contract. /repo/src/field/fiat_u64/prime_field.rs:203-208 -/
theorem C75_fiat_test (f : Fiat.Fns) (hc : Fiat.Contract f) :
    Gen.Test.field_fiat_u64_prime_field.test_negate f = some () := by
  obtain ⟨r, h1, h2, h3⟩ := Fiat.negate_spec hc (a := Fiat.zero) (by decide)
  obtain ⟨b, k1, k2⟩ := hc.toBytes r h2
  have hv : Fiat.V r % p = 0 := by
    have : ((Fiat.V r : ℕ) : Fp) = 0 := by rw [h3]; simp [show Fiat.V Fiat.zero = 0 by decide]
    exact Nat.mod_eq_zero_of_dvd ((ZMod.natCast_eq_zero_iff _ _).mp this)
  have hb : b = hexRev 56 0 := Arr.val_inj (by norm_num) (by rw [k2, hv]; decide +kernel)
  show (Gen.FieldElement56.negate f Fiat.zero.l).bind _ = _
  rw [Source.fiat_negate, h1]
  show (Gen.FieldElement56.to_bytes f r.l).bind _ = _
  rw [Source.fiat_to_bytes]
  show ((f.toBytes r).map _).bind _ = _
  rw [k1, hb]
  decide +kernel

/-- The tests of /repo/src/curve/edwards/extended.rs:414-517. -/
theorem C75_edwards_tests :
    Gen.Test.edwards_extended.test_isogeny (F := Fast) = some () ∧
    Gen.Test.edwards_extended.derive_base_points (F := Fast) = some () ∧
    Gen.Test.edwards_extended.test_is_on_curve (F := Fast) = some () ∧
    Gen.Test.edwards_extended.test_compress_decompress (F := Fast) = some () ∧
    Gen.Test.edwards_extended.test_decompress_compress (F := Fast) = some () ∧
    Gen.Test.edwards_extended.test_just_decompress (F := Fast) = some () ∧
    Gen.Test.edwards_extended.test_is_torsion_free (F := Fast) = some () := by
  refine ⟨?_, ?_, ?_, ?_, ?_, ?_, ?_⟩ <;> decide +kernel

/-- The tests of /repo/src/curve/twedwards. -/
theorem C75_twisted_tests :
    Gen.Test.twedwards_extended.test_isogeny (F := Fast) = some () ∧
    Gen.Test.twedwards_extended.test_is_on_curve (F := Fast) = some () ∧
    Gen.Test.twedwards_extended.test_point_add (F := Fast) = some () ∧
    Gen.Test.twedwards_extended.test_point_sub (F := Fast) = some () ∧
    Gen.Test.twedwards_extended.test_negate (F := Fast) = some () ∧
    Gen.Test.twedwards_projective.test_conditional_negate (F := Fast) = some () ∧
    Gen.Test.twedwards_affine.test_negation (F := Fast) = some () := by
  refine ⟨?_, ?_, ?_, ?_, ?_, ?_, ?_⟩ <;> decide +kernel

/-- The tests of /repo/src/curve/scalar_mul and /repo/src/curve/montgomery. -/
theorem C75_scalar_mul_tests :
    Gen.Test.wnaf.test_lookup (F := Fast) = some () ∧
    Gen.Test.variable_base.test_scalar_mul (F := Fast) = some () ∧
    Gen.Test.variable_base.test_simple_scalar_mul_identities (F := Fast) = some () ∧
    Gen.Test.montgomery_montgomery.test_montgomery_edwards (F := Fast) = some () := by
  refine ⟨?_, ?_, ?_, ?_⟩ <;> decide +kernel

/-- The tests of /repo/src/decaf/decaf.rs:131-296. -/
theorem C75_decaf_tests :
    Gen.Test.decaf_decaf.test_edwards_ristretto_operations (F := Fast) = some () ∧
    Gen.Test.decaf_decaf.test_identity (F := Fast) = some () ∧
    Gen.Test.decaf_decaf.test_vectors_lib_decaf (F := Fast) = some () := by
  refine ⟨?_, ?_, ?_⟩ <;> decide +kernel

/-- A failed assertion is seen: the program of `test_basic_add` with another expected value. -/
example : ((Gen.Scalar.op_add (Gen.Scalar.from 5) (Gen.Scalar.from 6)).bind fun x =>
    (Gen.Scalar.eq x (Gen.Scalar.from 12)).bind fun b => Gen.Rt.require b) = none := by
  decide +kernel

end Ed448.Props
