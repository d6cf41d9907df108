import Verif.Gen.FixTests
import Verif.Proofs.Fast
import Verif.Props.Tests
import Verif.Props.Repairs

/-!
# The tests of the crate pass on the repaired source (C77)

These are the tests that use a patched function; the others are those of `Verif.Props.Tests`.
-/

namespace Ed448.Props
open Ed448.Model Ed448.Proofs

set_option maxRecDepth 20000
set_option exponentiation.threshold 2000

/-- The tests of src/field/scalar.rs that use `+` or `-`, but `test_from_bytes_mod_order_wide`, whose
evaluation takes too much memory: see `C77_wide_test`. -/
theorem C77_scalar_tests :
    Gen.Fix.Test.field_scalar.test_basic_add = some () ∧
    Gen.Fix.Test.field_scalar.test_basic_sub = some () ∧
    Gen.Fix.Test.field_scalar.test_from_canonical_bytes = some () ∧
    Gen.Fix.Test.field_scalar.test_to_bytes_rfc8032 = some () := by
  refine ⟨?_, ?_, ?_, ?_⟩ <;> decide +kernel

/-- Wide reduction adds reduced scalars, so the repair of `+` does not change it. -/
theorem fix_wide_same (b : Bytes 114) : Gen.Fix.Scalar.from_bytes_mod_order_wide b.l =
    Gen.Scalar.from_bytes_mod_order_wide b.l := by
  obtain ⟨-, -, r, h1, h2⟩ := C77_scalars Scalar.zero Scalar.zero b
  obtain ⟨s, k1, k2, -⟩ := C08_wide_reduction b
  rw [h1, Source.from_bytes_mod_order_wide, k1, Option.map_some,
    Arr.val_inj (by norm_num) (h2.trans k2.symm)]

/-- A decoded text of 228 digits, backwards. -/
theorem fix_wide_hex {t : List (List ℕ)} {v : List ℕ} (h : Gen.Rt.hexDecode t = some v)
    (ht : (Gen.Rt.hexDecode t).all (fun v => v.length == 114 && v.all (· < 256)) = true) :
    Gen.Fix.Scalar.from_bytes_mod_order_wide v.reverse = Gen.Scalar.from_bytes_mod_order_wide v.reverse := by
  rw [h, Option.all_some, Bool.and_eq_true, beq_iff_eq, List.all_eq_true] at ht
  exact fix_wide_same ⟨v.reverse, by rw [List.length_reverse, ht.1], fun x hx =>
    of_decide_eq_true (ht.2 x (List.mem_reverse.1 hx))⟩

theorem bind_congr_some {α β : Type} {x : Option α} {f g : α → Option β} (h : ∀ v, x = some v → f v = g v) :
    x.bind f = x.bind g := by
  cases x with
  | none => rfl
  | some v => exact h v rfl

/-- `test_from_bytes_mod_order_wide`: every call of the repaired test returns what it returns in the original
one, which passes. -/
theorem C77_wide_test : Gen.Fix.Test.field_scalar.test_from_bytes_mod_order_wide = some () := by
  refine Eq.trans ?_ (show Gen.Test.field_scalar.test_from_bytes_mod_order_wide = some () from by
    have := C75_scalar_tests
    simp only [this])
  unfold Gen.Fix.Test.field_scalar.test_from_bytes_mod_order_wide
    Gen.Test.field_scalar.test_from_bytes_mod_order_wide
  refine bind_congr_some fun v1 h1 => ?_
  refine (congrArg (Option.bind · _) (fix_wide_hex h1 (by decide +kernel))).trans ?_
  refine bind_congr_some fun s1 _ => bind_congr_some fun e1 _ => bind_congr_some fun _ _ => ?_
  refine bind_congr_some fun v1 h1 => ?_
  refine (congrArg (Option.bind · _) (fix_wide_hex h1 (by decide +kernel))).trans ?_
  refine bind_congr_some fun s1 _ => ?_
  refine (congrArg (Option.bind · _) (C77_scalars_same Scalar.zero Scalar.one (by decide +kernel)
    (by decide +kernel)).2).trans ?_
  refine bind_congr_some fun m _ => bind_congr_some fun e1 _ => bind_congr_some fun _ _ => ?_
  refine bind_congr_some fun v1 h1 => ?_
  refine (congrArg (Option.bind · _) (fix_wide_hex h1 (by decide +kernel))).trans ?_
  refine bind_congr_some fun s1 _ => bind_congr_some fun e1 _ => bind_congr_some fun _ _ => ?_
  refine bind_congr_some fun v1 h1 => ?_
  refine (congrArg (Option.bind · _) (fix_wide_hex h1 (by decide +kernel))).trans ?_
  rfl
/-- The tests of src/curve/edwards/extended.rs that use `decompress`. -/
theorem C77_decompress_tests :
    Gen.Fix.Test.edwards_extended.test_compress_decompress (F := Fast) = some () ∧
    Gen.Fix.Test.edwards_extended.test_decompress_compress (F := Fast) = some () ∧
    Gen.Fix.Test.edwards_extended.test_just_decompress (F := Fast) = some () ∧
    Gen.Fix.Test.edwards_extended.test_is_torsion_free (F := Fast) = some () := by
  refine ⟨?_, ?_, ?_, ?_⟩ <;> decide +kernel

/-- The test of src/curve/montgomery/montgomery.rs. -/
theorem C77_ladder_test :
    Gen.Fix.Test.montgomery_montgomery.test_montgomery_edwards (F := Fast) = some () := by
  decide +kernel

end Ed448.Props
