import Verif.Proofs.RelRefCurve
import Verif.Props.Leakage
import Verif.Props.Exact

/-!
# Release builds (C76)

All other statements about `Ed448.Gen` treat arithmetic overflow as a panic, as a debug build does. In
a release build the same arithmetic wraps around and nothing is checked. `Ed448.Rel` is the third
mechanical translation of the Rust text, with wrapping arithmetic (`Verif.Gen.Release`). The statements
here say that the two builds return the same results, so every theorem about `Gen` holds for release
builds as well; and that outside the stated ranges they do differ.
-/

namespace Ed448.Props
open Ed448.Model Ed448.Edw Ed448.Proofs
open Rel (Ref)

set_option exponentiation.threshold 1000
set_option maxRecDepth 10000

/-- On all inputs in `S` the debug build `g` returns, and the release build `f` returns the same. -/
def SameBuild {ι α : Type} (S : ι → Prop) (g f : ι → Option α) : Prop :=
  ∀ x, S x → ∃ r, g x = some r ∧ f x = some r

theorem sameBuild {ι α : Type} {S : ι → Prop} {g f : ι → Option α} (h : ∀ x, Ref (g x) (f x))
    (ex : ∀ x, S x → ∃ r, g x = some r) : SameBuild S g f :=
  fun x hx => (ex x hx).imp fun r e => ⟨e, (h x).ref r e⟩

/-- Scalar arithmetic, on any 14 words, canonical or not. -/
theorem C76_release_scalar_arithmetic :
    SameBuild W14₂ (fun x => Gen.Scalar.op_add x.1 x.2) (fun x => Rel.Scalar.op_add x.1 x.2) ∧
    SameBuild W14₂ (fun x => Gen.Scalar.op_sub x.1 x.2) (fun x => Rel.Scalar.op_sub x.1 x.2) ∧
    SameBuild W14₂ (fun x => Gen.Scalar.op_mul x.1 x.2) (fun x => Rel.Scalar.op_mul x.1 x.2) ∧
    SameBuild W14₂ (fun x => Gen.Scalar.eq x.1 x.2) (fun x => Rel.Scalar.eq x.1 x.2) ∧
    SameBuild W14 Gen.Scalar.square Rel.Scalar.square ∧
    SameBuild W14 Gen.Scalar.invert Rel.Scalar.invert ∧
    SameBuild W14 Gen.Scalar.halve Rel.Scalar.halve ∧
    SameBuild W14 Gen.Scalar.div_by_four Rel.Scalar.div_by_four := by
  refine ⟨sameBuild (fun _ => inferInstance) ?_, sameBuild (fun _ => inferInstance) ?_,
    sameBuild (fun _ => inferInstance) ?_, sameBuild (fun _ => inferInstance) ?_,
    sameBuild (fun _ => inferInstance) ?_, sameBuild (fun _ => inferInstance) ?_,
    sameBuild (fun _ => inferInstance) ?_, sameBuild (fun _ => inferInstance) ?_⟩
  · rintro ⟨a, b⟩ ⟨ha, hb⟩
    obtain ⟨r, e, -⟩ := C70_add_iff ha.arr hb.arr
    exact ⟨r.l, (Source.op_add ha.arr hb.arr).trans (by rw [e]; rfl)⟩
  · rintro ⟨a, b⟩ ⟨ha, hb⟩
    obtain ⟨r, e, -⟩ := C70_sub_iff ha.arr hb.arr
    exact ⟨r.l, (Source.op_sub ha.arr hb.arr).trans (by rw [e]; rfl)⟩
  · rintro ⟨a, b⟩ ⟨ha, hb⟩
    obtain ⟨r, e, -⟩ := (C64_source_scalar_ring ha hb).1
    exact ⟨r, e⟩
  · rintro ⟨a, b⟩ ⟨ha, hb⟩
    exact ⟨_, Source.scalar_eq ha.arr hb.arr⟩
  · intro a ha
    obtain ⟨r, e, -⟩ := montMul_spec ha.arr ha.arr
    exact ⟨r.l, (Source.scalar_square ha.arr).trans (by rw [Scalar.square, e]; rfl)⟩
  · intro a ha
    obtain ⟨r, e, -⟩ := (C64_source_scalar_invert ha).1
    exact ⟨r, e⟩
  · intro a ha
    obtain ⟨r, e, -⟩ := (C64_source_scalar_invert ha).2
    exact ⟨r, e⟩
  · intro a ha
    obtain ⟨r, e, -⟩ := Scalar.divByFour_spec ha.arr
    exact ⟨r.l, (Source.div_by_four ha.arr).trans (by rw [e]; rfl)⟩

/-- Scalar encodings and recodings, on all byte strings of the right length. -/
theorem C76_release_scalar_codec :
    SameBuild W14 Gen.Scalar.to_bytes Rel.Scalar.to_bytes ∧
    SameBuild W14 Gen.Scalar.to_bytes_rfc_8032 Rel.Scalar.to_bytes_rfc_8032 ∧
    SameBuild (Words 56 256) Gen.Scalar.from_bytes Rel.Scalar.from_bytes ∧
    SameBuild (Words 114 256) Gen.Scalar.from_bytes_mod_order_wide
      Rel.Scalar.from_bytes_mod_order_wide ∧
    SameBuild (Words 57 256) Gen.Scalar.from_canonical_bytes Rel.Scalar.from_canonical_bytes ∧
    SameBuild W14 Gen.Scalar.bits Rel.Scalar.bits ∧
    SameBuild W14 Gen.Scalar.to_radix_16 Rel.Scalar.to_radix_16 := by
  refine ⟨sameBuild (fun _ => inferInstance) fun a ha => ⟨_, Source.to_bytes ha.arr⟩,
    sameBuild (fun _ => inferInstance) fun a ha => ⟨_, Source.to_bytes_rfc_8032 ha.arr⟩,
    sameBuild (fun _ => inferInstance) fun b hb => ⟨_, Source.from_bytes hb.arr⟩,
    sameBuild (fun _ => inferInstance) ?_, sameBuild (fun _ => inferInstance) ?_,
    sameBuild (fun _ => inferInstance) fun a ha => ⟨_, Source.bits ha.arr⟩,
    sameBuild (fun _ => inferInstance) ?_⟩
  · intro b hb
    obtain ⟨r, e, -⟩ := C64_source_scalar_codec.2.2.2 b hb
    exact ⟨r, e⟩
  · intro b hb
    rcases lt_or_ge (wval 256 b) ell with h | h
    · obtain ⟨r, e, -⟩ := (C64_source_scalar_codec.2.2.1 b hb).1 h
      exact ⟨_, e⟩
    · exact ⟨_, (C64_source_scalar_codec.2.2.1 b hb).2 h⟩
  · intro a ha
    obtain ⟨-, r, e, -⟩ := C64_source_scalar_digits ha
    exact ⟨r, e⟩

/-- The 32-bit field within the limb bound of C44, which all values that arise keep (C44, C66). -/
theorem C76_release_field_u32 :
    SameBuild Limbs28₂ (fun x => Gen.FieldElement28.op_add x.1 x.2)
      (fun x => Rel.FieldElement28.op_add x.1 x.2) ∧
    SameBuild Limbs28₂ (fun x => Gen.FieldElement28.op_sub x.1 x.2)
      (fun x => Rel.FieldElement28.op_sub x.1 x.2) ∧
    SameBuild Limbs28₂ (fun x => Gen.FieldElement28.op_mul x.1 x.2)
      (fun x => Rel.FieldElement28.op_mul x.1 x.2) ∧
    SameBuild Limbs28 Gen.FieldElement28.square Rel.FieldElement28.square ∧
    SameBuild Limbs28 Gen.FieldElement28.negate Rel.FieldElement28.negate ∧
    SameBuild Limbs28 Gen.FieldElement28.to_bytes Rel.FieldElement28.to_bytes ∧
    SameBuild (Words 56 256) Gen.FieldElement28.from_bytes Rel.FieldElement28.from_bytes ∧
    SameBuild (fun x : List ℕ × Bool => Limbs28 x.1)
      (fun x => Gen.FieldElement28.conditional_negate x.1 x.2)
      (fun x => Rel.FieldElement28.conditional_negate x.1 x.2) ∧
    (∀ x : U32.Fe, Rel.FieldElement28.strong_reduce x.1.l = some (FieldBackend.strongReduce x).1.l ∧
      Rel.FieldElement28.is_negative x.1.l = some (FieldBackend.isNegative x)) := by
  refine ⟨sameBuild (fun _ => inferInstance) ?_, sameBuild (fun _ => inferInstance) ?_,
    sameBuild (fun _ => inferInstance) ?_, sameBuild (fun _ => inferInstance) ?_,
    sameBuild (fun _ => inferInstance) ?_, sameBuild (fun _ => inferInstance) ?_,
    sameBuild (fun _ => inferInstance) ?_, sameBuild (fun _ => inferInstance) ?_, fun x =>
    ⟨(inferInstance : Ref (Gen.FieldElement28.strong_reduce _) _).ref _
        (C66_source_backend_u32.2.1 x).2.2.1,
      (inferInstance : Ref (Gen.FieldElement28.is_negative _) _).ref _
        (C66_source_backend_u32.2.1 x).2.2.2.2.1⟩⟩
  · rintro ⟨a, b⟩ ⟨ha, hb⟩
    obtain ⟨⟨r, e, -⟩, -⟩ := C65_source_field_arithmetic ha hb
    exact ⟨r, e⟩
  · rintro ⟨a, b⟩ ⟨ha, hb⟩
    obtain ⟨-, ⟨r, e, -⟩, -⟩ := C65_source_field_arithmetic ha hb
    exact ⟨r, e⟩
  · rintro ⟨a, b⟩ ⟨ha, hb⟩
    obtain ⟨-, -, ⟨r, e, -⟩, -⟩ := C65_source_field_arithmetic ha hb
    exact ⟨r, e⟩
  · intro a ha
    obtain ⟨-, -, -, ⟨r, e, -⟩, -⟩ := C65_source_field_arithmetic ha ha
    exact ⟨r, e⟩
  · intro a ha
    obtain ⟨-, -, -, -, r, e, -⟩ := C65_source_field_arithmetic ha ha
    exact ⟨r, e⟩
  · intro a ha
    obtain ⟨⟨r, e, -⟩, -⟩ := C65_source_field_codec ha (Arr.words (⟨List.replicate 56 0, rfl, by
      intro x hx; rw [List.eq_of_mem_replicate hx]; norm_num⟩ : Bytes 56))
    exact ⟨r, e⟩
  · intro b hb
    have hz : Limbs28 (List.replicate 16 0) := by unfold Limbs28; decide
    obtain ⟨-, r, e, -⟩ := C65_source_field_codec hz hb
    exact ⟨r, e⟩
  · rintro ⟨a, c⟩ ha
    obtain ⟨-, -, -, -, r, e, -⟩ := C65_source_field_arithmetic ha ha
    exact ⟨_, show Gen.FieldElement28.conditional_negate a c = _ by
      unfold Gen.FieldElement28.conditional_negate
      rw [e]
      rfl⟩

variable {F L : Type} [FieldBackend F L]

/-- Inversion and square roots of any field element. -/
theorem C76_release_field :
    SameBuild (fun _ : F => True) Gen.Field.invert Rel.Field.invert ∧
    SameBuild (fun _ : F => True) Gen.Field.inverse_square_root Rel.Field.inverse_square_root ∧
    SameBuild (fun _ : F × F => True) (fun x => Gen.Field.sqrt_ratio x.1 x.2)
      (fun x => Rel.Field.sqrt_ratio x.1 x.2) ∧
    SameBuild (fun x : F × ℕ => 1 ≤ x.2) (fun x => Gen.Field.square_n x.1 x.2)
      (fun x => Rel.Field.square_n x.1 x.2) :=
  ⟨sameBuild (fun _ => inferInstance) fun x _ => ⟨_, Source.field_invert x⟩,
    sameBuild (fun _ => inferInstance) fun x _ => ⟨_, Source.field_isr x⟩,
    sameBuild (fun _ => inferInstance) fun x _ => ⟨_, Source.field_sqrt_ratio x.1 x.2⟩,
    sameBuild (fun _ => inferInstance) fun x h => ⟨_, Source.square_n x.1 h⟩⟩

/-- Scalar multiplication in all three curve models and in Decaf: any coordinates, also those not on
the curve, and any 14 words. -/
theorem C76_release_scalar_mul :
    SameBuild (fun x : EdPt F × List ℕ => W14 x.2) (fun x => Gen.EdPt.op_mul_Scalar x.1 x.2)
      (fun x => Rel.EdPt.op_mul_Scalar x.1 x.2) ∧
    SameBuild (fun x : EdPt F × List ℕ => W14 x.2) (fun x => Gen.Scalar.op_mul_EdPt x.2 x.1)
      (fun x => Rel.Scalar.op_mul_EdPt x.2 x.1) ∧
    SameBuild (fun x : EdPt F × List ℕ => W14 x.2) (fun x => Gen.EdPt.op_mul_assign_Scalar x.1 x.2)
      (fun x => Rel.EdPt.op_mul_assign_Scalar x.1 x.2) ∧
    SameBuild (fun x : TwPt F × List ℕ => W14 x.2) (fun x => Gen.variable_base.variable_base x.1 x.2)
      (fun x => Rel.variable_base.variable_base x.1 x.2) ∧
    SameBuild (fun x : TwPt F × List ℕ => W14 x.2)
      (fun x => Gen.double_and_add.double_and_add x.1 x.2)
      (fun x => Rel.double_and_add.double_and_add x.1 x.2) ∧
    SameBuild (fun x : List ℕ × TwPt F × List ℕ => W14 x.1 ∧ W14 x.2.2)
      (fun x => Gen.double_base.double_base_scalar_mul x.1 x.2.1 x.2.2)
      (fun x => Rel.double_base.double_base_scalar_mul x.1 x.2.1 x.2.2) ∧
    SameBuild (fun x : List ℕ × List ℕ => Words 56 256 x.1 ∧ W14 x.2)
      (fun x => Gen.MontgomeryPoint.op_mul_Scalar (F := F) x.1 x.2)
      (fun x => Rel.MontgomeryPoint.op_mul_Scalar (F := F) x.1 x.2) ∧
    SameBuild (fun x : List ℕ × List ℕ => Words 56 256 x.1 ∧ W14 x.2)
      (fun x => Gen.Scalar.op_mul_MontgomeryPoint (F := F) x.2 x.1)
      (fun x => Rel.Scalar.op_mul_MontgomeryPoint (F := F) x.2 x.1) ∧
    SameBuild (fun x : DecafPt F × List ℕ => W14 x.2) (fun x => Gen.DecafPt.op_mul_Scalar x.1 x.2)
      (fun x => Rel.DecafPt.op_mul_Scalar x.1 x.2) ∧
    SameBuild (fun x : DecafPt F × List ℕ => W14 x.2) (fun x => Gen.Scalar.op_mul_DecafPt x.2 x.1)
      (fun x => Rel.Scalar.op_mul_DecafPt x.2 x.1) := by
  refine ⟨sameBuild (fun _ => inferInstance) fun x hx => op_mul_some x.1 hx,
    sameBuild (fun _ => inferInstance) fun x hx => ?_,
    sameBuild (fun _ => inferInstance) fun x hx => ?_,
    sameBuild (fun _ => inferInstance) fun x hx => ?_,
    sameBuild (fun _ => inferInstance) fun x hx => ⟨_, Source.double_and_add x.1 hx.arr⟩,
    sameBuild (fun _ => inferInstance) fun x hx =>
      ⟨_, Source.double_base_scalar_mul hx.1.arr x.2.1 hx.2.arr⟩,
    sameBuild (fun _ => inferInstance) fun x hx => ⟨_, Source.Mont_mul hx.1.arr hx.2.arr⟩,
    sameBuild (fun _ => inferInstance) fun x hx => ⟨_, Source.Scalar_mul_Mont hx.1.arr hx.2.arr⟩,
    sameBuild (fun _ => inferInstance) fun x hx => ⟨_, Source.Decaf_op_mul x.1 hx.arr⟩,
    sameBuild (fun _ => inferInstance) fun x hx => ⟨_, Source.Scalar_op_mul_Decaf x.1 hx.arr⟩⟩
  · obtain ⟨r, e⟩ := Leak.scalarMul_some x.1 hx.arr
    exact ⟨r, (Source.Scalar_op_mul_EdPt x.1 hx.arr).trans e⟩
  · obtain ⟨r, e⟩ := Leak.scalarMul_some x.1 hx.arr
    exact ⟨r, (Source.EdPt_op_mul_assign x.1 hx.arr).trans e⟩
  · obtain ⟨r, e⟩ := Leak.variableBase_some x.1 hx.arr
    exact ⟨r, (Source.variable_base x.1 hx.arr).trans e⟩

/-- The maps between the models, encoding, decoding, and the test for torsion. -/
theorem C76_release_points :
    SameBuild (fun _ : EdPt F => True) Gen.EdPt.to_affine Rel.EdPt.to_affine ∧
    SameBuild (fun _ : EdPt F => True) Gen.EdPt.to_twisted Rel.EdPt.to_twisted ∧
    SameBuild (fun _ : TwPt F => True) Gen.TwPt.to_affine Rel.TwPt.to_affine ∧
    SameBuild (fun _ : TwPt F => True) Gen.TwPt.to_untwisted Rel.TwPt.to_untwisted ∧
    SameBuild (fun _ : EdPt F => True) Gen.EdPt.to_montgomery Rel.EdPt.to_montgomery ∧
    SameBuild (fun _ : EdPt F => True) Gen.EdPt.is_torsion_free Rel.EdPt.is_torsion_free ∧
    SameBuild (fun _ : EdPt F => True) Gen.EdPt.compress Rel.EdPt.compress ∧
    SameBuild (fun _ : DecafPt F => True) Gen.DecafPt.compress Rel.DecafPt.compress ∧
    SameBuild (Words 57 256) (Gen.CompressedEdwardsY.decompress (F := F))
      Rel.CompressedEdwardsY.decompress ∧
    SameBuild (Words 56 256) (Gen.CompressedDecaf.decompress (F := F))
      Rel.CompressedDecaf.decompress :=
  ⟨sameBuild (fun _ => inferInstance) fun x _ => ⟨_, Source.EdPt_to_affine x⟩,
    sameBuild (fun _ => inferInstance) fun x _ => ⟨_, Source.EdPt_to_twisted x⟩,
    sameBuild (fun _ => inferInstance) fun x _ => ⟨_, Source.TwPt_to_affine x⟩,
    sameBuild (fun _ => inferInstance) fun x _ => ⟨_, Source.TwPt_to_untwisted x⟩,
    sameBuild (fun _ => inferInstance) fun x _ => ⟨_, Source.EdPt_to_montgomery x⟩,
    sameBuild (fun _ => inferInstance) fun x _ => torsion_free_some x,
    sameBuild (fun _ => inferInstance) fun x _ => ⟨_, Source.EdPt_compress x⟩,
    sameBuild (fun _ => inferInstance) fun x _ => ⟨_, Source.Decaf_compress x⟩,
    sameBuild (fun _ => inferInstance) fun _ hb => ⟨_, Source.Ed_decompress hb.arr⟩,
    sameBuild (fun _ => inferInstance) fun _ hb => ⟨_, Source.Decaf_decompress hb.arr⟩⟩

/-- Outside the limb bound the builds differ: a sum and a difference for which the debug build panics
and the release build returns a wrong field element. -/
theorem C76_release_differs :
    (∃ a b r, Words 16 (2 ^ 32) a ∧ Words 16 (2 ^ 32) b ∧ Gen.FieldElement28.op_add a b = none ∧
      Rel.FieldElement28.op_add a b = some r ∧
      (wval (2 ^ 28) r : Fp) ≠ wval (2 ^ 28) a + wval (2 ^ 28) b) ∧
    (∃ a b r, Words 16 (2 ^ 32) a ∧ Words 16 (2 ^ 32) b ∧ Gen.FieldElement28.op_sub a b = none ∧
      Rel.FieldElement28.op_sub a b = some r ∧
      (wval (2 ^ 28) r : Fp) ≠ wval (2 ^ 28) a - wval (2 ^ 28) b) := by
  have h : ∀ c, c < 2 ^ 32 → Words 16 (2 ^ 32) (List.replicate 16 c) := fun c hc =>
    ⟨List.length_replicate, fun x hx => by rw [List.eq_of_mem_replicate hx]; exact hc⟩
  refine ⟨⟨List.replicate 16 (2 ^ 31), List.replicate 16 (2 ^ 31), List.replicate 16 0,
      h _ (by norm_num), h _ (by norm_num), by decide +kernel, by decide +kernel, ?_⟩,
    ⟨List.replicate 16 0, List.replicate 16 (2 ^ 29),
      List.replicate 8 268435469 ++ [26, 268435454] ++ List.replicate 6 268435469,
      h _ (by norm_num), h _ (by norm_num), by decide +kernel, by decide +kernel, ?_⟩⟩
  · rw [← Nat.cast_add, Ne, ZMod.natCast_eq_natCast_iff, Nat.ModEq, p_lit]
    decide +kernel
  · rw [Ne, eq_sub_iff_add_eq, ← Nat.cast_add, ZMod.natCast_eq_natCast_iff, Nat.ModEq, p_lit]
    decide +kernel

/-- The largest scalar product and the largest field product within the bound, in a release build. -/
example : (∃ r, Rel.Scalar.op_mul allOnes.l allOnes.l = some r ∧
      wval (2 ^ 32) r = ((2 ^ 32) ^ 14 - 1) * ((2 ^ 32) ^ 14 - 1) % ell) ∧
    (∃ r, Rel.FieldElement28.op_mul (List.replicate 16 (2 ^ 28 + 2 ^ 8))
      (List.replicate 16 (2 ^ 28 + 2 ^ 8)) = some r ∧ Limbs28 r) := by
  constructor
  · obtain ⟨r, e, e'⟩ := C76_release_scalar_arithmetic.2.2.1 (allOnes.l, allOnes.l)
      ⟨Arr.words allOnes, Arr.words allOnes⟩
    obtain ⟨⟨r', e'', -, hv⟩, -⟩ := C64_source_scalar_ring (Arr.words allOnes) (Arr.words allOnes)
    obtain rfl := Option.some.inj (e.symm.trans e'')
    exact ⟨r, e', by rw [hv, show wval (2 ^ 32) allOnes.l = (2 ^ 32) ^ 14 - 1 from allOnes_val]⟩
  · have h : Limbs28 (List.replicate 16 (2 ^ 28 + 2 ^ 8)) := by unfold Limbs28; decide
    obtain ⟨r, e, e'⟩ := C76_release_field_u32.2.2.1 (_, _) ⟨h, h⟩
    obtain ⟨-, -, ⟨r', e'', hr, -⟩, -⟩ := C65_source_field_arithmetic h h
    obtain rfl := Option.some.inj (e.symm.trans e'')
    exact ⟨r, e', hr⟩

/-- Wrapping arithmetic does wrap. -/
example : Rel.wrU 32 (2 ^ 32 + 5) = some 5 ∧ Rel.wrI 64 (2 ^ 63) = some (-2 ^ 63) ∧
    Rel.wrSub 32 0 1 = some (2 ^ 32 - 1) ∧ Rel.shiftAmount 32 33 = some 1 := by decide +kernel

end Ed448.Props
