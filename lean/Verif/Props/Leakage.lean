import Verif.Proofs.LeakBackend

/-!
# Constant-time behaviour of the source (C68, C69)

`Ed448.Leak` is the second mechanical translation of the Rust text: every function returns, besides
its result, the list of what an observer of branches, loop counts, computed addresses, variable shift
amounts and array comparisons sees (`Verif.Gen.Leak`). The statements here say that this list is one
fixed list for all inputs. What the compiler and the processor make of the source is not covered.
-/

namespace Ed448.Props
open Ed448.Model Ed448.Edw Ed448.Proofs
open Leak (Lk Ev Er CT CTT CTP LeakBackend CTBackend)

set_option exponentiation.threshold 1000
set_option maxRecDepth 10000

/-- On all inputs in `S` the function returns, with the result of the translation `g` without leakage,
and an observer of `f` sees the same events. -/
def SameTrace {ι α : Type} (S : ι → Prop) (g : ι → Option α) (f : ι → Lk α) : Prop :=
  ∃ T : List Ev, ∀ x, S x → ∃ r, g x = some r ∧ f x = some (r, T)

theorem er_some {α : Type} {m : Lk α} {o : Option α} {r : α} (h : Er m o) (e : o = some r) :
    ∃ t, m = some (r, t) := by
  obtain ⟨⟨a, t⟩, rfl, k⟩ := Option.map_eq_some_iff.mp (h.er.trans e)
  exact ⟨t, by rw [← k]⟩

theorem lift_bind_tr {α β : Type} {o : Option α} {f : α → Lk β} (h : ∀ a, (f a).tr = []) :
    ((Lk.lift o).bind f).tr = [] := by
  rcases o with _ | a
  · rfl
  · have := h a
    rcases e : f a with _ | ⟨b, t⟩
    · simp [Lk.bind, Lk.lift, Lk.tr, e]
    · rw [e] at this
      simpa [Lk.bind, Lk.lift, Lk.tr, e] using this

theorem bind_tr {α β : Type} {m : Lk α} {f : α → Lk β} {o : Option β} {r : β}
    (h : ∀ a, (f a).tr = []) (e : (m.bind f).val = o) (k : o = some r) : (m.bind f).tr = m.tr := by
  rcases m with _ | ⟨a, t⟩
  · rfl
  · have := h a
    rcases e' : f a with _ | ⟨b, u⟩
    · rw [k] at e
      simp [Lk.bind, Lk.val, e'] at e
    · rw [e'] at this
      simp only [Lk.tr, Option.map_some, Option.getD_some] at this
      simp [Lk.bind, Lk.tr, e', this]

theorem sameTrace {ι α : Type} {S : ι → Prop} {g : ι → Option α} {f : ι → Lk α} {P : α → Prop}
    (ct : ∀ x y, S x → S y → CTP P P (f x) (f y)) (er : ∀ x, Er (f x) (g x))
    (ex : ∀ x, S x → ∃ r, g x = some r ∧ P r) : SameTrace S g f := by
  by_cases h : ∃ x, S x
  · obtain ⟨y, hy⟩ := h
    obtain ⟨b, eb, pb⟩ := ex y hy
    obtain ⟨u, hu⟩ := er_some (er y) eb
    refine ⟨u, fun x hx => ?_⟩
    obtain ⟨a, ea, pa⟩ := ex x hx
    obtain ⟨t, ht⟩ := er_some (er x) ea
    exact ⟨a, ea, by rw [ht, ct x y hx hy _ _ _ _ ht hu pa pb]⟩
  · exact ⟨[], fun x hx => absurd ⟨x, hx⟩ h⟩

theorem sameTrace_of {ι α : Type} {S : ι → Prop} {g : ι → Option α} {f : ι → Lk α}
    (ct : ∀ x y, S x → S y → CT (fun _ _ => True) (f x) (f y)) (er : ∀ x, Er (f x) (g x))
    (ex : ∀ x, S x → ∃ r, g x = some r) : SameTrace S g f :=
  sameTrace (P := fun _ => True) (fun x y hx hy _ _ _ _ h k _ _ => (ct x y hx hy _ _ _ _ h k).1) er
    fun x hx => (ex x hx).imp fun _ h => ⟨h, trivial⟩

theorem sameTrace_inst {ι α : Type} {S : ι → Prop} {g : ι → Option α} {f : ι → Lk α}
    (ct : ∀ x y, CTT (f x) (f y)) (er : ∀ x, Er (f x) (g x))
    (ex : ∀ x, S x → ∃ r, g x = some r) : SameTrace S g f :=
  sameTrace_of (fun x y _ _ => (ct x y).ct) er ex

/-! ## C68: scalars and fields -/

/-- Arrays of 14 words. -/
abbrev W14 : List ℕ → Prop := Words 14 (2 ^ 32)

/-- Pairs of arrays of 14 words. -/
abbrev W14₂ (x : List ℕ × List ℕ) : Prop := W14 x.1 ∧ W14 x.2

/-- Scalar arithmetic: the observer learns nothing about the operands, reduced or not. -/
theorem C68_scalar_arithmetic :
    SameTrace W14₂ (fun x => Gen.Scalar.op_add x.1 x.2) (fun x => Leak.Scalar.op_add x.1 x.2) ∧
    SameTrace W14₂ (fun x => Gen.Scalar.op_sub x.1 x.2) (fun x => Leak.Scalar.op_sub x.1 x.2) ∧
    SameTrace W14₂ (fun x => Gen.Scalar.op_mul x.1 x.2) (fun x => Leak.Scalar.op_mul x.1 x.2) ∧
    SameTrace W14₂ (fun x => Gen.Scalar.eq x.1 x.2) (fun x => Leak.Scalar.eq x.1 x.2) ∧
    SameTrace W14 Gen.Scalar.square Leak.Scalar.square ∧
    SameTrace W14 Gen.Scalar.invert Leak.Scalar.invert ∧
    SameTrace W14 Gen.Scalar.halve Leak.Scalar.halve ∧
    SameTrace W14 Gen.Scalar.div_by_four Leak.Scalar.div_by_four := by
  refine ⟨sameTrace_inst (fun _ _ => inferInstance) (fun _ => inferInstance) ?_,
    sameTrace_inst (fun _ _ => inferInstance) (fun _ => inferInstance) ?_,
    sameTrace_inst (fun _ _ => inferInstance) (fun _ => inferInstance) ?_,
    sameTrace_inst (fun _ _ => inferInstance) (fun _ => inferInstance) ?_,
    sameTrace_inst (fun _ _ => inferInstance) (fun _ => inferInstance) ?_,
    sameTrace_inst (fun _ _ => inferInstance) (fun _ => inferInstance) ?_,
    sameTrace_inst (fun _ _ => inferInstance) (fun _ => inferInstance) ?_,
    sameTrace_inst (fun _ _ => inferInstance) (fun _ => inferInstance) ?_⟩
  · rintro ⟨a, b⟩ ⟨ha, hb⟩
    obtain ⟨r, e, -⟩ := (C11_unreduced_partial ha.arr hb.arr).1
    exact ⟨r.l, (Source.op_add ha.arr hb.arr).trans (by rw [e]; rfl)⟩
  · rintro ⟨a, b⟩ ⟨ha, hb⟩
    obtain ⟨r, e, -⟩ := (C11_unreduced_partial ha.arr hb.arr).2
    exact ⟨r.l, (Source.op_sub ha.arr hb.arr).trans (by rw [e]; rfl)⟩
  · rintro ⟨a, b⟩ ⟨ha, hb⟩
    obtain ⟨r, e, -⟩ := (C64_source_scalar_ring ha hb).1
    exact ⟨r, e⟩
  · rintro ⟨a, b⟩ ⟨ha, hb⟩
    exact ⟨_, Source.scalar_eq ha.arr hb.arr⟩
  · intro a ha
    obtain ⟨r, e, -⟩ := montMul_spec ha.arr ha.arr
    exact ⟨r.l, (Source.scalar_square ha.arr).trans (by rw [Scalar.square, e]; rfl)⟩
  · intro a ha
    obtain ⟨r, e, -⟩ := (C64_source_scalar_invert ha).1
    exact ⟨r, e⟩
  · intro a ha
    obtain ⟨r, e, -⟩ := (C64_source_scalar_invert ha).2
    exact ⟨r, e⟩
  · intro a ha
    obtain ⟨r, e, -⟩ := Scalar.divByFour_spec ha.arr
    exact ⟨r.l, (Source.div_by_four ha.arr).trans (by rw [e]; rfl)⟩

/-- Scalar encodings and recodings. Of `from_canonical_bytes` the observer learns at most that the
encoding was accepted. -/
theorem C68_scalar_codec :
    SameTrace W14 Gen.Scalar.to_bytes Leak.Scalar.to_bytes ∧
    SameTrace W14 Gen.Scalar.to_bytes_rfc_8032 Leak.Scalar.to_bytes_rfc_8032 ∧
    SameTrace (Words 56 256) Gen.Scalar.from_bytes Leak.Scalar.from_bytes ∧
    SameTrace (Words 114 256) Gen.Scalar.from_bytes_mod_order_wide
      Leak.Scalar.from_bytes_mod_order_wide ∧
    SameTrace (fun b => Words 57 256 b ∧ wval 256 b < ell) Gen.Scalar.from_canonical_bytes
      Leak.Scalar.from_canonical_bytes ∧
    SameTrace W14 Gen.Scalar.bits Leak.Scalar.bits ∧
    SameTrace W14 Gen.Scalar.to_radix_16 Leak.Scalar.to_radix_16 := by
  refine ⟨sameTrace_inst (fun _ _ => inferInstance) (fun _ => inferInstance) ?_,
    sameTrace_inst (fun _ _ => inferInstance) (fun _ => inferInstance) ?_,
    sameTrace_inst (fun _ _ => inferInstance) (fun _ => inferInstance) ?_,
    sameTrace_inst (fun _ _ => inferInstance) (fun _ => inferInstance) ?_,
    sameTrace (fun _ _ _ _ => Leak.from_canonical_bytes_accept) (fun _ => inferInstance) ?_,
    sameTrace_of (fun _ _ hx hy => (Leak.bits_ct (hx.1.trans hy.1.symm)).mono fun _ _ _ => trivial)
      (fun _ => inferInstance) ?_,
    sameTrace_inst (fun _ _ => inferInstance) (fun _ => inferInstance) ?_⟩
  · exact fun a ha => ⟨_, Source.to_bytes ha.arr⟩
  · exact fun a ha => ⟨_, Source.to_bytes_rfc_8032 ha.arr⟩
  · exact fun b hb => ⟨_, Source.from_bytes hb.arr⟩
  · intro b hb
    obtain ⟨r, e, -⟩ := C64_source_scalar_codec.2.2.2 b hb
    exact ⟨r, e⟩
  · rintro b ⟨hb, h⟩
    obtain ⟨r, e, -⟩ := (C64_source_scalar_codec.2.2.1 b hb).1 h
    exact ⟨_, e, rfl⟩
  · exact fun a ha => ⟨_, Source.bits ha.arr⟩
  · intro a ha
    obtain ⟨-, r, e, -⟩ := C64_source_scalar_digits ha
    exact ⟨r, e⟩

/-- Pairs of field elements within the limb bound. -/
abbrev Limbs28₂ (x : List ℕ × List ℕ) : Prop := Limbs28 x.1 ∧ Limbs28 x.2

/-- Field arithmetic of src/field/u32, including the selections. -/
theorem C68_field_u32 :
    SameTrace Limbs28₂ (fun x => Gen.FieldElement28.op_add x.1 x.2)
      (fun x => Leak.FieldElement28.op_add x.1 x.2) ∧
    SameTrace Limbs28₂ (fun x => Gen.FieldElement28.op_sub x.1 x.2)
      (fun x => Leak.FieldElement28.op_sub x.1 x.2) ∧
    SameTrace Limbs28₂ (fun x => Gen.FieldElement28.op_mul x.1 x.2)
      (fun x => Leak.FieldElement28.op_mul x.1 x.2) ∧
    SameTrace Limbs28 Gen.FieldElement28.square Leak.FieldElement28.square ∧
    SameTrace Limbs28 Gen.FieldElement28.negate Leak.FieldElement28.negate ∧
    SameTrace Limbs28 Gen.FieldElement28.to_bytes Leak.FieldElement28.to_bytes ∧
    SameTrace (Words 56 256) Gen.FieldElement28.from_bytes Leak.FieldElement28.from_bytes ∧
    SameTrace (fun x : (List ℕ × List ℕ) × Bool => Limbs28₂ x.1)
      (fun x => some (Gen.FieldElement28.conditional_select x.1.1 x.1.2 x.2))
      (fun x => Leak.FieldElement28.conditional_select x.1.1 x.1.2 x.2) ∧
    SameTrace (fun x : List ℕ × Bool => Limbs28 x.1)
      (fun x => Gen.FieldElement28.conditional_negate x.1 x.2)
      (fun x => Leak.FieldElement28.conditional_negate x.1 x.2) := by
  refine ⟨sameTrace_inst (fun _ _ => inferInstance) (fun _ => inferInstance) ?_,
    sameTrace_inst (fun _ _ => inferInstance) (fun _ => inferInstance) ?_,
    sameTrace_inst (fun _ _ => inferInstance) (fun _ => inferInstance) ?_,
    sameTrace_inst (fun _ _ => inferInstance) (fun _ => inferInstance) ?_,
    sameTrace_inst (fun _ _ => inferInstance) (fun _ => inferInstance) ?_,
    sameTrace_inst (fun _ _ => inferInstance) (fun _ => inferInstance) ?_,
    sameTrace_inst (fun _ _ => inferInstance) (fun _ => inferInstance) ?_,
    sameTrace_inst (fun _ _ => inferInstance) (fun _ => inferInstance) fun _ _ => ⟨_, rfl⟩,
    sameTrace_inst (fun _ _ => inferInstance) (fun _ => inferInstance) ?_⟩
  · rintro ⟨a, b⟩ ⟨ha, hb⟩
    obtain ⟨⟨r, e, -⟩, -⟩ := C65_source_field_arithmetic ha hb
    exact ⟨r, e⟩
  · rintro ⟨a, b⟩ ⟨ha, hb⟩
    obtain ⟨-, ⟨r, e, -⟩, -⟩ := C65_source_field_arithmetic ha hb
    exact ⟨r, e⟩
  · rintro ⟨a, b⟩ ⟨ha, hb⟩
    obtain ⟨-, -, ⟨r, e, -⟩, -⟩ := C65_source_field_arithmetic ha hb
    exact ⟨r, e⟩
  · intro a ha
    obtain ⟨-, -, -, ⟨r, e, -⟩, -⟩ := C65_source_field_arithmetic ha ha
    exact ⟨r, e⟩
  · intro a ha
    obtain ⟨-, -, -, -, r, e, -⟩ := C65_source_field_arithmetic ha ha
    exact ⟨r, e⟩
  · intro a ha
    obtain ⟨⟨r, e, -⟩, -⟩ := C65_source_field_codec ha (Arr.words (⟨List.replicate 56 0, rfl, by
      intro x hx; rw [List.eq_of_mem_replicate hx]; norm_num⟩ : Bytes 56))
    exact ⟨r, e⟩
  · intro b hb
    have hz : Limbs28 (List.replicate 16 0) := by unfold Limbs28; decide
    obtain ⟨-, r, e, -⟩ := C65_source_field_codec hz hb
    exact ⟨r, e⟩
  · rintro ⟨a, c⟩ ha
    obtain ⟨-, -, -, -, r, e, -⟩ := C65_source_field_arithmetic ha ha
    exact ⟨_, show Gen.FieldElement28.conditional_negate a c = _ by
      unfold Gen.FieldElement28.conditional_negate
      rw [e]
      rfl⟩

/-- The observations attached to conditional negation and to the sign test are those of the translated
functions, in both backends. -/
theorem C68_backends (I : Fiat.Impl) :
    (∀ (x : U32.Fe) (c : Bool),
      (Leak.FieldElement28.conditional_negate x.1.l c).tr = LeakBackend.condNegateTr x c ∧
      (Leak.FieldElement28.is_negative x.1.l).tr = LeakBackend.toBytesTr x) ∧
    (∀ (x : Fiat.Fe I) (c : Bool),
      (Leak.FieldElement56.conditional_negate I.f x.a.l c).tr = LeakBackend.condNegateTr x c ∧
      (Leak.FieldElement56.is_negative I.f x.a.l).tr = LeakBackend.toBytesTr x) ∧
    CTBackend U32.Fe U32.Fe ∧ CTBackend (Fiat.Fe I) (Fiat.LFe I) := by
  refine ⟨fun x c => ⟨?_, ?_⟩, fun x c => ⟨?_, ?_⟩, inferInstance, inferInstance⟩
  · show _ = (Leak.FieldElement28.negate _).tr ++ []
    unfold Leak.FieldElement28.conditional_negate Leak.FieldElement28.negate
    rw [lift_bind_tr fun _ => rfl, lift_bind_tr fun _ => rfl, List.append_nil]
  · unfold Leak.FieldElement28.is_negative
    refine bind_tr (o := some (FieldBackend.isNegative x)) (fun _ => lift_bind_tr fun _ => rfl) ?_ rfl
    exact ((inferInstance : Er (Leak.FieldElement28.is_negative x.1.l) _).er.trans
      (C66_source_backend_u32.2.1 x).2.2.2.2.1)
  · show _ = (Leak.FieldElement56.negate _ _).tr ++ (Leak.FieldElement56.conditional_select _ _ _ _).tr
    unfold Leak.FieldElement56.conditional_negate Leak.FieldElement56.negate
      Leak.FieldElement56.conditional_select
    rw [lift_bind_tr fun _ => lift_bind_tr fun _ => rfl, lift_bind_tr fun _ => lift_bind_tr fun _ => rfl,
      lift_bind_tr fun _ => rfl, List.append_nil]
  · show _ = (Leak.FieldElement56.to_bytes _ _).tr
    unfold Leak.FieldElement56.is_negative Leak.FieldElement56.to_bytes
    rw [lift_bind_tr fun _ => lift_bind_tr fun _ => rfl, lift_bind_tr fun _ => rfl]

/-! ## C69: curves -/

variable {F L : Type} [FieldBackend F L] [LeakBackend F L] [CTBackend F L]

omit [LeakBackend F L] [CTBackend F L] in
theorem op_mul_some (P : EdPt F) {s : List ℕ} (hs : W14 s) :
    ∃ r, Gen.EdPt.op_mul_Scalar P s = some r := by
  obtain ⟨r, e⟩ := Leak.scalarMul_some P hs.arr
  exact ⟨r, (Source.EdPt_op_mul P hs.arr).trans e⟩

omit [LeakBackend F L] [CTBackend F L] in
theorem torsion_free_some (P : EdPt F) : ∃ r, Gen.EdPt.is_torsion_free P = some r := by
  obtain ⟨r, e⟩ := op_mul_some P (Arr.words EdPt.BASEPOINT_ORDER)
  exact ⟨_, Source.bind_of_eq (show Gen.EdPt.op_mul_Scalar P Gen.C.BASEPOINT_ORDER = some r from e) _⟩

/-- Scalar multiplication: neither the scalar nor the point has an influence on what is observed.
Any 14 words, any coordinates, also those not on the curve. -/
theorem C69_scalar_mul :
    SameTrace (fun x : EdPt F × List ℕ => W14 x.2) (fun x => Gen.EdPt.op_mul_Scalar x.1 x.2)
      (fun x => Leak.EdPt.op_mul_Scalar x.1 x.2) ∧
    SameTrace (fun x : TwPt F × List ℕ => W14 x.2) (fun x => Gen.variable_base.variable_base x.1 x.2)
      (fun x => Leak.variable_base.variable_base x.1 x.2) ∧
    SameTrace (fun x : TwPt F × List ℕ => W14 x.2)
      (fun x => Gen.double_and_add.double_and_add x.1 x.2)
      (fun x => Leak.double_and_add.double_and_add x.1 x.2) ∧
    SameTrace (fun x : List ℕ × TwPt F × List ℕ => W14 x.1 ∧ W14 x.2.2)
      (fun x => Gen.double_base.double_base_scalar_mul x.1 x.2.1 x.2.2)
      (fun x => Leak.double_base.double_base_scalar_mul x.1 x.2.1 x.2.2) ∧
    SameTrace (fun x : List ℕ × List ℕ => Words 56 256 x.1 ∧ W14 x.2)
      (fun x => Gen.MontgomeryPoint.op_mul_Scalar (F := F) x.1 x.2)
      (fun x => Leak.MontgomeryPoint.op_mul_Scalar (F := F) x.1 x.2) ∧
    SameTrace (fun x : DecafPt F × List ℕ => W14 x.2) (fun x => Gen.DecafPt.op_mul_Scalar x.1 x.2)
      (fun x => Leak.DecafPt.op_mul_Scalar x.1 x.2) := by
  refine ⟨sameTrace_inst (fun _ _ => inferInstance) (fun _ => inferInstance) fun x hx =>
      op_mul_some x.1 hx,
    sameTrace_inst (fun _ _ => inferInstance) (fun _ => inferInstance) fun x hx => ?_,
    sameTrace_of (fun _ _ hx hy => Leak.double_and_add_ct (hx.1.trans hy.1.symm))
      (fun _ => inferInstance) fun x hx => ⟨_, Source.double_and_add x.1 hx.arr⟩,
    sameTrace_of (fun _ _ hx hy => Leak.double_base_ct (hx.1.1.trans hy.1.1.symm)
      (hx.2.1.trans hy.2.1.symm)) (fun _ => inferInstance) fun x hx =>
        ⟨_, Source.double_base_scalar_mul hx.1.arr x.2.1 hx.2.arr⟩,
    sameTrace_of (fun _ _ hx hy => Leak.ladder_ct (hx.2.1.trans hy.2.1.symm))
      (fun _ => inferInstance) fun x hx => ⟨_, Source.Mont_mul hx.1.arr hx.2.arr⟩,
    sameTrace_of (fun _ _ hx hy => Leak.decaf_mul_ct (hx.1.trans hy.1.symm))
      (fun _ => inferInstance) fun x hx => ⟨_, Source.Decaf_op_mul x.1 hx.arr⟩⟩
  obtain ⟨r, e⟩ := Leak.variableBase_some x.1 hx.arr
  exact ⟨r, (Source.variable_base x.1 hx.arr).trans e⟩

/-- The group operations, equality, and the maps to the other models of the curve. -/
theorem C69_group :
    SameTrace (fun _ : EdPt F × EdPt F => True) (fun x => some (Gen.EdPt.op_add x.1 x.2))
      (fun x => Leak.EdPt.op_add x.1 x.2) ∧
    SameTrace (fun _ : EdPt F × EdPt F => True) (fun x => some (Gen.EdPt.op_sub x.1 x.2))
      (fun x => Leak.EdPt.op_sub x.1 x.2) ∧
    SameTrace (fun _ : EdPt F => True) (fun x => some (Gen.EdPt.double x)) Leak.EdPt.double ∧
    SameTrace (fun _ : EdPt F => True) (fun x => some (Gen.EdPt.op_neg x)) Leak.EdPt.op_neg ∧
    SameTrace (fun _ : EdPt F × EdPt F => True) (fun x => some (Gen.EdPt.eq x.1 x.2))
      (fun x => Leak.EdPt.eq x.1 x.2) ∧
    SameTrace (fun _ : (EdPt F × EdPt F) × Bool => True)
      (fun x => some (Gen.EdPt.conditional_select x.1.1 x.1.2 x.2))
      (fun x => Leak.EdPt.conditional_select x.1.1 x.1.2 x.2) ∧
    SameTrace (fun _ : EdPt F => True) Gen.EdPt.to_twisted Leak.EdPt.to_twisted ∧
    SameTrace (fun _ : TwPt F => True) Gen.TwPt.to_untwisted Leak.TwPt.to_untwisted ∧
    SameTrace (fun _ : EdPt F => True) Gen.EdPt.to_montgomery Leak.EdPt.to_montgomery ∧
    SameTrace (fun _ : EdPt F => True) Gen.EdPt.is_torsion_free Leak.EdPt.is_torsion_free ∧
    SameTrace (fun _ : DecafPt F × DecafPt F => True) (fun x => some (Gen.DecafPt.op_add x.1 x.2))
      (fun x => Leak.DecafPt.op_add x.1 x.2) ∧
    SameTrace (fun _ : DecafPt F × DecafPt F => True) (fun x => some (Gen.DecafPt.op_sub x.1 x.2))
      (fun x => Leak.DecafPt.op_sub x.1 x.2) ∧
    SameTrace (fun _ : DecafPt F × DecafPt F => True) (fun x => some (Gen.DecafPt.equals x.1 x.2))
      (fun x => Leak.DecafPt.equals x.1 x.2) ∧
    (∀ n, SameTrace (fun l : List (EdPt F) => l.length = n) (fun l => some (Gen.EdPt.sum l))
      Leak.EdPt.sum) :=
  ⟨sameTrace_inst (fun _ _ => inferInstance) (fun _ => inferInstance) fun _ _ => ⟨_, rfl⟩,
    sameTrace_inst (fun _ _ => inferInstance) (fun _ => inferInstance) fun _ _ => ⟨_, rfl⟩,
    sameTrace_inst (fun _ _ => inferInstance) (fun _ => inferInstance) fun _ _ => ⟨_, rfl⟩,
    sameTrace_inst (fun _ _ => inferInstance) (fun _ => inferInstance) fun _ _ => ⟨_, rfl⟩,
    sameTrace_inst (fun _ _ => inferInstance) (fun _ => inferInstance) fun _ _ => ⟨_, rfl⟩,
    sameTrace_inst (fun _ _ => inferInstance) (fun _ => inferInstance) fun _ _ => ⟨_, rfl⟩,
    sameTrace_inst (fun _ _ => inferInstance) (fun _ => inferInstance) fun x _ =>
      ⟨_, Source.EdPt_to_twisted x⟩,
    sameTrace_inst (fun _ _ => inferInstance) (fun _ => inferInstance) fun x _ =>
      ⟨_, Source.TwPt_to_untwisted x⟩,
    sameTrace_inst (fun _ _ => inferInstance) (fun _ => inferInstance) fun x _ =>
      ⟨_, Source.EdPt_to_montgomery x⟩,
    sameTrace_inst (fun _ _ => inferInstance) (fun _ => inferInstance) fun x _ => torsion_free_some x,
    sameTrace_inst (fun _ _ => inferInstance) (fun _ => inferInstance) fun _ _ => ⟨_, rfl⟩,
    sameTrace_inst (fun _ _ => inferInstance) (fun _ => inferInstance) fun _ _ => ⟨_, rfl⟩,
    sameTrace_inst (fun _ _ => inferInstance) (fun _ => inferInstance) fun _ _ => ⟨_, rfl⟩,
    fun _ => sameTrace_of (fun _ _ hx hy => Leak.sum_ct (hx.trans hy.symm)) (fun _ => inferInstance)
      fun _ _ => ⟨_, rfl⟩⟩

/-- Encoding, and decoding of accepted encodings; of a rejected 57-byte encoding the observer learns
only that it was rejected. -/
theorem C69_codec :
    SameTrace (fun _ : EdPt F => True) Gen.EdPt.compress Leak.EdPt.compress ∧
    SameTrace (fun _ : DecafPt F => True) Gen.DecafPt.compress Leak.DecafPt.compress ∧
    SameTrace (fun b => Words 57 256 b ∧ ∃ P : EdPt F, Gen.CompressedEdwardsY.decompress b = some (some P))
      (Gen.CompressedEdwardsY.decompress (F := F)) Leak.CompressedEdwardsY.decompress ∧
    SameTrace (fun b => Words 57 256 b ∧
        Gen.CompressedEdwardsY.decompress b = some (none : Option (EdPt F)))
      (Gen.CompressedEdwardsY.decompress (F := F)) Leak.CompressedEdwardsY.decompress ∧
    SameTrace (fun b => Words 56 256 b ∧ ∃ P : DecafPt F, Gen.CompressedDecaf.decompress b = some (some P))
      (Gen.CompressedDecaf.decompress (F := F)) Leak.CompressedDecaf.decompress := by
  refine ⟨sameTrace_inst (fun _ _ => inferInstance) (fun _ => inferInstance) fun x _ =>
      ⟨_, Source.EdPt_compress x⟩,
    sameTrace_inst (fun _ _ => inferInstance) (fun _ => inferInstance) fun x _ =>
      ⟨_, Source.Decaf_compress x⟩,
    sameTrace (fun _ _ _ _ => Leak.decompress_accept) (fun _ => inferInstance) ?_,
    sameTrace (fun _ _ _ _ => Leak.decompress_reject) (fun _ => inferInstance) ?_,
    sameTrace (fun _ _ _ _ => Leak.decaf_decompress_accept) (fun _ => inferInstance) ?_⟩
  · rintro x ⟨-, P, e⟩
    exact ⟨_, e, rfl⟩
  · rintro x ⟨-, e⟩
    exact ⟨_, e, rfl⟩
  · rintro x ⟨-, P, e⟩
    exact ⟨_, e, rfl⟩

/-- Inversion and square roots in the field. -/
theorem C69_field :
    SameTrace (fun _ : F => True) Gen.Field.invert Leak.Field.invert ∧
    SameTrace (fun _ : F => True) Gen.Field.inverse_square_root Leak.Field.inverse_square_root ∧
    SameTrace (fun _ : F × F => True) (fun x => Gen.Field.sqrt_ratio x.1 x.2)
      (fun x => Leak.Field.sqrt_ratio x.1 x.2) ∧
    SameTrace (fun _ : F × F => True) (fun x => some (Gen.Field.eq x.1 x.2))
      (fun x => Leak.Field.eq x.1 x.2) :=
  ⟨sameTrace_inst (fun _ _ => inferInstance) (fun _ => inferInstance) fun x _ =>
      ⟨_, Source.field_invert x⟩,
    sameTrace_inst (fun _ _ => inferInstance) (fun _ => inferInstance) fun x _ =>
      ⟨_, Source.field_isr x⟩,
    sameTrace_inst (fun _ _ => inferInstance) (fun _ => inferInstance) fun x _ =>
      ⟨_, Source.field_sqrt_ratio x.1 x.2⟩,
    sameTrace_inst (fun _ _ => inferInstance) (fun _ => inferInstance) fun _ _ => ⟨_, rfl⟩⟩

/-- What is not constant time, in the model: the low-order test shows which of its comparisons
succeeded, and rejected scalar encodings show where they were rejected. -/
theorem C69_leaks :
    (∀ u, Leak.MontgomeryPoint.is_low_order u = some (Gen.MontgomeryPoint.is_low_order u,
      [.branch (u == Gen.C.LOW_A), .branch (u == Gen.C.LOW_A || u == Gen.C.LOW_B)])) ∧
    ¬ SameTrace (Words 56 256) (fun u => some (Gen.MontgomeryPoint.is_low_order u))
      Leak.MontgomeryPoint.is_low_order ∧
    ¬ SameTrace (fun b => Words 57 256 b ∧ ell ≤ wval 256 b) Gen.Scalar.from_canonical_bytes
      Leak.Scalar.from_canonical_bytes := by
  have h : ∀ u, Leak.MontgomeryPoint.is_low_order u = some (Gen.MontgomeryPoint.is_low_order u,
      [.branch (u == Gen.C.LOW_A), .branch (u == Gen.C.LOW_A || u == Gen.C.LOW_B)]) := by
    intro u
    unfold Leak.MontgomeryPoint.is_low_order Gen.MontgomeryPoint.is_low_order Gen.MontgomeryPoint.eq
      Gen.MontgomeryPoint.ct_eq
    cases u == Gen.C.LOW_A <;> cases u == Gen.C.LOW_B <;> rfl
  refine ⟨h, ?_, ?_⟩
  · rintro ⟨T, hT⟩
    obtain ⟨r, -, e⟩ := hT Gen.C.LOW_A (by unfold Words; decide +kernel)
    obtain ⟨r', -, e'⟩ := hT Gen.C.LOW_C (by unfold Words; decide +kernel)
    rw [h] at e e'
    have := (Prod.mk.inj (Option.some_inj.1 e)).2.trans (Prod.mk.inj (Option.some_inj.1 e')).2.symm
    revert this
    decide +kernel
  · rintro ⟨T, hT⟩
    obtain ⟨r, -, e⟩ := hT (List.replicate 57 255) (by unfold Words; rw [ell_lit]; decide +kernel)
    obtain ⟨r', -, e'⟩ := hT (Nat.digits 256 ell ++ [0]) (by unfold Words; rw [ell_lit]; decide +kernel)
    have := (congrArg Lk.tr e).trans (congrArg Lk.tr e').symm
    revert this
    rw [ell_lit]
    decide +kernel

/-- The observations are not empty: of `bits` the observer sees a loop over 14 limbs and in each a loop
over 32 shift amounts. -/
example : (Leak.Scalar.bits (List.replicate 14 (2 ^ 32 - 1))).tr.take 6 =
      [.loop 14, .loop 32, .shift 0, .shift 1, .shift 2, .shift 3] ∧
    (Leak.Scalar.bits (List.replicate 14 0)).tr = (Leak.Scalar.bits (List.replicate 14 (2 ^ 32 - 1))).tr := by
  decide +kernel

/-- The 32-bit backend is constant time, so the ladder of src/curve/montgomery on it is: the observer
sees the same for the scalars `0` and `2^448 - 1`. -/
example (u : List ℕ) (hu : Words 56 256 u) :
    (Leak.MontgomeryPoint.op_mul_Scalar (F := U32.Fe) u Gen.Scalar.zero).tr =
      (Leak.MontgomeryPoint.op_mul_Scalar (F := U32.Fe) u allOnes.l).tr := by
  obtain ⟨-, -, -, -, ⟨T, h⟩, -⟩ := C69_scalar_mul (F := U32.Fe)
  obtain ⟨r, -, e⟩ := h (u, Gen.Scalar.zero) ⟨hu, Arr.words Scalar.zero⟩
  obtain ⟨r', -, e'⟩ := h (u, allOnes.l) ⟨hu, Arr.words allOnes⟩
  exact (congrArg Lk.tr e).trans (congrArg Lk.tr e').symm

end Ed448.Props
