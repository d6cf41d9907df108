import Verif.Props.RepairLeakage
import Verif.Props.Cached
import Verif.Props.Exact

/-!
# All forms of the operators, defaults and accessors (C88)

Every operator of the library exists in several forms: on values and on references, with a scalar on the
left or on the right, and with assignment. The statements of C64 to C69 and C76 are about one form each;
here are the others, with the same three readings of the source: results, observations and release
builds.
-/

namespace Ed448.Props
open Ed448.Model Ed448.Edw Ed448.Proofs
open FieldVal (val)
open Leak (Lk Ev Er CT CTT CTP LeakBackend CTBackend)

set_option exponentiation.threshold 1000
set_option maxRecDepth 10000

section
variable {F L : Type} [FieldBackend F L] [Lawful F]

/-! ## Results -/

/-- The forms of the operators on Edwards points. -/
theorem C88_edwards {P Q : EdPt F} {R S : E} (h : Rep P R) (k : Rep Q S) :
    (Rep (Gen.EdPt.op_add P Q) (R + S) ∧ Rep (Gen.EdPt.op_add2 P Q) (R + S) ∧
      Rep (Gen.EdPt.op_add3 P Q) (R + S) ∧ Rep (Gen.EdPt.op_add4 P Q) (R + S) ∧
      Rep (Gen.EdPt.op_add_assign P Q) (R + S) ∧ Rep (Gen.EdPt.op_add_assign2 P Q) (R + S)) ∧
    (Rep (Gen.EdPt.op_sub P Q) (R - S) ∧ Rep (Gen.EdPt.op_sub2 P Q) (R - S) ∧
      Rep (Gen.EdPt.op_sub3 P Q) (R - S) ∧ Rep (Gen.EdPt.op_sub4 P Q) (R - S) ∧
      Rep (Gen.EdPt.op_sub_assign P Q) (R - S) ∧ Rep (Gen.EdPt.op_sub_assign2 P Q) (R - S)) ∧
    (Rep (Gen.EdPt.op_neg P) (-R) ∧ Rep (Gen.EdPt.op_neg2 P) (-R)) ∧
    Rep (Gen.EdPt.default : EdPt F) 0 ∧
    ∀ s, Words 14 (2 ^ 32) s → ∃ r, Rep r (wval (2 ^ 32) s • R) ∧
      Gen.EdPt.op_mul_Scalar P s = some r ∧ Gen.EdPt.op_mul_Scalar2 P s = some r ∧
      Gen.EdPt.op_mul_Scalar3 P s = some r ∧ Gen.EdPt.op_mul_Scalar4 P s = some r ∧
      Gen.EdPt.op_mul_assign_Scalar P s = some r ∧ Gen.EdPt.op_mul_assign_Scalar2 P s = some r ∧
      Gen.Scalar.op_mul_EdPt s P = some r ∧ Gen.Scalar.op_mul_EdPt2 s P = some r ∧
      Gen.Scalar.op_mul_EdPt3 s P = some r ∧ Gen.Scalar.op_mul_EdPt4 s P = some r := by
  obtain ⟨ha, hs, -, hn, hi, -, -, hm, -⟩ := C67_source_edwards_group h k
  refine ⟨⟨ha, ha, ha, ha, ha, ha⟩, ⟨hs, hs, hs, hs, hs, hs⟩, ⟨hn, hn⟩, hi, fun s w => ?_⟩
  obtain ⟨r, e, hr⟩ := hm s w
  have e' : P.opMul w.arr = some r := (Source.EdPt_op_mul P w.arr).symm.trans e
  exact ⟨r, hr, e, (Source.EdPt_op_mul2 P w.arr).trans e', (Source.EdPt_op_mul3 P w.arr).trans e',
    (Source.EdPt_op_mul4 P w.arr).trans e', (Source.EdPt_op_mul_assign P w.arr).trans e',
    (Source.EdPt_op_mul_assign2 P w.arr).trans e', (Source.Scalar_op_mul_EdPt P w.arr).trans e',
    (Source.Scalar_op_mul_EdPt2 P w.arr).trans e', (Source.Scalar_op_mul_EdPt3 P w.arr).trans e',
    (Source.Scalar_op_mul_EdPt4 P w.arr).trans e'⟩

/-- The sum of a list of Edwards points, which starts from the identity and adds the points one by one. -/
theorem C88_sum {l : List (EdPt F)} {m : List E} (h : List.Forall₂ Rep l m) :
    Rep (Gen.EdPt.sum l) m.sum := (Source.EdPt_sum l).symm ▸ rep_sum h

example : Rep (Gen.EdPt.sum [Gen.EdPt.generator, Gen.EdPt.generator, Gen.EdPt.generator] : EdPt F) (3 • G) := by
  have h : Rep (Gen.EdPt.generator : EdPt F) G := rep_generator
  have k := C88_sum (.cons h (.cons h (.cons h .nil)))
  rwa [show [G, G, G].sum = 3 • G by simp [succ_nsmul, add_assoc]] at k

/-- The forms of the operators on Decaf elements, which C67 shows to be a group of prime order. -/
theorem C88_decaf : ∃ f : DecafPt F → ZMod ell,
    (∀ P Q, SrcDecaf P → SrcDecaf Q → (Gen.DecafPt.equals P Q = true ↔ f P = f Q) ∧
      (f (Gen.DecafPt.op_add P Q) = f P + f Q ∧ f (Gen.DecafPt.op_add2 P Q) = f P + f Q) ∧
      (f (Gen.DecafPt.op_sub P Q) = f P - f Q ∧ f (Gen.DecafPt.op_sub2 P Q) = f P - f Q ∧
        f (Gen.DecafPt.sub P Q) = f P - f Q)) ∧
    (∀ P, SrcDecaf P → (f (Gen.DecafPt.op_neg P) = -f P ∧ f (Gen.DecafPt.op_neg2 P) = -f P) ∧
      ∀ s, Words 14 (2 ^ 32) s → ∃ Q, f Q = wval (2 ^ 32) s * f P ∧
        Gen.DecafPt.op_mul_Scalar P s = some Q ∧ Gen.DecafPt.op_mul_Scalar2 P s = some Q ∧
        Gen.Scalar.op_mul_DecafPt s P = some Q ∧ Gen.Scalar.op_mul_DecafPt2 s P = some Q) ∧
    f Gen.DecafPt.identity = 0 ∧ f Gen.DecafPt.generator = 1 ∧
    (∀ n, ∃ P, SrcDecaf P ∧ f P = n) := by
  obtain ⟨f, h1, h2, h3⟩ := C67_source_decaf_group (F := F)
  refine ⟨f, fun P Q hP hQ => ?_, fun P hP => ?_, h3⟩
  · obtain ⟨e, a, s⟩ := h1 P Q hP hQ
    exact ⟨e, ⟨a, a⟩, s, s, s⟩
  · obtain ⟨n, m⟩ := h2 P hP
    refine ⟨⟨n, n⟩, fun s w => ?_⟩
    obtain ⟨Q, e, hQ⟩ := m s w
    have e' := (Source.Decaf_op_mul P w.arr).symm.trans e
    exact ⟨Q, hQ, e, (Source.Decaf_op_mul2 P w.arr).trans e', (Source.Scalar_op_mul_Decaf P w.arr).trans e',
      (Source.Scalar_op_mul_Decaf2 P w.arr).trans e'⟩

/-- Points of the twisted curve: the defaults, and equality of cached points. -/
theorem C88_twisted :
    (∀ P : TwPt F, Gen.TwPt.eq Gen.TwPt.default P = Gen.TwPt.eq Gen.TwPt.identity P) ∧
    TwRep (Gen.TwPt.default : TwPt F) 0 1 ∧
    (val (Gen.TwAff.default : TwAff F).x = 0 ∧ val (Gen.TwAff.default : TwAff F).y = 1) ∧
    TwRep (Gen.PNiels.to_extended (Gen.PNiels.default : PNiels F)) 0 1 ∧
    ∀ (P Q : TwPt F) (x y x' y' : Fp), TwRep P x y → TwRep Q x' y' →
      TwRep (Gen.PNiels.to_extended (Gen.TwExt.to_projective_niels (Gen.TwPt.to_extensible P))) x y ∧
      (Gen.PNiels.eq (Gen.TwExt.to_projective_niels (Gen.TwPt.to_extensible P))
        (Gen.TwExt.to_projective_niels (Gen.TwPt.to_extensible Q)) = true ↔ x = x' ∧ y = y') := by
  have h2 : (2 : Fp) ≠ 0 := two_ne
  have rt : ∀ (P : TwPt F) (x y : Fp), TwRep P x y → TwRep P.toExtensible.toProjectiveNiels.toExtended x y := by
    intro P x y h
    refine ⟨h.on, ?_, ?_, ?_, ?_⟩ <;>
      simp only [TwPt.toExtensible, TwExt.toProjectiveNiels, PNiels.toExtended, val_mul, val_square,
        Lawful.val_add, Lawful.val_sub, h.x, h.y]
    · rw [← two_mul]
      exact pow_ne_zero 2 (mul_ne_zero h2 h.z)
    · ring
    · ring
    · ring
  have id : TwRep (TwPt.identity : TwPt F) 0 1 := by
    refine ⟨?_, ?_, ?_, ?_, ?_⟩ <;>
      simp only [TwPt.identity, Lawful.val_one, Lawful.val_zero, Iso.TwOn]
    · ring
    · exact one_ne_zero
    all_goals ring
  refine ⟨fun _ => rfl, id, ⟨Lawful.val_zero, Lawful.val_one⟩, ?_, fun P Q x y x' y' h k =>
    ⟨rt P x y h, ?_⟩⟩
  · exact rt _ _ _ id
  · rw [Source.PNiels_eq]
    exact (rt P x y h).eq_iff (rt Q x' y' k)

omit [Lawful F] in
/-- Byte strings of Montgomery points, Decaf and Ristretto: the generator is `u = 5`, accessors return the
bytes, equality is equality of bytes. What is not implemented panics: `to_edwards`, and encoding and
decoding of Ristretto. -/
theorem C88_bytes :
    (wval 256 Gen.MontgomeryPoint.generator = 5 ∧ Words 56 256 Gen.MontgomeryPoint.generator) ∧
    (∀ b, Gen.MontgomeryPoint.as_bytes b = b ∧ Gen.CompressedDecaf.as_bytes b = b ∧
      Gen.CompressedRistretto.as_bytes b = b) ∧
    (∀ a b, (Gen.MontgomeryPoint.eq a b = true ↔ a = b) ∧ (Gen.MontgomeryPoint.ct_eq a b = true ↔ a = b) ∧
      (Gen.CompressedDecaf.eq a b = true ↔ a = b) ∧ (Gen.CompressedDecaf.ct_eq a b = true ↔ a = b) ∧
      (Gen.CompressedRistretto.eq a b = true ↔ a = b) ∧
      (Gen.CompressedRistretto.ct_eq a b = true ↔ a = b)) ∧
    Gen.CompressedRistretto.identity = List.replicate 56 0 ∧
    (∀ u sign, Gen.MontgomeryPoint.to_edwards (F := F) u sign = none) ∧
    (∀ b, Gen.CompressedRistretto.decode (F := F) b = none) ∧
    (∀ P : RistPt F, Gen.RistPt.encode P = none) :=
  ⟨⟨by decide +kernel, by unfold Words; decide +kernel⟩, fun _ => ⟨rfl, rfl, rfl⟩, fun _ _ =>
    ⟨beq_iff_eq, beq_iff_eq, beq_iff_eq, beq_iff_eq, beq_iff_eq, beq_iff_eq⟩, rfl, fun _ _ => rfl,
    fun _ => rfl, fun _ => rfl⟩

end

/-- Scalars and field elements as arrays: defaults are zero, an index in range reads or replaces one word
and another index panics, `from_raw_slice` keeps the limbs, and the other forms of multiplication are the
same multiplication. -/
theorem C88_arrays (fns : Fiat.Fns) :
    (Gen.Scalar.default = List.replicate 14 0 ∧ Gen.FieldElement28.default = List.replicate 16 0 ∧
      Gen.FieldElement56.default = List.replicate 8 0) ∧
    (∀ (l : List ℕ) (i v : ℕ), (h : i < l.length) →
      Gen.Scalar.index l i = some l[i] ∧ Gen.FieldElement28.index l i = some l[i] ∧
      Gen.FieldElement56.index l i = some l[i] ∧ Gen.Scalar.index_mut l i v = some (l.set i v) ∧
      Gen.FieldElement28.index_mut l i v = some (l.set i v) ∧
      Gen.FieldElement56.index_mut l i v = some (l.set i v)) ∧
    (∀ (l : List ℕ) (i v : ℕ), l.length ≤ i →
      Gen.Scalar.index l i = none ∧ Gen.FieldElement28.index l i = none ∧
      Gen.FieldElement56.index l i = none ∧ Gen.Scalar.index_mut l i v = none ∧
      Gen.FieldElement28.index_mut l i v = none ∧ Gen.FieldElement56.index_mut l i v = none) ∧
    (∀ l, Gen.FieldElement28.from_raw_slice l = l ∧ Gen.FieldElement56.from_raw_slice l = l) ∧
    (∀ a b, Gen.FieldElement28.op_mul2 a b = Gen.FieldElement28.op_mul a b ∧
      Gen.FieldElement56.op_mul2 fns a b = Gen.FieldElement56.op_mul fns a b ∧
      Gen.FieldElement56.op_mul3 fns a b = Gen.FieldElement56.op_mul fns a b) := by
  have ri : ∀ {l : List ℕ} {i : ℕ} (h : i < l.length), (Gen.Rt.idx l i).bind some = some l[i] := by
    intro l i h
    simp [Gen.Rt.idx, h]
  have rn : ∀ {l : List ℕ} {i : ℕ} (h : l.length ≤ i), (Gen.Rt.idx l i).bind some = none := by
    intro l i h
    simp [Gen.Rt.idx, h]
  have pi : ∀ {l : List ℕ} {i v : ℕ} (h : i < l.length), (Gen.Rt.put l i v).bind some = some (l.set i v) := by
    intro l i v h
    simp [Gen.Rt.put, h]
  have pn : ∀ {l : List ℕ} {i v : ℕ} (h : l.length ≤ i), (Gen.Rt.put l i v).bind some = none := by
    intro l i v h
    simp [Gen.Rt.put, h]
  exact ⟨⟨rfl, rfl, rfl⟩, fun l i v h => ⟨ri h, ri h, ri h, pi h, pi h, pi h⟩,
    fun l i v h => ⟨rn h, rn h, rn h, pn h, pn h, pn h⟩, fun l => ⟨rfl, rfl⟩,
    fun a b => ⟨rfl, Option.bind_fun_some _, Option.bind_fun_some _⟩⟩

/-! ## Observations -/

section
variable {F L : Type} [FieldBackend F L] [LeakBackend F L] [CTBackend F L]

theorem aniels_equals_ct {a b a' b' : ANiels F} :
    CTP (· = true) (· = true) (Leak.ANiels.equals a b) (Leak.ANiels.equals a' b') := by
  unfold Leak.ANiels.equals
  refine CTP.bind_call fun _ _ => ?_
  simp only [Leak.and_bind]
  have n : ∀ m : Lk Bool, Leak.Never (· = true) (Lk.ite false m (Lk.ret false)) := fun _ =>
    Leak.Never.bind fun _ => Leak.Never.ret (by simp)
  refine CTP.ite_then (n _) (n _) (CTP.bind_true ?_ fun _ _ => CTP.ite_then (Leak.Never.ret (by simp))
    (Leak.Never.ret (by simp)) (CTP.of_ct (R := fun _ _ => True) ?_))
  · ct
  · ct

/-- The forms of the group operations show nothing of the points. -/
theorem C88_trace_group :
    SameTrace (fun _ : EdPt F × EdPt F => True) (fun x => some (Gen.EdPt.op_add2 x.1 x.2))
      (fun x => Leak.EdPt.op_add2 x.1 x.2) ∧
    SameTrace (fun _ : EdPt F × EdPt F => True) (fun x => some (Gen.EdPt.op_add3 x.1 x.2))
      (fun x => Leak.EdPt.op_add3 x.1 x.2) ∧
    SameTrace (fun _ : EdPt F × EdPt F => True) (fun x => some (Gen.EdPt.op_add4 x.1 x.2))
      (fun x => Leak.EdPt.op_add4 x.1 x.2) ∧
    SameTrace (fun _ : EdPt F × EdPt F => True) (fun x => some (Gen.EdPt.op_add_assign x.1 x.2))
      (fun x => Leak.EdPt.op_add_assign x.1 x.2) ∧
    SameTrace (fun _ : EdPt F × EdPt F => True) (fun x => some (Gen.EdPt.op_add_assign2 x.1 x.2))
      (fun x => Leak.EdPt.op_add_assign2 x.1 x.2) ∧
    SameTrace (fun _ : EdPt F × EdPt F => True) (fun x => some (Gen.EdPt.op_sub2 x.1 x.2))
      (fun x => Leak.EdPt.op_sub2 x.1 x.2) ∧
    SameTrace (fun _ : EdPt F × EdPt F => True) (fun x => some (Gen.EdPt.op_sub3 x.1 x.2))
      (fun x => Leak.EdPt.op_sub3 x.1 x.2) ∧
    SameTrace (fun _ : EdPt F × EdPt F => True) (fun x => some (Gen.EdPt.op_sub4 x.1 x.2))
      (fun x => Leak.EdPt.op_sub4 x.1 x.2) ∧
    SameTrace (fun _ : EdPt F × EdPt F => True) (fun x => some (Gen.EdPt.op_sub_assign x.1 x.2))
      (fun x => Leak.EdPt.op_sub_assign x.1 x.2) ∧
    SameTrace (fun _ : EdPt F × EdPt F => True) (fun x => some (Gen.EdPt.op_sub_assign2 x.1 x.2))
      (fun x => Leak.EdPt.op_sub_assign2 x.1 x.2) ∧
    SameTrace (fun _ : EdPt F => True) (fun x => some (Gen.EdPt.op_neg2 x)) Leak.EdPt.op_neg2 ∧
    SameTrace (fun _ : EdPt F => True) (fun x => some (Gen.EdPt.torque x)) Leak.EdPt.torque ∧
    SameTrace (fun _ : DecafPt F × DecafPt F => True) (fun x => some (Gen.DecafPt.op_add2 x.1 x.2))
      (fun x => Leak.DecafPt.op_add2 x.1 x.2) ∧
    SameTrace (fun _ : DecafPt F × DecafPt F => True) (fun x => some (Gen.DecafPt.op_sub2 x.1 x.2))
      (fun x => Leak.DecafPt.op_sub2 x.1 x.2) ∧
    SameTrace (fun _ : DecafPt F × DecafPt F => True) (fun x => some (Gen.DecafPt.sub x.1 x.2))
      (fun x => Leak.DecafPt.sub x.1 x.2) ∧
    SameTrace (fun _ : DecafPt F => True) (fun x => some (Gen.DecafPt.op_neg x)) Leak.DecafPt.op_neg ∧
    SameTrace (fun _ : DecafPt F => True) (fun x => some (Gen.DecafPt.op_neg2 x)) Leak.DecafPt.op_neg2 ∧
    SameTrace (fun _ : RistPt F × RistPt F => True) (fun x => some (Gen.RistPt.equals x.1 x.2))
      (fun x => Leak.RistPt.equals x.1 x.2) :=
  ⟨sameTrace_inst (fun _ _ => inferInstance) (fun _ => inferInstance) fun _ _ => ⟨_, rfl⟩,
    sameTrace_inst (fun _ _ => inferInstance) (fun _ => inferInstance) fun _ _ => ⟨_, rfl⟩,
    sameTrace_inst (fun _ _ => inferInstance) (fun _ => inferInstance) fun _ _ => ⟨_, rfl⟩,
    sameTrace_inst (fun _ _ => inferInstance) (fun _ => inferInstance) fun _ _ => ⟨_, rfl⟩,
    sameTrace_inst (fun _ _ => inferInstance) (fun _ => inferInstance) fun _ _ => ⟨_, rfl⟩,
    sameTrace_inst (fun _ _ => inferInstance) (fun _ => inferInstance) fun _ _ => ⟨_, rfl⟩,
    sameTrace_inst (fun _ _ => inferInstance) (fun _ => inferInstance) fun _ _ => ⟨_, rfl⟩,
    sameTrace_inst (fun _ _ => inferInstance) (fun _ => inferInstance) fun _ _ => ⟨_, rfl⟩,
    sameTrace_inst (fun _ _ => inferInstance) (fun _ => inferInstance) fun _ _ => ⟨_, rfl⟩,
    sameTrace_inst (fun _ _ => inferInstance) (fun _ => inferInstance) fun _ _ => ⟨_, rfl⟩,
    sameTrace_inst (fun _ _ => inferInstance) (fun _ => inferInstance) fun _ _ => ⟨_, rfl⟩,
    sameTrace_inst (fun _ _ => inferInstance) (fun _ => inferInstance) fun _ _ => ⟨_, rfl⟩,
    sameTrace_inst (fun _ _ => inferInstance) (fun _ => inferInstance) fun _ _ => ⟨_, rfl⟩,
    sameTrace_inst (fun _ _ => inferInstance) (fun _ => inferInstance) fun _ _ => ⟨_, rfl⟩,
    sameTrace_inst (fun _ _ => inferInstance) (fun _ => inferInstance) fun _ _ => ⟨_, rfl⟩,
    sameTrace_inst (fun _ _ => inferInstance) (fun _ => inferInstance) fun _ _ => ⟨_, rfl⟩,
    sameTrace_inst (fun _ _ => inferInstance) (fun _ => inferInstance) fun _ _ => ⟨_, rfl⟩,
    sameTrace_inst (fun _ _ => inferInstance) (fun _ => inferInstance) fun _ _ => ⟨_, rfl⟩⟩

/-- The forms of scalar multiplication show nothing of the scalar and of the point. -/
theorem C88_trace_mul :
    SameTrace (fun x : EdPt F × List ℕ => W14 x.2) (fun x => Gen.EdPt.op_mul_Scalar2 x.1 x.2)
      (fun x => Leak.EdPt.op_mul_Scalar2 x.1 x.2) ∧
    SameTrace (fun x : EdPt F × List ℕ => W14 x.2) (fun x => Gen.EdPt.op_mul_Scalar3 x.1 x.2)
      (fun x => Leak.EdPt.op_mul_Scalar3 x.1 x.2) ∧
    SameTrace (fun x : EdPt F × List ℕ => W14 x.2) (fun x => Gen.EdPt.op_mul_Scalar4 x.1 x.2)
      (fun x => Leak.EdPt.op_mul_Scalar4 x.1 x.2) ∧
    SameTrace (fun x : EdPt F × List ℕ => W14 x.2) (fun x => Gen.EdPt.op_mul_assign_Scalar x.1 x.2)
      (fun x => Leak.EdPt.op_mul_assign_Scalar x.1 x.2) ∧
    SameTrace (fun x : EdPt F × List ℕ => W14 x.2) (fun x => Gen.EdPt.op_mul_assign_Scalar2 x.1 x.2)
      (fun x => Leak.EdPt.op_mul_assign_Scalar2 x.1 x.2) ∧
    SameTrace (fun x : EdPt F × List ℕ => W14 x.2) (fun x => Gen.Scalar.op_mul_EdPt x.2 x.1)
      (fun x => Leak.Scalar.op_mul_EdPt x.2 x.1) ∧
    SameTrace (fun x : EdPt F × List ℕ => W14 x.2) (fun x => Gen.Scalar.op_mul_EdPt2 x.2 x.1)
      (fun x => Leak.Scalar.op_mul_EdPt2 x.2 x.1) ∧
    SameTrace (fun x : EdPt F × List ℕ => W14 x.2) (fun x => Gen.Scalar.op_mul_EdPt3 x.2 x.1)
      (fun x => Leak.Scalar.op_mul_EdPt3 x.2 x.1) ∧
    SameTrace (fun x : EdPt F × List ℕ => W14 x.2) (fun x => Gen.Scalar.op_mul_EdPt4 x.2 x.1)
      (fun x => Leak.Scalar.op_mul_EdPt4 x.2 x.1) ∧
    SameTrace (fun x : DecafPt F × List ℕ => W14 x.2) (fun x => Gen.DecafPt.op_mul_Scalar2 x.1 x.2)
      (fun x => Leak.DecafPt.op_mul_Scalar2 x.1 x.2) ∧
    SameTrace (fun x : DecafPt F × List ℕ => W14 x.2) (fun x => Gen.Scalar.op_mul_DecafPt x.2 x.1)
      (fun x => Leak.Scalar.op_mul_DecafPt x.2 x.1) ∧
    SameTrace (fun x : DecafPt F × List ℕ => W14 x.2) (fun x => Gen.Scalar.op_mul_DecafPt2 x.2 x.1)
      (fun x => Leak.Scalar.op_mul_DecafPt2 x.2 x.1) ∧
    SameTrace (fun x : List ℕ × List ℕ => Words 56 256 x.1 ∧ W14 x.2)
      (fun x => Gen.Scalar.op_mul_MontgomeryPoint (F := F) x.2 x.1)
      (fun x => Leak.Scalar.op_mul_MontgomeryPoint (F := F) x.2 x.1) :=
  ⟨sameTrace_inst (fun _ _ => inferInstance) (fun _ => inferInstance) fun x hx =>
      (Leak.scalarMul_some x.1 hx.arr).imp fun _ e => (Source.EdPt_op_mul2 x.1 hx.arr).trans e,
    sameTrace_inst (fun _ _ => inferInstance) (fun _ => inferInstance) fun x hx =>
      (Leak.scalarMul_some x.1 hx.arr).imp fun _ e => (Source.EdPt_op_mul3 x.1 hx.arr).trans e,
    sameTrace_inst (fun _ _ => inferInstance) (fun _ => inferInstance) fun x hx =>
      (Leak.scalarMul_some x.1 hx.arr).imp fun _ e => (Source.EdPt_op_mul4 x.1 hx.arr).trans e,
    sameTrace_inst (fun _ _ => inferInstance) (fun _ => inferInstance) fun x hx =>
      (Leak.scalarMul_some x.1 hx.arr).imp fun _ e => (Source.EdPt_op_mul_assign x.1 hx.arr).trans e,
    sameTrace_inst (fun _ _ => inferInstance) (fun _ => inferInstance) fun x hx =>
      (Leak.scalarMul_some x.1 hx.arr).imp fun _ e => (Source.EdPt_op_mul_assign2 x.1 hx.arr).trans e,
    sameTrace_inst (fun _ _ => inferInstance) (fun _ => inferInstance) fun x hx =>
      (Leak.scalarMul_some x.1 hx.arr).imp fun _ e => (Source.Scalar_op_mul_EdPt x.1 hx.arr).trans e,
    sameTrace_inst (fun _ _ => inferInstance) (fun _ => inferInstance) fun x hx =>
      (Leak.scalarMul_some x.1 hx.arr).imp fun _ e => (Source.Scalar_op_mul_EdPt2 x.1 hx.arr).trans e,
    sameTrace_inst (fun _ _ => inferInstance) (fun _ => inferInstance) fun x hx =>
      (Leak.scalarMul_some x.1 hx.arr).imp fun _ e => (Source.Scalar_op_mul_EdPt3 x.1 hx.arr).trans e,
    sameTrace_inst (fun _ _ => inferInstance) (fun _ => inferInstance) fun x hx =>
      (Leak.scalarMul_some x.1 hx.arr).imp fun _ e => (Source.Scalar_op_mul_EdPt4 x.1 hx.arr).trans e,
    sameTrace_of (fun _ _ hx hy => Leak.decaf_mul_ct (hx.1.trans hy.1.symm)) (fun _ => inferInstance)
      fun x hx => ⟨_, Source.Decaf_op_mul2 x.1 hx.arr⟩,
    sameTrace_of (fun _ _ hx hy => Leak.decaf_mul₁_ct (hx.1.trans hy.1.symm)) (fun _ => inferInstance)
      fun x hx => ⟨_, Source.Scalar_op_mul_Decaf x.1 hx.arr⟩,
    sameTrace_of (fun _ _ hx hy => Leak.decaf_mul₁_ct (hx.1.trans hy.1.symm)) (fun _ => inferInstance)
      fun x hx => ⟨_, Source.Scalar_op_mul_Decaf2 x.1 hx.arr⟩,
    sameTrace_of (fun _ _ hx hy => Leak.ladder'_ct (hx.2.1.trans hy.2.1.symm)) (fun _ => inferInstance)
      fun _ hx => ⟨_, Source.Scalar_mul_Mont hx.1.arr hx.2.arr⟩⟩

/-- The remaining functions on the twisted curve show nothing of the points. -/
theorem C88_trace_twisted :
    SameTrace (fun _ : TwPt F × TwPt F => True) (fun x => some (Gen.TwPt.ct_eq x.1 x.2))
      (fun x => Leak.TwPt.ct_eq x.1 x.2) ∧
    SameTrace (fun _ : TwPt F × TwPt F => True) (fun x => some (Gen.TwPt.eq x.1 x.2))
      (fun x => Leak.TwPt.eq x.1 x.2) ∧
    SameTrace (fun _ : TwPt F => True) (fun x => some (Gen.TwPt.negate x)) Leak.TwPt.negate ∧
    SameTrace (fun _ : TwPt F => True) (fun x => some (Gen.TwPt.torque x)) Leak.TwPt.torque ∧
    SameTrace (fun _ : TwPt F => True) (fun x => some (Gen.TwPt.to_extensible x)) Leak.TwPt.to_extensible ∧
    SameTrace (fun _ : TwExt F × TwExt F => True) (fun x => some (Gen.TwExt.ct_eq x.1 x.2))
      (fun x => Leak.TwExt.ct_eq x.1 x.2) ∧
    SameTrace (fun _ : TwExt F × TwExt F => True) (fun x => some (Gen.TwExt.eq x.1 x.2))
      (fun x => Leak.TwExt.eq x.1 x.2) ∧
    SameTrace (fun _ : TwExt F × TwExt F => True) (fun x => some (Gen.TwExt.add_extensible x.1 x.2))
      (fun x => Leak.TwExt.add_extensible x.1 x.2) ∧
    SameTrace (fun _ : TwExt F × ANiels F => True) (fun x => some (Gen.TwExt.add_affine_niels x.1 x.2))
      (fun x => Leak.TwExt.add_affine_niels x.1 x.2) ∧
    SameTrace (fun _ : TwAff F => True) (fun x => some (Gen.TwAff.is_on_curve x)) Leak.TwAff.is_on_curve ∧
    SameTrace (fun _ : TwAff F => True) (fun x => some (Gen.TwAff.negate x)) Leak.TwAff.negate ∧
    SameTrace (fun _ : TwAff F => True) (fun x => some (Gen.TwAff.to_affine_niels x)) Leak.TwAff.to_affine_niels ∧
    SameTrace (fun _ : TwAff F => True) (fun x => some (Gen.TwAff.to_extended x)) Leak.TwAff.to_extended ∧
    SameTrace (fun _ : TwAff F => True) (fun x => some (Gen.TwAff.to_extensible x)) Leak.TwAff.to_extensible ∧
    SameTrace (fun _ : TwAff F × TwAff F => True) (fun x => Gen.TwAff.add x.1 x.2)
      (fun x => Leak.TwAff.add x.1 x.2) ∧
    SameTrace (fun _ : (ANiels F × ANiels F) × Bool => True) (fun x => some (Gen.ANiels.conditional_select x.1.1 x.1.2 x.2))
      (fun x => Leak.ANiels.conditional_select x.1.1 x.1.2 x.2) ∧
    SameTrace (fun _ : ANiels F => True) (fun x => some (Gen.ANiels.to_extended x)) Leak.ANiels.to_extended ∧
    SameTrace (fun _ : PNiels F => True) (fun x => some (Gen.PNiels.to_extended x)) Leak.PNiels.to_extended ∧
    SameTrace (fun _ : PNiels F × PNiels F => True) (fun x => some (Gen.PNiels.eq x.1 x.2))
      (fun x => Leak.PNiels.eq x.1 x.2) ∧
    SameTrace (fun _ : Unit => True) (fun _ => some (Gen.PNiels.default : PNiels F)) (fun _ => Leak.PNiels.default) ∧
    SameTrace (fun _ : F => True) (fun x => some (Gen.Field.is_zero x)) Leak.Field.is_zero :=
  ⟨sameTrace_inst (fun _ _ => inferInstance) (fun _ => inferInstance) fun _ _ => ⟨_, rfl⟩,
    sameTrace_inst (fun _ _ => inferInstance) (fun _ => inferInstance) fun _ _ => ⟨_, rfl⟩,
    sameTrace_inst (fun _ _ => inferInstance) (fun _ => inferInstance) fun _ _ => ⟨_, rfl⟩,
    sameTrace_inst (fun _ _ => inferInstance) (fun _ => inferInstance) fun _ _ => ⟨_, rfl⟩,
    sameTrace_inst (fun _ _ => inferInstance) (fun _ => inferInstance) fun _ _ => ⟨_, rfl⟩,
    sameTrace_inst (fun _ _ => inferInstance) (fun _ => inferInstance) fun _ _ => ⟨_, rfl⟩,
    sameTrace_inst (fun _ _ => inferInstance) (fun _ => inferInstance) fun _ _ => ⟨_, rfl⟩,
    sameTrace_inst (fun _ _ => inferInstance) (fun _ => inferInstance) fun _ _ => ⟨_, rfl⟩,
    sameTrace_inst (fun _ _ => inferInstance) (fun _ => inferInstance) fun _ _ => ⟨_, rfl⟩,
    sameTrace_inst (fun _ _ => inferInstance) (fun _ => inferInstance) fun _ _ => ⟨_, rfl⟩,
    sameTrace_inst (fun _ _ => inferInstance) (fun _ => inferInstance) fun _ _ => ⟨_, rfl⟩,
    sameTrace_inst (fun _ _ => inferInstance) (fun _ => inferInstance) fun _ _ => ⟨_, rfl⟩,
    sameTrace_inst (fun _ _ => inferInstance) (fun _ => inferInstance) fun _ _ => ⟨_, rfl⟩,
    sameTrace_inst (fun _ _ => inferInstance) (fun _ => inferInstance) fun _ _ => ⟨_, rfl⟩,
    sameTrace_inst (fun _ _ => inferInstance) (fun _ => inferInstance) fun x _ =>
      ⟨_, Source.TwAff_add x.1 x.2⟩,
    sameTrace_inst (fun _ _ => inferInstance) (fun _ => inferInstance) fun _ _ => ⟨_, rfl⟩,
    sameTrace_inst (fun _ _ => inferInstance) (fun _ => inferInstance) fun _ _ => ⟨_, rfl⟩,
    sameTrace_inst (fun _ _ => inferInstance) (fun _ => inferInstance) fun _ _ => ⟨_, rfl⟩,
    sameTrace_inst (fun _ _ => inferInstance) (fun _ => inferInstance) fun _ _ => ⟨_, rfl⟩,
    sameTrace_inst (fun _ _ => inferInstance) (fun _ => inferInstance) fun _ _ => ⟨_, rfl⟩,
    sameTrace_inst (fun _ _ => inferInstance) (fun _ => inferInstance) fun _ _ => ⟨_, rfl⟩⟩

/-- Byte strings: comparisons show nothing of them. -/
theorem C88_trace_bytes :
    SameTrace (fun _ : List ℕ × List ℕ => True) (fun x => some (Gen.MontgomeryPoint.ct_eq x.1 x.2))
      (fun x => Leak.MontgomeryPoint.ct_eq x.1 x.2) ∧
    SameTrace (fun _ : List ℕ × List ℕ => True) (fun x => some (Gen.MontgomeryPoint.eq x.1 x.2))
      (fun x => Leak.MontgomeryPoint.eq x.1 x.2) ∧
    SameTrace (fun _ : List ℕ × List ℕ => True) (fun x => some (Gen.CompressedDecaf.ct_eq x.1 x.2))
      (fun x => Leak.CompressedDecaf.ct_eq x.1 x.2) ∧
    SameTrace (fun _ : List ℕ × List ℕ => True) (fun x => some (Gen.CompressedDecaf.eq x.1 x.2))
      (fun x => Leak.CompressedDecaf.eq x.1 x.2) ∧
    SameTrace (fun _ : List ℕ × List ℕ => True) (fun x => some (Gen.CompressedRistretto.ct_eq x.1 x.2))
      (fun x => Leak.CompressedRistretto.ct_eq x.1 x.2) ∧
    SameTrace (fun _ : List ℕ × List ℕ => True) (fun x => some (Gen.CompressedRistretto.eq x.1 x.2))
      (fun x => Leak.CompressedRistretto.eq x.1 x.2) ∧
    SameTrace (fun _ : List ℕ => True) (fun x => some (Gen.MontgomeryPoint.as_bytes x)) Leak.MontgomeryPoint.as_bytes ∧
    SameTrace (fun _ : List ℕ => True) (fun x => some (Gen.CompressedDecaf.as_bytes x)) Leak.CompressedDecaf.as_bytes ∧
    SameTrace (fun _ : List ℕ => True) (fun x => some (Gen.CompressedRistretto.as_bytes x)) Leak.CompressedRistretto.as_bytes ∧
    SameTrace (Words 56 256) (Gen.MontgomeryPoint.to_projective (F := F))
      (Leak.MontgomeryPoint.to_projective (F := F)) ∧
    (∀ u sign, Leak.MontgomeryPoint.to_edwards (F := F) u sign = none) ∧
    (∀ b, Leak.CompressedRistretto.decode (F := F) b = none) ∧
    (∀ P : RistPt F, Leak.RistPt.encode P = none) :=
  ⟨sameTrace_inst (fun _ _ => inferInstance) (fun _ => inferInstance) fun _ _ => ⟨_, rfl⟩,
    sameTrace_inst (fun _ _ => inferInstance) (fun _ => inferInstance) fun _ _ => ⟨_, rfl⟩,
    sameTrace_inst (fun _ _ => inferInstance) (fun _ => inferInstance) fun _ _ => ⟨_, rfl⟩,
    sameTrace_inst (fun _ _ => inferInstance) (fun _ => inferInstance) fun _ _ => ⟨_, rfl⟩,
    sameTrace_inst (fun _ _ => inferInstance) (fun _ => inferInstance) fun _ _ => ⟨_, rfl⟩,
    sameTrace_inst (fun _ _ => inferInstance) (fun _ => inferInstance) fun _ _ => ⟨_, rfl⟩,
    sameTrace_inst (fun _ _ => inferInstance) (fun _ => inferInstance) fun _ _ => ⟨_, rfl⟩,
    sameTrace_inst (fun _ _ => inferInstance) (fun _ => inferInstance) fun _ _ => ⟨_, rfl⟩,
    sameTrace_inst (fun _ _ => inferInstance) (fun _ => inferInstance) fun _ _ => ⟨_, rfl⟩,
    sameTrace_inst (fun _ _ => inferInstance) (fun _ => inferInstance) fun _ hx =>
      ⟨_, Source.Mont_to_projective hx.arr⟩,
    fun _ _ => rfl,
    fun _ => rfl,
    fun _ => rfl⟩

/-- The tests whether a point is on the curve stop at the first of two equations that fails; of points on
the curve they show nothing. So does the comparison of affine cached points that are equal. -/
theorem C88_trace_on_curve :
    SameTrace (fun P : EdPt F => Gen.EdPt.is_on_curve P = true) (fun P => some (Gen.EdPt.is_on_curve P))
      Leak.EdPt.is_on_curve ∧
    SameTrace (fun P : TwPt F => Gen.TwPt.is_on_curve P = true) (fun P => some (Gen.TwPt.is_on_curve P))
      Leak.TwPt.is_on_curve ∧
    SameTrace (fun x : ANiels F × ANiels F => Gen.ANiels.equals x.1 x.2 = true)
      (fun x => some (Gen.ANiels.equals x.1 x.2)) (fun x => Leak.ANiels.equals x.1 x.2) :=
  ⟨sameTrace (fun _ _ _ _ => Leak.EdPt_is_on_curve_ct) (fun _ => inferInstance) fun _ h => ⟨_, rfl, h⟩,
    sameTrace (fun _ _ _ _ => Leak.TwPt_is_on_curve_ct) (fun _ => inferInstance) fun _ h => ⟨_, rfl, h⟩,
    sameTrace (fun _ _ _ _ => aniels_equals_ct) (fun _ => inferInstance) fun _ h => ⟨_, rfl, h⟩⟩

end

theorem lk_index {l : List ℕ} {i r : ℕ} (h : (Gen.Rt.idx l i).bind some = some r) :
    (Lk.idx l i).bind Lk.ret = some (r, [.index i]) := by
  rw [Option.bind_fun_some] at h
  unfold Lk.idx
  rw [h]
  rfl

theorem lk_index_mut {l : List ℕ} {i v : ℕ} {r : List ℕ} (h : (Gen.Rt.put l i v).bind some = some r) :
    (Lk.put l i v).bind Lk.ret = some (r, [.index i]) := by
  rw [Option.bind_fun_some] at h
  unfold Lk.put
  rw [h]
  rfl

/-- Limbs: whenever these functions return they show nothing of the limbs. An index is seen, as all indices
are. -/
theorem C88_trace_arrays (fns : Fiat.Fns) :
    SameTrace (fun x : List ℕ × List ℕ => ∃ r, Gen.FieldElement28.add_no_reduce x.1 x.2 = some r) (fun x => Gen.FieldElement28.add_no_reduce x.1 x.2)
      (fun x => Leak.FieldElement28.add_no_reduce x.1 x.2) ∧
    SameTrace (fun x : List ℕ => ∃ r, Gen.FieldElement28.weak_reduce x = some r) (fun x => Gen.FieldElement28.weak_reduce x)
      (fun x => Leak.FieldElement28.weak_reduce x) ∧
    (∀ b, SameTrace (fun x : List ℕ => ∃ r, Gen.FieldElement28.bias x b = some r)
      (fun x => Gen.FieldElement28.bias x b) (fun x => Leak.FieldElement28.bias x b)) ∧
    SameTrace (fun _ : List ℕ × List ℕ => True) (fun x => some (Gen.FieldElement28.sub_no_reduce x.1 x.2))
      (fun x => Leak.FieldElement28.sub_no_reduce x.1 x.2) ∧
    SameTrace (fun x : List ℕ × List ℕ => ∃ r, Gen.karatsuba.mul x.1 x.2 = some r) (fun x => Gen.karatsuba.mul x.1 x.2)
      (fun x => Leak.karatsuba.mul x.1 x.2) ∧
    SameTrace (fun x : List ℕ × List ℕ => ∃ r, Gen.FieldElement28.op_mul2 x.1 x.2 = some r) (fun x => Gen.FieldElement28.op_mul2 x.1 x.2)
      (fun x => Leak.FieldElement28.op_mul2 x.1 x.2) ∧
    SameTrace (fun _ : List ℕ => True) (fun x => some (Gen.FieldElement28.from_raw_slice x)) Leak.FieldElement28.from_raw_slice ∧
    SameTrace (fun _ : List ℕ => True) (fun x => some (Gen.FieldElement56.from_raw_slice x)) Leak.FieldElement56.from_raw_slice ∧
    SameTrace (fun x : List ℕ × List ℕ => ∃ r, Gen.FieldElement56.op_mul2 fns x.1 x.2 = some r) (fun x => Gen.FieldElement56.op_mul2 fns x.1 x.2)
      (fun x => Leak.FieldElement56.op_mul2 fns x.1 x.2) ∧
    SameTrace (fun x : List ℕ × List ℕ => ∃ r, Gen.FieldElement56.op_mul3 fns x.1 x.2 = some r) (fun x => Gen.FieldElement56.op_mul3 fns x.1 x.2)
      (fun x => Leak.FieldElement56.op_mul3 fns x.1 x.2) ∧
    SameTrace (fun _ : ℕ => True) (fun x => some (Gen.Scalar.from x)) Leak.Scalar.from ∧
    (∀ (l : List ℕ) (i : ℕ) (r : ℕ), Gen.Scalar.index l i = some r → Leak.Scalar.index l i = some (r, [.index i])) ∧
    (∀ (l : List ℕ) (i v : ℕ) (r : List ℕ), Gen.Scalar.index_mut l i v = some r →
      Leak.Scalar.index_mut l i v = some (r, [.index i])) ∧
    (∀ (l : List ℕ) (i : ℕ) (r : ℕ), Gen.FieldElement28.index l i = some r → Leak.FieldElement28.index l i = some (r, [.index i])) ∧
    (∀ (l : List ℕ) (i v : ℕ) (r : List ℕ), Gen.FieldElement28.index_mut l i v = some r →
      Leak.FieldElement28.index_mut l i v = some (r, [.index i])) ∧
    (∀ (l : List ℕ) (i : ℕ) (r : ℕ), Gen.FieldElement56.index l i = some r → Leak.FieldElement56.index l i = some (r, [.index i])) ∧
    (∀ (l : List ℕ) (i v : ℕ) (r : List ℕ), Gen.FieldElement56.index_mut l i v = some r →
      Leak.FieldElement56.index_mut l i v = some (r, [.index i])) :=
  ⟨sameTrace_inst (fun _ _ => inferInstance) (fun _ => inferInstance) fun _ h => h,
    sameTrace_inst (fun _ _ => inferInstance) (fun _ => inferInstance) fun _ h => h,
    fun _ => sameTrace_inst (fun _ _ => inferInstance) (fun _ => inferInstance) fun _ h => h,
    sameTrace_inst (fun _ _ => inferInstance) (fun _ => inferInstance) fun _ _ => ⟨_, rfl⟩,
    sameTrace_inst (fun _ _ => inferInstance) (fun _ => inferInstance) fun _ h => h,
    sameTrace_inst (fun _ _ => inferInstance) (fun _ => inferInstance) fun _ h => h,
    sameTrace_inst (fun _ _ => inferInstance) (fun _ => inferInstance) fun _ _ => ⟨_, rfl⟩,
    sameTrace_inst (fun _ _ => inferInstance) (fun _ => inferInstance) fun _ _ => ⟨_, rfl⟩,
    sameTrace_inst (fun _ _ => inferInstance) (fun _ => inferInstance) fun _ h => h,
    sameTrace_inst (fun _ _ => inferInstance) (fun _ => inferInstance) fun _ h => h,
    sameTrace_inst (fun _ _ => inferInstance) (fun _ => inferInstance) fun _ _ => ⟨_, rfl⟩,
    fun _ _ _ h => lk_index h,
    fun _ _ _ _ h => lk_index_mut h,
    fun _ _ _ h => lk_index h,
    fun _ _ _ _ h => lk_index_mut h,
    fun _ _ _ h => lk_index h,
    fun _ _ _ _ h => lk_index_mut h⟩

/-! ## Release builds -/

section
variable {F L : Type} [FieldBackend F L]

/-- The forms whose release build is translated separately agree with the debug build. -/
theorem C88_release :
    SameBuild (fun x : EdPt F × List ℕ => W14 x.2) (fun x => Gen.EdPt.op_mul_Scalar2 x.1 x.2)
      (fun x => Rel.EdPt.op_mul_Scalar2 x.1 x.2) ∧
    SameBuild (fun x : EdPt F × List ℕ => W14 x.2) (fun x => Gen.EdPt.op_mul_Scalar3 x.1 x.2)
      (fun x => Rel.EdPt.op_mul_Scalar3 x.1 x.2) ∧
    SameBuild (fun x : EdPt F × List ℕ => W14 x.2) (fun x => Gen.EdPt.op_mul_Scalar4 x.1 x.2)
      (fun x => Rel.EdPt.op_mul_Scalar4 x.1 x.2) ∧
    SameBuild (fun x : EdPt F × List ℕ => W14 x.2) (fun x => Gen.EdPt.op_mul_assign_Scalar2 x.1 x.2)
      (fun x => Rel.EdPt.op_mul_assign_Scalar2 x.1 x.2) ∧
    SameBuild (fun x : EdPt F × List ℕ => W14 x.2) (fun x => Gen.Scalar.op_mul_EdPt2 x.2 x.1)
      (fun x => Rel.Scalar.op_mul_EdPt2 x.2 x.1) ∧
    SameBuild (fun x : EdPt F × List ℕ => W14 x.2) (fun x => Gen.Scalar.op_mul_EdPt3 x.2 x.1)
      (fun x => Rel.Scalar.op_mul_EdPt3 x.2 x.1) ∧
    SameBuild (fun x : EdPt F × List ℕ => W14 x.2) (fun x => Gen.Scalar.op_mul_EdPt4 x.2 x.1)
      (fun x => Rel.Scalar.op_mul_EdPt4 x.2 x.1) ∧
    SameBuild (fun x : DecafPt F × List ℕ => W14 x.2) (fun x => Gen.DecafPt.op_mul_Scalar2 x.1 x.2)
      (fun x => Rel.DecafPt.op_mul_Scalar2 x.1 x.2) ∧
    SameBuild (fun x : DecafPt F × List ℕ => W14 x.2) (fun x => Gen.Scalar.op_mul_DecafPt2 x.2 x.1)
      (fun x => Rel.Scalar.op_mul_DecafPt2 x.2 x.1) ∧
    SameBuild Limbs28₂ (fun x => Gen.FieldElement28.op_mul2 x.1 x.2)
      (fun x => Rel.FieldElement28.op_mul2 x.1 x.2) :=
  ⟨sameBuild (fun _ => inferInstance) fun x hx => (Leak.scalarMul_some x.1 hx.arr).imp fun _ e =>
      (Source.EdPt_op_mul2 x.1 hx.arr).trans e,
    sameBuild (fun _ => inferInstance) fun x hx => (Leak.scalarMul_some x.1 hx.arr).imp fun _ e =>
      (Source.EdPt_op_mul3 x.1 hx.arr).trans e,
    sameBuild (fun _ => inferInstance) fun x hx => (Leak.scalarMul_some x.1 hx.arr).imp fun _ e =>
      (Source.EdPt_op_mul4 x.1 hx.arr).trans e,
    sameBuild (fun _ => inferInstance) fun x hx => (Leak.scalarMul_some x.1 hx.arr).imp fun _ e =>
      (Source.EdPt_op_mul_assign2 x.1 hx.arr).trans e,
    sameBuild (fun _ => inferInstance) fun x hx => (Leak.scalarMul_some x.1 hx.arr).imp fun _ e =>
      (Source.Scalar_op_mul_EdPt2 x.1 hx.arr).trans e,
    sameBuild (fun _ => inferInstance) fun x hx => (Leak.scalarMul_some x.1 hx.arr).imp fun _ e =>
      (Source.Scalar_op_mul_EdPt3 x.1 hx.arr).trans e,
    sameBuild (fun _ => inferInstance) fun x hx => (Leak.scalarMul_some x.1 hx.arr).imp fun _ e =>
      (Source.Scalar_op_mul_EdPt4 x.1 hx.arr).trans e,
    sameBuild (fun _ => inferInstance) fun x hx => ⟨_, Source.Decaf_op_mul2 x.1 hx.arr⟩,
    sameBuild (fun _ => inferInstance) fun x hx => ⟨_, Source.Scalar_op_mul_Decaf2 x.1 hx.arr⟩,
    C76_release_field_u32.2.2.1⟩

end

/-! ## Examples -/

/-- `B + B` by assignment is `2 B`, and `B - B` on references is the identity. -/
example : Rep (Gen.EdPt.op_add_assign Gen.EdPt.generator (Gen.EdPt.generator : EdPt U32.Fe)) (2 • G) ∧
    Rep (Gen.EdPt.op_sub4 Gen.EdPt.generator (Gen.EdPt.generator : EdPt U32.Fe)) 0 := by
  obtain ⟨⟨-, -, -, -, h, -⟩, ⟨-, -, -, k, -⟩, -⟩ :=
    C88_edwards (rep_generator (F := U32.Fe)) rep_generator
  exact ⟨two_nsmul G ▸ h, sub_self G ▸ k⟩

/-- `s B` and `B s` for the scalar with all bits set. -/
example : ∃ r : EdPt U32.Fe, Gen.Scalar.op_mul_EdPt3 allOnes.l Gen.EdPt.generator = some r ∧
    Gen.EdPt.op_mul_assign_Scalar Gen.EdPt.generator allOnes.l = some r := by
  obtain ⟨-, -, -, -, h⟩ := C88_edwards (rep_generator (F := U32.Fe)) rep_generator
  obtain ⟨r, -, -, -, -, -, e, -, -, -, e', -⟩ := h allOnes.l (Arr.words allOnes)
  exact ⟨r, e', e⟩

/-- In Decaf `G - G` is the identity in every form, and `G` is not. -/
example : Gen.DecafPt.equals (Gen.DecafPt.op_sub2 Gen.DecafPt.generator Gen.DecafPt.generator)
      (Gen.DecafPt.op_sub Gen.DecafPt.identity (Gen.DecafPt.identity : DecafPt U32.Fe)) = true ∧
    Gen.DecafPt.equals (Gen.DecafPt.generator : DecafPt U32.Fe) Gen.DecafPt.identity = false := by
  decide +kernel

/-- The identity of the twisted curve is on it, so cached points can be compared. -/
example : Gen.PNiels.eq (Gen.TwExt.to_projective_niels (Gen.TwPt.to_extensible Gen.TwPt.generator))
      (Gen.PNiels.default : PNiels U32.Fe) = false ∧
    Gen.PNiels.eq (Gen.TwExt.to_projective_niels (Gen.TwPt.to_extensible Gen.TwPt.identity))
      (Gen.PNiels.default : PNiels U32.Fe) = true := by decide +kernel

example : Gen.MontgomeryPoint.eq Gen.MontgomeryPoint.generator (List.replicate 56 0) = false ∧
    Gen.MontgomeryPoint.as_bytes Gen.MontgomeryPoint.generator = 5 :: List.replicate 55 0 := by
  decide +kernel

example : Gen.Scalar.index allOnes.l 13 = some (2 ^ 32 - 1) ∧ Gen.Scalar.index allOnes.l 14 = none ∧
    Gen.Scalar.index_mut Gen.Scalar.zero 1 7 = some (0 :: 7 :: List.replicate 12 0) := by decide +kernel

/-- The comparison of affine cached points stops at the first difference: the observer sees where. -/
example : (Leak.ANiels.equals (Gen.TwAff.to_affine_niels Gen.TwAff.identity)
      (Gen.TwAff.to_affine_niels (Gen.TwAff.identity : TwAff U32.Fe))).tr ≠
    (Leak.ANiels.equals (Gen.TwAff.to_affine_niels Gen.TwAff.identity)
      (⟨FieldBackend.zero, FieldBackend.one, FieldBackend.zero⟩ : ANiels U32.Fe)).tr := by decide +kernel

/-- An index is seen. -/
example : (Leak.Scalar.index allOnes.l 3).tr = [.index 3] ∧
    (Leak.Scalar.index allOnes.l 3).tr ≠ (Leak.Scalar.index allOnes.l 4).tr := by decide +kernel

/-- The release build of `s B` on references. -/
example : ∃ r : EdPt U32.Fe, Gen.Scalar.op_mul_EdPt4 allOnes.l Gen.EdPt.generator = some r ∧
    Rel.Scalar.op_mul_EdPt4 allOnes.l Gen.EdPt.generator = some r := by
  obtain ⟨-, -, -, -, -, -, h, -⟩ := C88_release (F := U32.Fe)
  exact h (Gen.EdPt.generator, allOnes.l) (Arr.words allOnes)

end Ed448.Props
