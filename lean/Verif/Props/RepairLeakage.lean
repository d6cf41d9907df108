import Verif.Proofs.FixLeak
import Verif.Props.Repairs
import Verif.Props.Release

/-!
# The repaired source: constant time and release builds (C83)

The functions changed by the patches in repairs/, translated with their leakage
(`Verif.Gen.FixLeak`) and with wrapping arithmetic (`Verif.Gen.FixRel`).
-/

namespace Ed448.Props
open Ed448.Model Ed448.Edw Ed448.Proofs
open Leak (Lk Ev Er CT CTT CTP LeakBackend CTBackend)

set_option exponentiation.threshold 1000
set_option maxRecDepth 10000

theorem fix_op_add_some {a b : List ℕ} (h : W14₂ (a, b)) : ∃ r, Gen.Fix.Scalar.op_add a b = some r := by
  obtain ⟨⟨r, e, -⟩, -⟩ := C77_scalars h.1.arr h.2.arr (Arr.ofVal 114 256 (by norm_num) 0)
  exact ⟨_, e⟩

theorem fix_op_sub_some {a b : List ℕ} (h : W14₂ (a, b)) : ∃ r, Gen.Fix.Scalar.op_sub a b = some r := by
  obtain ⟨-, ⟨r, e, -⟩, -⟩ := C77_scalars h.1.arr h.2.arr (Arr.ofVal 114 256 (by norm_num) 0)
  exact ⟨_, e⟩

theorem fix_wide_some {w : List ℕ} (h : Words 114 256 w) :
    ∃ r, Gen.Fix.Scalar.from_bytes_mod_order_wide w = some r := by
  obtain ⟨-, -, r, e, -⟩ := C77_scalars Scalar.zero Scalar.zero h.arr
  exact ⟨_, e⟩

/-- The repaired addition, subtraction and wide reduction: one list of observations for all inputs.
For the source as it is, C68 has this for addition and subtraction of reduced operands only. -/
theorem C83_scalars :
    SameTrace W14₂ (fun x => Gen.Fix.Scalar.op_add x.1 x.2) (fun x => Leak.Fix.Scalar.op_add x.1 x.2) ∧
    SameTrace W14₂ (fun x => Gen.Fix.Scalar.op_sub x.1 x.2) (fun x => Leak.Fix.Scalar.op_sub x.1 x.2) ∧
    SameTrace (Words 114 256) Gen.Fix.Scalar.from_bytes_mod_order_wide
      Leak.Fix.Scalar.from_bytes_mod_order_wide :=
  ⟨sameTrace_inst (fun _ _ => inferInstance) (fun _ => inferInstance) fun _ h => fix_op_add_some h,
    sameTrace_inst (fun _ _ => inferInstance) (fun _ => inferInstance) fun _ h => fix_op_sub_some h,
    sameTrace_inst (fun _ _ => inferInstance) (fun _ => inferInstance) fun _ h => fix_wide_some h⟩

/-- The release build of the repaired scalar arithmetic. -/
theorem C83_release_scalars :
    SameBuild W14₂ (fun x => Gen.Fix.Scalar.op_add x.1 x.2) (fun x => Rel.Fix.Scalar.op_add x.1 x.2) ∧
    SameBuild W14₂ (fun x => Gen.Fix.Scalar.op_sub x.1 x.2) (fun x => Rel.Fix.Scalar.op_sub x.1 x.2) ∧
    SameBuild (Words 114 256) Gen.Fix.Scalar.from_bytes_mod_order_wide
      Rel.Fix.Scalar.from_bytes_mod_order_wide :=
  ⟨sameBuild (fun _ => inferInstance) fun _ h => fix_op_add_some h,
    sameBuild (fun _ => inferInstance) fun _ h => fix_op_sub_some h,
    sameBuild (fun _ => inferInstance) fun _ h => fix_wide_some h⟩

/-- The sum of two scalars that are not reduced, in a release build. -/
example : ∃ r : Scalar, Rel.Fix.Scalar.op_add allOnes.l allOnes.l = some r.l ∧
    r.val = (allOnes.val + allOnes.val) % ell := by
  obtain ⟨⟨r, e, h⟩, -⟩ := C77_scalars allOnes allOnes (Arr.ofVal 114 256 (by norm_num) 0)
  obtain ⟨r', e', k⟩ := C83_release_scalars.1 (allOnes.l, allOnes.l)
    ⟨Arr.words allOnes, Arr.words allOnes⟩
  obtain rfl := Option.some.inj (e'.symm.trans e)
  exact ⟨r, k, h⟩

/-- Nothing is seen of the operands, reduced or not. -/
example : (Leak.Fix.Scalar.op_add allOnes.l allOnes.l).tr =
    (Leak.Fix.Scalar.op_add Gen.Scalar.zero (smallScalar 1).l).tr := by
  obtain ⟨T, h⟩ := C83_scalars.1
  obtain ⟨r, -, e⟩ := h (allOnes.l, allOnes.l) ⟨Arr.words allOnes, Arr.words allOnes⟩
  obtain ⟨r', -, e'⟩ := h (Gen.Scalar.zero, (smallScalar 1).l)
    ⟨Arr.words Scalar.zero, Arr.words (smallScalar 1)⟩
  exact (congrArg Lk.tr e).trans (congrArg Lk.tr e').symm

variable {F L : Type} [FieldBackend F L]

theorem fix_ladder_some [Lawful F] {x : List ℕ × List ℕ} (h : Words 56 256 x.1 ∧ W14 x.2) :
    ∃ r, Gen.Fix.MontgomeryPoint.op_mul_Scalar (F := F) x.1 x.2 = some r :=
  ⟨_, fix_ladder h.1.arr h.2.arr⟩

theorem fix_ladder'_some [Lawful F] {x : List ℕ × List ℕ} (h : Words 56 256 x.1 ∧ W14 x.2) :
    ∃ r, Gen.Fix.Scalar.op_mul_MontgomeryPoint (F := F) x.2 x.1 = some r :=
  ⟨_, Source.bind_of_eq (fix_ladder h.1.arr h.2.arr) _⟩

/-- The repaired ladder in both orders and the decoder, in a release build. -/
theorem C83_release_curve [Lawful F] :
    SameBuild (fun x : List ℕ × List ℕ => Words 56 256 x.1 ∧ W14 x.2)
      (fun x => Gen.Fix.MontgomeryPoint.op_mul_Scalar (F := F) x.1 x.2)
      (fun x => Rel.Fix.MontgomeryPoint.op_mul_Scalar (F := F) x.1 x.2) ∧
    SameBuild (fun x : List ℕ × List ℕ => Words 56 256 x.1 ∧ W14 x.2)
      (fun x => Gen.Fix.Scalar.op_mul_MontgomeryPoint (F := F) x.2 x.1)
      (fun x => Rel.Fix.Scalar.op_mul_MontgomeryPoint (F := F) x.2 x.1) ∧
    SameBuild (Words 57 256) (Gen.Fix.CompressedEdwardsY.decompress (F := F))
      Rel.Fix.CompressedEdwardsY.decompress :=
  ⟨sameBuild (fun _ => inferInstance) fun _ h => fix_ladder_some h,
    sameBuild (fun _ => inferInstance) fun _ h => fix_ladder'_some h,
    sameBuild (fun _ => inferInstance) fun _ h => ⟨_, fix_decompress h.arr⟩⟩

variable [LeakBackend F L] [CTBackend F L]

/-- The repaired ladder: neither the scalar nor the point has an influence on what is observed. -/
theorem C83_ladder [Lawful F] :
    SameTrace (fun x : List ℕ × List ℕ => Words 56 256 x.1 ∧ W14 x.2)
      (fun x => Gen.Fix.MontgomeryPoint.op_mul_Scalar (F := F) x.1 x.2)
      (fun x => Leak.Fix.MontgomeryPoint.op_mul_Scalar (F := F) x.1 x.2) ∧
    SameTrace (fun x : List ℕ × List ℕ => Words 56 256 x.1 ∧ W14 x.2)
      (fun x => Gen.Fix.Scalar.op_mul_MontgomeryPoint (F := F) x.2 x.1)
      (fun x => Leak.Fix.Scalar.op_mul_MontgomeryPoint (F := F) x.2 x.1) :=
  ⟨sameTrace_of (fun _ _ hx hy => Leak.Fix.ladder_ct (hx.2.1.trans hy.2.1.symm))
      (fun _ => inferInstance) fun _ h => fix_ladder_some h,
    sameTrace_of (fun _ _ hx hy => Leak.Fix.ladder'_ct (hx.2.1.trans hy.2.1.symm))
      (fun _ => inferInstance) fun _ h => fix_ladder'_some h⟩

/-- The repaired operations on cached points, for any coordinates. -/
theorem C83_cached :
    SameTrace (fun _ : TwExt F × ANiels F => True)
      (fun x => some (Gen.Fix.TwExt.add_affine_niels x.1 x.2))
      (fun x => Leak.Fix.TwExt.add_affine_niels x.1 x.2) ∧
    SameTrace (fun _ : TwAff F => True) (fun x => some (Gen.Fix.TwAff.to_affine_niels x))
      Leak.Fix.TwAff.to_affine_niels ∧
    SameTrace (fun _ : ANiels F => True) (fun x => some (Gen.Fix.ANiels.to_extended x))
      Leak.Fix.ANiels.to_extended :=
  ⟨sameTrace_inst (fun _ _ => inferInstance) (fun _ => inferInstance) fun _ _ => ⟨_, rfl⟩,
    sameTrace_inst (fun _ _ => inferInstance) (fun _ => inferInstance) fun _ _ => ⟨_, rfl⟩,
    sameTrace_inst (fun _ _ => inferInstance) (fun _ => inferInstance) fun _ _ => ⟨_, rfl⟩⟩

omit [FieldBackend F L] [LeakBackend F L] [CTBackend F L] in
theorem lk_bind {α β : Type} {m : Lk α} {f : α → Lk β} {a : α} {c : β} {t u : List Ev}
    (h : m = some (a, t)) (k : f a = some (c, u)) : m.bind f = some (c, t ++ u) := by
  subst h
  show Option.map (fun q => (q.1, t ++ q.2)) (f a) = _
  rw [k]
  rfl

/-- The repaired decoder shows which of three things happened and nothing else: there is no square
root; there is one but the string is not the encoding of the point; the string is accepted. -/
theorem C83_decompress : ∃ T U : List Ev, ∀ b : Bytes 57,
    (Gen.CompressedEdwardsY.decompress b.l = some (none : Option (EdPt F)) →
      Leak.Fix.CompressedEdwardsY.decompress (F := F) b.l = some (none, T)) ∧
    (∀ P : EdPt F, Gen.CompressedEdwardsY.decompress b.l = some (some P) →
      (Gen.EdPt.compress P = some b.l → Leak.Fix.CompressedEdwardsY.decompress (F := F) b.l =
        some (some P, U ++ [.branch false])) ∧
      (Gen.EdPt.compress P ≠ some b.l → Leak.Fix.CompressedEdwardsY.decompress (F := F) b.l =
        some (none, U ++ [.branch true]))) := by
  obtain ⟨⟨Tc, hc⟩, -, ⟨Ta, ha⟩, ⟨Tr, hr⟩, -⟩ := C69_codec (F := F)
  refine ⟨Tr, Ta ++ Tc, fun b => ⟨fun h => ?_, fun P h => ?_⟩⟩
  · obtain ⟨r, e, k⟩ := hr b.l ⟨Arr.words b, h⟩
    obtain rfl := Option.some.inj (e.symm.trans h)
    rw [Leak.Fix.decompress_eq, k]
    exact congrArg some (Prod.ext rfl (List.append_nil _))
  · obtain ⟨r, e, k⟩ := ha b.l ⟨Arr.words b, P, h⟩
    obtain rfl := Option.some.inj (e.symm.trans h)
    obtain ⟨c, ec, kc⟩ := hc P trivial
    rw [Leak.Fix.decompress_eq, ec, List.append_assoc, List.append_assoc]
    constructor
    · intro h1
      obtain rfl := Option.some.inj h1
      refine lk_bind k (lk_bind kc ?_)
      rw [beq_self_eq_true]
      rfl
    · intro h1
      refine lk_bind k (lk_bind kc ?_)
      rw [beq_eq_false_iff_ne.mpr fun h => h1 (congrArg some h)]
      rfl

/-- The repaired test for low order shows which of the three encodings the reduced coordinate is, and
nothing else. -/
theorem C83_low_order : ∃ T : List Ev, ∀ u : Bytes 56, ∃ v : Bytes 56,
    v = FieldBackend.toBytes (FieldBackend.fromBytes u : F) ∧
    Leak.Fix.MontgomeryPoint.is_low_order (F := F) u.l = some (isLowOrder v,
      T ++ [.branch (v.l == Gen.C.LOW_A), .branch (v.l == Gen.C.LOW_A || v.l == Gen.C.LOW_B)]) := by
  refine ⟨LeakBackend.fromBytesTr F (Arr.ofVal 56 256 (by norm_num) 0) ++
    LeakBackend.toBytesTr (FieldBackend.one : F), fun u => ⟨_, rfl, ?_⟩⟩
  rw [CTBackend.fromBytes (F := F) _ u, CTBackend.toBytes _ (FieldBackend.fromBytes u : F)]
  have e : Lk.fieldFromBytes F u.l = some (FieldBackend.fromBytes u, LeakBackend.fromBytesTr F u) := by
    unfold Lk.fieldFromBytes
    rw [Source.ofList_l]
    rfl
  unfold Leak.Fix.MontgomeryPoint.is_low_order
  rw [e]
  have hA : LOW_A = Gen.C.LOW_A := by decide +kernel
  have hB : LOW_B = Gen.C.LOW_B := by decide +kernel
  have hC : LOW_C = Gen.C.LOW_C := by decide +kernel
  unfold isLowOrder Gen.MontgomeryPoint.eq Gen.MontgomeryPoint.ct_eq
  rw [hA, hB, hC]
  show Option.map (fun q => (q.1, LeakBackend.fromBytesTr F u ++ q.2))
      (Option.map (fun q => (q.1, LeakBackend.toBytesTr (FieldBackend.fromBytes u : F) ++ q.2))
      (((Lk.or ((FieldBackend.toBytes (FieldBackend.fromBytes u : F)).l == Gen.C.LOW_A)
        (Lk.ret ((FieldBackend.toBytes (FieldBackend.fromBytes u : F)).l == Gen.C.LOW_B))).bind fun τ3 =>
          (Lk.or τ3 (Lk.ret ((FieldBackend.toBytes (FieldBackend.fromBytes u : F)).l ==
            Gen.C.LOW_C))).bind fun τ4 => Lk.ret τ4))) = _
  generalize LeakBackend.fromBytesTr F u = t₁
  generalize LeakBackend.toBytesTr (FieldBackend.fromBytes u : F) = t₂
  generalize ((FieldBackend.toBytes (FieldBackend.fromBytes u : F)).l == Gen.C.LOW_A) = a
  generalize ((FieldBackend.toBytes (FieldBackend.fromBytes u : F)).l == Gen.C.LOW_B) = b
  generalize ((FieldBackend.toBytes (FieldBackend.fromBytes u : F)).l == Gen.C.LOW_C) = c
  cases a <;> cases b <;> cases c <;>
    exact congrArg some (Prod.ext rfl (List.append_assoc t₁ t₂ _).symm)

/-- The repaired ladder on the 32-bit backend: the observer sees the same for the scalars `0` and
`2^448 - 1`. -/
example : (Leak.Fix.MontgomeryPoint.op_mul_Scalar (F := U32.Fe) montGenerator.l Gen.Scalar.zero).tr =
    (Leak.Fix.MontgomeryPoint.op_mul_Scalar (F := U32.Fe) montGenerator.l allOnes.l).tr := by
  obtain ⟨⟨T, h⟩, -⟩ := C83_ladder (F := U32.Fe)
  obtain ⟨r, -, e⟩ := h (montGenerator.l, Gen.Scalar.zero) ⟨Arr.words _, Arr.words Scalar.zero⟩
  obtain ⟨r', -, e'⟩ := h (montGenerator.l, allOnes.l) ⟨Arr.words _, Arr.words allOnes⟩
  exact (congrArg Lk.tr e).trans (congrArg Lk.tr e').symm

/-- `1 * 5 = 5` in a release build of the repaired source. -/
example : Rel.Fix.MontgomeryPoint.op_mul_Scalar (F := U32.Fe) montGenerator.l (smallScalar 1).l =
    some montGenerator.l := by
  classical
  obtain ⟨P, -, hP⟩ := exists_point (montGenerator.val : Fp)
  obtain ⟨r, e, -, h, hr⟩ := C77_ladder (F := U32.Fe) P montGenerator (smallScalar 1) hP.symm
  obtain ⟨r', e', k⟩ := (C83_release_curve (F := U32.Fe)).1 (montGenerator.l, (smallScalar 1).l)
    ⟨Arr.words _, Arr.words _⟩
  obtain rfl := Option.some.inj (e'.symm.trans e)
  rw [smallScalar_val 1 (by norm_num), one_nsmul, hP] at h
  rw [← bytes_ext hr (by rw [montGenerator_val, p_lit]; norm_num)
    ((algebraMap Fp (AlgebraicClosure Fp)).injective h)] at k ⊢
  exact k

end Ed448.Props
