import Verif.Proofs.LeakEraseCurve
import Verif.Proofs.LeakCurve
import Verif.Proofs.Trace
import Verif.Props.Source

/-!
# Observations of the two field backends

The observations attached to the field interface are those of the translated backends: of
src/field/u32, and of the wrapper src/field/fiat_u64 around the external functions, which are assumed
to show nothing.
-/

namespace Ed448.Leak
open Ed448.Model Ed448.Props Ed448.Proofs

/-- Equal observations of two computations that return. -/
theorem tr_eq {α β : Type} {m : Lk α} {n : Lk β} {o : Option α} {o' : Option β} {a : α} {b : β}
    (h : CTT m n) (hm : Er m o) (hn : Er n o') (ha : o = some a) (hb : o' = some b) : m.tr = n.tr := by
  obtain ⟨⟨a', t⟩, rfl, -⟩ := Option.map_eq_some_iff.mp (hm.er.trans ha)
  obtain ⟨⟨b', u⟩, rfl, -⟩ := Option.map_eq_some_iff.mp (hn.er.trans hb)
  exact (h.ct _ _ _ _ rfl rfl).1

instance : LeakBackend U32.Fe U32.Fe where
  mulTr a b := (FieldElement28.op_mul a.1.l b.1.l).tr
  squareTr a := (FieldElement28.square a.1.l).tr
  addTr a b := (FieldElement28.op_add a.1.l b.1.l).tr
  subTr a b := (FieldElement28.op_sub a.1.l b.1.l).tr
  negateTr a := (FieldElement28.negate a.1.l).tr
  selectTr a b c := (FieldElement28.conditional_select a.1.l b.1.l c).tr
  strongReduceTr a := (FieldElement28.strong_reduce a.1.l).tr
  fromBytesTr b := (FieldElement28.from_bytes b.l).tr
  toBytesTr a := (FieldElement28.to_bytes a.1.l).tr

instance : CTBackend U32.Fe U32.Fe where
  mul a b c d := tr_eq inferInstance inferInstance inferInstance (C66_source_backend_u32.1 a b).1
    (C66_source_backend_u32.1 c d).1
  square a c := tr_eq inferInstance inferInstance inferInstance (C66_source_backend_u32.2.1 a).1
    (C66_source_backend_u32.2.1 c).1
  add a b c d := tr_eq inferInstance inferInstance inferInstance (C66_source_backend_u32.1 a b).2.1
    (C66_source_backend_u32.1 c d).2.1
  sub a b c d := tr_eq inferInstance inferInstance inferInstance (C66_source_backend_u32.1 a b).2.2.1
    (C66_source_backend_u32.1 c d).2.2.1
  negate a c := tr_eq inferInstance inferInstance inferInstance (C66_source_backend_u32.2.1 a).2.1
    (C66_source_backend_u32.2.1 c).2.1
  select _ _ _ _ _ _ := tr_eq inferInstance inferInstance inferInstance rfl rfl
  strongReduce a c := tr_eq inferInstance inferInstance inferInstance
    (C66_source_backend_u32.2.1 a).2.2.1 (C66_source_backend_u32.2.1 c).2.2.1
  fromBytes a c := tr_eq inferInstance inferInstance inferInstance
    (C66_source_backend_u32.2.2.1 a) (C66_source_backend_u32.2.2.1 c)
  toBytes a c := tr_eq inferInstance inferInstance inferInstance
    (C66_source_backend_u32.2.1 a).2.2.2.1 (C66_source_backend_u32.2.1 c).2.2.2.1

variable {I : Fiat.Impl}

instance : LeakBackend (Fiat.Fe I) (Fiat.LFe I) where
  mulTr a b := (FieldElement56.op_mul I.f a.a.l b.a.l).tr
  squareTr a := (FieldElement56.square I.f a.a.l).tr
  addTr a b := (FieldElement56.op_add I.f a.a.l b.a.l).tr
  subTr a b := (FieldElement56.op_sub I.f a.a.l b.a.l).tr
  negateTr a := (FieldElement56.negate I.f a.a.l).tr
  selectTr a b c := (FieldElement56.conditional_select I.f a.a.l b.a.l c).tr
  strongReduceTr a := (FieldElement56.strong_reduce I.f a.a.l).tr
  fromBytesTr b := (FieldElement56.from_bytes I.f b.l).tr
  toBytesTr a := (FieldElement56.to_bytes I.f a.a.l).tr

theorem fiat_mul_some (a b : Fiat.LFe I) : ∃ r, Gen.FieldElement56.op_mul I.f a.a.l b.a.l = some r := by
  obtain ⟨r, h, -⟩ := Fiat.mul_loose I.contract I.copies a.h b.h
  exact ⟨r.l, (Source.fiat_mul _ a.a b.a).trans (by rw [h]; rfl)⟩

theorem fiat_square_some (a : Fiat.LFe I) : ∃ r, Gen.FieldElement56.square I.f a.a.l = some r := by
  obtain ⟨r, h, -⟩ := Fiat.square_loose I.contract I.copies a.h
  exact ⟨r.l, (Source.fiat_square _ a.a).trans (by rw [h]; rfl)⟩

instance : CTBackend (Fiat.Fe I) (Fiat.LFe I) where
  mul a b c d := tr_eq inferInstance inferInstance inferInstance (fiat_mul_some a b).choose_spec
    (fiat_mul_some c d).choose_spec
  square a c := tr_eq inferInstance inferInstance inferInstance (fiat_square_some a).choose_spec
    (fiat_square_some c).choose_spec
  add a b c d := tr_eq inferInstance inferInstance inferInstance
    ((C66_source_backend_fiat I).1 a b).2.1 ((C66_source_backend_fiat I).1 c d).2.1
  sub a b c d := tr_eq inferInstance inferInstance inferInstance
    ((C66_source_backend_fiat I).1 a b).2.2.1 ((C66_source_backend_fiat I).1 c d).2.2.1
  negate a c := tr_eq inferInstance inferInstance inferInstance
    ((C66_source_backend_fiat I).2.1 a).2.1 ((C66_source_backend_fiat I).2.1 c).2.1
  select a b s c d t := tr_eq inferInstance inferInstance inferInstance
    (((C66_source_backend_fiat I).1 a b).2.2.2 s) (((C66_source_backend_fiat I).1 c d).2.2.2 t)
  strongReduce a c := tr_eq inferInstance inferInstance inferInstance
    ((C66_source_backend_fiat I).2.1 a).2.2.1 ((C66_source_backend_fiat I).2.1 c).2.2.1
  fromBytes a c := tr_eq inferInstance inferInstance inferInstance
    ((C66_source_backend_fiat I).2.2.1 a) ((C66_source_backend_fiat I).2.2.1 c)
  toBytes a c := tr_eq inferInstance inferInstance inferInstance
    ((C66_source_backend_fiat I).2.1 a).2.2.2.1 ((C66_source_backend_fiat I).2.1 c).2.2.2.1

/-! ### The multiplication routines return on any coordinates -/

variable {F L : Type} [FieldBackend F L]

theorem vbLoop_some (t : List (PNiels F)) : ∀ (a : List ℤ) (r : TwExt F),
    (∀ x ∈ a, -8 ≤ x ∧ x ≤ 8) → ∃ s, vbLoop t a r = some s
  | [], r, _ => ⟨r, rfl⟩
  | x :: a, r, ha => by
    obtain ⟨d, e⟩ := Option.isSome_iff_exists.mp
      (digitAbs_some x (ha x (by simp)).1 (ha x (by simp)).2)
    obtain ⟨s, h⟩ := vbLoop_some t a (vbStep t r d.1 d.2) fun z hz => ha z (by simp [hz])
    exact ⟨s, by rw [vbLoop, e, Option.bind_some, h]⟩

theorem variableBase_some (P : TwPt F) (s : Scalar) : ∃ r, variableBase P s = some r := by
  obtain ⟨a, e, -, h⟩ := radix_bounds s
  obtain ⟨r, hr⟩ := vbLoop_some (lookupTable P) a.reverse TwExt.identity h
  exact ⟨r.toExtended, by rw [variableBase, e, Option.bind_some, hr]; rfl⟩

theorem scalarMul_some (P : EdPt F) (s : Scalar) : ∃ r, P.scalarMul s = some r := by
  obtain ⟨q, e, -⟩ := s.divByFour_spec
  obtain ⟨r, h⟩ := variableBase_some P.toTwisted q
  simp only [EdPt.scalarMul, e, Option.bind_some, h]
  exact ⟨_, rfl⟩

end Ed448.Leak
