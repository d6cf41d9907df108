import Verif.Proofs.ScalarMul

/-! # Inversion of `scalar.rs`: the loop is data independent, so it is run on exponents. -/

namespace Ed448.Model

section
variable {S T : Type} (Rel : S → T → Prop) (mm : S → S → Option S) (mm' : T → T → Option T)

/-- `mm` simulates `mm'`. -/
def Sim : Prop := ∀ s t e f, Rel s e → Rel t f → ∀ g, mm' e f = some g → ∃ u, mm s t = some u ∧ Rel u g

variable {Rel mm mm'}

theorem invPre_sim (h : Sim Rel mm mm') {a : S} {a' : T} (ha : Rel a a') {l' : List T}
    (hl : invPre mm' a' = some l') : ∃ l, invPre mm a = some l ∧ List.Forall₂ Rel l l' := by
  unfold invPre at hl ⊢
  simp only [Option.bind_eq_bind, Option.bind_eq_some_iff] at hl
  obtain ⟨sq', q0, p1', q1, p2', q2, p3', q3, p4', q4, p5', q5, p6', q6, p7', q7, q8⟩ := hl
  obtain ⟨sq, e0, r0⟩ := h _ _ _ _ ha ha _ q0
  obtain ⟨p1, e1, r1⟩ := h _ _ _ _ ha r0 _ q1
  obtain ⟨p2, e2, r2⟩ := h _ _ _ _ r1 r0 _ q2
  obtain ⟨p3, e3, r3⟩ := h _ _ _ _ r2 r0 _ q3
  obtain ⟨p4, e4, r4⟩ := h _ _ _ _ r3 r0 _ q4
  obtain ⟨p5, e5, r5⟩ := h _ _ _ _ r4 r0 _ q5
  obtain ⟨p6, e6, r6⟩ := h _ _ _ _ r5 r0 _ q6
  obtain ⟨p7, e7, r7⟩ := h _ _ _ _ r6 r0 _ q7
  refine ⟨[a, p1, p2, p3, p4, p5, p6, p7], ?_, ?_⟩
  · simp only [Option.bind_eq_bind, e0, e1, e2, e3, e4, e5, e6, e7, Option.bind_some]
  · obtain rfl := Option.some.inj q8
    simp [ha, r1, r2, r3, r4, r5, r6, r7]

/-- Related loop states: same control, related results once started. -/
def StRel (Rel : S → T → Prop) (s : InvState S) (t : InvState T) : Prop :=
  s.residue = t.residue ∧ s.trailing = t.trailing ∧ s.started = t.started ∧
    (s.started = true → Rel s.result t.result)

theorem forall₂_getElem? {l : List S} {l' : List T} (h : List.Forall₂ Rel l l') :
    ∀ (i : ℕ) (y : T), l'[i]? = some y → ∃ x, l[i]? = some x ∧ Rel x y := by
  induction h with
  | nil => intro i y hy; simp at hy
  | cons hab _ ih =>
    intro i y hy
    cases i with
    | zero =>
      simp only [List.getElem?_cons_zero, Option.some.injEq] at hy ⊢
      exact ⟨_, rfl, hy ▸ hab⟩
    | succ i =>
      simp only [List.getElem?_cons_succ] at hy ⊢
      exact ih i y hy

theorem invStep_sim (h : Sim Rel mm mm') {pre : List S} {pre' : List T}
    (hp : List.Forall₂ Rel pre pre') {s : InvState S} {t : InvState T} (hst : StRel Rel s t)
    (i : ℤ) {t1 : InvState T} (ht : invStep mm' pre' t i = some t1) :
    ∃ s1, invStep mm pre s i = some s1 ∧ StRel Rel s1 t1 := by
  obtain ⟨sr, sres, str, sst⟩ := s
  obtain ⟨tr, tres, ttr, tst⟩ := t
  obtain ⟨h1, h2, h3, h4⟩ := hst
  simp only at h1 h2 h3 h4
  subst h1 h2 h3
  unfold invStep at ht ⊢
  rw [Option.bind_eq_some_iff] at ht
  obtain ⟨r', hr', ht⟩ := ht
  rw [Option.bind_eq_some_iff] at ht
  obtain ⟨w, hw, ht⟩ := ht
  have hr : ∃ r, invSquare mm sst sr = some r ∧ (sst = true → Rel r r') := by
    cases sst with
    | false => exact ⟨sr, by simp [invSquare], by simp⟩
    | true =>
      simp only [invSquare, if_true] at hr' ⊢
      obtain ⟨u, hu, hrel⟩ := h _ _ _ _ (h4 rfl) (h4 rfl) _ hr'
      exact ⟨u, hu, fun _ => hrel⟩
  obtain ⟨r, hr, hrel⟩ := hr
  rw [hr, Option.bind_some, hw, Option.bind_some]
  simp only at ht ⊢
  generalize invWindow i w sres str = tr2 at ht ⊢
  unfold invApply at ht ⊢
  split at ht
  · next hc =>
    rw [if_pos hc]
    rw [Option.bind_eq_some_iff] at ht
    obtain ⟨e', he', ht⟩ := ht
    rw [Option.bind_eq_some_iff] at ht
    obtain ⟨f', hf', ht⟩ := ht
    obtain ⟨e, he, hee⟩ := forall₂_getElem? hp _ _ he'
    rw [he, Option.bind_some]
    obtain rfl := Option.some.inj ht
    have : ∃ f, invMul mm sst r e = some f ∧ Rel f f' := by
      cases sst with
      | false =>
        simp only [invMul, Bool.false_eq_true, if_false, Option.some.injEq] at hf' ⊢
        exact ⟨e, rfl, hf' ▸ hee⟩
      | true =>
        simp only [invMul, if_true] at hf' ⊢
        exact h _ _ _ _ (hrel rfl) hee _ hf'
    obtain ⟨f, hf, hff⟩ := this
    exact ⟨_, by rw [hf, Option.bind_some], rfl, rfl, rfl, fun _ => hff⟩
  · next hc =>
    rw [if_neg hc]
    obtain rfl := Option.some.inj ht
    exact ⟨_, rfl, rfl, rfl, rfl, hrel⟩

theorem invFold_sim (h : Sim Rel mm mm') {pre : List S} {pre' : List T}
    (hp : List.Forall₂ Rel pre pre') : ∀ (is : List ℤ) {s : InvState S} {t : InvState T}
    (_ : StRel Rel s t) {t1 : InvState T} (_ : is.foldlM (invStep mm' pre') t = some t1),
    ∃ s1, is.foldlM (invStep mm pre) s = some s1 ∧ StRel Rel s1 t1
  | [], s, t, hst, t1, ht => by
    simp only [List.foldlM_nil, Option.pure_def, Option.some.injEq] at ht
    subst ht
    exact ⟨s, rfl, hst⟩
  | i :: is, s, t, hst, t1, ht => by
    rw [List.foldlM_cons, Option.bind_eq_bind, Option.bind_eq_some_iff] at ht
    obtain ⟨t2, h2, ht⟩ := ht
    obtain ⟨s2, e2, r2⟩ := invStep_sim h hp hst i h2
    obtain ⟨s1, e1, r1⟩ := invFold_sim h hp is r2 ht
    exact ⟨s1, by rw [List.foldlM_cons, e2]; exact e1, r1⟩

end

/-- Addition of exponents. -/
def expAdd (a b : ℕ) : Option ℕ := some (a + b)

/-- Final state of the loop run on exponents. -/
def expRun : Option (ℕ × Bool) := do
  let pre ← invPre expAdd 1
  let st ← invIndices.foldlM (invStep expAdd pre) ⟨0, 0, 0, false⟩
  some (st.result, st.started)

theorem expRun_eq : expRun = some (ell - 2, true) := by
  rw [ell_lit]; decide +kernel

theorem invLoop_sim {S : Type} {Rel : S → ℕ → Prop} {mm : S → S → Option S}
    (h : Sim Rel mm expAdd) (zero a : S) (ha : Rel a 1) :
    ∃ r, invLoop mm zero a = some r ∧ Rel r (ell - 2) := by
  have he := expRun_eq
  unfold expRun at he
  rw [Option.bind_eq_bind, Option.bind_eq_some_iff] at he
  obtain ⟨pre', hpre, he⟩ := he
  rw [Option.bind_eq_bind, Option.bind_eq_some_iff] at he
  obtain ⟨st', hst, he⟩ := he
  obtain ⟨pre, e1, r1⟩ := invPre_sim h ha hpre
  obtain ⟨st, e2, r2⟩ := invFold_sim h r1 invIndices (s := ⟨zero, 0, 0, false⟩)
    ⟨rfl, rfl, rfl, by simp⟩ hst
  obtain ⟨-, -, h3, h4⟩ := r2
  have he' := Option.some.inj he
  have e5 : st'.result = ell - 2 := congrArg Prod.fst he'
  have e6 : st'.started = true := congrArg Prod.snd he'
  refine ⟨st.result, ?_, e5 ▸ h4 (h3.trans e6)⟩
  unfold invLoop
  rw [e1, Option.bind_eq_bind, Option.bind_some, e2, Option.bind_eq_bind, Option.bind_some]

/-- Inversion, for all scalars: reduced, and equal to `a^(l-2)` modulo `l`. -/
theorem Scalar.invert_pow (a : Scalar) : ∃ r, Scalar.invert a = some r ∧ r.val < ell ∧
    (r.val : Fl) = (a.val : Fl) ^ (ell - 2) := by
  obtain ⟨am, h1, h2, h3⟩ := montMul_zmod a R2
  have hRR := RR_ne_zero
  have hsim : Sim (fun (s : Scalar) (e : ℕ) => (s.val : Fl) = (a.val : Fl) ^ e * RR ∧ s.val < ell)
      montMul expAdd := by
    intro s t e f hs ht g hg
    obtain ⟨u, g1, g2, g3⟩ := montMul_zmod s t
    obtain rfl := Option.some.inj hg
    refine ⟨u, g1, ?_, g3 ht.2⟩
    rw [g2, hs.1, ht.1, pow_add]
    field_simp
  have ham : (am.val : Fl) = (a.val : Fl) ^ 1 * RR ∧ am.val < ell := by
    refine ⟨?_, h3 R2_lt⟩
    rw [h2, R2_val]; field_simp
  obtain ⟨r, e1, e2, e3⟩ := invLoop_sim hsim Scalar.zero am ham
  obtain ⟨s, k1, k2, k3⟩ := montMul_zmod r Scalar.one
  refine ⟨s, ?_, k3 (by rw [one_val]; exact ell_prime.one_lt), ?_⟩
  · unfold Scalar.invert
    rw [h1, Option.bind_eq_bind, Option.bind_some, e1, Option.bind_some, k1]
  · rw [k2, e2, one_val]; field_simp; simp

end Ed448.Model
