import Verif.Gen.Leak

/-!
# Reasoning about leakage

`CT R m n`: if both computations return, their observations are equal and their results are related
by `R`. `Er m o`: without its observations the computation `m` is `o`. Both are proved along the
structure of the programs.
-/

namespace Ed448.Leak
open Ed448.Model

variable {α β γ δ σ τ : Type}

/-- Equal observations and related results, if both computations return. -/
def CT (R : α → β → Prop) (m : Lk α) (n : Lk β) : Prop :=
  ∀ a t b u, m = some (a, t) → n = some (b, u) → t = u ∧ R a b

/-- Equal observations. -/
class CTT (m : Lk α) (n : Lk β) : Prop where
  ct : CT (fun _ _ => True) m n

namespace CT

theorem ret {R : α → β → Prop} {a : α} {b : β} (h : R a b) : CT R (Lk.ret a) (Lk.ret b) := by
  rintro _ _ _ _ ⟨⟩ ⟨⟩
  exact ⟨rfl, h⟩

theorem ret_true {a : α} {b : β} : CT (fun _ _ => True) (Lk.ret a) (Lk.ret b) := ret trivial

theorem panic {R : α → β → Prop} : CT R (none : Option (α × List Ev)) (none : Option (β × List Ev)) := nofun

theorem mono {R S : α → β → Prop} {m : Lk α} {n : Lk β} (h : CT R m n) (k : ∀ a b, R a b → S a b) :
    CT S m n := fun a t b u x y => ⟨(h a t b u x y).1, k a b (h a t b u x y).2⟩

theorem refl (m : Lk α) : CT (· = ·) m m := by
  intro a t b u x y
  cases x.symm.trans y
  exact ⟨rfl, rfl⟩

theorem bind {R : α → β → Prop} {S : γ → δ → Prop} {m : Lk α} {n : Lk β} {f : α → Lk γ}
    {g : β → Lk δ} (h : CT R m n) (k : ∀ a b, R a b → CT S (f a) (g b)) :
    CT S (m.bind f) (n.bind g) := by
  intro c t d u x y
  obtain ⟨⟨a, t₁⟩, hm, x⟩ := Option.bind_eq_some_iff.mp x
  obtain ⟨⟨b, u₁⟩, hn, y⟩ := Option.bind_eq_some_iff.mp y
  obtain ⟨⟨c', t₂⟩, hf, x⟩ := Option.map_eq_some_iff.mp x
  obtain ⟨⟨d', u₂⟩, hg, y⟩ := Option.map_eq_some_iff.mp y
  obtain ⟨e, r⟩ := h a t₁ b u₁ hm hn
  obtain ⟨e', s⟩ := k a b r c' t₂ d' u₂ hf hg
  cases x
  cases y
  exact ⟨by simp only [e, e'], s⟩

theorem bind_same {S : γ → δ → Prop} {m : Lk α} {f : α → Lk γ} {g : α → Lk δ}
    (k : ∀ a, CT S (f a) (g a)) : CT S (m.bind f) (m.bind g) :=
  bind (refl m) fun a _ e => e ▸ k a

theorem bind_call {S : γ → δ → Prop} {m : Lk α} {n : Lk β} [h : CTT m n] {f : α → Lk γ}
    {g : β → Lk δ} (k : ∀ a b, CT S (f a) (g b)) : CT S (m.bind f) (n.bind g) :=
  bind h.ct fun a b _ => k a b

theorem bind_true {S : γ → δ → Prop} {m : Lk α} {n : Lk β} {f : α → Lk γ} {g : β → Lk δ}
    (h : CT (fun _ _ => True) m n) (k : ∀ a b, CT S (f a) (g b)) : CT S (m.bind f) (n.bind g) :=
  bind h fun a b _ => k a b

theorem lift {a : Option α} {b : Option β} : CT (fun _ _ => True) (Lk.lift a) (Lk.lift b) := by
  intro c t d u x y
  obtain ⟨_, _, x⟩ := Option.map_eq_some_iff.mp x
  obtain ⟨_, _, y⟩ := Option.map_eq_some_iff.mp y
  cases x
  cases y
  exact ⟨rfl, trivial⟩

theorem lift_rel {R : α → β → Prop} {a : Option α} {b : Option β}
    (h : ∀ x y, a = some x → b = some y → R x y) : CT R (Lk.lift a) (Lk.lift b) := by
  intro c t d u x y
  obtain ⟨_, x', x⟩ := Option.map_eq_some_iff.mp x
  obtain ⟨_, y', y⟩ := Option.map_eq_some_iff.mp y
  cases x
  cases y
  exact ⟨rfl, h _ _ x' y'⟩

theorem tell {R : α → β → Prop} {t : List Ev} {a : α} {b : β} (h : R a b) :
    CT R (Lk.tell t a) (Lk.tell t b) := by
  rintro _ _ _ _ ⟨⟩ ⟨⟩
  exact ⟨rfl, h⟩

theorem tell_eq {t u : List Ev} {a : α} {b : β} (e : t = u) :
    CT (fun _ _ => True) (Lk.tell t a) (Lk.tell u b) := by
  subst e
  exact tell trivial

theorem ite {R : α → β → Prop} {c : Bool} {m m' : Lk α} {n n' : Lk β} (h : CT R m n)
    (h' : CT R m' n') : CT R (Lk.ite c m m') (Lk.ite c n n') := by
  refine bind_same fun _ => ?_
  cases c
  · exact h'
  · exact h

theorem and {c : Bool} {m n : Lk Bool} {R : Bool → Bool → Prop} (h : CT R m n)
    (h' : R false false) : CT R (Lk.and c m) (Lk.and c n) := by
  refine bind_same fun _ => ?_
  cases c
  · exact ret h'
  · exact h

theorem or {c : Bool} {m n : Lk Bool} {R : Bool → Bool → Prop} (h : CT R m n)
    (h' : R true true) : CT R (Lk.or c m) (Lk.or c n) := by
  refine bind_same fun _ => ?_
  cases c
  · exact h
  · exact ret h'

theorem foldl {R : σ → τ → Prop} {f : σ → α → Lk σ} {g : τ → α → Lk τ}
    (h : ∀ i s t, R s t → CT R (f s i) (g t i)) (l : List α) :
    ∀ s t, R s t → CT R (Lk.foldl f s l) (Lk.foldl g t l) := by
  induction l with
  | nil => exact fun s t r => ret r
  | cons a l ih => exact fun s t r => bind (h a s t r) fun s t r => ih s t r

/-- Loops over the same list. -/
theorem fold {R : σ → τ → Prop} {f : σ → α → Lk σ} {g : τ → α → Lk τ} {s : σ} {t : τ} {l : List α}
    (r : R s t) (h : ∀ i s t, R s t → CT R (f s i) (g t i)) : CT R (Lk.fold f s l) (Lk.fold g t l) :=
  bind_same fun _ => foldl h l s t r

theorem fold_true {f : σ → α → Lk σ} {g : τ → α → Lk τ} {s : σ} {t : τ} {l : List α}
    (h : ∀ i s t, CT (fun _ _ => True) (f s i) (g t i)) :
    CT (fun _ _ => True) (Lk.fold f s l) (Lk.fold g t l) :=
  fold trivial fun i s t _ => h i s t

theorem foldl₂ {R : σ → τ → Prop} {f : σ → α → Lk σ} {g : τ → β → Lk τ}
    (h : ∀ i j s t, R s t → CT R (f s i) (g t j)) (l : List α) :
    ∀ (m : List β) s t, l.length = m.length → R s t → CT R (Lk.foldl f s l) (Lk.foldl g t m) := by
  induction l with
  | nil =>
    intro m s t e r
    obtain rfl := List.length_eq_zero_iff.mp e.symm
    exact ret r
  | cons a l ih =>
    rintro (_ | ⟨b, m⟩) s t e r
    · cases e
    · exact bind (h a b s t r) fun s t r => ih m s t (Nat.succ.inj e) r

/-- Loops over lists of the same length. -/
theorem fold₂ {R : σ → τ → Prop} {f : σ → α → Lk σ} {g : τ → β → Lk τ} {s : σ} {t : τ} {l : List α}
    {m : List β} (e : l.length = m.length) (r : R s t)
    (h : ∀ i j s t, R s t → CT R (f s i) (g t j)) : CT R (Lk.fold f s l) (Lk.fold g t m) := by
  unfold Lk.fold
  rw [e]
  exact bind_same fun _ => foldl₂ h l m s t e r

theorem mapAux {f : α → Lk γ} {g : α → Lk δ} (h : ∀ i, CT (fun _ _ => True) (f i) (g i))
    (l : List α) : CT (fun a b => a.length = b.length) (Lk.mapAux f l) (Lk.mapAux g l) := by
  induction l with
  | nil => exact ret rfl
  | cons a l ih => exact bind (h a) fun b c _ => bind ih fun x y e => ret (congrArg (· + 1) e)

theorem mapM {f : α → Lk γ} {g : α → Lk δ} {l : List α}
    (h : ∀ i, CT (fun _ _ => True) (f i) (g i)) :
    CT (fun _ _ => True) (Lk.mapM f l) (Lk.mapM g l) :=
  bind_same fun _ => (mapAux h l).mono fun _ _ _ => trivial

theorem call {m : Lk α} {n : Lk β} [h : CTT m n] : CT (fun _ _ => True) m n := h.ct

end CT

instance {a : Option α} {b : Option β} : CTT (Lk.lift a) (Lk.lift b) := ⟨CT.lift⟩
instance {l : List α} {m : List β} {i : ℕ} : CTT (Lk.idx l i) (Lk.idx m i) :=
  ⟨CT.bind_same fun _ => CT.lift⟩
instance {l : List α} {m : List β} {i : ℕ} {v : α} {w : β} : CTT (Lk.put l i v) (Lk.put m i w) :=
  ⟨CT.bind_same fun _ => CT.lift⟩
instance {l : List α} {m : List β} {i : ℕ} : CTT (Lk.sliceFrom l i) (Lk.sliceFrom m i) :=
  ⟨CT.bind_same fun _ => CT.lift⟩

/-- The observations of the field operations do not depend on their operands. -/
class CTBackend (F : Type) (L : outParam Type) [FieldBackend F L] [LeakBackend F L] : Prop where
  mul : ∀ a b c d : L, LeakBackend.mulTr F a b = LeakBackend.mulTr F c d
  square : ∀ a c : L, LeakBackend.squareTr F a = LeakBackend.squareTr F c
  add : ∀ a b c d : F, LeakBackend.addTr a b = LeakBackend.addTr c d
  sub : ∀ a b c d : F, LeakBackend.subTr a b = LeakBackend.subTr c d
  negate : ∀ a c : F, LeakBackend.negateTr a = LeakBackend.negateTr c
  select : ∀ (a b : F) (x : Bool) (c d : F) (y : Bool),
    LeakBackend.selectTr a b x = LeakBackend.selectTr c d y
  strongReduce : ∀ a c : F, LeakBackend.strongReduceTr a = LeakBackend.strongReduceTr c
  fromBytes : ∀ a c : Bytes 56, LeakBackend.fromBytesTr F a = LeakBackend.fromBytesTr F c
  toBytes : ∀ a c : F, LeakBackend.toBytesTr a = LeakBackend.toBytesTr c

section
variable {F L : Type} [FieldBackend F L] [LeakBackend F L] [CTBackend F L]

instance {a b c d : L} {x : α} {y : β} :
    CTT (Lk.tell (LeakBackend.mulTr F a b) x) (Lk.tell (LeakBackend.mulTr F c d) y) :=
  ⟨CT.tell_eq (CTBackend.mul a b c d)⟩
instance {a c : L} {x : α} {y : β} :
    CTT (Lk.tell (LeakBackend.squareTr F a) x) (Lk.tell (LeakBackend.squareTr F c) y) :=
  ⟨CT.tell_eq (CTBackend.square a c)⟩
instance {a b c d : F} {x : α} {y : β} :
    CTT (Lk.tell (LeakBackend.addTr a b) x) (Lk.tell (LeakBackend.addTr c d) y) :=
  ⟨CT.tell_eq (CTBackend.add a b c d)⟩
instance {a b c d : F} {x : α} {y : β} :
    CTT (Lk.tell (LeakBackend.subTr a b) x) (Lk.tell (LeakBackend.subTr c d) y) :=
  ⟨CT.tell_eq (CTBackend.sub a b c d)⟩
instance {a c : F} {x : α} {y : β} :
    CTT (Lk.tell (LeakBackend.negateTr a) x) (Lk.tell (LeakBackend.negateTr c) y) :=
  ⟨CT.tell_eq (CTBackend.negate a c)⟩
instance {a b c d : F} {s t : Bool} {x : α} {y : β} :
    CTT (Lk.tell (LeakBackend.selectTr a b s) x) (Lk.tell (LeakBackend.selectTr c d t) y) :=
  ⟨CT.tell_eq (CTBackend.select a b s c d t)⟩
instance {a c : F} {s t : Bool} {x : α} {y : β} :
    CTT (Lk.tell (LeakBackend.condNegateTr a s) x) (Lk.tell (LeakBackend.condNegateTr c t) y) :=
  ⟨CT.tell_eq (congrArg₂ (· ++ ·) (CTBackend.negate a c) (CTBackend.select _ _ s _ _ t))⟩
instance {a c : F} {x : α} {y : β} :
    CTT (Lk.tell (LeakBackend.strongReduceTr a) x) (Lk.tell (LeakBackend.strongReduceTr c) y) :=
  ⟨CT.tell_eq (CTBackend.strongReduce a c)⟩
instance {a c : F} {x : α} {y : β} :
    CTT (Lk.tell (LeakBackend.toBytesTr a) x) (Lk.tell (LeakBackend.toBytesTr c) y) :=
  ⟨CT.tell_eq (CTBackend.toBytes a c)⟩
instance {a c : List ℕ} : CTT (Lk.fieldFromBytes F a) (Lk.fieldFromBytes F c) :=
  ⟨CT.bind_call fun x y => CT.tell_eq (CTBackend.fromBytes x y)⟩

end

/-- One step along the structure of two programs. -/
macro "ct1" : tactic => `(tactic| first
  | with_reducible refine CT.bind_same fun _ => ?_
  | with_reducible refine CT.bind_call fun _ _ => ?_
  | with_reducible refine CT.bind_true ?_ fun _ _ => ?_
  | with_reducible refine CT.ret_true
  | with_reducible refine CT.panic
  | with_reducible refine CT.fold_true fun _ _ _ => ?_
  | with_reducible refine CT.mapM fun _ => ?_
  | with_reducible refine CT.ite ?_ ?_
  | with_reducible refine CT.and ?_ trivial
  | with_reducible refine CT.or ?_ trivial
  | with_reducible exact CT.call)

/-- All steps. -/
macro "ct" : tactic => `(tactic| repeat' ct1)

/-! ### Observations for given results -/

/-- Equal observations, if both computations return results with `P` and `Q`. -/
def CTP (P : α → Prop) (Q : β → Prop) (m : Lk α) (n : Lk β) : Prop :=
  ∀ a t b u, m = some (a, t) → n = some (b, u) → P a → Q b → t = u

/-- No result has `P`. -/
def Never (P : α → Prop) (m : Lk α) : Prop := ∀ a t, m = some (a, t) → ¬P a

theorem Never.ret {P : α → Prop} {a : α} (h : ¬P a) : Never P (Lk.ret a) := by
  rintro _ _ ⟨⟩
  exact h

theorem Never.bind {P : β → Prop} {m : Lk α} {f : α → Lk β} (h : ∀ a, Never P (f a)) :
    Never P (m.bind f) := by
  intro c t x
  obtain ⟨⟨a, t₁⟩, hm, x⟩ := Option.bind_eq_some_iff.mp x
  obtain ⟨⟨c', t₂⟩, hf, x⟩ := Option.map_eq_some_iff.mp x
  cases x
  exact h a _ _ hf

namespace CTP
variable {P : γ → Prop} {Q : δ → Prop}

theorem of_ct {R : γ → δ → Prop} {m : Lk γ} {n : Lk δ} (h : CT R m n) : CTP P Q m n :=
  fun a t b u x y _ _ => (h a t b u x y).1

theorem bind {R : α → β → Prop} {m : Lk α} {n : Lk β} {f : α → Lk γ} {g : β → Lk δ} (h : CT R m n)
    (k : ∀ a b, R a b → CTP P Q (f a) (g b)) : CTP P Q (m.bind f) (n.bind g) := by
  intro c t d u x y p q
  obtain ⟨⟨a, t₁⟩, hm, x⟩ := Option.bind_eq_some_iff.mp x
  obtain ⟨⟨b, u₁⟩, hn, y⟩ := Option.bind_eq_some_iff.mp y
  obtain ⟨⟨c', t₂⟩, hf, x⟩ := Option.map_eq_some_iff.mp x
  obtain ⟨⟨d', u₂⟩, hg, y⟩ := Option.map_eq_some_iff.mp y
  obtain ⟨e, r⟩ := h a t₁ b u₁ hm hn
  cases x
  cases y
  have e' := k a b r c' t₂ d' u₂ hf hg p q
  simp only [e, e']

theorem bind_same {m : Lk α} {f : α → Lk γ} {g : α → Lk δ} (k : ∀ a, CTP P Q (f a) (g a)) :
    CTP P Q (m.bind f) (m.bind g) := bind (CT.refl m) fun a _ e => e ▸ k a

theorem bind_call {m : Lk α} {n : Lk β} [h : CTT m n] {f : α → Lk γ} {g : β → Lk δ}
    (k : ∀ a b, CTP P Q (f a) (g b)) : CTP P Q (m.bind f) (n.bind g) :=
  bind h.ct fun a b _ => k a b

theorem bind_true {m : Lk α} {n : Lk β} {f : α → Lk γ} {g : β → Lk δ}
    (h : CT (fun _ _ => True) m n) (k : ∀ a b, CTP P Q (f a) (g b)) :
    CTP P Q (m.bind f) (n.bind g) := bind h fun a b _ => k a b

theorem never_left {m : Lk γ} {n : Lk δ} (h : Never P m) : CTP P Q m n :=
  fun a t _ _ x _ p _ => absurd p (h a t x)

theorem never_right {m : Lk γ} {n : Lk δ} (h : Never Q n) : CTP P Q m n :=
  fun _ _ b u _ y _ q => absurd q (h b u y)

/-- The first branch never has the result. -/
theorem ite_else {c d : Bool} {m m' : Lk γ} {n n' : Lk δ} (h : Never P m) (k : Never Q n)
    (e : CTP P Q m' n') : CTP P Q (Lk.ite c m m') (Lk.ite d n n') := by
  cases c <;> cases d
  · exact bind_same fun _ => e
  · exact never_right (Never.bind fun _ => k)
  · exact never_left (Never.bind fun _ => h)
  · exact never_left (Never.bind fun _ => h)

/-- The second branch never has the result. -/
theorem ite_then {c d : Bool} {m m' : Lk γ} {n n' : Lk δ} (h : Never P m') (k : Never Q n')
    (e : CTP P Q m n) : CTP P Q (Lk.ite c m m') (Lk.ite d n n') := by
  cases c <;> cases d
  · exact never_left (Never.bind fun _ => h)
  · exact never_left (Never.bind fun _ => h)
  · exact never_right (Never.bind fun _ => k)
  · exact bind_same fun _ => e

end CTP

theorem ev_bind_bind {e : Ev} {m : Unit → Lk α} {f : α → Lk β} :
    ((Lk.ev e).bind m).bind f = (Lk.ev e).bind fun u => (m u).bind f := by
  show Option.bind (Option.map _ (m ())) _ = Option.map _ ((m ()).bind f)
  rcases h : m () with _ | ⟨a, t⟩
  · rfl
  · show Option.map _ (f a) = Option.map _ (Option.map _ (f a))
    rcases f a with _ | ⟨b, u⟩ <;> rfl

theorem ret_bind {a : α} {f : α → Lk β} : (Lk.ret a).bind f = f a := by
  show Option.map _ (f a) = _
  rcases f a with _ | ⟨b, u⟩ <;> rfl

theorem ite_bind {c : Bool} {m n : Lk α} {f : α → Lk β} :
    (Lk.ite c m n).bind f = Lk.ite c (m.bind f) (n.bind f) := by
  cases c <;> exact ev_bind_bind

theorem and_bind {c : Bool} {m : Lk Bool} {f : Bool → Lk β} :
    (Lk.and c m).bind f = Lk.ite c (m.bind f) (f false) := by
  cases c
  · exact ev_bind_bind.trans (congrArg _ (funext fun _ => ret_bind))
  · exact ev_bind_bind

theorem or_bind {c : Bool} {m : Lk Bool} {f : Bool → Lk β} :
    (Lk.or c m).bind f = Lk.ite c (f true) (m.bind f) := by
  cases c
  · exact ev_bind_bind
  · exact ev_bind_bind.trans (congrArg _ (funext fun _ => ret_bind))

/-! ### Forgetting the observations -/

/-- Without its observations `m` is `o`. -/
class Er (m : Lk α) (o : outParam (Option α)) : Prop where
  er : m.val = o

namespace Er

theorem ret {a : α} : Er (Lk.ret a) (some a) := ⟨rfl⟩
theorem lift {o : Option α} : Er (Lk.lift o) o := ⟨by cases o <;> rfl⟩
theorem tell {t : List Ev} {a : α} : Er (Lk.tell t a) (some a) := ⟨rfl⟩

theorem bind {m : Lk α} {o : Option α} {f : α → Lk β} {g : α → Option β} (h : Er m o)
    (k : ∀ a, Er (f a) (g a)) : Er (m.bind f) (o.bind g) := by
  constructor
  rw [← h.er]
  rcases m with _ | ⟨a, t⟩
  · rfl
  · rw [show Option.bind (Lk.val (some (a, t))) g = g a from rfl, ← (k a).er]
    show Option.map Prod.fst (Option.map _ (f a)) = Option.map Prod.fst (f a)
    rcases f a with _ | _ <;> rfl

theorem bind_some {m : Lk α} {a : α} {f : α → Lk β} {o : Option β} (h : Er m (some a))
    (k : Er (f a) o) : Er (m.bind f) o := by
  have e := (bind h fun x => ⟨(rfl : (f x).val = _)⟩).er
  exact ⟨e.trans k.er⟩

theorem ite {c : Bool} {m n : Lk α} {o p : Option α} (h : Er m o) (k : Er n p) :
    Er (Lk.ite c m n) (if c then o else p) := by
  cases c
  · exact bind_some ⟨rfl⟩ k
  · exact bind_some ⟨rfl⟩ h

theorem ite_some {c : Bool} {m n : Lk α} {o p : α} (h : Er m (some o)) (k : Er n (some p)) :
    Er (Lk.ite c m n) (some (if c then o else p)) := by
  cases c
  · exact bind_some ⟨rfl⟩ k
  · exact bind_some ⟨rfl⟩ h

theorem and {c : Bool} {m : Lk Bool} {o : Option Bool} (h : Er m o) :
    Er (Lk.and c m) (if c then o else some false) := by
  cases c
  · exact bind_some ⟨rfl⟩ ret
  · exact bind_some ⟨rfl⟩ h

theorem and_some {c : Bool} {m : Lk Bool} {b : Bool} (h : Er m (some b)) :
    Er (Lk.and c m) (some (c && b)) := by
  cases c
  · exact bind_some ⟨rfl⟩ ret
  · exact bind_some ⟨rfl⟩ h

theorem or_some {c : Bool} {m : Lk Bool} {b : Bool} (h : Er m (some b)) :
    Er (Lk.or c m) (some (c || b)) := by
  cases c
  · exact bind_some ⟨rfl⟩ h
  · exact bind_some ⟨rfl⟩ ret

theorem foldl {f : σ → α → Lk σ} {g : σ → α → Option σ} (h : ∀ s a, Er (f s a) (g s a))
    (l : List α) : ∀ s, Er (Lk.foldl f s l) (List.foldlM g s l) := by
  induction l with
  | nil => exact fun s => ret
  | cons a l ih => exact fun s => (bind (h s a) fun s => ih s :)

theorem fold {f : σ → α → Lk σ} {g : σ → α → Option σ} {s : σ} {l : List α}
    (h : ∀ s a, Er (f s a) (g s a)) : Er (Lk.fold f s l) (List.foldlM g s l) :=
  bind_some ⟨rfl⟩ (foldl h l s)

theorem foldl_some {f : σ → α → Lk σ} {g : σ → α → σ} (h : ∀ s a, Er (f s a) (some (g s a)))
    (l : List α) : ∀ s, Er (Lk.foldl f s l) (some (List.foldl g s l)) := by
  induction l with
  | nil => exact fun s => ret
  | cons a l ih => exact fun s => bind_some (h s a) (ih (g s a))

theorem fold_some {f : σ → α → Lk σ} {g : σ → α → σ} {s : σ} {l : List α}
    (h : ∀ s a, Er (f s a) (some (g s a))) : Er (Lk.fold f s l) (some (List.foldl g s l)) :=
  bind_some ⟨rfl⟩ (foldl_some h l s)

theorem mapM {f : α → Lk β} {g : α → Option β} {l : List α} (h : ∀ a, Er (f a) (g a)) :
    Er (Lk.mapM f l) (l.mapM g) := by
  refine bind_some ⟨rfl⟩ ?_
  rw [← List.mapM'_eq_mapM]
  induction l with
  | nil => exact ret
  | cons a l ih => exact (bind (h a) fun b => bind ih fun m => ret :)

theorem panic : Er (none : Option (α × List Ev)) none := ⟨rfl⟩

theorem call {m : Lk α} {o : Option α} [h : Er m o] : Er m o := h

end Er

instance {l : List α} {i : ℕ} : Er (Lk.idx l i) (Gen.Rt.idx l i) := Er.bind_some ⟨rfl⟩ Er.lift
instance {l : List α} {i : ℕ} {v : α} : Er (Lk.put l i v) (Gen.Rt.put l i v) :=
  Er.bind_some ⟨rfl⟩ Er.lift
instance {l : List α} {i : ℕ} : Er (Lk.sliceFrom l i) (Gen.Rt.sliceFrom l i) :=
  Er.bind_some ⟨rfl⟩ Er.lift
instance {w k : ℕ} : Er (Lk.shiftAmount w k) (Gen.Rt.shiftAmount w k) := Er.bind_some ⟨rfl⟩ Er.lift
instance {w : ℕ} {k : ℤ} : Er (Lk.shiftAmountZ w k) (Gen.Rt.shiftAmountZ w k) :=
  Er.bind_some ⟨rfl⟩ Er.lift
instance {F L : Type} [FieldBackend F L] [LeakBackend F L] {l : List ℕ} :
    Er (Lk.fieldFromBytes F l) (Gen.Rt.fieldFromBytes F l) := ⟨by
  unfold Lk.fieldFromBytes Gen.Rt.fieldFromBytes
  cases Arr.ofList? 56 256 l <;> rfl⟩

/-- One step along the structure of a program with and without observations. -/
macro "er1" : tactic => `(tactic| first
  | with_reducible refine Er.bind_some Er.tell ?_
  | with_reducible refine Er.bind Er.lift fun _ => ?_
  | with_reducible refine Er.bind_some Er.call ?_
  | with_reducible refine Er.bind Er.call fun _ => ?_
  | with_reducible exact Er.ret
  | with_reducible exact Er.tell
  | with_reducible exact Er.panic
  | with_reducible refine Er.bind (Er.fold fun _ _ => ?_) fun _ => ?_
  | with_reducible refine Er.bind_some (Er.fold_some (g := ?_) fun _ _ => ?_) ?_
  | with_reducible refine Er.bind (Er.mapM fun _ => ?_) fun _ => ?_
  | with_reducible refine Er.bind (Er.ite ?_ ?_) fun _ => ?_
  | with_reducible refine Er.bind_some (Er.ite_some (o := ?_) (p := ?_) ?_ ?_) ?_
  | with_reducible refine Er.bind (Er.and ?_) fun _ => ?_
  | with_reducible refine Er.bind_some (Er.and_some (b := ?_) ?_) ?_
  | with_reducible refine Er.bind_some (Er.or_some (b := ?_) ?_) ?_
  | with_reducible refine Er.ite ?_ ?_
  | with_reducible refine Er.ite_some ?_ ?_
  | with_reducible exact Er.call
  | with_reducible refine Er.bind ?_ fun _ => ?_
  | with_reducible refine Er.bind_some (a := ?_) ?_ ?_)

/-- All steps. -/
macro "er" : tactic => `(tactic| repeat' er1)

end Ed448.Leak
