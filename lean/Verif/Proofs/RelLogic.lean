import Verif.Gen.Release

/-!
# Release builds refine debug builds

`Ref a b`: wherever the computation `a` with overflow checks returns, the computation `b` with wrapping
arithmetic returns the same value. It is proved along the structure of the programs.
-/

namespace Ed448.Rel
open Ed448.Model

variable {α β σ : Type}

/-- `b` returns what `a` returns. -/
class Ref (a b : Option α) : Prop where
  ref : ∀ y, a = some y → b = some y

namespace Ref

theorem bind {a b : Option α} {f g : α → Option β} (h : Ref a b) (k : ∀ x, Ref (f x) (g x)) :
    Ref (a.bind f) (b.bind g) := by
  constructor
  intro y e
  obtain ⟨x, e, e'⟩ := Option.bind_eq_some_iff.mp e
  rw [h.ref x e]
  exact (k x).ref y e'

theorem ite {c : Prop} [Decidable c] {a b a' b' : Option α} (h : Ref a b) (k : Ref a' b') :
    Ref (if c then a else a') (if c then b else b') := by
  split <;> assumption

theorem foldlM {f g : σ → α → Option σ} (h : ∀ s x, Ref (f s x) (g s x)) (l : List α) :
    ∀ s, Ref (List.foldlM f s l) (List.foldlM g s l) := by
  induction l with
  | nil => exact fun s => ⟨fun _ e => e⟩
  | cons x l ih => exact fun s => (bind (h s x) fun s => ih s :)

theorem fold {f g : σ → α → Option σ} {s : σ} {l : List α} (h : ∀ s x, Ref (f s x) (g s x)) :
    Ref (List.foldlM f s l) (List.foldlM g s l) := foldlM h l s

theorem mapM {f g : α → Option β} {l : List α} (h : ∀ x, Ref (f x) (g x)) :
    Ref (l.mapM f) (l.mapM g) := by
  rw [← List.mapM'_eq_mapM, ← List.mapM'_eq_mapM]
  induction l with
  | nil => exact ⟨fun _ e => e⟩
  | cons a l ih => exact (bind (h a) fun b => bind ih fun m => ⟨fun _ e => e⟩ :)

theorem rfl' {a : Option α} : Ref a a := ⟨fun _ e => e⟩

theorem call {a b : Option α} [h : Ref a b] : Ref a b := h

/-- Where the checked computation returns, both are equal. -/
theorem eq {a b : Option α} (h : Ref a b) {y : α} (e : a = some y) : b = a :=
  (h.ref y e).trans e.symm

end Ref

theorem wrU_ref {w x : ℕ} : Ref (if x < 2 ^ w then some x else none) (wrU w x) := by
  constructor
  intro y e
  split at e
  · cases e
    rw [wrU, Nat.mod_eq_of_lt (by assumption)]
  · cases e

theorem wrI_ref {w : ℕ} {x : ℤ} :
    Ref (if -2 ^ w ≤ x ∧ x < 2 ^ w then some x else none) (wrI (w + 1) x) := by
  constructor
  intro y e
  split at e
  · rename_i h
    cases e
    have h2 : (((2 : ℕ) ^ (w + 1) : ℕ) : ℤ) = 2 * 2 ^ w := by push_cast; ring
    rw [wrI, Int.bmod_eq_of_le_mul_two]
    · rw [h2]; linarith [h.1]
    · rw [h2]; linarith [h.2]
  · cases e

instance {x : ℕ} : Ref (Gen.Rt.ckUsize x) (wrU 32 x) := wrU_ref
instance {x : ℕ} : Ref (ckU8 x) (wrU 8 x) := wrU_ref
instance {x : ℕ} : Ref (ckU32 x) (wrU 32 x) := wrU_ref
instance {x : ℕ} : Ref (ckU64 x) (wrU 64 x) := wrU_ref
instance {x : ℤ} : Ref (ckI8 x) (wrI 8 x) := wrI_ref
instance {x : ℤ} : Ref (Gen.Rt.ckI32 x) (wrI 32 x) := wrI_ref
instance {x : ℤ} : Ref (ckI64 x) (wrI 64 x) := wrI_ref
instance {x : ℤ} : Ref (ckI128 x) (wrI 128 x) := wrI_ref

instance {w x y : ℕ} : Ref (ckSub x y) (wrSub w x y) := by
  constructor
  intro z e
  unfold ckSub at e
  split at e
  · rw [wrSub, if_pos (by assumption), e]
  · cases e

instance {w k : ℕ} : Ref (Gen.Rt.shiftAmount w k) (shiftAmount w k) := by
  constructor
  intro y e
  unfold Gen.Rt.shiftAmount at e
  split at e
  · cases e
    rw [shiftAmount, Nat.mod_eq_of_lt (by assumption)]
  · cases e

instance {w : ℕ} {k : ℤ} : Ref (Gen.Rt.shiftAmountZ w k) (shiftAmountZ w k) := by
  constructor
  intro y e
  unfold Gen.Rt.shiftAmountZ at e
  split at e
  · rename_i h
    cases e
    rw [shiftAmountZ, Int.emod_eq_of_lt h.1 h.2]
  · cases e

instance {l : List α} {i : ℕ} : Ref (Gen.Rt.idx l i) (Gen.Rt.idx l i) := Ref.rfl'
instance {l : List α} {i : ℕ} {v : α} : Ref (Gen.Rt.put l i v) (Gen.Rt.put l i v) := Ref.rfl'

theorem Ref.ret {a : α} : Ref (some a) (some a) := Ref.rfl'

/-- One step along the structure of the two programs. -/
macro "ref1" : tactic => `(tactic| first
  | with_reducible exact Ref.ret
  | with_reducible refine Ref.bind Ref.call fun _ => ?_
  | with_reducible refine Ref.bind (Ref.fold fun _ _ => ?_) fun _ => ?_
  | with_reducible refine Ref.bind (Ref.mapM fun _ => ?_) fun _ => ?_
  | with_reducible refine Ref.bind (Ref.ite ?_ ?_) fun _ => ?_
  | with_reducible refine Ref.bind (Ref.bind ?_ fun _ => ?_) fun _ => ?_
  | with_reducible refine Ref.bind Ref.rfl' fun _ => ?_
  | with_reducible refine Ref.fold fun _ _ => ?_
  | with_reducible refine Ref.mapM fun _ => ?_
  | with_reducible refine Ref.ite ?_ ?_
  | with_reducible exact Ref.call
  | with_reducible exact Ref.rfl')

/-- All steps. -/
macro "ref" : tactic => `(tactic| repeat' ref1)

end Ed448.Rel
