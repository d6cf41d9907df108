import Verif.Proofs.LeakCurve

/-!
# Counting the operations in the field

A field backend whose only observations are the names of its operations. Run with it, the translation
with leakage shows how many operations in the field a function performs. `Cost m n`: if `m` returns, it
has performed the operations `n`. It is proved along the structure of the programs.
-/

namespace Ed448.Leak
open Ed448.Model

variable {α β σ : Type}

/-- Numbers of operations in the field. -/
@[ext] structure Ops where
  /-- Multiplications. -/
  mul : ℕ := 0
  /-- Squarings. -/
  square : ℕ := 0
  /-- Additions. -/
  add : ℕ := 0
  /-- Subtractions. -/
  sub : ℕ := 0
  /-- Negations. -/
  negate : ℕ := 0
  /-- Selections of one of two elements. -/
  select : ℕ := 0
  /-- Strong reductions. -/
  strongReduce : ℕ := 0
  /-- Decodings. -/
  fromBytes : ℕ := 0
  /-- Encodings. -/
  toBytes : ℕ := 0
deriving DecidableEq, Repr

namespace Ops

instance : Add Ops := ⟨fun a b => ⟨a.mul + b.mul, a.square + b.square, a.add + b.add, a.sub + b.sub,
  a.negate + b.negate, a.select + b.select, a.strongReduce + b.strongReduce,
  a.fromBytes + b.fromBytes, a.toBytes + b.toBytes⟩⟩

theorem add_def (a b : Ops) : a + b = ⟨a.mul + b.mul, a.square + b.square, a.add + b.add, a.sub + b.sub,
  a.negate + b.negate, a.select + b.select, a.strongReduce + b.strongReduce,
  a.fromBytes + b.fromBytes, a.toBytes + b.toBytes⟩ := rfl

/-- `n` times as many. -/
def times (n : ℕ) (a : Ops) : Ops := ⟨n * a.mul, n * a.square, n * a.add, n * a.sub, n * a.negate,
  n * a.select, n * a.strongReduce, n * a.fromBytes, n * a.toBytes⟩

/-- The multiplications and squarings together. -/
def products (a : Ops) : ℕ := a.mul + a.square

end Ops

/-- The numbers of operations in a list of observations. -/
def ops (t : List Ev) : Ops where
  mul := t.count (.op .mul)
  square := t.count (.op .square)
  add := t.count (.op .add)
  sub := t.count (.op .sub)
  negate := t.count (.op .negate)
  select := t.count (.op .select)
  strongReduce := t.count (.op .strongReduce)
  fromBytes := t.count (.op .fromBytes)
  toBytes := t.count (.op .toBytes)

theorem ops_append (t u : List Ev) : ops (t ++ u) = ops t + ops u := by
  simp only [ops, List.count_append]
  rfl

/-- Observations of a field backend that are the names of its operations. -/
abbrev counting (F L : Type) [FieldBackend F L] : LeakBackend F L where
  mulTr _ _ := [.op .mul]
  squareTr _ := [.op .square]
  addTr _ _ := [.op .add]
  subTr _ _ := [.op .sub]
  negateTr _ := [.op .negate]
  selectTr _ _ _ := [.op .select]
  strongReduceTr _ := [.op .strongReduce]
  fromBytesTr _ := [.op .fromBytes]
  toBytesTr _ := [.op .toBytes]

/-- If `m` returns, it has performed the operations `n`. -/
class Cost (m : Lk α) (n : outParam Ops) : Prop where
  cost : ∀ a t, m = some (a, t) → ops t = n

namespace Cost

theorem of_eq {m : Lk α} {n n' : Ops} (h : Cost m n) (e : n = n') : Cost m n' := e ▸ h

theorem ret {a : α} : Cost (Lk.ret a) {} := ⟨by rintro _ _ ⟨⟩; rfl⟩

theorem panic {n : Ops} : Cost (none : Option (α × List Ev)) n := ⟨nofun⟩

theorem tell {t : List Ev} {a : α} : Cost (Lk.tell t a) (ops t) := ⟨by rintro _ _ ⟨⟩; rfl⟩

theorem lift {o : Option α} : Cost (Lk.lift o) {} := ⟨by
  intro a t h
  obtain ⟨_, _, h⟩ := Option.map_eq_some_iff.mp h
  cases h
  rfl⟩

/-- The result of the first program may be used for the second. -/
theorem bind' {m : Lk α} {f : α → Lk β} {n k : Ops} (h : Cost m n)
    (h' : ∀ a t, m = some (a, t) → Cost (f a) k) : Cost (m.bind f) (n + k) := ⟨by
  intro c t x
  obtain ⟨⟨a, t₁⟩, hm, x⟩ := Option.bind_eq_some_iff.mp x
  obtain ⟨⟨c', t₂⟩, hf, x⟩ := Option.map_eq_some_iff.mp x
  cases x
  exact (ops_append _ _).trans (congrArg₂ (· + ·) (h.cost _ _ hm) ((h' a _ hm).cost _ _ hf))⟩

theorem bind {m : Lk α} {f : α → Lk β} {n k : Ops} (h : Cost m n) (h' : ∀ a, Cost (f a) k) :
    Cost (m.bind f) (n + k) := bind' h fun a _ _ => h' a

theorem ev {e : Ev} (h : ops [e] = {}) : Cost (Lk.ev e) {} := ⟨by rintro _ _ ⟨⟩; exact h⟩

theorem zero_add (n : Ops) : ({} : Ops) + n = n := Ops.ext (Nat.zero_add _) (Nat.zero_add _)
  (Nat.zero_add _) (Nat.zero_add _) (Nat.zero_add _) (Nat.zero_add _) (Nat.zero_add _) (Nat.zero_add _)
  (Nat.zero_add _)

theorem ev_bind {e : Ev} (h : ops [e] = {}) {f : Unit → Lk β} {n : Ops} (h' : Cost (f ()) n) :
    Cost ((Lk.ev e).bind f) n :=
  of_eq (bind (ev h) fun _ => h') (zero_add n)

theorem ite {c : Bool} {m m' : Lk α} {n : Ops} (h : Cost m n) (h' : Cost m' n) :
    Cost (Lk.ite c m m') n := ev_bind (by rfl) (by cases c; exacts [h', h])

theorem foldl {f : σ → α → Lk σ} {n : Ops} (h : ∀ i s, Cost (f s i) n) (l : List α) :
    ∀ s, Cost (Lk.foldl f s l) (n.times l.length) := by
  induction l with
  | nil => exact fun s => of_eq ret (by simp [Ops.times])
  | cons a l ih =>
    refine fun s => of_eq (bind (h a s) fun s => ih s) ?_
    ext <;> simp only [Ops.times, List.length_cons, Nat.add_mul, Nat.one_mul] <;> exact Nat.add_comm _ _

theorem fold {f : σ → α → Lk σ} {s : σ} {l : List α} {n : Ops} (h : ∀ i s, Cost (f s i) n) :
    Cost (Lk.fold f s l) (n.times l.length) := ev_bind (by rfl) (foldl h l s)

theorem mapAux {f : α → Lk β} {n : Ops} (h : ∀ i, Cost (f i) n) (l : List α) :
    Cost (Lk.mapAux f l) (n.times l.length) := by
  induction l with
  | nil => exact of_eq ret (by simp [Ops.times])
  | cons a l ih =>
    refine of_eq (bind (h a) fun s => bind ih fun _ => ret) ?_
    ext <;> simp only [Ops.times, List.length_cons, Nat.add_mul, Nat.one_mul] <;> exact Nat.add_comm _ _

theorem mapM {f : α → Lk β} {l : List α} {n : Ops} (h : ∀ i, Cost (f i) n) :
    Cost (Lk.mapM f l) (n.times l.length) := ev_bind (by rfl) (mapAux h l)

theorem call {m : Lk α} {n : Ops} [h : Cost m n] : Cost m n := h

end Cost

instance {l : List α} {i : ℕ} : Cost (Lk.idx l i) {} := Cost.ev_bind rfl Cost.lift
instance {l : List α} {i : ℕ} {v : α} : Cost (Lk.put l i v) {} := Cost.ev_bind rfl Cost.lift
instance {l : List α} {i : ℕ} : Cost (Lk.sliceFrom l i) {} := Cost.ev_bind rfl Cost.lift
instance {w k : ℕ} : Cost (Lk.shiftAmount w k) {} := Cost.ev_bind rfl Cost.lift
instance {w : ℕ} {k : ℤ} : Cost (Lk.shiftAmountZ w k) {} := Cost.ev_bind rfl Cost.lift

/-- One step along the structure of a program. -/
macro "cost1" : tactic => `(tactic| first
  | with_reducible intro _
  | with_reducible apply Cost.bind
  | with_reducible exact Cost.ret
  | with_reducible exact Cost.lift
  | with_reducible exact Cost.panic
  | with_reducible exact Cost.call
  | with_reducible apply Cost.fold
  | with_reducible apply Cost.mapM
  | with_reducible apply Cost.ite)

/-- All steps; the sum of the numbers is computed. -/
macro "cost" : tactic => `(tactic| ((apply Cost.of_eq; on_goal 1 => (repeat' cost1)); all_goals rfl))

/-- Results with `P` have cost `n`. -/
def CostIf (P : α → Prop) (m : Lk α) (n : Ops) : Prop := ∀ a t, m = some (a, t) → P a → ops t = n

namespace CostIf
variable {P : β → Prop}

theorem of_cost {m : Lk β} {n : Ops} (h : Cost m n) : CostIf P m n := fun a t e _ => h.cost a t e

theorem of_eq {m : Lk β} {n n' : Ops} (h : CostIf P m n) (e : n = n') : CostIf P m n' := e ▸ h

theorem bind {m : Lk α} {f : α → Lk β} {n k : Ops} (h : Cost m n) (h' : ∀ a, CostIf P (f a) k) :
    CostIf P (m.bind f) (n + k) := by
  intro c t x p
  obtain ⟨⟨a, t₁⟩, hm, x⟩ := Option.bind_eq_some_iff.mp x
  obtain ⟨⟨c', t₂⟩, hf, x⟩ := Option.map_eq_some_iff.mp x
  cases x
  exact (ops_append _ _).trans (congrArg₂ (· + ·) (h.cost _ _ hm) (h' a _ _ hf p))

theorem ite_else {c : Bool} {m m' : Lk β} {n : Ops} (h : Never P m) (h' : CostIf P m' n) :
    CostIf P (Lk.ite c m m') n := by
  refine of_eq (bind (Cost.ev rfl) fun _ => ?_) (Cost.zero_add n)
  cases c
  · exact h'
  · exact fun a t e p => absurd p (h a t e)

theorem ite_then {c : Bool} {m m' : Lk β} {n : Ops} (h : Never P m') (h' : CostIf P m n) :
    CostIf P (Lk.ite c m m') n := by
  refine of_eq (bind (Cost.ev rfl) fun _ => ?_) (Cost.zero_add n)
  cases c
  · exact fun a t e p => absurd p (h a t e)
  · exact h'

end CostIf

/-! ### Scalars: no operations in the field -/

instance {self : List ℕ} : Cost (Scalar.to_bytes self) {} := by
  unfold Scalar.to_bytes
  cost

instance {self : List ℕ} : Cost (Scalar.to_radix_16 self) {} := by
  unfold Scalar.to_radix_16
  cost

instance {self : List ℕ} : Cost (Scalar.div_by_four self) {} := by
  unfold Scalar.div_by_four
  cost

instance {self : List ℕ} : Cost (Scalar.bits self) {} := by
  unfold Scalar.bits
  cost

/-! ### The field and the curves -/

section
variable {F L : Type} [FieldBackend F L]

attribute [local instance] counting

/-- The operations in the field do not depend on their operands. -/
instance countingCT : CTBackend F L where
  mul _ _ _ _ := rfl
  square _ _ := rfl
  add _ _ _ _ := rfl
  sub _ _ _ _ := rfl
  negate _ _ := rfl
  select _ _ _ _ _ _ := rfl
  strongReduce _ _ := rfl
  fromBytes _ _ := rfl
  toBytes _ _ := rfl

instance {a b : L} {x : α} : Cost (Lk.tell (LeakBackend.mulTr F a b) x) { mul := 1 } := Cost.tell
instance {a : L} {x : α} : Cost (Lk.tell (LeakBackend.squareTr F a) x) { square := 1 } := Cost.tell
instance {a b : F} {x : α} : Cost (Lk.tell (LeakBackend.addTr a b) x) { add := 1 } := Cost.tell
instance {a b : F} {x : α} : Cost (Lk.tell (LeakBackend.subTr a b) x) { sub := 1 } := Cost.tell
instance {a : F} {x : α} : Cost (Lk.tell (LeakBackend.negateTr a) x) { negate := 1 } := Cost.tell
instance {a b : F} {c : Bool} {x : α} : Cost (Lk.tell (LeakBackend.selectTr a b c) x) { select := 1 } := Cost.tell
instance {a : F} {c : Bool} {x : α} : Cost (Lk.tell (LeakBackend.condNegateTr a c) x) { negate := 1, select := 1 } := Cost.tell
instance {a : F} {x : α} : Cost (Lk.tell (LeakBackend.strongReduceTr a) x) { strongReduce := 1 } := Cost.tell
instance {a : Bytes 56} {x : α} : Cost (Lk.tell (LeakBackend.fromBytesTr F a) x) { fromBytes := 1 } := Cost.tell
instance {a : F} {x : α} : Cost (Lk.tell (LeakBackend.toBytesTr a) x) { toBytes := 1 } := Cost.tell

instance {l : List ℕ} : Cost (Lk.fieldFromBytes F l) { fromBytes := 1 } := by
  unfold Lk.fieldFromBytes
  cost

instance {self : F} {n : ℕ} : Cost (Field.square_n (F := F) self n) { square := 1 + (n - 1) } := by
  unfold Field.square_n
  refine Cost.of_eq (Cost.bind Cost.call fun _ => Cost.bind' (n := {}) (k := { square := n - 1 })
    Cost.lift fun k t e => ?_) ?_
  · obtain ⟨k', h, e⟩ := Option.map_eq_some_iff.mp e
    cases e
    have hk : k = n - 1 := by
      unfold ckSub at h
      split at h <;> cases h
      rfl
    refine Cost.of_eq (Cost.bind (Cost.fold fun _ _ => Cost.bind Cost.call fun _ => Cost.ret)
      fun _ => Cost.ret) ?_
    rw [hk, show (Gen.Rt.range 0 (n - 1)).length = n - 1 by simp [Gen.Rt.range]]
    ext <;> simp [Ops.times, Ops.add_def]
  · ext <;> simp [Ops.add_def]

instance {self : F} {other : F} :
    Cost (Field.ct_eq (F := F) self other)
      { toBytes := 2 } := by
  unfold Field.ct_eq
  cost

instance {self : F} {other : F} :
    Cost (Field.eq (F := F) self other)
      { toBytes := 2 } := by
  unfold Field.eq
  cost

instance {self : F} :
    Cost (Field.is_zero (F := F) self)
      { toBytes := 2 } := by
  unfold Field.is_zero
  cost

instance {self : F} :
    Cost (Field.invert (F := F) self)
      { mul := 13, square := 447 } := by
  unfold Field.invert
  cost

instance {self : F} :
    Cost (Field.inverse_square_root (F := F) self)
      { mul := 14, square := 445, toBytes := 2 } := by
  unfold Field.inverse_square_root
  cost

instance {u : F} {v : F} :
    Cost (Field.sqrt_ratio (F := F) u v)
      { mul := 16, square := 445, toBytes := 4 } := by
  unfold Field.sqrt_ratio
  cost

instance {self : Model.EdAff F} :
    Cost (EdAff.to_extended (F := F) self)
      { mul := 1 } := by
  unfold EdAff.to_extended
  cost

instance {a : Model.EdPt F} {b : Model.EdPt F} {choice : Bool} :
    Cost (EdPt.conditional_select (F := F) a b choice)
      { select := 4 } := by
  unfold EdPt.conditional_select
  cost

instance {self : Model.EdPt F} {other : Model.EdPt F} :
    Cost (EdPt.ct_eq (F := F) self other)
      { mul := 4, toBytes := 4 } := by
  unfold EdPt.ct_eq
  cost

instance {self : Model.EdPt F} {other : Model.EdPt F} :
    Cost (EdPt.eq (F := F) self other)
      { mul := 4, toBytes := 4 } := by
  unfold EdPt.eq
  cost

instance {self : Model.EdPt F} :
    Cost (EdPt.to_affine (F := F) self)
      { mul := 15, square := 447, strongReduce := 2 } := by
  unfold EdPt.to_affine
  cost

instance {self : Model.EdPt F} :
    Cost (EdPt.to_montgomery (F := F) self)
      { mul := 31, square := 895, sub := 2, strongReduce := 2, toBytes := 1 } := by
  unfold EdPt.to_montgomery
  cost

instance {self : Model.EdPt F} {a : L} :
    Cost (EdPt.edwards_isogeny (F := F) self a)
      { mul := 48, square := 1347, add := 3, sub := 3, strongReduce := 2 } := by
  unfold EdPt.edwards_isogeny
  cost

instance {self : Model.EdPt F} :
    Cost (EdPt.to_twisted (F := F) self)
      { mul := 48, square := 1347, add := 3, sub := 3, strongReduce := 2 } := by
  unfold EdPt.to_twisted
  cost

instance {self : Model.TwPt F} :
    Cost (TwPt.to_extensible (F := F) self)
      {} := by
  unfold TwPt.to_extensible
  cost

instance {self : Model.TwExt F} :
    Cost (TwExt.to_projective_niels (F := F) self)
      { mul := 2, add := 2, sub := 1 } := by
  unfold TwExt.to_projective_niels
  cost

instance {self : Model.TwExt F} {other : Model.PNiels F} :
    Cost (TwExt.add_projective_niels (F := F) self other)
      { mul := 8, add := 3, sub := 3 } := by
  unfold TwExt.add_projective_niels
  cost

instance {point : Model.TwPt F} :
    Cost (LookupTable.from (F := F) point)
      { mul := 72, add := 37, sub := 29 } := by
  unfold LookupTable.from
  cost

instance {self : Model.TwExt F} :
    Cost (TwExt.double (F := F) self)
      { mul := 3, square := 5, add := 3, sub := 4, negate := 1 } := by
  unfold TwExt.double
  cost

instance :
    Cost (PNiels.identity (F := F))
      { mul := 2, add := 2, sub := 1 } := by
  unfold PNiels.identity
  cost

instance {a : Model.PNiels F} {b : Model.PNiels F} {choice : Bool} :
    Cost (PNiels.conditional_select (F := F) a b choice)
      { select := 4 } := by
  unfold PNiels.conditional_select
  cost

instance {self : List (Model.PNiels F)} {index : ℕ} :
    Cost (LookupTable.select (F := F) self index)
      { mul := 2, add := 2, sub := 1, select := 32 } := by
  unfold LookupTable.select
  cost

instance {self : Model.PNiels F} {choice : Bool} :
    Cost (PNiels.conditional_negate (F := F) self choice)
      { negate := 1, select := 3 } := by
  unfold PNiels.conditional_negate
  cost

instance {self : Model.TwExt F} :
    Cost (TwExt.to_extended (F := F) self)
      { mul := 1 } := by
  unfold TwExt.to_extended
  cost

instance {point : Model.TwPt F} {s : List ℕ} :
    Cost (variable_base.variable_base (F := F) point s)
      { mul := 2559, square := 2260, add := 1958, sub := 2289, negate := 565, select := 3955 } := by
  unfold variable_base.variable_base
  cost

instance {self : Model.TwPt F} :
    Cost (TwPt.to_affine (F := F) self)
      { mul := 15, square := 447, strongReduce := 2 } := by
  unfold TwPt.to_affine
  cost

instance {self : Model.TwPt F} {a : L} :
    Cost (TwPt.edwards_isogeny (F := F) self a)
      { mul := 48, square := 1347, add := 3, sub := 3, strongReduce := 2 } := by
  unfold TwPt.edwards_isogeny
  cost

instance {self : Model.TwPt F} :
    Cost (TwPt.to_untwisted (F := F) self)
      { mul := 48, square := 1347, add := 3, sub := 3, strongReduce := 2 } := by
  unfold TwPt.to_untwisted
  cost

instance {self : Model.EdPt F} {other : Model.EdPt F} :
    Cost (EdPt.add (F := F) self other)
      { mul := 13, add := 4, sub := 4 } := by
  unfold EdPt.add
  cost

instance {self : Model.EdPt F} :
    Cost (EdPt.double (F := F) self)
      { mul := 13, add := 4, sub := 4 } := by
  unfold EdPt.double
  cost

instance {self : Model.EdPt F} {scalar : List ℕ} :
    Cost (EdPt.scalar_mod_four (F := F) self scalar)
      { mul := 26, add := 8, sub := 8, select := 16 } := by
  unfold EdPt.scalar_mod_four
  cost

instance {self : Model.EdPt F} {scalar : List ℕ} :
    Cost (EdPt.scalar_mul (F := F) self scalar)
      { mul := 2694, square := 4954, add := 1976, sub := 2307, negate := 565, select := 3971, strongReduce := 4 } := by
  unfold EdPt.scalar_mul
  cost

instance {self : Model.EdPt F} :
    Cost (EdPt.compress (F := F) self)
      { mul := 15, square := 447, strongReduce := 2, toBytes := 2 } := by
  unfold EdPt.compress
  refine Cost.of_eq (Cost.bind Cost.call fun _ => Cost.bind Cost.call fun _ => Cost.bind Cost.call fun _ =>
    Cost.bind (n := {}) (Cost.of_eq (Cost.fold (n := {}) fun _ _ => by cost) ?_) fun _ => Cost.bind Cost.lift fun _ => Cost.ret) rfl
  simp [Ops.times]

instance {self : Model.EdPt F} :
    Cost (EdPt.negate (F := F) self)
      { negate := 2 } := by
  unfold EdPt.negate
  cost

instance {self : Model.EdPt F} :
    Cost (EdPt.torque (F := F) self)
      { negate := 2 } := by
  unfold EdPt.torque
  cost

instance {self : Model.EdPt F} {scalar : List ℕ} :
    Cost (EdPt.op_mul_Scalar (F := F) self scalar)
      { mul := 2694, square := 4954, add := 1976, sub := 2307, negate := 565, select := 3971, strongReduce := 4 } := by
  unfold EdPt.op_mul_Scalar
  cost

instance {self : Model.EdPt F} :
    Cost (EdPt.is_torsion_free (F := F) self)
      { mul := 2698, square := 4954, add := 1976, sub := 2307, negate := 565, select := 3971, strongReduce := 4, toBytes := 4 } := by
  unfold EdPt.is_torsion_free
  cost

instance {self : Model.EdPt F} {other : Model.EdPt F} :
    Cost (EdPt.op_add (F := F) self other)
      { mul := 13, add := 4, sub := 4 } := by
  unfold EdPt.op_add
  cost

instance {self : Model.EdPt F} {_rhs : Model.EdPt F} :
    Cost (EdPt.op_add_assign (F := F) self _rhs)
      { mul := 13, add := 4, sub := 4 } := by
  unfold EdPt.op_add_assign
  cost

instance {self : Model.EdPt F} {other : Model.EdPt F} :
    Cost (EdPt.op_sub (F := F) self other)
      { mul := 13, add := 4, sub := 4, negate := 2 } := by
  unfold EdPt.op_sub
  cost

instance {self : Model.EdPt F} {_rhs : Model.EdPt F} :
    Cost (EdPt.op_sub_assign (F := F) self _rhs)
      { mul := 13, add := 4, sub := 4, negate := 2 } := by
  unfold EdPt.op_sub_assign
  cost

instance {self : Model.EdPt F} :
    Cost (EdPt.op_neg (F := F) self)
      { negate := 2 } := by
  unfold EdPt.op_neg
  cost

instance {self : Model.EdPt F} :
    Cost (EdPt.op_neg2 (F := F) self)
      { negate := 2 } := by
  unfold EdPt.op_neg2
  cost

instance {self : Model.EdPt F} {scalar : List ℕ} :
    Cost (EdPt.op_mul_assign_Scalar (F := F) self scalar)
      { mul := 2694, square := 4954, add := 1976, sub := 2307, negate := 565, select := 3971, strongReduce := 4 } := by
  unfold EdPt.op_mul_assign_Scalar
  cost

instance {self : List ℕ} {point : Model.EdPt F} :
    Cost (Scalar.op_mul_EdPt (F := F) self point)
      { mul := 2694, square := 4954, add := 1976, sub := 2307, negate := 565, select := 3971, strongReduce := 4 } := by
  unfold Scalar.op_mul_EdPt
  cost

instance {self : Model.EdPt F} {rhs : Model.EdPt F} :
    Cost (EdPt.op_add2 (F := F) self rhs)
      { mul := 13, add := 4, sub := 4 } := by
  unfold EdPt.op_add2
  cost

instance {self : Model.EdPt F} {rhs : Model.EdPt F} :
    Cost (EdPt.op_add3 (F := F) self rhs)
      { mul := 13, add := 4, sub := 4 } := by
  unfold EdPt.op_add3
  cost

instance {self : Model.EdPt F} {rhs : Model.EdPt F} :
    Cost (EdPt.op_add4 (F := F) self rhs)
      { mul := 13, add := 4, sub := 4 } := by
  unfold EdPt.op_add4
  cost

instance {self : Model.EdPt F} {rhs : Model.EdPt F} :
    Cost (EdPt.op_add_assign2 (F := F) self rhs)
      { mul := 13, add := 4, sub := 4 } := by
  unfold EdPt.op_add_assign2
  cost

instance {self : Model.EdPt F} {rhs : Model.EdPt F} :
    Cost (EdPt.op_sub2 (F := F) self rhs)
      { mul := 13, add := 4, sub := 4, negate := 2 } := by
  unfold EdPt.op_sub2
  cost

instance {self : Model.EdPt F} {rhs : Model.EdPt F} :
    Cost (EdPt.op_sub3 (F := F) self rhs)
      { mul := 13, add := 4, sub := 4, negate := 2 } := by
  unfold EdPt.op_sub3
  cost

instance {self : Model.EdPt F} {rhs : Model.EdPt F} :
    Cost (EdPt.op_sub4 (F := F) self rhs)
      { mul := 13, add := 4, sub := 4, negate := 2 } := by
  unfold EdPt.op_sub4
  cost

instance {self : Model.EdPt F} {rhs : Model.EdPt F} :
    Cost (EdPt.op_sub_assign2 (F := F) self rhs)
      { mul := 13, add := 4, sub := 4, negate := 2 } := by
  unfold EdPt.op_sub_assign2
  cost

instance {self : Model.EdPt F} {rhs : List ℕ} :
    Cost (EdPt.op_mul_assign_Scalar2 (F := F) self rhs)
      { mul := 2694, square := 4954, add := 1976, sub := 2307, negate := 565, select := 3971, strongReduce := 4 } := by
  unfold EdPt.op_mul_assign_Scalar2
  cost

instance {self : Model.EdPt F} {rhs : List ℕ} :
    Cost (EdPt.op_mul_Scalar2 (F := F) self rhs)
      { mul := 2694, square := 4954, add := 1976, sub := 2307, negate := 565, select := 3971, strongReduce := 4 } := by
  unfold EdPt.op_mul_Scalar2
  cost

instance {self : Model.EdPt F} {rhs : List ℕ} :
    Cost (EdPt.op_mul_Scalar3 (F := F) self rhs)
      { mul := 2694, square := 4954, add := 1976, sub := 2307, negate := 565, select := 3971, strongReduce := 4 } := by
  unfold EdPt.op_mul_Scalar3
  cost

instance {self : Model.EdPt F} {rhs : List ℕ} :
    Cost (EdPt.op_mul_Scalar4 (F := F) self rhs)
      { mul := 2694, square := 4954, add := 1976, sub := 2307, negate := 565, select := 3971, strongReduce := 4 } := by
  unfold EdPt.op_mul_Scalar4
  cost

instance {self : List ℕ} {rhs : Model.EdPt F} :
    Cost (Scalar.op_mul_EdPt2 (F := F) self rhs)
      { mul := 2694, square := 4954, add := 1976, sub := 2307, negate := 565, select := 3971, strongReduce := 4 } := by
  unfold Scalar.op_mul_EdPt2
  cost

instance {self : List ℕ} {rhs : Model.EdPt F} :
    Cost (Scalar.op_mul_EdPt3 (F := F) self rhs)
      { mul := 2694, square := 4954, add := 1976, sub := 2307, negate := 565, select := 3971, strongReduce := 4 } := by
  unfold Scalar.op_mul_EdPt3
  cost

instance {self : List ℕ} {rhs : Model.EdPt F} :
    Cost (Scalar.op_mul_EdPt4 (F := F) self rhs)
      { mul := 2694, square := 4954, add := 1976, sub := 2307, negate := 565, select := 3971, strongReduce := 4 } := by
  unfold Scalar.op_mul_EdPt4
  cost

instance {self : Model.TwExt F} {other : Model.TwExt F} :
    Cost (TwExt.ct_eq (F := F) self other)
      { mul := 4, toBytes := 4 } := by
  unfold TwExt.ct_eq
  cost

instance {self : Model.TwExt F} {other : Model.TwExt F} :
    Cost (TwExt.eq (F := F) self other)
      { mul := 4, toBytes := 4 } := by
  unfold TwExt.eq
  cost

instance {self : Model.TwExt F} {other : Model.TwPt F} :
    Cost (TwExt.add_extended (F := F) self other)
      { mul := 10, add := 4, sub := 3 } := by
  unfold TwExt.add_extended
  cost

instance {self : Model.TwExt F} {other : Model.TwExt F} :
    Cost (TwExt.add_extensible (F := F) self other)
      { mul := 11, add := 4, sub := 3 } := by
  unfold TwExt.add_extensible
  cost

instance {self : Model.TwExt F} {other : Model.TwPt F} :
    Cost (TwExt.sub_extended (F := F) self other)
      { mul := 10, add := 3, sub := 4 } := by
  unfold TwExt.sub_extended
  cost

instance {self : Model.TwExt F} {other : Model.ANiels F} :
    Cost (TwExt.add_affine_niels (F := F) self other)
      { mul := 7, add := 3, sub := 3 } := by
  unfold TwExt.add_affine_niels
  cost

instance {self : Model.TwPt F} {other : Model.TwPt F} :
    Cost (TwPt.ct_eq (F := F) self other)
      { mul := 4, toBytes := 4 } := by
  unfold TwPt.ct_eq
  cost

instance {a : Model.TwPt F} {b : Model.TwPt F} {choice : Bool} :
    Cost (TwPt.conditional_select (F := F) a b choice)
      { select := 4 } := by
  unfold TwPt.conditional_select
  cost

instance {self : Model.TwPt F} {other : Model.TwPt F} :
    Cost (TwPt.eq (F := F) self other)
      { mul := 4, toBytes := 4 } := by
  unfold TwPt.eq
  cost

instance {self : Model.TwPt F} :
    Cost (TwPt.double (F := F) self)
      { mul := 4, square := 5, add := 3, sub := 4, negate := 1 } := by
  unfold TwPt.double
  cost

instance {self : Model.TwPt F} {other : Model.TwPt F} :
    Cost (TwPt.add (F := F) self other)
      { mul := 11, add := 4, sub := 3 } := by
  unfold TwPt.add
  cost

instance {self : Model.TwPt F} :
    Cost (TwPt.negate (F := F) self)
      { negate := 2 } := by
  unfold TwPt.negate
  cost

instance {self : Model.TwPt F} :
    Cost (TwPt.torque (F := F) self)
      { negate := 2 } := by
  unfold TwPt.torque
  cost

instance :
    Cost (PNiels.default (F := F))
      { mul := 2, add := 2, sub := 1 } := by
  unfold PNiels.default
  cost

instance {self : Model.PNiels F} :
    Cost (PNiels.to_extended (F := F) self)
      { mul := 3, square := 1, add := 1, sub := 1 } := by
  unfold PNiels.to_extended
  cost

instance {self : Model.PNiels F} {other : Model.PNiels F} :
    Cost (PNiels.eq (F := F) self other)
      { mul := 10, square := 2, add := 2, sub := 2, toBytes := 4 } := by
  unfold PNiels.eq
  cost

instance {self : Model.TwAff F} :
    Cost (TwAff.is_on_curve (F := F) self)
      { mul := 2, square := 2, add := 1, sub := 1, toBytes := 2 } := by
  unfold TwAff.is_on_curve
  cost

instance {self : Model.TwAff F} :
    Cost (TwAff.negate (F := F) self)
      { negate := 1 } := by
  unfold TwAff.negate
  cost

instance {self : Model.TwAff F} {other : Model.TwAff F} :
    Cost (TwAff.add (F := F) self other)
      { mul := 40, square := 894, add := 3, sub := 1 } := by
  unfold TwAff.add
  cost

instance {self : Model.TwAff F} :
    Cost (TwAff.to_extensible (F := F) self)
      {} := by
  unfold TwAff.to_extensible
  cost

instance {self : Model.TwAff F} :
    Cost (TwAff.to_affine_niels (F := F) self)
      { mul := 2, add := 1, sub := 1 } := by
  unfold TwAff.to_affine_niels
  cost

instance {self : Model.TwAff F} :
    Cost (TwAff.to_extended (F := F) self)
      { mul := 1 } := by
  unfold TwAff.to_extended
  cost

instance {a : Model.ANiels F} {b : Model.ANiels F} {choice : Bool} :
    Cost (ANiels.conditional_select (F := F) a b choice)
      { select := 3 } := by
  unfold ANiels.conditional_select
  cost

instance {self : Model.ANiels F} :
    Cost (ANiels.to_extended (F := F) self)
      { mul := 1, add := 1, sub := 1 } := by
  unfold ANiels.to_extended
  cost

instance {self : List ℕ} {other : List ℕ} :
    Cost (MontgomeryPoint.ct_eq self other)
      {} := by
  unfold MontgomeryPoint.ct_eq
  cost

instance {self : List ℕ} {other : List ℕ} :
    Cost (MontgomeryPoint.eq self other)
      {} := by
  unfold MontgomeryPoint.eq
  cost

instance {a : Model.ProjMont F} {b : Model.ProjMont F} {choice : Bool} :
    Cost (ProjMont.conditional_select (F := F) a b choice)
      { select := 2 } := by
  unfold ProjMont.conditional_select
  cost

instance {P : Model.ProjMont F} {Q : Model.ProjMont F} {affine_PmQ : F} :
    Cost (montgomery.differential_add_and_double (F := F) P Q affine_PmQ)
      { mul := 6, square := 4, add := 4, sub := 4 } := by
  unfold montgomery.differential_add_and_double
  cost

instance {self : Model.ProjMont F} :
    Cost (ProjMont.to_affine (F := F) self)
      { mul := 14, square := 447, toBytes := 1 } := by
  unfold ProjMont.to_affine
  cost

set_option maxRecDepth 10000 in
instance {self : List ℕ} {scalar : List ℕ} :
    Cost (MontgomeryPoint.op_mul_Scalar (F := F) self scalar)
      { mul := 2702, square := 2239, add := 1792, sub := 1792, select := 1792, fromBytes := 1, toBytes := 1 } := by
  unfold MontgomeryPoint.op_mul_Scalar
  cost

instance {self : List ℕ} {point : List ℕ} :
    Cost (Scalar.op_mul_MontgomeryPoint (F := F) self point)
      { mul := 2702, square := 2239, add := 1792, sub := 1792, select := 1792, fromBytes := 1, toBytes := 1 } := by
  unfold Scalar.op_mul_MontgomeryPoint
  cost

instance {self : List ℕ} :
    Cost (MontgomeryPoint.as_bytes self)
      {} := by
  unfold MontgomeryPoint.as_bytes
  cost

instance {self : List ℕ} :
    Cost (MontgomeryPoint.to_projective (F := F) self)
      { fromBytes := 1 } := by
  unfold MontgomeryPoint.to_projective
  cost

instance {self : List ℕ} :
    Cost (CompressedDecaf.as_bytes self)
      {} := by
  unfold CompressedDecaf.as_bytes
  cost

instance {self : List ℕ} {other : List ℕ} :
    Cost (CompressedDecaf.ct_eq self other)
      {} := by
  unfold CompressedDecaf.ct_eq
  cost

instance {self : List ℕ} {other : List ℕ} :
    Cost (CompressedDecaf.eq self other)
      {} := by
  unfold CompressedDecaf.eq
  cost

instance {self : Model.DecafPt F} {other : Model.DecafPt F} :
    Cost (DecafPt.equals (F := F) self other)
      { mul := 2, toBytes := 2 } := by
  unfold DecafPt.equals
  cost

instance {self : Model.DecafPt F} {other : Model.DecafPt F} :
    Cost (DecafPt.sub (F := F) self other)
      { mul := 11, add := 3, sub := 4 } := by
  unfold DecafPt.sub
  cost

instance {self : Model.DecafPt F} :
    Cost (DecafPt.compress (F := F) self)
      { mul := 23, square := 446, add := 1, sub := 2, negate := 2, select := 2, toBytes := 5 } := by
  unfold DecafPt.compress
  cost

instance {self : Model.DecafPt F} {other : Model.DecafPt F} :
    Cost (DecafPt.op_add (F := F) self other)
      { mul := 11, add := 4, sub := 3 } := by
  unfold DecafPt.op_add
  cost

instance {self : Model.DecafPt F} {other : Model.DecafPt F} :
    Cost (DecafPt.op_add2 (F := F) self other)
      { mul := 11, add := 4, sub := 3 } := by
  unfold DecafPt.op_add2
  cost

instance {self : Model.DecafPt F} {other : Model.DecafPt F} :
    Cost (DecafPt.op_sub (F := F) self other)
      { mul := 11, add := 3, sub := 4 } := by
  unfold DecafPt.op_sub
  cost

instance {self : Model.DecafPt F} {other : Model.DecafPt F} :
    Cost (DecafPt.op_sub2 (F := F) self other)
      { mul := 11, add := 3, sub := 4 } := by
  unfold DecafPt.op_sub2
  cost

instance {self : Model.DecafPt F} :
    Cost (DecafPt.op_neg (F := F) self)
      { negate := 2 } := by
  unfold DecafPt.op_neg
  cost

instance {self : Model.DecafPt F} :
    Cost (DecafPt.op_neg2 (F := F) self)
      { negate := 2 } := by
  unfold DecafPt.op_neg2
  cost

instance {self : List ℕ} :
    Cost (CompressedRistretto.as_bytes self)
      {} := by
  unfold CompressedRistretto.as_bytes
  cost

instance {self : List ℕ} {other : List ℕ} :
    Cost (CompressedRistretto.ct_eq self other)
      {} := by
  unfold CompressedRistretto.ct_eq
  cost

instance {self : List ℕ} {other : List ℕ} :
    Cost (CompressedRistretto.eq self other)
      {} := by
  unfold CompressedRistretto.eq
  cost

instance {self : Model.RistPt F} {other : Model.RistPt F} :
    Cost (RistPt.equals (F := F) self other)
      { mul := 2, toBytes := 2 } := by
  unfold RistPt.equals
  cost

instance {self : Model.RistPt F} :
    Cost (RistPt.encode (F := F) self)
      {} := by
  unfold RistPt.encode
  exact Cost.panic

instance {self : List ℕ} :
    Cost (CompressedRistretto.decode (F := F) self)
      {} := by
  unfold CompressedRistretto.decode
  exact Cost.panic

instance {l : List (Model.EdPt F)} : Cost (EdPt.sum (F := F) l)
    { mul := l.length * 13, add := l.length * 4, sub := l.length * 4 } := by
  unfold EdPt.sum
  cost

/-- One step of `CostIf`. -/
local macro "costb" : tactic => `(tactic| (
  with_reducible apply CostIf.bind
  on_goal 1 => (repeat' cost1)
  on_goal 1 => intro _))

/-- Accepted encodings of points. -/
theorem decompress_cost {b : List ℕ} : CostIf (fun r => r.isSome) (CompressedEdwardsY.decompress (F := F) b)
    { mul := 18, square := 446, sub := 2, negate := 1, select := 1, fromBytes := 1, toBytes := 5 } := by
  unfold CompressedEdwardsY.decompress
  apply CostIf.of_eq
  on_goal 1 =>
    iterate 8 costb
    apply CostIf.ite_else (Never.ret (by simp))
    apply CostIf.of_cost
    repeat' cost1
  all_goals rfl

/-- Rejected encodings of points. -/
theorem decompress_cost_none {b : List ℕ} :
    CostIf (fun r => r.isSome = false) (CompressedEdwardsY.decompress (F := F) b)
      { mul := 17, square := 446, sub := 2, fromBytes := 1, toBytes := 4 } := by
  unfold CompressedEdwardsY.decompress
  apply CostIf.of_eq
  on_goal 1 =>
    iterate 8 costb
    exact CostIf.ite_then (Never.bind fun _ => Never.bind fun _ => Never.bind fun _ => Never.bind fun _ =>
      Never.ret (by simp)) (CostIf.of_cost Cost.ret)
  all_goals rfl

/-- Accepted encodings of Decaf elements. -/
theorem decaf_decompress_cost {b : List ℕ} :
    CostIf (fun r => r.isSome) (CompressedDecaf.decompress (F := F) b)
      { mul := 23, square := 447, add := 3, sub := 1, negate := 1, select := 1, fromBytes := 1,
        toBytes := 6 } := by
  unfold CompressedDecaf.decompress
  have no : ∀ f : Lk (Option (Model.DecafPt F)),
      Never (fun r => r.isSome = true) (Lk.ite true (Lk.ret none) f) :=
    fun f => Never.bind fun _ => Never.ret (by simp)
  apply CostIf.of_eq
  on_goal 1 =>
    iterate 3 costb
    lift_lets
    intros
    rw [or_bind]
    apply CostIf.ite_else (no _)
    costb
    apply CostIf.ite_else (Never.ret (by simp))
    iterate 8 costb
    apply CostIf.ite_else (Never.ret (by simp))
    apply CostIf.of_cost
    repeat' cost1
  all_goals rfl

end

end Ed448.Leak
