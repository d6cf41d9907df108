import Verif.Gen.U32
import Verif.Model.U32
import Verif.Proofs.SourceScalar

/-!
# The model of the 32-bit backend is the translated code

Each theorem states that the translation of a function of src/field/u32 and the function of
`Verif.Model.U32` agree on all inputs, panics included.
-/

set_option maxRecDepth 10000

namespace Ed448.Proofs.Source
open Ed448 Ed448.Model Ed448.Model.U32 Ed448.Gen

theorem list16 {α : Type} (l : List α) (h : l.length = 16) :
    ∃ a0 a1 a2 a3 a4 a5 a6 a7 a8 a9 a10 a11 a12 a13 a14 a15,
      l = [a0, a1, a2, a3, a4, a5, a6, a7, a8, a9, a10, a11, a12, a13, a14, a15] := by
  match l, h with
  | [a0, a1, a2, a3, a4, a5, a6, a7, a8, a9, a10, a11, a12, a13, a14, a15], _ =>
    exact ⟨a0, a1, a2, a3, a4, a5, a6, a7, a8, a9, a10, a11, a12, a13, a14, a15, rfl⟩

theorem bindU32 {β : Type} {x : ℕ} {f g : ℕ → Option β} (h : ∀ y, y < 2 ^ 32 → f y = g y) :
    (ckU32 x).bind f = (ckU32 x).bind g := by
  unfold ckU32
  split
  · rename_i hx; rw [bsome, bsome, h x hx]
  · rw [Option.bind_none, Option.bind_none]

theorem pack_map {l : List ℕ} (h : l.length = 16) (h' : ∀ x ∈ l, x < 2 ^ 32) :
    (pack l).map (·.l) = some l := ofList_map h h'

theorem waddU_32 (x y : ℕ) : Rt.waddU 32 x y = wrapAddU32 x y := by rw [Rt.waddU, wrapAddU32]

theorem wsubU_32 {x y : ℕ} (h : y < 2 ^ 32) : Rt.wsubU 32 x y = wrapSubU32 x y := by
  rw [Rt.wsubU, wrapSubU32, Nat.mod_eq_of_lt h]

theorem bindU32m {α β : Type} {x : ℕ} {f : ℕ → Option β} {g : ℕ → Option α} {φ : α → β}
    (h : ∀ y, y < 2 ^ 32 → f y = (g y).map φ) : (ckU32 x).bind f = ((ckU32 x).bind g).map φ := by
  unfold ckU32
  split
  · rename_i hx; rw [bsome, bsome, h x hx]
  · rw [Option.bind_none, Option.bind_none, Option.map_none]


/-- Evaluates the next assignment of a limb. -/
macro "norm_self" : tactic => `(tactic| (
  lift_lets
  intro self
  obtain ⟨s, h⟩ : ∃ s, s = self := ⟨_, rfl⟩
  simp only [self, List.set_cons_zero, List.set_cons_succ] at h
  have h' : self = s := h.symm
  clear_value self
  subst h'
  subst h))

/-- `weak_reduce`. -/
theorem weak_reduce (a : Raw) : Gen.FieldElement28.weak_reduce a.l = (weakReduce a).map (·.l) := by
  obtain ⟨l, len, lt⟩ := a
  obtain ⟨a0, a1, a2, a3, a4, a5, a6, a7, a8, a9, a10, a11, a12, a13, a14, a15, rfl⟩ := list16 l len
  unfold FieldElement28.weak_reduce
  iterate 17
    refine bindU32m fun _ _ => ?_
    norm_self
  refine (pack_map rfl ?_).symm
  simp_all

theorem mapM_bind_cons {α β γ : Type} (f : α → Option β) (x : α) (xs : List α)
    (k : List β → Option γ) : ((x :: xs).mapM f).bind k =
      (f x).bind fun y => (xs.mapM f).bind fun ys => k (y :: ys) := by
  rw [List.mapM_cons]
  simp only [bind, pure]
  cases f x with
  | none => rfl
  | some y =>
    rw [bsome, bsome]
    cases xs.mapM f <;> rfl

/-- `add_no_reduce`. -/
theorem add_no_reduce (a b : Raw) :
    Gen.FieldElement28.add_no_reduce a.l b.l = (addNoReduce a b).map (·.l) := by
  have hr : List.range 16 = [0, 1, 2, 3, 4, 5, 6, 7, 8, 9, 10, 11, 12, 13, 14, 15] := rfl
  rw [addNoReduce, hr]
  iterate 16
    rw [mapM_bind_cons]
    refine bindU32m fun _ _ => ?_
  refine (pack_map rfl ?_).symm
  simp_all

/-- `add`. -/
theorem fe_add (a b : Raw) : Gen.FieldElement28.op_add a.l b.l = (add a b).map (·.l) := by
  unfold FieldElement28.op_add add
  simp only [add_no_reduce, bind_map_l, weak_reduce, bind_id, Option.map_bind, Function.comp_def]

theorem wadd_lt (x y : ℕ) : wrapAddU32 x y < 2 ^ 32 := Nat.mod_lt _ (by norm_num)
theorem wsub_lt (x y : ℕ) : wrapSubU32 x y < 2 ^ 32 := Nat.mod_lt _ (by norm_num)

/-- `bias`. -/
theorem bias_eq (a : Raw) (b : ℕ) : Gen.FieldElement28.bias a.l b = (bias a b).map (·.l) := by
  unfold FieldElement28.bias bias
  have hm : (268435455 : ℕ) = MASK := by decide
  rw [hm]
  simp only [Arr.get, bind, Option.map_bind, Function.comp_def, waddU_32]
  congr 1; funext co1
  congr 1; funext co2
  rw [pack_map (by rfl)]
  · rfl
  · intro x hx
    simp only [List.mem_cons, List.not_mem_nil, or_false] at hx
    rcases hx with rfl | rfl | rfl | rfl | rfl | rfl | rfl | rfl | rfl | rfl | rfl | rfl | rfl |
      rfl | rfl | rfl <;> exact wadd_lt _ _

/-- `sub_no_reduce`. -/
theorem sub_no_reduce (a b : Raw) :
    some (Gen.FieldElement28.sub_no_reduce a.l b.l) = (subNoReduce a b).map (·.l) := by
  unfold FieldElement28.sub_no_reduce subNoReduce
  have hr : List.range 16 = [0, 1, 2, 3, 4, 5, 6, 7, 8, 9, 10, 11, 12, 13, 14, 15] := rfl
  have hb : ∀ i, b.l.getD i 0 < 2 ^ 32 := fun i => getD_lt_of b.lt (by norm_num) i
  rw [pack_map (by rfl)]
  · simp only [hr, List.map_cons, List.map_nil, Arr.get, wsubU_32 (hb _)]
  · intro x hx
    obtain ⟨i, -, rfl⟩ := List.mem_map.mp hx
    exact wsub_lt _ _

/-- `sub`. -/
theorem fe_sub (a b : Raw) : Gen.FieldElement28.op_sub a.l b.l = (sub a b).map (·.l) := by
  unfold FieldElement28.op_sub sub
  simp only [bias_eq, bind_map_l, Option.map_bind, Function.comp_def, bind_id]
  congr 1; funext s
  have h := sub_no_reduce s b
  cases hs : subNoReduce s b with
  | none => rw [hs] at h; simp at h
  | some r =>
    rw [hs, Option.map_some, Option.some.injEq] at h
    rw [h, weak_reduce, bsome]

theorem fe_zero : FieldElement28.zero = U32.zero.l := rfl
theorem fe_default : FieldElement28.default = U32.zero.l := rfl
theorem fe_one : FieldElement28.one = U32.one.l := rfl
theorem fe_minus_one : FieldElement28.minus_one = U32.minusOne.l := rfl

/-- `negate`. -/
theorem fe_negate (a : Raw) : Gen.FieldElement28.negate a.l = (negate a).map (·.l) := by
  rw [FieldElement28.negate, fe_zero, fe_sub, bind_id, negate]

/-- `conditional_select`. -/
theorem fe_select (a b : Raw) (c : Bool) :
    Gen.FieldElement28.conditional_select a.l b.l c = (select a b c).l := by
  cases c <;> rfl

/-- `conditional_negate`. -/
theorem fe_condNegate (a : Raw) (c : Bool) : Gen.FieldElement28.conditional_negate a.l c =
    ((negate a).map fun n => select a n c).map (·.l) := by
  rw [FieldElement28.conditional_negate, fe_negate]
  cases negate a with
  | none => rfl
  | some n => simp only [Option.map_some, bsome, fe_select]

theorem bindm {α β γ : Type} {x : Option γ} {f : γ → Option β} {g : γ → Option α} {φ : α → β}
    (h : ∀ y, f y = (g y).map φ) : x.bind f = (x.bind g).map φ := by
  cases x with
  | none => rfl
  | some y => rw [bsome, bsome, h y]

theorem strongSub_cons {γ : Type} (c : ℤ) (x : ℕ) (xs : List ℕ) (y : ℕ) (ys : List ℕ)
    (K : List ℕ × ℤ → Option γ) : (strongSub c (x :: xs) (y :: ys)).bind K =
      (ckI64 ((x : ℤ) - (y : ℤ))).bind fun t => (ckI64 (c + t)).bind fun s =>
        (strongSub (sarZ s 28) xs ys).bind fun rf => K ((asU32Z s &&& MASK) :: rf.1, rf.2) := by
  rw [strongSub]
  simp only [bind, Option.bind_assoc, bsome]

theorem strongAdd_cons {γ : Type} (c : ℕ) (x : ℕ) (xs : List ℕ) (y : ℕ) (ys : List ℕ)
    (K : List ℕ × ℕ → Option γ) : (strongAdd c (x :: xs) (y :: ys)).bind K =
      (ckU64 (x + y)).bind fun t => (ckU64 (c + t)).bind fun s =>
        (strongAdd (s >>> 28) xs ys).bind fun rf => K ((asU32 s &&& MASK) :: rf.1, rf.2) := by
  rw [strongAdd]
  simp only [bind, Option.bind_assoc, bsome]

/-- Evaluates the assignments after one step of a carry chain. -/
macro "norm_carry" : tactic => `(tactic| (
  lift_lets
  intro sc1 self sc2
  obtain ⟨s, h⟩ : ∃ s, s = self := ⟨_, rfl⟩
  simp only [self, sc1, List.set_cons_zero, List.set_cons_succ] at h
  have h' : self = s := h.symm
  clear_value self
  subst h'
  subst h
  obtain ⟨s, h⟩ : ∃ s, s = sc2 := ⟨_, rfl⟩
  simp only [sc2, sc1] at h
  have h' : sc2 = s := h.symm
  clear_value sc2
  clear sc1
  subst h'
  subst h))

theorem strongSub_nil {γ : Type} (c : ℤ) (K : List ℕ × ℤ → Option γ) :
    (strongSub c [] []).bind K = K ([], c) := by
  rw [strongSub]
  · rw [bsome]
  · intros; contradiction

theorem strongAdd_nil {γ : Type} (c : ℕ) (K : List ℕ × ℕ → Option γ) :
    (strongAdd c [] []).bind K = K ([], c) := by
  rw [strongAdd]
  · rw [bsome]
  · intros; contradiction

theorem strong_end {γ : Type} (c : ℕ) (s : ℤ) (r : γ) :
    ((Rt.require (decide (c < 2))).bind fun _ =>
      (ckI64 (Int.bmod (c : ℤ) (2 ^ 64) + s)).bind fun t =>
      (Rt.require (t == 0)).bind fun _ => some r) =
      if c < 2 ∧ (c : ℤ) + s = 0 then some r else none := by
  have hreq : ∀ {β : Type} (b : Bool) (f : Unit → Option β),
      (Rt.require b).bind f = if b then f () else none := by
    intro β b f
    cases b <;> rfl
  simp only [hreq]
  by_cases hc : c < 2
  · have e : Int.bmod (c : ℤ) (2 ^ 64) = c := Int.bmod_eq_of_le (by omega) (by omega)
    have hc' : decide (c < 2) = true := decide_eq_true hc
    rw [hc', if_pos rfl, e]
    by_cases hs : (c : ℤ) + s = 0
    · have h0 : ckI64 0 = some 0 := if_pos (by norm_num)
      rw [hs, h0, bsome, if_pos (by rfl), if_pos (And.intro hc rfl)]
    · have hs' : ¬ (c < 2 ∧ (c : ℤ) + s = 0) := fun h => hs h.2
      have hb : ((c : ℤ) + s == 0) = false := beq_eq_false_iff_ne.mpr hs
      rw [if_neg hs', ckI64]
      split
      · rw [bsome, hb, if_neg (by decide)]
      · rw [Option.bind_none]
  · have hc' : decide (c < 2) = false := decide_eq_false hc
    have hs' : ¬ (c < 2 ∧ (c : ℤ) + s = 0) := fun h => hc h.1
    rw [hc', if_neg hs', if_neg (by decide)]

/-- The two assertions at the end of `strong_reduce`. -/
def strongFin (r : List ℕ) (c : ℕ) (s : ℤ) : Option Raw :=
  if c < 2 ∧ (c : ℤ) + s = 0 then pack r else none

theorem strongReduce_eq (a : Raw) : strongReduce a = (weakReduce a).bind fun a =>
    (strongSub 0 a.l pLimbs).bind fun ds =>
    (strongAdd 0 ds.1 (addBack (asU32Z ds.2 &&& MASK))).bind fun rc =>
    strongFin rc.1 rc.2 ds.2 := rfl

set_option maxHeartbeats 1000000 in
/-- `strong_reduce`. -/
theorem strong_reduce (a : Raw) :
    Gen.FieldElement28.strong_reduce a.l = (strongReduce a).map (·.l) := by
  rw [strongReduce_eq, FieldElement28.strong_reduce, weak_reduce, bind_map_l]
  refine bindm fun a => ?_
  obtain ⟨l, len, lt⟩ := a
  obtain ⟨a0, a1, a2, a3, a4, a5, a6, a7, a8, a9, a10, a11, a12, a13, a14, a15, rfl⟩ := list16 l len
  lift_lets
  intro self sub_carry add_carry sc0 c0
  have hsc : ∀ x y, sub_carry x y = ckI64 ((x : ℤ) - y) := fun x y => bind_id _
  have hac : ∀ x y, add_carry x y = ckU64 (x + y) := fun x y => bind_id _
  have hself : self = [a0, a1, a2, a3, a4, a5, a6, a7, a8, a9, a10, a11, a12, a13, a14, a15] := rfl
  have hsc0 : sc0 = 0 := rfl
  have hc0 : c0 = 0 := rfl
  clear_value self sub_carry add_carry sc0 c0
  subst hself hsc0 hc0
  conv_rhs => dsimp only
  clear lt len
  rw [pLimbs]
  iterate 16
    rw [hsc]
    conv_rhs => rw [strongSub_cons]; dsimp only
    refine bindm fun x => bindm fun x => ?_
    norm_carry
  lift_lets
  intro sm m
  conv_rhs => rw [strongSub_nil]; dsimp only
  conv_rhs => rw [addBack]
  iterate 16
    rw [hac]
    conv_rhs => rw [strongAdd_cons]; dsimp only
    refine bindm fun y => bindm fun y => ?_
    norm_carry
  conv_rhs => rw [strongAdd_nil]; dsimp only
  rw [strong_end, strongFin]
  split
  · refine (pack_map rfl ?_).symm
    have hM : ∀ z, z &&& MASK < 2 ^ 32 := fun z =>
      lt_of_le_of_lt Nat.and_le_right (by decide)
    intro z hz
    simp only [List.mem_cons, List.not_mem_nil, or_false] at hz
    rcases hz with rfl | rfl | rfl | rfl | rfl | rfl | rfl | rfl | rfl | rfl | rfl | rfl | rfl |
      rfl | rfl | rfl <;> exact hM _
  · rfl

/-! ## Multiplication -/

theorem mask_eq (z : ℤ) : Rt.asU 32 (Rt.andZ 128 z 268435455) = maskI z := by
  have h1 : (BitVec.ofInt 128 z &&& BitVec.ofInt 128 268435455).toNat = (z % 2 ^ 28).toNat := by
    rw [BitVec.toNat_and, BitVec.toNat_ofInt, BitVec.toNat_ofInt]
    have e : ((268435455 : ℤ) % ↑(2 ^ 128 : ℕ)).toNat = 2 ^ 28 - 1 := by
      rw [Int.emod_eq_of_lt (by norm_num) (by norm_num)]
      rfl
    rw [e, Nat.and_two_pow_sub_one_eq_mod]
    omega
  rw [Rt.andZ, BitVec.toInt_eq_toNat_of_lt (by rw [h1]; omega), h1, Rt.asU, maskI]
  omega

theorem maskI_lt (z : ℤ) : maskI z < 2 ^ 32 := by
  rw [maskI]
  omega

theorem mul_ok {x y : ℕ} (hx : x < 2 ^ 32) (hy : y < 2 ^ 32) :
    (ckI128 ((x : ℤ) * (y : ℤ))).bind (fun τ => some τ) = some (mm x y) := by
  have h : x * y < 2 ^ 32 * 2 ^ 32 := Nat.mul_lt_mul'' hx hy
  have h' : (x : ℤ) * (y : ℤ) < 2 ^ 64 := by exact_mod_cast h
  have h'' : 0 ≤ (x : ℤ) * (y : ℤ) := by positivity
  rw [bind_id, ckI128, if_pos, mm]
  constructor <;> omega

theorem ckSum_two {γ : Type} (x y : ℤ) (l : List ℤ) (K : ℤ → Option γ) :
    (ckSum (x :: y :: l)).bind K = (ckI128 (x + y)).bind fun s => (ckSum (s :: l)).bind K := by
  simp only [ckSum, List.foldlM_cons, bind, Option.bind_assoc]

section Peel
variable {α α' β γ : Type} {k : α → Option γ} {k' : α' → Option γ}

theorem peel_m {R : Option γ} {x : Option β} {v : β} {f : β → Option α} (h : x = some v)
    (h' : (f v).bind k = R) : (x.bind f).bind k = R := by
  rw [h, bsome, h']

theorem peel_one {L : Option γ} {s : ℤ} {K : ℤ → Option α'} (h : L = (K s).bind k') :
    L = ((ckSum [s]).bind K).bind k' := by
  rw [h, ckSum, List.foldlM_nil]
  rfl

theorem peel_add {f : ℤ → Option α} {x y : ℤ} {l : List ℤ} {K : ℤ → Option α'}
    (h : ∀ s, (f s).bind k = ((ckSum (s :: l)).bind K).bind k') :
    ((ckI128 (x + y)).bind f).bind k = ((ckSum (x :: y :: l)).bind K).bind k' := by
  rw [ckSum_two, Option.bind_assoc, Option.bind_assoc]
  exact Option.bind_congr fun s _ => h s

theorem peel_sub {f : ℤ → Option α} {x y : ℤ} {l : List ℤ} {K : ℤ → Option α'}
    (h : ∀ s, (f s).bind k = ((ckSum (s :: l)).bind K).bind k') :
    ((ckI128 (x - y)).bind f).bind k = ((ckSum (x :: -y :: l)).bind K).bind k' := by
  rw [sub_eq_add_neg]
  exact peel_add h

theorem peel_ck {f : ℤ → Option α} {x : ℤ} {K : ℤ → Option α'}
    (h : ∀ s, (f s).bind k = (K s).bind k') :
    ((ckI128 x).bind f).bind k = ((ckI128 x).bind K).bind k' := by
  rw [Option.bind_assoc, Option.bind_assoc]
  exact Option.bind_congr fun s _ => h s

end Peel

/-- Compares one statement of the translation with the model. -/
macro "peel_mul" h1:ident h2:ident : tactic => `(tactic| (
  repeat' first
    | refine peel_m ($h1 _ _) ?_
    | refine peel_m ($h2 _ _ (by decide) (by decide)) ?_
    | refine peel_one ?_
    | refine peel_add fun _ => ?_
    | refine peel_sub fun _ => ?_
    | refine peel_ck fun _ => ?_
  rw [bsome, bsome]
  simp only [mask_eq]))

section Mul
attribute [local irreducible] ckI128
variable {β γ : Type} {a b aa bb : List ℕ} {A B AA BB : ℕ → ℕ}

theorem mul_part2
    (h1 : ∀ i j, ((ckI128 ((a.getD i 0 : ℕ) * (b.getD j 0 : ℕ) : ℤ)).bind fun τ => some τ) =
      some (mm (A i) (B j)))
    (h2 : ∀ i j, i < 8 → j < 8 →
      ((ckI128 ((aa.getD i 0 : ℕ) * (bb.getD j 0 : ℕ) : ℤ)).bind fun τ => some τ) =
        some (mm (AA i) (BB j)))
    {c : List ℕ} {z0 z1 z2 : ℤ} {k : List ℕ × ℤ × ℤ × ℤ → Option γ}
    {k' : ℕ × ℕ × ℤ × ℤ → Option β} {φ : β → γ}
    (hk : ∀ u v x y w, u < 2 ^ 32 → v < 2 ^ 32 →
      k ((c.set 0 u).set 8 v, x, y, w) = (k' (u, v, x, y)).map φ) :
    (karatsuba.mul.part2 a b 268435455 c aa bb z0 z1 z2).bind k =
      ((mulJ0 A B AA BB z0).bind k').map φ := by
  rw [Option.map_bind]
  unfold karatsuba.mul.part2 mulJ0
  lift_lets
  intro m
  have h1 : ∀ i j, m (a.getD i 0) (b.getD j 0) = some (mm (A i) (B j)) := h1
  have h2 : ∀ i j, i < 8 → j < 8 → m (aa.getD i 0) (bb.getD j 0) = some (mm (AA i) (BB j)) := h2
  clear_value m
  peel_mul h1 h2
  exact hk _ _ _ _ _ (maskI_lt _) (maskI_lt _)

theorem mul_part3
    (h1 : ∀ i j, ((ckI128 ((a.getD i 0 : ℕ) * (b.getD j 0 : ℕ) : ℤ)).bind fun τ => some τ) =
      some (mm (A i) (B j)))
    (h2 : ∀ i j, i < 8 → j < 8 →
      ((ckI128 ((aa.getD i 0 : ℕ) * (bb.getD j 0 : ℕ) : ℤ)).bind fun τ => some τ) =
        some (mm (AA i) (BB j)))
    {c : List ℕ} {z0 z1 z2 : ℤ} {k : List ℕ × ℤ × ℤ × ℤ → Option γ}
    {k' : ℕ × ℕ × ℤ × ℤ → Option β} {φ : β → γ}
    (hk : ∀ u v x y w, u < 2 ^ 32 → v < 2 ^ 32 →
      k ((c.set 1 u).set 9 v, x, y, w) = (k' (u, v, x, y)).map φ) :
    (karatsuba.mul.part3 a b 268435455 c aa bb z0 z1 z2).bind k =
      ((mulJ1 A B AA BB z0 z1).bind k').map φ := by
  rw [Option.map_bind]
  unfold karatsuba.mul.part3 mulJ1
  lift_lets
  intro m
  have h1 : ∀ i j, m (a.getD i 0) (b.getD j 0) = some (mm (A i) (B j)) := h1
  have h2 : ∀ i j, i < 8 → j < 8 → m (aa.getD i 0) (bb.getD j 0) = some (mm (AA i) (BB j)) := h2
  clear_value m
  peel_mul h1 h2
  exact hk _ _ _ _ _ (maskI_lt _) (maskI_lt _)

theorem mul_part4
    (h1 : ∀ i j, ((ckI128 ((a.getD i 0 : ℕ) * (b.getD j 0 : ℕ) : ℤ)).bind fun τ => some τ) =
      some (mm (A i) (B j)))
    (h2 : ∀ i j, i < 8 → j < 8 →
      ((ckI128 ((aa.getD i 0 : ℕ) * (bb.getD j 0 : ℕ) : ℤ)).bind fun τ => some τ) =
        some (mm (AA i) (BB j)))
    {c : List ℕ} {z0 z1 z2 : ℤ} {k : List ℕ × ℤ × ℤ × ℤ → Option γ}
    {k' : ℕ × ℕ × ℤ × ℤ → Option β} {φ : β → γ}
    (hk : ∀ u v x y w, u < 2 ^ 32 → v < 2 ^ 32 →
      k ((c.set 2 u).set 10 v, x, y, w) = (k' (u, v, x, y)).map φ) :
    (karatsuba.mul.part4 a b 268435455 c aa bb z0 z1 z2).bind k =
      ((mulJ2 A B AA BB z0 z1).bind k').map φ := by
  rw [Option.map_bind]
  unfold karatsuba.mul.part4 mulJ2
  lift_lets
  intro m
  have h1 : ∀ i j, m (a.getD i 0) (b.getD j 0) = some (mm (A i) (B j)) := h1
  have h2 : ∀ i j, i < 8 → j < 8 → m (aa.getD i 0) (bb.getD j 0) = some (mm (AA i) (BB j)) := h2
  clear_value m
  peel_mul h1 h2
  exact hk _ _ _ _ _ (maskI_lt _) (maskI_lt _)

theorem mul_part5
    (h1 : ∀ i j, ((ckI128 ((a.getD i 0 : ℕ) * (b.getD j 0 : ℕ) : ℤ)).bind fun τ => some τ) =
      some (mm (A i) (B j)))
    (h2 : ∀ i j, i < 8 → j < 8 →
      ((ckI128 ((aa.getD i 0 : ℕ) * (bb.getD j 0 : ℕ) : ℤ)).bind fun τ => some τ) =
        some (mm (AA i) (BB j)))
    {c : List ℕ} {z0 z1 z2 : ℤ} {k : List ℕ × ℤ × ℤ × ℤ → Option γ}
    {k' : ℕ × ℕ × ℤ × ℤ → Option β} {φ : β → γ}
    (hk : ∀ u v x y w, u < 2 ^ 32 → v < 2 ^ 32 →
      k ((c.set 3 u).set 11 v, x, y, w) = (k' (u, v, x, y)).map φ) :
    (karatsuba.mul.part5 a b 268435455 c aa bb z0 z1 z2).bind k =
      ((mulJ3 A B AA BB z0 z1).bind k').map φ := by
  rw [Option.map_bind]
  unfold karatsuba.mul.part5 mulJ3
  lift_lets
  intro m
  have h1 : ∀ i j, m (a.getD i 0) (b.getD j 0) = some (mm (A i) (B j)) := h1
  have h2 : ∀ i j, i < 8 → j < 8 → m (aa.getD i 0) (bb.getD j 0) = some (mm (AA i) (BB j)) := h2
  clear_value m
  peel_mul h1 h2
  exact hk _ _ _ _ _ (maskI_lt _) (maskI_lt _)

theorem mul_part6
    (h1 : ∀ i j, ((ckI128 ((a.getD i 0 : ℕ) * (b.getD j 0 : ℕ) : ℤ)).bind fun τ => some τ) =
      some (mm (A i) (B j)))
    (h2 : ∀ i j, i < 8 → j < 8 →
      ((ckI128 ((aa.getD i 0 : ℕ) * (bb.getD j 0 : ℕ) : ℤ)).bind fun τ => some τ) =
        some (mm (AA i) (BB j)))
    {c : List ℕ} {z0 z1 z2 : ℤ} {k : List ℕ × ℤ × ℤ × ℤ → Option γ}
    {k' : ℕ × ℕ × ℤ × ℤ → Option β} {φ : β → γ}
    (hk : ∀ u v x y w, u < 2 ^ 32 → v < 2 ^ 32 →
      k ((c.set 4 u).set 12 v, x, y, w) = (k' (u, v, x, y)).map φ) :
    (karatsuba.mul.part6 a b 268435455 c aa bb z0 z1 z2).bind k =
      ((mulJ4 A B AA BB z0 z1).bind k').map φ := by
  rw [Option.map_bind]
  unfold karatsuba.mul.part6 mulJ4
  lift_lets
  intro m
  have h1 : ∀ i j, m (a.getD i 0) (b.getD j 0) = some (mm (A i) (B j)) := h1
  have h2 : ∀ i j, i < 8 → j < 8 → m (aa.getD i 0) (bb.getD j 0) = some (mm (AA i) (BB j)) := h2
  clear_value m
  peel_mul h1 h2
  exact hk _ _ _ _ _ (maskI_lt _) (maskI_lt _)

theorem mul_part7
    (h1 : ∀ i j, ((ckI128 ((a.getD i 0 : ℕ) * (b.getD j 0 : ℕ) : ℤ)).bind fun τ => some τ) =
      some (mm (A i) (B j)))
    (h2 : ∀ i j, i < 8 → j < 8 →
      ((ckI128 ((aa.getD i 0 : ℕ) * (bb.getD j 0 : ℕ) : ℤ)).bind fun τ => some τ) =
        some (mm (AA i) (BB j)))
    {c : List ℕ} {z0 z1 z2 : ℤ} {k : List ℕ × ℤ × ℤ × ℤ → Option γ}
    {k' : ℕ × ℕ × ℤ × ℤ → Option β} {φ : β → γ}
    (hk : ∀ u v x y w, u < 2 ^ 32 → v < 2 ^ 32 →
      k ((c.set 5 u).set 13 v, x, y, w) = (k' (u, v, x, y)).map φ) :
    (karatsuba.mul.part7 a b 268435455 c aa bb z0 z1 z2).bind k =
      ((mulJ5 A B AA BB z0 z1).bind k').map φ := by
  rw [Option.map_bind]
  unfold karatsuba.mul.part7 mulJ5
  lift_lets
  intro m
  have h1 : ∀ i j, m (a.getD i 0) (b.getD j 0) = some (mm (A i) (B j)) := h1
  have h2 : ∀ i j, i < 8 → j < 8 → m (aa.getD i 0) (bb.getD j 0) = some (mm (AA i) (BB j)) := h2
  clear_value m
  peel_mul h1 h2
  exact hk _ _ _ _ _ (maskI_lt _) (maskI_lt _)

theorem mul_part8
    (h1 : ∀ i j, ((ckI128 ((a.getD i 0 : ℕ) * (b.getD j 0 : ℕ) : ℤ)).bind fun τ => some τ) =
      some (mm (A i) (B j)))
    (h2 : ∀ i j, i < 8 → j < 8 →
      ((ckI128 ((aa.getD i 0 : ℕ) * (bb.getD j 0 : ℕ) : ℤ)).bind fun τ => some τ) =
        some (mm (AA i) (BB j)))
    {c : List ℕ} {z0 z1 z2 : ℤ} {k : List ℕ × ℤ × ℤ × ℤ → Option γ}
    {k' : ℕ × ℕ × ℤ × ℤ → Option β} {φ : β → γ}
    (hk : ∀ u v x y w, u < 2 ^ 32 → v < 2 ^ 32 →
      k ((c.set 6 u).set 14 v, x, y, w) = (k' (u, v, x, y)).map φ) :
    (karatsuba.mul.part8 a b 268435455 c aa bb z0 z1 z2).bind k =
      ((mulJ6 A B AA BB z0 z1).bind k').map φ := by
  rw [Option.map_bind]
  unfold karatsuba.mul.part8 mulJ6
  lift_lets
  intro m
  have h1 : ∀ i j, m (a.getD i 0) (b.getD j 0) = some (mm (A i) (B j)) := h1
  have h2 : ∀ i j, i < 8 → j < 8 → m (aa.getD i 0) (bb.getD j 0) = some (mm (AA i) (BB j)) := h2
  clear_value m
  peel_mul h1 h2
  exact hk _ _ _ _ _ (maskI_lt _) (maskI_lt _)

theorem mul_part9
    (h1 : ∀ i j, ((ckI128 ((a.getD i 0 : ℕ) * (b.getD j 0 : ℕ) : ℤ)).bind fun τ => some τ) =
      some (mm (A i) (B j)))
    (h2 : ∀ i j, i < 8 → j < 8 →
      ((ckI128 ((aa.getD i 0 : ℕ) * (bb.getD j 0 : ℕ) : ℤ)).bind fun τ => some τ) =
        some (mm (AA i) (BB j)))
    {c : List ℕ} {z0 z1 z2 : ℤ} {k : List ℕ × ℤ × ℤ × ℤ → Option γ}
    {k' : ℕ × ℕ × ℤ × ℤ → Option β} {φ : β → γ}
    (hk : ∀ u v x y w, u < 2 ^ 32 → v < 2 ^ 32 →
      k ((c.set 7 u).set 15 v, x, y, w) = (k' (u, v, x, y)).map φ) :
    (karatsuba.mul.part9 a b 268435455 c aa bb z0 z1 z2).bind k =
      ((mulJ7 A B AA BB z0 z1).bind k').map φ := by
  rw [Option.map_bind]
  unfold karatsuba.mul.part9 mulJ7
  lift_lets
  intro m
  have h1 : ∀ i j, m (a.getD i 0) (b.getD j 0) = some (mm (A i) (B j)) := h1
  have h2 : ∀ i j, i < 8 → j < 8 → m (aa.getD i 0) (bb.getD j 0) = some (mm (AA i) (BB j)) := h2
  clear_value m
  peel_mul h1 h2
  exact hk _ _ _ _ _ (maskI_lt _) (maskI_lt _)

end Mul

theorem getD_wadd (a : List ℕ) (i : ℕ) (h : i < 8) :
    (karatsuba.mul.part1 a a).2.2.1.getD i 0 = wrapAddU32 (a.getD i 0) (a.getD (i + 8) 0) := by
  interval_cases i <;> rfl

/-- The last step of `mul`. -/
theorem mul_final {c : List ℕ} {c0 c1 c2 c3 c4 c5 c6 c7 c8 c9 c10 c11 c12 c13 c14 c15 : ℕ} {z0 z1 : ℤ}
    (hc : c = [c0, c1, c2, c3, c4, c5, c6, c7, c8, c9, c10, c11, c12, c13, c14, c15])
    (h : ∀ x ∈ [c0, c1, c2, c3, c4, c5, c6, c7, c8, c9, c10, c11, c12, c13, c14, c15], x < 2 ^ 32) :
    ((ckI128 (z1 + ((c.getD 8 0) : ℤ))).bind fun τ421 =>
      (ckI128 (z0 + τ421)).bind fun τ422 =>
      let z0 := τ422
      (ckI128 (z1 + ((c.getD 0 0) : ℤ))).bind fun τ423 =>
      let z1 := τ423
      let c := (c.set 8 (Rt.asU 32 (Rt.andZ 128 z0 268435455)))
      let c := (c.set 0 (Rt.asU 32 (Rt.andZ 128 z1 268435455)))
      let z0 := (sarZ z0 28)
      let z1 := (sarZ z1 28)
      (ckU32 ((c.getD 9 0) + (Rt.asU 32 (Rt.andZ 128 z0 268435455)))).bind fun τ424 =>
      let c := (c.set 9 τ424)
      (ckU32 ((c.getD 1 0) + (Rt.asU 32 (Rt.andZ 128 z1 268435455)))).bind fun τ425 =>
      let c := (c.set 1 τ425)
      some c) =
      (mulFinal c0 c1 c2 c3 c4 c5 c6 c7 c8 c9 c10 c11 c12 c13 c14 c15 z0 z1).map (·.l) := by
  subst hc
  unfold mulFinal
  rw [ckSum_two]
  refine bindm fun e => ?_
  rw [ckSum, List.foldlM_nil]
  refine bindm fun y0 => bindm fun y1 => ?_
  simp only [mask_eq, List.set_cons_zero, List.set_cons_succ, List.getD_cons_zero,
    List.getD_cons_succ]
  have m0 := maskI_lt y0
  have m1 := maskI_lt y1
  refine bindU32m fun d9 h9 => bindU32m fun d1 h1 => ?_
  refine (pack_map rfl ?_).symm
  simp_all

/-- `mul`. -/
theorem karatsuba_mul (x y : Raw) : karatsuba.mul x.l y.l = (mul x y).map (·.l) := by
  have ha : ∀ i, x.l.getD i 0 < 2 ^ 32 := fun i => getD_lt_of x.lt (by norm_num) i
  have hb : ∀ i, y.l.getD i 0 < 2 ^ 32 := fun i => getD_lt_of y.lt (by norm_num) i
  have h1 : ∀ i j, ((ckI128 ((x.l.getD i 0 : ℕ) * (y.l.getD j 0 : ℕ) : ℤ)).bind fun τ => some τ) =
      some (mm (x.get i) (y.get j)) := fun i j => mul_ok (ha i) (hb j)
  have h2 : ∀ i j, i < 8 → j < 8 → ((ckI128 (((karatsuba.mul.part1 x.l y.l).2.2.1.getD i 0 : ℕ) *
      ((karatsuba.mul.part1 x.l y.l).2.2.2.1.getD j 0 : ℕ) : ℤ)).bind fun τ => some τ) =
        some (mm (wrapAddU32 (x.get i) (x.get (i + 8))) (wrapAddU32 (y.get j) (y.get (j + 8)))) := by
    intro i j hi hj
    have e1 : (karatsuba.mul.part1 x.l y.l).2.2.1.getD i 0 = _ := getD_wadd x.l i hi
    have e2 : (karatsuba.mul.part1 x.l y.l).2.2.2.1.getD j 0 = _ := getD_wadd y.l j hj
    rw [e1, e2, mul_ok (wadd_lt _ _) (wadd_lt _ _)]
    rfl
  unfold karatsuba.mul mul
  refine mul_part2 h1 h2 fun c0 c8 _ _ _ b0 b8 => mul_part3 h1 h2 fun c1 c9 _ _ _ b1 b9 =>
    mul_part4 h1 h2 fun c2 c10 _ _ _ b2 b10 => mul_part5 h1 h2 fun c3 c11 _ _ _ b3 b11 =>
    mul_part6 h1 h2 fun c4 c12 _ _ _ b4 b12 => mul_part7 h1 h2 fun c5 c13 _ _ _ b5 b13 =>
    mul_part8 h1 h2 fun c6 c14 _ _ _ b6 b14 => mul_part9 h1 h2 fun c7 c15 _ _ _ b7 b15 => ?_
  refine mul_final rfl ?_
  simp_all

end Ed448.Proofs.Source
