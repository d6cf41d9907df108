import Verif.Model.U32
import Verif.Spec.Params
import Mathlib.Tactic.Ring
import Mathlib.Tactic.Linarith
import Mathlib.Tactic.LinearCombination

/-!
# The 32-bit backend: addition, subtraction, reduction
-/

namespace Ed448.Model.U32

set_option exponentiation.threshold 1000
set_option linter.unusedSimpArgs false

/-- The number spelled by the limbs in radix `2^28`. -/
def V (a : Raw) : ℕ := Nat.ofDigits (2 ^ 28) a.l

/-- The limb bound kept by all operations. -/
def Tight (a : Raw) : Prop := ∀ x ∈ a.l, x ≤ 2 ^ 28 + 2 ^ 8

theorem list16 {l : List ℕ} (h : l.length = 16) : l = [l.getD 0 0, l.getD 1 0, l.getD 2 0,
    l.getD 3 0, l.getD 4 0, l.getD 5 0, l.getD 6 0, l.getD 7 0, l.getD 8 0, l.getD 9 0,
    l.getD 10 0, l.getD 11 0, l.getD 12 0, l.getD 13 0, l.getD 14 0, l.getD 15 0] := by
  match l, h with
  | [_, _, _, _, _, _, _, _, _, _, _, _, _, _, _, _], _ => rfl

theorem Raw.l_eq (a : Raw) : a.l = [a.get 0, a.get 1, a.get 2, a.get 3, a.get 4, a.get 5, a.get 6,
    a.get 7, a.get 8, a.get 9, a.get 10, a.get 11, a.get 12, a.get 13, a.get 14, a.get 15] :=
  list16 a.len

theorem get_mem_or {B : ℕ} (a : Arr 16 B) (i : ℕ) : a.get i ∈ a.l ∨ a.get i = 0 := by
  unfold Arr.get
  rw [List.getD_eq_getElem?_getD]
  rcases h : a.l[i]? with _ | x
  · right; rfl
  · left; exact List.mem_of_getElem? h

theorem Tight.get {a : Raw} (h : Tight a) (i : ℕ) : a.get i ≤ 2 ^ 28 + 2 ^ 8 := by
  rcases get_mem_or a i with hm | h0
  · exact h _ hm
  · rw [h0]; norm_num

theorem tight_of_get {a : Raw} (h : ∀ i, a.get i ≤ 2 ^ 28 + 2 ^ 8) : Tight a := by
  intro x hx
  rw [Raw.l_eq a] at hx
  simp only [List.mem_cons, List.not_mem_nil, or_false] at hx
  rcases hx with rfl | rfl | rfl | rfl | rfl | rfl | rfl | rfl | rfl | rfl | rfl | rfl | rfl |
    rfl | rfl | rfl <;> exact h _

/-- Value in terms of the limbs, low and high half. -/
theorem V_eq (a : Raw) : V a =
    (a.get 0 + 2 ^ 28 * a.get 1 + (2 ^ 28) ^ 2 * a.get 2 + (2 ^ 28) ^ 3 * a.get 3 +
      (2 ^ 28) ^ 4 * a.get 4 + (2 ^ 28) ^ 5 * a.get 5 + (2 ^ 28) ^ 6 * a.get 6 +
      (2 ^ 28) ^ 7 * a.get 7) + (2 ^ 28) ^ 8 *
    (a.get 8 + 2 ^ 28 * a.get 9 + (2 ^ 28) ^ 2 * a.get 10 + (2 ^ 28) ^ 3 * a.get 11 +
      (2 ^ 28) ^ 4 * a.get 12 + (2 ^ 28) ^ 5 * a.get 13 + (2 ^ 28) ^ 6 * a.get 14 +
      (2 ^ 28) ^ 7 * a.get 15) := by
  unfold V
  conv_lhs => rw [Raw.l_eq a]
  simp only [Nat.ofDigits_cons, Nat.ofDigits_nil, Nat.cast_id]
  ring

theorem p_eq : p + (2 ^ 28) ^ 8 + 1 = (2 ^ 28) ^ 16 := by unfold p; norm_num

theorem mem16 {P : ℕ → Prop} {x0 x1 x2 x3 x4 x5 x6 x7 x8 x9 x10 x11 x12 x13 x14 x15 : ℕ}
    (h0 : P x0) (h1 : P x1) (h2 : P x2) (h3 : P x3) (h4 : P x4) (h5 : P x5) (h6 : P x6) (h7 : P x7)
    (h8 : P x8) (h9 : P x9) (h10 : P x10) (h11 : P x11) (h12 : P x12) (h13 : P x13) (h14 : P x14)
    (h15 : P x15) : ∀ x ∈ [x0, x1, x2, x3, x4, x5, x6, x7, x8, x9, x10, x11, x12, x13, x14, x15],
      P x := by
  intro x hx
  simp only [List.mem_cons, List.not_mem_nil, or_false] at hx
  rcases hx with rfl | rfl | rfl | rfl | rfl | rfl | rfl | rfl | rfl | rfl | rfl | rfl | rfl |
    rfl | rfl | rfl <;> assumption

theorem and_MASK (x : ℕ) : x &&& MASK = x % 2 ^ 28 := Nat.and_two_pow_sub_one_eq_mod x 28

theorem maskAdd_eq (x y : ℕ) (hy : y < 2 ^ 32) :
    maskAdd x (y >>> 28) = some (x % 2 ^ 28 + y / 2 ^ 28) := by
  unfold maskAdd
  rw [and_MASK, Nat.shiftRight_eq_div_pow]
  apply ckU32_eq
  omega

theorem maskAdd_get (x : ℕ) (a : Raw) (i : ℕ) :
    maskAdd x (a.get i >>> 28) = some (x % 2 ^ 28 + a.get i / 2 ^ 28) :=
  maskAdd_eq _ _ (a.get_lt i (by norm_num))

theorem pack_eq (l : List ℕ) (h1 : l.length = 16) (h2 : ∀ x ∈ l, x < 2 ^ 32) :
    pack l = some ⟨l, h1, h2⟩ := Arr.ofList?_eq l h1 h2

theorem weakReduce_spec (a : Raw) (K : ℕ) (hK : ∀ i, a.get i ≤ K) (hK' : K + 16 < 2 ^ 32) :
    ∃ r, weakReduce a = some r ∧ V r + a.get 15 / 2 ^ 28 * p = V a ∧
      ∀ x ∈ r.l, x ≤ 2 ^ 28 - 1 + (K + 15) / 2 ^ 28 := by
  have hc : ∀ i, a.get i / 2 ^ 28 ≤ (K + 15) / 2 ^ 28 := fun i =>
    Nat.div_le_div_right ((hK i).trans (by omega))
  have hg : a.get 15 / 2 ^ 28 ≤ 15 := by have := hK 15; omega
  have hb : ∀ x i, x % 2 ^ 28 + a.get i / 2 ^ 28 ≤ 2 ^ 28 - 1 + (K + 15) / 2 ^ 28 := by
    intro x i
    have := hc i
    have := Nat.mod_lt x (show 0 < 2 ^ 28 by norm_num)
    omega
  have h8 : a.get 8 + a.get 15 / 2 ^ 28 < 2 ^ 32 := by have := hK 8; omega
  have hb8 : ∀ x, x % 2 ^ 28 + (a.get 8 + a.get 15 / 2 ^ 28) / 2 ^ 28 ≤
      2 ^ 28 - 1 + (K + 15) / 2 ^ 28 := by
    intro x
    have : (a.get 8 + a.get 15 / 2 ^ 28) / 2 ^ 28 ≤ (K + 15) / 2 ^ 28 :=
      Nat.div_le_div_right (by have := hK 8; omega)
    have := Nat.mod_lt x (show 0 < 2 ^ 28 by norm_num)
    omega
  have hfin : 2 ^ 28 - 1 + (K + 15) / 2 ^ 28 < 2 ^ 32 := by omega
  refine ⟨⟨_, rfl, mem16 (P := fun x => x < 2 ^ 32)
      ((hb (a.get 0) 15).trans_lt hfin) ((hb (a.get 1) 0).trans_lt hfin)
      ((hb (a.get 2) 1).trans_lt hfin) ((hb (a.get 3) 2).trans_lt hfin)
      ((hb (a.get 4) 3).trans_lt hfin) ((hb (a.get 5) 4).trans_lt hfin)
      ((hb (a.get 6) 5).trans_lt hfin) ((hb (a.get 7) 6).trans_lt hfin)
      ((hb (a.get 8 + a.get 15 / 2 ^ 28) 7).trans_lt hfin) ((hb8 (a.get 9)).trans_lt hfin)
      ((hb (a.get 10) 9).trans_lt hfin) ((hb (a.get 11) 10).trans_lt hfin)
      ((hb (a.get 12) 11).trans_lt hfin) ((hb (a.get 13) 12).trans_lt hfin)
      ((hb (a.get 14) 13).trans_lt hfin) ((hb (a.get 15) 14).trans_lt hfin)⟩, ?_, ?_, ?_⟩
  · unfold weakReduce
    simp only [maskAdd_get]
    simp only [Nat.shiftRight_eq_div_pow, ckU32_eq h8, Option.bind_eq_bind, Option.bind_some]
    simp only [← Nat.shiftRight_eq_div_pow _ 28, maskAdd_get]
    rw [maskAdd_eq _ _ (by rw [Nat.shiftRight_eq_div_pow]; exact h8)]
    simp only [Nat.shiftRight_eq_div_pow, Option.bind_some]
    exact pack_eq _ _ _
  · rw [V_eq a]
    unfold V
    simp only [Nat.ofDigits_cons, Nat.ofDigits_nil, Nat.cast_id]
    have e : ∀ x : ℕ, ∃ m q : ℕ, x % 2 ^ 28 = m ∧ x / 2 ^ 28 = q ∧ x = m + 2 ^ 28 * q := fun x =>
      ⟨_, _, rfl, rfl, (Nat.mod_add_div x _).symm⟩
    have hp : (p : ℤ) = (2 ^ 28) ^ 16 - (2 ^ 28) ^ 8 - 1 := by
      have := p_eq
      zify at this
      linarith
    obtain ⟨m0, q0, a0, b0, e0⟩ := e (a.get 0)
    obtain ⟨m1, q1, a1, b1, e1⟩ := e (a.get 1)
    obtain ⟨m2, q2, a2, b2, e2⟩ := e (a.get 2)
    obtain ⟨m3, q3, a3, b3, e3⟩ := e (a.get 3)
    obtain ⟨m4, q4, a4, b4, e4⟩ := e (a.get 4)
    obtain ⟨m5, q5, a5, b5, e5⟩ := e (a.get 5)
    obtain ⟨m6, q6, a6, b6, e6⟩ := e (a.get 6)
    obtain ⟨m7, q7, a7, b7, e7⟩ := e (a.get 7)
    obtain ⟨m9, q9, a9, b9, e9⟩ := e (a.get 9)
    obtain ⟨m10, q10, a10, b10, e10⟩ := e (a.get 10)
    obtain ⟨m11, q11, a11, b11, e11⟩ := e (a.get 11)
    obtain ⟨m12, q12, a12, b12, e12⟩ := e (a.get 12)
    obtain ⟨m13, q13, a13, b13, e13⟩ := e (a.get 13)
    obtain ⟨m14, q14, a14, b14, e14⟩ := e (a.get 14)
    obtain ⟨m15, q15, a15, b15, e15⟩ := e (a.get 15)
    obtain ⟨m8, q8, a8, b8, e8⟩ := e (a.get 8 + a.get 15 / 2 ^ 28)
    rw [a0, a1, a2, a3, a4, a5, a6, a7, a8, a9, a10, a11, a12, a13, a14, a15, b0, b1, b2, b3, b4,
      b5, b6, b7, b8, b9, b10, b11, b12, b13, b14, b15]
    rw [b15] at e8
    zify at *
    rw [hp]
    linear_combination -e0 - 2 ^ 28 * e1 - (2 ^ 28) ^ 2 * e2 - (2 ^ 28) ^ 3 * e3
      - (2 ^ 28) ^ 4 * e4 - (2 ^ 28) ^ 5 * e5 - (2 ^ 28) ^ 6 * e6 - (2 ^ 28) ^ 7 * e7
      - (2 ^ 28) ^ 8 * e8 - (2 ^ 28) ^ 9 * e9 - (2 ^ 28) ^ 10 * e10 - (2 ^ 28) ^ 11 * e11
      - (2 ^ 28) ^ 12 * e12 - (2 ^ 28) ^ 13 * e13 - (2 ^ 28) ^ 14 * e14 - (2 ^ 28) ^ 15 * e15
  · exact mem16 (P := fun x => x ≤ 2 ^ 28 - 1 + (K + 15) / 2 ^ 28) (hb _ _) (hb _ _) (hb _ _)
      (hb _ _) (hb _ _) (hb _ _) (hb _ _) (hb _ _) (hb _ _) (hb8 _) (hb _ _) (hb _ _) (hb _ _)
      (hb _ _) (hb _ _) (hb _ _)

theorem mapM_some {f : ℕ → Option ℕ} {g : ℕ → ℕ} : ∀ (l : List ℕ), (∀ i ∈ l, f i = some (g i)) →
    l.mapM f = some (l.map g)
  | [], _ => rfl
  | x :: xs, h => by
    rw [List.mapM_cons, h x (by simp), mapM_some xs fun i hi => h i (by simp [hi])]
    rfl

theorem get_ofRange (g : ℕ → ℕ) (h1) (h2) {i : ℕ} (hi : i < 16) :
    (⟨(List.range 16).map g, h1, h2⟩ : Raw).get i = g i := by
  unfold Arr.get
  simp [List.getD_eq_getElem?_getD, hi]

theorem get_ge (a : Raw) {i : ℕ} (hi : 16 ≤ i) : a.get i = 0 := by
  unfold Arr.get
  rw [List.getD_eq_getElem?_getD, List.getElem?_eq_none (by rw [a.len]; exact hi)]
  rfl

theorem addNoReduce_spec {a b : Raw} (ha : Tight a) (hb : Tight b) :
    ∃ r, addNoReduce a b = some r ∧ V r = V a + V b ∧ ∀ i, r.get i ≤ 2 ^ 29 + 2 ^ 9 := by
  have hlt : ∀ i, a.get i + b.get i < 2 ^ 32 := fun i => by
    have := ha.get i; have := hb.get i; omega
  have hm : ((List.range 16).mapM fun i => ckU32 (a.get i + b.get i)) =
      some ((List.range 16).map fun i => a.get i + b.get i) :=
    mapM_some _ fun i _ => ckU32_eq (hlt i)
  have h2 : ∀ x ∈ (List.range 16).map (fun i => a.get i + b.get i), x < 2 ^ 32 := by
    intro x hx
    obtain ⟨i, -, rfl⟩ := List.mem_map.mp hx
    exact hlt i
  refine ⟨⟨(List.range 16).map fun i => a.get i + b.get i, by simp, h2⟩, ?_, ?_, ?_⟩
  · unfold addNoReduce
    rw [hm, Option.bind_some]
    exact pack_eq _ _ _
  · rw [V_eq, V_eq a, V_eq b]
    simp only [get_ofRange (fun i => a.get i + b.get i) (by simp) h2 (show (0 : ℕ) < 16 by decide),
      get_ofRange _ _ _ (show (1 : ℕ) < 16 by decide), get_ofRange _ _ _ (show (2 : ℕ) < 16 by decide),
      get_ofRange _ _ _ (show (3 : ℕ) < 16 by decide), get_ofRange _ _ _ (show (4 : ℕ) < 16 by decide),
      get_ofRange _ _ _ (show (5 : ℕ) < 16 by decide), get_ofRange _ _ _ (show (6 : ℕ) < 16 by decide),
      get_ofRange _ _ _ (show (7 : ℕ) < 16 by decide), get_ofRange _ _ _ (show (8 : ℕ) < 16 by decide),
      get_ofRange _ _ _ (show (9 : ℕ) < 16 by decide), get_ofRange _ _ _ (show (10 : ℕ) < 16 by decide),
      get_ofRange _ _ _ (show (11 : ℕ) < 16 by decide), get_ofRange _ _ _ (show (12 : ℕ) < 16 by decide),
      get_ofRange _ _ _ (show (13 : ℕ) < 16 by decide), get_ofRange _ _ _ (show (14 : ℕ) < 16 by decide),
      get_ofRange _ _ _ (show (15 : ℕ) < 16 by decide)]
    ring
  · intro i
    rcases Nat.lt_or_ge i 16 with hi | hi
    · rw [get_ofRange _ _ _ hi]
      have := ha.get i; have := hb.get i; omega
    · rw [get_ge _ hi]; norm_num

theorem add_spec {a b : Raw} (ha : Tight a) (hb : Tight b) :
    ∃ r, add a b = some r ∧ Tight r ∧ ∃ k, V r + k * p = V a + V b := by
  obtain ⟨s, h1, h2, h3⟩ := addNoReduce_spec ha hb
  obtain ⟨r, g1, g2, g3⟩ := weakReduce_spec s _ h3 (by norm_num)
  refine ⟨r, ?_, ?_, _, g2.trans h2⟩
  · unfold add; rw [h1, Option.bind_some, g1]
  · intro x hx
    exact (g3 x hx).trans (by norm_num)

/-- The limb added by `bias(_, 2)`. -/
def biasLimb (i : ℕ) : ℕ := if i = 8 then 2 * (2 ^ 28 - 1) - 2 else 2 * (2 ^ 28 - 1)

theorem bias_sub_spec {a b : Raw} (ha : Tight a) (hb : Tight b) :
    ∃ s r, bias a 2 = some s ∧ subNoReduce s b = some r ∧ V r + V b = V a + 2 * p ∧
      ∀ i, r.get i ≤ 2 ^ 28 + 2 ^ 8 + 2 * (2 ^ 28 - 1) := by
  have w : ∀ i c, c ≤ 2 * (2 ^ 28 - 1) → wrapAddU32 (a.get i) c = a.get i + c := by
    intro i c hc
    unfold wrapAddU32
    have := ha.get i
    exact Nat.mod_eq_of_lt (by omega)
  have hbl : ∀ i, a.get i + biasLimb i < 2 ^ 32 := by
    intro i
    have := ha.get i
    unfold biasLimb; split <;> omega
  have h2 : ∀ x ∈ (List.range 16).map (fun i => a.get i + biasLimb i), x < 2 ^ 32 := by
    intro x hx
    obtain ⟨i, -, rfl⟩ := List.mem_map.mp hx
    exact hbl i
  have hs : bias a 2 = some ⟨(List.range 16).map fun i => a.get i + biasLimb i, by simp, h2⟩ := by
    unfold bias
    have e1 : ckU32 (2 * MASK) = some (2 * (2 ^ 28 - 1)) := by decide
    have e2 : ckSub (2 * (2 ^ 28 - 1)) 2 = some (2 * (2 ^ 28 - 1) - 2) := by decide
    rw [e1, Option.bind_eq_bind, Option.bind_some, e2, Option.bind_some]
    simp only [w _ _ (le_refl _), w _ (2 * (2 ^ 28 - 1) - 2) (by norm_num)]
    exact pack_eq _ _ h2
  have hsub : ∀ i, i < 16 → wrapSubU32 (a.get i + biasLimb i) (b.get i) =
      a.get i + biasLimb i - b.get i ∧ b.get i ≤ a.get i + biasLimb i := by
    intro i _
    have h3 := ha.get i
    have h4 := hb.get i
    have h5 : 2 * (2 ^ 28 - 1) - 2 ≤ biasLimb i := by unfold biasLimb; split <;> omega
    have h6 := hbl i
    constructor
    · unfold wrapSubU32
      generalize biasLimb i = c at *
      omega
    · omega
  have h3 : ∀ x ∈ (List.range 16).map (fun i => a.get i + biasLimb i - b.get i), x < 2 ^ 32 := by
    intro x hx
    obtain ⟨i, -, rfl⟩ := List.mem_map.mp hx
    exact (Nat.sub_le _ _).trans_lt (hbl i)
  refine ⟨_, ⟨(List.range 16).map fun i => a.get i + biasLimb i - b.get i, by simp, h3⟩, hs, ?_, ?_,
    ?_⟩
  · unfold subNoReduce
    have hm : ((List.range 16).map fun i => wrapSubU32
        ((⟨(List.range 16).map fun i => a.get i + biasLimb i, by simp, h2⟩ : Raw).get i)
        (b.get i)) = (List.range 16).map fun i => a.get i + biasLimb i - b.get i := by
      apply List.map_congr_left
      intro i hi
      rw [get_ofRange _ _ _ (List.mem_range.mp hi)]
      exact (hsub i (List.mem_range.mp hi)).1
    rw [hm]
    exact pack_eq _ _ h3
  · have e : ∀ i, i < 16 →
        (⟨(List.range 16).map fun i => a.get i + biasLimb i - b.get i, by simp, h3⟩ : Raw).get i +
          b.get i = a.get i + biasLimb i := by
      intro i hi
      rw [get_ofRange _ _ _ hi]
      exact Nat.sub_add_cancel (hsub i hi).2
    generalize (⟨(List.range 16).map fun i => a.get i + biasLimb i - b.get i, by simp, h3⟩ : Raw) =
      r at *
    rw [V_eq r, V_eq a, V_eq b]
    have hp : 2 * p = 536870910 * (1 + 2 ^ 28 + (2 ^ 28) ^ 2 + (2 ^ 28) ^ 3 + (2 ^ 28) ^ 4 +
      (2 ^ 28) ^ 5 + (2 ^ 28) ^ 6 + (2 ^ 28) ^ 7 + (2 ^ 28) ^ 9 + (2 ^ 28) ^ 10 +
      (2 ^ 28) ^ 11 + (2 ^ 28) ^ 12 + (2 ^ 28) ^ 13 + (2 ^ 28) ^ 14 + (2 ^ 28) ^ 15) +
      536870908 * (2 ^ 28) ^ 8 := by unfold p; norm_num
    rw [hp]
    have e0 : r.get 0 + b.get 0 = a.get 0 + 536870910 := e 0 (by decide)
    have e1 : r.get 1 + b.get 1 = a.get 1 + 536870910 := e 1 (by decide)
    have e2 : r.get 2 + b.get 2 = a.get 2 + 536870910 := e 2 (by decide)
    have e3 : r.get 3 + b.get 3 = a.get 3 + 536870910 := e 3 (by decide)
    have e4 : r.get 4 + b.get 4 = a.get 4 + 536870910 := e 4 (by decide)
    have e5 : r.get 5 + b.get 5 = a.get 5 + 536870910 := e 5 (by decide)
    have e6 : r.get 6 + b.get 6 = a.get 6 + 536870910 := e 6 (by decide)
    have e7 : r.get 7 + b.get 7 = a.get 7 + 536870910 := e 7 (by decide)
    have e8 : r.get 8 + b.get 8 = a.get 8 + 536870908 := e 8 (by decide)
    have e9 : r.get 9 + b.get 9 = a.get 9 + 536870910 := e 9 (by decide)
    have e10 : r.get 10 + b.get 10 = a.get 10 + 536870910 := e 10 (by decide)
    have e11 : r.get 11 + b.get 11 = a.get 11 + 536870910 := e 11 (by decide)
    have e12 : r.get 12 + b.get 12 = a.get 12 + 536870910 := e 12 (by decide)
    have e13 : r.get 13 + b.get 13 = a.get 13 + 536870910 := e 13 (by decide)
    have e14 : r.get 14 + b.get 14 = a.get 14 + 536870910 := e 14 (by decide)
    have e15 : r.get 15 + b.get 15 = a.get 15 + 536870910 := e 15 (by decide)
    linear_combination e0 + 2 ^ 28 * e1 + (2 ^ 28) ^ 2 * e2 + (2 ^ 28) ^ 3 * e3
      + (2 ^ 28) ^ 4 * e4 + (2 ^ 28) ^ 5 * e5 + (2 ^ 28) ^ 6 * e6 + (2 ^ 28) ^ 7 * e7
      + (2 ^ 28) ^ 8 * e8 + (2 ^ 28) ^ 9 * e9 + (2 ^ 28) ^ 10 * e10 + (2 ^ 28) ^ 11 * e11
      + (2 ^ 28) ^ 12 * e12 + (2 ^ 28) ^ 13 * e13 + (2 ^ 28) ^ 14 * e14 + (2 ^ 28) ^ 15 * e15
  · intro i
    rcases Nat.lt_or_ge i 16 with hi | hi
    · rw [get_ofRange _ _ _ hi]
      have := ha.get i
      have : biasLimb i ≤ 2 * (2 ^ 28 - 1) := by unfold biasLimb; split <;> omega
      omega
    · rw [get_ge _ hi]; norm_num

theorem sub_spec {a b : Raw} (ha : Tight a) (hb : Tight b) :
    ∃ r, sub a b = some r ∧ Tight r ∧ ∃ k, V r + k * p + V b = V a + 2 * p := by
  obtain ⟨s, t, h1, h2, h3, h4⟩ := bias_sub_spec ha hb
  obtain ⟨r, g1, g2, g3⟩ := weakReduce_spec t _ h4 (by norm_num)
  refine ⟨r, ?_, ?_, _, by rw [g2]; exact h3⟩
  · unfold sub; rw [h1, Option.bind_some, h2, Option.bind_some, g1]
  · intro x hx
    exact (g3 x hx).trans (by norm_num)

/-! ## Full reduction -/

theorem sarZ28 (x : ℤ) : sarZ x 28 = x / 2 ^ 28 := rfl

theorem asU32Z_MASK (s : ℤ) : ((asU32Z s &&& MASK : ℕ) : ℤ) = s % 2 ^ 28 := by
  rw [and_MASK]
  unfold asU32Z
  omega

theorem strongSub_spec : ∀ (n : ℕ) (s : ℤ) (a c : List ℕ), a.length = n → c.length = n →
    (∀ x ∈ a, x ≤ 2 ^ 29) → (∀ x ∈ c, x ≤ 2 ^ 29) → -2 ^ 30 ≤ s → s ≤ 2 ^ 30 →
    ∃ r f, strongSub s a c = some (r, f) ∧ r.length = n ∧ (∀ x ∈ r, x < 2 ^ 28) ∧
      ((Nat.ofDigits (2 ^ 28) r : ℕ) : ℤ) + (2 ^ 28) ^ n * f =
        s + ((Nat.ofDigits (2 ^ 28) a : ℕ) : ℤ) - ((Nat.ofDigits (2 ^ 28) c : ℕ) : ℤ) := by
  intro n
  induction n with
  | zero =>
    intro s a c ha hc _ _ _ _
    rw [List.length_eq_zero_iff] at ha hc
    subst ha; subst hc
    exact ⟨[], s, rfl, rfl, by simp, by simp⟩
  | succ n ih =>
    intro s a c ha hc ba bc hs1 hs2
    rcases a with _ | ⟨x, a⟩
    · simp at ha
    rcases c with _ | ⟨y, c⟩
    · simp at hc
    have hx := ba x (by simp)
    have hy := bc y (by simp)
    have e1 : ckI64 ((x : ℤ) - (y : ℤ)) = some ((x : ℤ) - (y : ℤ)) :=
      ckI64_eq (by omega) (by omega)
    have e2 : ckI64 (s + ((x : ℤ) - (y : ℤ))) = some (s + ((x : ℤ) - (y : ℤ))) :=
      ckI64_eq (by omega) (by omega)
    obtain ⟨r, f, h1, h2, h3, h4⟩ := ih ((s + ((x : ℤ) - (y : ℤ))) / 2 ^ 28) a c (by simpa using ha)
      (by simpa using hc) (fun z hz => ba z (by simp [hz])) (fun z hz => bc z (by simp [hz]))
      (by omega) (by omega)
    refine ⟨(asU32Z (s + ((x : ℤ) - (y : ℤ))) &&& MASK) :: r, f, ?_, by simp [h2], ?_, ?_⟩
    · rw [strongSub, e1, Option.bind_eq_bind, Option.bind_some, e2, Option.bind_eq_bind,
        Option.bind_some, sarZ28, h1]
      rfl
    · intro z hz
      rcases List.mem_cons.mp hz with rfl | hz
      · rw [and_MASK]; exact Nat.mod_lt _ (by norm_num)
      · exact h3 z hz
    · rw [Nat.ofDigits_cons, Nat.ofDigits_cons, Nat.ofDigits_cons]
      push_cast
      have hm := asU32Z_MASK (s + ((x : ℤ) - (y : ℤ)))
      have hd := Int.emod_add_mul_ediv (s + ((x : ℤ) - (y : ℤ))) (2 ^ 28)
      rw [← hm] at hd
      push_cast at h4 hd
      rw [pow_succ]
      linear_combination (2 ^ 28) * h4 + hd

theorem strongAdd_spec : ∀ (n : ℕ) (s : ℕ) (a c : List ℕ), a.length = n → c.length = n →
    (∀ x ∈ a, x ≤ 2 ^ 29) → (∀ x ∈ c, x ≤ 2 ^ 29) → s ≤ 2 ^ 30 →
    ∃ r f, strongAdd s a c = some (r, f) ∧ r.length = n ∧ (∀ x ∈ r, x < 2 ^ 28) ∧
      Nat.ofDigits (2 ^ 28) r + (2 ^ 28) ^ n * f =
        s + Nat.ofDigits (2 ^ 28) a + Nat.ofDigits (2 ^ 28) c := by
  intro n
  induction n with
  | zero =>
    intro s a c ha hc _ _ _
    rw [List.length_eq_zero_iff] at ha hc
    subst ha; subst hc
    exact ⟨[], s, rfl, rfl, by simp, by simp⟩
  | succ n ih =>
    intro s a c ha hc ba bc hs
    rcases a with _ | ⟨x, a⟩
    · simp at ha
    rcases c with _ | ⟨y, c⟩
    · simp at hc
    have hx := ba x (by simp)
    have hy := bc y (by simp)
    have e1 : ckU64 (x + y) = some (x + y) := ckU64_eq (by omega)
    have e2 : ckU64 (s + (x + y)) = some (s + (x + y)) := ckU64_eq (by omega)
    obtain ⟨r, f, h1, h2, h3, h4⟩ := ih ((s + (x + y)) / 2 ^ 28) a c (by simpa using ha)
      (by simpa using hc) (fun z hz => ba z (by simp [hz])) (fun z hz => bc z (by simp [hz]))
      (by omega)
    have em : asU32 (s + (x + y)) &&& MASK = (s + (x + y)) % 2 ^ 28 := by
      rw [and_MASK]; unfold asU32; omega
    refine ⟨((s + (x + y)) % 2 ^ 28) :: r, f, ?_, by simp [h2], ?_, ?_⟩
    · rw [strongAdd, e1, Option.bind_eq_bind, Option.bind_some, e2, Option.bind_eq_bind,
        Option.bind_some, Nat.shiftRight_eq_div_pow, h1, em]
      rfl
    · intro z hz
      rcases List.mem_cons.mp hz with rfl | hz
      · exact Nat.mod_lt _ (by norm_num)
      · exact h3 z hz
    · rw [Nat.ofDigits_cons, Nat.ofDigits_cons, Nat.ofDigits_cons]
      have hd := Nat.mod_add_div (s + (x + y)) (2 ^ 28)
      rw [pow_succ]
      linear_combination (2 ^ 28) * h4 + hd

theorem pLimbs_val : Nat.ofDigits (2 ^ 28) pLimbs = p := by
  rw [p_lit]; decide +kernel

theorem V_le (a : Raw) (K : ℕ) (h : ∀ x ∈ a.l, x ≤ K) :
    V a ≤ K * Nat.ofDigits (2 ^ 28) (List.replicate 16 1) := by
  unfold V
  have : ∀ l : List ℕ, (∀ x ∈ l, x ≤ K) →
      Nat.ofDigits (2 ^ 28) l ≤ K * Nat.ofDigits (2 ^ 28) (List.replicate l.length 1) := by
    intro l
    induction l with
    | nil => simp
    | cons x l ih =>
      intro hl
      rw [List.length_cons, List.replicate_succ, Nat.ofDigits_cons, Nat.ofDigits_cons]
      have h1 := ih fun z hz => hl z (by simp [hz])
      have h2 := hl x (by simp)
      nlinarith
  have h' := this a.l h
  rwa [a.len] at h'

/-- Full reduction of a tight element gives limbs below `2^28` spelling the value modulo `p`. -/
theorem strongReduce_spec {a : Raw} (ha : Tight a) :
    ∃ r, strongReduce a = some r ∧ (∀ x ∈ r.l, x < 2 ^ 28) ∧ V r = V a % p := by
  obtain ⟨w, h1, h2, h3⟩ := weakReduce_spec a (2 ^ 28 + 2 ^ 8) ha.get (by norm_num)
  have h3' : ∀ x ∈ w.l, x ≤ 2 ^ 28 := fun x hx => (h3 x hx).trans (by norm_num)
  have hV : V w < 2 * p := by
    refine (V_le w _ h3').trans_lt ?_
    rw [p_lit]; decide +kernel
  obtain ⟨dd, sc, g1, g2, g3, g4⟩ := strongSub_spec 16 0 w.l pLimbs w.len rfl
    (fun x hx => (h3' x hx).trans (by norm_num)) (by decide) (by norm_num) (by norm_num)
  rw [pLimbs_val] at g4
  have hdl : Nat.ofDigits (2 ^ 28) dd < (2 ^ 28) ^ 16 := by
    have := Nat.ofDigits_lt_base_pow_length (b := 2 ^ 28) (by norm_num) g3
    rwa [g2] at this
  have hmod : V a % p = V w % p := by rw [← h2, Nat.add_mul_mod_self_right]
  have hpR : p < (2 ^ 28) ^ 16 := by rw [p_lit]; decide +kernel
  have hpR2 : (2 ^ 28) ^ 16 < 2 * p := by rw [p_lit]; decide +kernel
  change ((Nat.ofDigits (2 ^ 28) dd : ℕ) : ℤ) + (2 ^ 28) ^ 16 * sc = 0 + (V w : ℤ) - p at g4
  rw [hmod]
  have hw : weakReduce a = some w := h1
  generalize hM : ((2 ^ 28) ^ 16 : ℕ) = M at *
  have hMz : ((2 : ℤ) ^ 28) ^ 16 = (M : ℤ) := by rw [← hM]; norm_num
  rw [hMz] at g4
  generalize hD : Nat.ofDigits (2 ^ 28) dd = D at *
  by_cases hlt : V w < p
  · -- borrow
    have hsc : sc = -1 := by
      have u1 : (M : ℤ) * sc < 0 := by omega
      have u2 : -(2 * M : ℤ) < M * sc := by omega
      have v1 : sc < 0 := by nlinarith
      have v2 : -2 < sc := by nlinarith
      omega
    subst hsc
    obtain ⟨r, f, k1, k2, k3, k4⟩ := strongAdd_spec 16 0 dd pLimbs g2 rfl
      (fun x hx => (g3 x hx).le.trans (by norm_num)) (by decide) (by norm_num)
    rw [pLimbs_val, hD, hM] at k4
    have hr : Nat.ofDigits (2 ^ 28) r < M := by
      have := Nat.ofDigits_lt_base_pow_length (b := 2 ^ 28) (by norm_num) k3
      rwa [k2, hM] at this
    generalize hr' : Nat.ofDigits (2 ^ 28) r = Rv at *
    have hf : f = 1 := by
      have e : Rv + M * f = V w + M := by omega
      have : f < 2 := by
        by_contra hcon
        have : M * 2 ≤ M * f := Nat.mul_le_mul_left _ (by omega)
        omega
      have : f ≠ 0 := by rintro rfl; omega
      omega
    subst hf
    have hb : ∀ x ∈ r, x < 2 ^ 32 := fun x hx => (k3 x hx).trans (by norm_num)
    refine ⟨⟨r, k2, hb⟩, ?_, k3, ?_⟩
    · unfold strongReduce
      rw [hw, Option.bind_eq_bind, Option.bind_some, g1, Option.bind_eq_bind, Option.bind_some]
      show ((strongAdd 0 dd pLimbs).bind _) = _
      rw [k1, Option.bind_some]
      exact pack_eq _ _ _
    · show Nat.ofDigits (2 ^ 28) r = _
      rw [hr', Nat.mod_eq_of_lt hlt]
      omega
  · have hsc : sc = 0 := by
      have u1 : -(M : ℤ) < (M : ℤ) * sc := by omega
      have u2 : (M : ℤ) * sc < M := by omega
      have v1 : sc < 1 := by nlinarith
      have v2 : -1 < sc := by nlinarith
      omega
    subst hsc
    obtain ⟨r, f, k1, k2, k3, k4⟩ := strongAdd_spec 16 0 dd (addBack 0) g2 rfl
      (fun x hx => (g3 x hx).le.trans (by norm_num)) (by decide) (by norm_num)
    have z0 : Nat.ofDigits (2 ^ 28) (addBack 0) = 0 := by decide
    rw [z0, hD, hM] at k4
    have hr : Nat.ofDigits (2 ^ 28) r < M := by
      have := Nat.ofDigits_lt_base_pow_length (b := 2 ^ 28) (by norm_num) k3
      rwa [k2, hM] at this
    generalize hr' : Nat.ofDigits (2 ^ 28) r = Rv at *
    have hf : f = 0 := by
      by_contra hcon
      have : M * 1 ≤ M * f := Nat.mul_le_mul_left _ (by omega)
      omega
    subst hf
    have hb : ∀ x ∈ r, x < 2 ^ 32 := fun x hx => (k3 x hx).trans (by norm_num)
    refine ⟨⟨r, k2, hb⟩, ?_, k3, ?_⟩
    · unfold strongReduce
      rw [hw, Option.bind_eq_bind, Option.bind_some, g1, Option.bind_eq_bind, Option.bind_some]
      show ((strongAdd 0 dd (addBack 0)).bind _) = _
      rw [k1, Option.bind_some]
      exact pack_eq _ _ _
    · show Nat.ofDigits (2 ^ 28) r = _
      rw [hr', Nat.mod_eq_sub_mod (by omega), Nat.mod_eq_of_lt (by omega)]
      omega

end Ed448.Model.U32
