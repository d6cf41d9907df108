import Verif.Gen.Narrow
import Verif.Proofs.SourceU32

/-!
# The sizes of the numbers in the multiplication of field elements

`Gen.Wide.karatsuba.mul ck w` is the translated multiplication where `ck` checks the results of the signed type
of `w` bits. Its intermediate results are bounded in units of the largest product of two limbs, step by step;
so two such types that hold these numbers give the same result.
-/

set_option exponentiation.threshold 1000
set_option linter.unusedVariables false

namespace Ed448.Proofs.Bounds
open Ed448.Model Ed448.Gen Ed448.Proofs.Source

/-- At least `-a` and at most `b` units. -/
def In (U : ℤ) (a b : ℕ) (x : ℤ) : Prop := -(a * U) ≤ x ∧ x ≤ b * U

/-- Both computations return the same, and that satisfies `P`. -/
def Sim {α : Type} (m m' : Option α) (P : α → Prop) : Prop := ∃ r, m = some r ∧ m' = some r ∧ P r

/-- `ck` accepts up to 40 units. -/
def Holds (U : ℤ) (ck : ℤ → Option ℤ) : Prop := ∀ x, In U 40 40 x → ck x = some x

/-- The limbs are below 2^28. -/
def Small (c : List ℕ) : Prop := ∀ i, c.getD i 0 < 2 ^ 28

/-- What is known in all parts: two checks that accept 40 units, and the sizes of the products. -/
structure Setting (U : ℤ) (ck ck' : ℤ → Option ℤ) (w w' : ℕ) (a b aa bb : List ℕ) : Prop where
  u : 2 ^ 28 ≤ U
  ck : Holds U ck
  ck' : Holds U ck'
  w : 28 < w
  w' : 28 < w'
  one : ∀ i j, ((a.getD i 0 : ℕ) : ℤ) * ((b.getD j 0 : ℕ) : ℤ) ≤ U
  four : ∀ i j, ((aa.getD i 0 : ℕ) : ℤ) * ((bb.getD j 0 : ℕ) : ℤ) ≤ 4 * U

/-- What each part leaves behind. -/
def Good (U : ℤ) (r : List ℕ × ℤ × ℤ × ℤ) : Prop := Small r.1 ∧ In U 1 1 r.2.1 ∧ In U 1 1 r.2.2.1

variable {U : ℤ} {ck ck' : ℤ → Option ℤ} {w w' : ℕ} {a b aa bb : List ℕ} {α : Type} {P : α → Prop}

theorem mask_w {w : ℕ} (hw : 28 < w) (z : ℤ) : Rt.asU 32 (Rt.andZ w z 268435455) = U32.maskI z := by
  have hd : (2 : ℕ) ^ 28 ∣ 2 ^ w := Nat.pow_dvd_pow 2 hw.le
  have hlt : (2 : ℕ) ^ 29 ≤ 2 ^ w := Nat.pow_le_pow_right (by norm_num) hw
  have h1 : (BitVec.ofInt w z &&& BitVec.ofInt w 268435455).toNat = (z % 2 ^ 28).toNat := by
    rw [BitVec.toNat_and, BitVec.toNat_ofInt, BitVec.toNat_ofInt]
    have e : ((268435455 : ℤ) % ↑(2 ^ w : ℕ)).toNat = 2 ^ 28 - 1 := by
      rw [Int.emod_eq_of_lt (by norm_num) (by zify at hlt; push_cast; omega)]
      rfl
    rw [e, Nat.and_two_pow_sub_one_eq_mod]
    obtain ⟨k, hk⟩ := hd
    have hz : z % ((2 ^ w : ℕ) : ℤ) % 2 ^ 28 = z % 2 ^ 28 := by
      rw [hk]
      push_cast
      exact Int.emod_emod_of_dvd _ (Dvd.intro _ rfl)
    have h0 : 0 ≤ z % ((2 ^ w : ℕ) : ℤ) := Int.emod_nonneg _ (by positivity)
    omega
  rw [Rt.andZ, BitVec.toInt_eq_toNat_of_lt (by rw [h1]; omega), h1, Rt.asU, U32.maskI]
  omega

theorem maskI_lt28 (z : ℤ) : U32.maskI z < 2 ^ 28 := by
  rw [U32.maskI]
  omega

theorem Small.set {c : List ℕ} (h : Small c) (i : ℕ) (z : ℤ) : Small (c.set i (U32.maskI z)) := by
  intro j
  rw [List.getD_eq_getElem?_getD, List.getElem?_set]
  split
  · split
    · exact maskI_lt28 z
    · norm_num
  · rw [← List.getD_eq_getElem?_getD]; exact h j

theorem In.shift {m n : ℕ} {x : ℤ} (h : In U m n x) (hm : m ≤ 40) (hn : n ≤ 40) (hu : 2 ^ 28 ≤ U) :
    In U 1 1 (sarZ x 28) := by
  obtain ⟨h1, h2⟩ := h
  unfold sarZ
  have hm' : (m : ℤ) * U ≤ 40 * U := by
    have : (m : ℤ) ≤ 40 := by exact_mod_cast hm
    exact mul_le_mul_of_nonneg_right this (by omega)
  have hn' : (n : ℤ) * U ≤ 40 * U := by
    have : (n : ℤ) ≤ 40 := by exact_mod_cast hn
    exact mul_le_mul_of_nonneg_right this (by omega)
  constructor <;> push_cast <;> omega

theorem In.le {m n : ℕ} {x : ℤ} (h : In U m n x) (hm : m ≤ 40) (hn : n ≤ 40) (hu : 2 ^ 28 ≤ U) :
    In U 40 40 x := by
  obtain ⟨h1, h2⟩ := h
  have hm' : (m : ℤ) * U ≤ 40 * U := by
    have : (m : ℤ) ≤ 40 := by exact_mod_cast hm
    exact mul_le_mul_of_nonneg_right this (by omega)
  have hn' : (n : ℤ) * U ≤ 40 * U := by
    have : (n : ℤ) ≤ 40 := by exact_mod_cast hn
    exact mul_le_mul_of_nonneg_right this (by omega)
  constructor <;> push_cast <;> omega

theorem Sim.ret {r : α} (h : P r) : Sim (some r) (some r) P := ⟨r, rfl, rfl, h⟩

theorem Sim.bind {β : Type} {m m' : Option β} {Q : β → Prop} {f g : β → Option α} (h : Sim m m' Q)
    (k : ∀ r, Q r → Sim (f r) (g r) P) : Sim (m.bind f) (m'.bind g) P := by
  obtain ⟨r, rfl, rfl, hr⟩ := h
  exact k r hr

theorem Sim.check (s : Setting U ck ck' w w' a b aa bb) {x : ℤ} {m n : ℕ} {f g : ℤ → Option α} (h : In U m n x)
    (hm : m ≤ 40) (hn : n ≤ 40) (k : ∀ τ, In U m n τ → Sim (f τ) (g τ) P) :
    Sim ((ck x).bind f) ((ck' x).bind g) P := by
  rw [s.ck x (h.le hm hn s.u), s.ck' x (h.le hm hn s.u)]
  exact k x h

theorem Sim.one (s : Setting U ck ck' w w' a b aa bb) {i j : ℕ} {f g : ℤ → Option α}
    (k : ∀ τ, In U 0 1 τ → Sim (f τ) (g τ) P) :
    Sim (((ck (((a.getD i 0 : ℕ) : ℤ) * ((b.getD j 0 : ℕ) : ℤ))).bind fun τ => some τ).bind f)
      (((ck' (((a.getD i 0 : ℕ) : ℤ) * ((b.getD j 0 : ℕ) : ℤ))).bind fun τ => some τ).bind g) P := by
  have h : In U 0 1 (((a.getD i 0 : ℕ) : ℤ) * ((b.getD j 0 : ℕ) : ℤ)) := by
    have := s.one i j
    have h0 : 0 ≤ ((a.getD i 0 : ℕ) : ℤ) * ((b.getD j 0 : ℕ) : ℤ) := by positivity
    constructor <;> push_cast <;> omega
  exact Sim.bind (Sim.check s h (by decide) (by decide) fun τ hτ => Sim.ret hτ) k

theorem Sim.four (s : Setting U ck ck' w w' a b aa bb) {i j : ℕ} {f g : ℤ → Option α}
    (k : ∀ τ, In U 0 4 τ → Sim (f τ) (g τ) P) :
    Sim (((ck (((aa.getD i 0 : ℕ) : ℤ) * ((bb.getD j 0 : ℕ) : ℤ))).bind fun τ => some τ).bind f)
      (((ck' (((aa.getD i 0 : ℕ) : ℤ) * ((bb.getD j 0 : ℕ) : ℤ))).bind fun τ => some τ).bind g) P := by
  have h : In U 0 4 (((aa.getD i 0 : ℕ) : ℤ) * ((bb.getD j 0 : ℕ) : ℤ)) := by
    have := s.four i j
    have h0 : 0 ≤ ((aa.getD i 0 : ℕ) : ℤ) * ((bb.getD j 0 : ℕ) : ℤ) := by positivity
    constructor <;> push_cast <;> omega
  exact Sim.bind (Sim.check s h (by decide) (by decide) fun τ hτ => Sim.ret hτ) k

theorem In.add {m n m' n' : ℕ} {x y : ℤ} (h : In U m n x) (k : In U m' n' y) :
    In U (m + m') (n + n') (x + y) := by
  obtain ⟨h1, h2⟩ := h
  obtain ⟨k1, k2⟩ := k
  constructor <;> push_cast <;> linarith

theorem In.sub {m n m' n' : ℕ} {x y : ℤ} (h : In U m n x) (k : In U m' n' y) :
    In U (m + n') (n + m') (x - y) := by
  obtain ⟨h1, h2⟩ := h
  obtain ⟨k1, k2⟩ := k
  constructor <;> push_cast <;> linarith

theorem Sim.add (s : Setting U ck ck' w w' a b aa bb) {x y : ℤ} {m n m' n' : ℕ} {f g : ℤ → Option α}
    (h : In U m n x) (k : In U m' n' y) (hm : m + m' ≤ 40) (hn : n + n' ≤ 40)
    (c : ∀ τ, In U (m + m') (n + n') τ → Sim (f τ) (g τ) P) :
    Sim ((ck (x + y)).bind f) ((ck' (x + y)).bind g) P := Sim.check s (h.add k) hm hn c

theorem Sim.sub (s : Setting U ck ck' w w' a b aa bb) {x y : ℤ} {m n m' n' : ℕ} {f g : ℤ → Option α}
    (h : In U m n x) (k : In U m' n' y) (hm : m + n' ≤ 40) (hn : n + m' ≤ 40)
    (c : ∀ τ, In U (m + n') (n + m') τ → Sim (f τ) (g τ) P) :
    Sim ((ck (x - y)).bind f) ((ck' (x - y)).bind g) P := Sim.check s (h.sub k) hm hn c

/-- Goes through the steps of a part. -/
macro "bounds" : tactic => `(tactic| repeat' first
  | refine Sim.one (by assumption) fun _ _ => ?_
  | refine Sim.four (by assumption) fun _ _ => ?_
  | refine Sim.add (by assumption) (by assumption) (by assumption) (by decide) (by decide) fun _ _ => ?_
  | refine Sim.sub (by assumption) (by assumption) (by assumption) (by decide) (by decide) fun _ _ => ?_)

theorem part2 (h : Setting U ck ck' w w' a b aa bb) {c : List ℕ} (hc : Small c) {z0 z1 z2 : ℤ} (h0 : In U 1 1 z0)
    (h1 : In U 1 1 z1) :
    Sim (Wide.karatsuba.mul.part2 ck w a b 268435455 c aa bb z0 z1 z2)
      (Wide.karatsuba.mul.part2 ck' w' a b 268435455 c aa bb z0 z1 z2) (Good U) := by
  have hz : In U 0 0 0 := ⟨by simp, by simp⟩
  unfold Wide.karatsuba.mul.part2
  dsimp only
  bounds
  simp only [mask_w h.w, mask_w h.w']
  exact Sim.ret ⟨(hc.set _ _).set _ _, In.shift (by assumption) (by decide) (by decide) h.u,
    In.shift (by assumption) (by decide) (by decide) h.u⟩

theorem part3 (h : Setting U ck ck' w w' a b aa bb) {c : List ℕ} (hc : Small c) {z0 z1 z2 : ℤ} (h0 : In U 1 1 z0)
    (h1 : In U 1 1 z1) :
    Sim (Wide.karatsuba.mul.part3 ck w a b 268435455 c aa bb z0 z1 z2)
      (Wide.karatsuba.mul.part3 ck' w' a b 268435455 c aa bb z0 z1 z2) (Good U) := by
  have hz : In U 0 0 0 := ⟨by simp, by simp⟩
  unfold Wide.karatsuba.mul.part3
  dsimp only
  bounds
  simp only [mask_w h.w, mask_w h.w']
  exact Sim.ret ⟨(hc.set _ _).set _ _, In.shift (by assumption) (by decide) (by decide) h.u,
    In.shift (by assumption) (by decide) (by decide) h.u⟩

theorem part4 (h : Setting U ck ck' w w' a b aa bb) {c : List ℕ} (hc : Small c) {z0 z1 z2 : ℤ} (h0 : In U 1 1 z0)
    (h1 : In U 1 1 z1) :
    Sim (Wide.karatsuba.mul.part4 ck w a b 268435455 c aa bb z0 z1 z2)
      (Wide.karatsuba.mul.part4 ck' w' a b 268435455 c aa bb z0 z1 z2) (Good U) := by
  have hz : In U 0 0 0 := ⟨by simp, by simp⟩
  unfold Wide.karatsuba.mul.part4
  dsimp only
  bounds
  simp only [mask_w h.w, mask_w h.w']
  exact Sim.ret ⟨(hc.set _ _).set _ _, In.shift (by assumption) (by decide) (by decide) h.u,
    In.shift (by assumption) (by decide) (by decide) h.u⟩

theorem part5 (h : Setting U ck ck' w w' a b aa bb) {c : List ℕ} (hc : Small c) {z0 z1 z2 : ℤ} (h0 : In U 1 1 z0)
    (h1 : In U 1 1 z1) :
    Sim (Wide.karatsuba.mul.part5 ck w a b 268435455 c aa bb z0 z1 z2)
      (Wide.karatsuba.mul.part5 ck' w' a b 268435455 c aa bb z0 z1 z2) (Good U) := by
  have hz : In U 0 0 0 := ⟨by simp, by simp⟩
  unfold Wide.karatsuba.mul.part5
  dsimp only
  bounds
  simp only [mask_w h.w, mask_w h.w']
  exact Sim.ret ⟨(hc.set _ _).set _ _, In.shift (by assumption) (by decide) (by decide) h.u,
    In.shift (by assumption) (by decide) (by decide) h.u⟩

theorem part6 (h : Setting U ck ck' w w' a b aa bb) {c : List ℕ} (hc : Small c) {z0 z1 z2 : ℤ} (h0 : In U 1 1 z0)
    (h1 : In U 1 1 z1) :
    Sim (Wide.karatsuba.mul.part6 ck w a b 268435455 c aa bb z0 z1 z2)
      (Wide.karatsuba.mul.part6 ck' w' a b 268435455 c aa bb z0 z1 z2) (Good U) := by
  have hz : In U 0 0 0 := ⟨by simp, by simp⟩
  unfold Wide.karatsuba.mul.part6
  dsimp only
  bounds
  simp only [mask_w h.w, mask_w h.w']
  exact Sim.ret ⟨(hc.set _ _).set _ _, In.shift (by assumption) (by decide) (by decide) h.u,
    In.shift (by assumption) (by decide) (by decide) h.u⟩

theorem part7 (h : Setting U ck ck' w w' a b aa bb) {c : List ℕ} (hc : Small c) {z0 z1 z2 : ℤ} (h0 : In U 1 1 z0)
    (h1 : In U 1 1 z1) :
    Sim (Wide.karatsuba.mul.part7 ck w a b 268435455 c aa bb z0 z1 z2)
      (Wide.karatsuba.mul.part7 ck' w' a b 268435455 c aa bb z0 z1 z2) (Good U) := by
  have hz : In U 0 0 0 := ⟨by simp, by simp⟩
  unfold Wide.karatsuba.mul.part7
  dsimp only
  bounds
  simp only [mask_w h.w, mask_w h.w']
  exact Sim.ret ⟨(hc.set _ _).set _ _, In.shift (by assumption) (by decide) (by decide) h.u,
    In.shift (by assumption) (by decide) (by decide) h.u⟩

theorem part8 (h : Setting U ck ck' w w' a b aa bb) {c : List ℕ} (hc : Small c) {z0 z1 z2 : ℤ} (h0 : In U 1 1 z0)
    (h1 : In U 1 1 z1) :
    Sim (Wide.karatsuba.mul.part8 ck w a b 268435455 c aa bb z0 z1 z2)
      (Wide.karatsuba.mul.part8 ck' w' a b 268435455 c aa bb z0 z1 z2) (Good U) := by
  have hz : In U 0 0 0 := ⟨by simp, by simp⟩
  unfold Wide.karatsuba.mul.part8
  dsimp only
  bounds
  simp only [mask_w h.w, mask_w h.w']
  exact Sim.ret ⟨(hc.set _ _).set _ _, In.shift (by assumption) (by decide) (by decide) h.u,
    In.shift (by assumption) (by decide) (by decide) h.u⟩

theorem part9 (h : Setting U ck ck' w w' a b aa bb) {c : List ℕ} (hc : Small c) {z0 z1 z2 : ℤ} (h0 : In U 1 1 z0)
    (h1 : In U 1 1 z1) :
    Sim (Wide.karatsuba.mul.part9 ck w a b 268435455 c aa bb z0 z1 z2)
      (Wide.karatsuba.mul.part9 ck' w' a b 268435455 c aa bb z0 z1 z2) (Good U) := by
  have hz : In U 0 0 0 := ⟨by simp, by simp⟩
  unfold Wide.karatsuba.mul.part9
  dsimp only
  bounds
  simp only [mask_w h.w, mask_w h.w']
  exact Sim.ret ⟨(hc.set _ _).set _ _, In.shift (by assumption) (by decide) (by decide) h.u,
    In.shift (by assumption) (by decide) (by decide) h.u⟩

theorem In.small {c : List ℕ} (hc : Small c) (hu : 2 ^ 28 ≤ U) (i : ℕ) : In U 0 1 ((c.getD i 0 : ℕ) : ℤ) := by
  have := hc i
  constructor <;> push_cast <;> omega

/-- The results agree, with limbs 1 and 9 below 2^29 and the others below 2^28. -/
theorem mul_sim (hu : 2 ^ 28 ≤ U) (hck : Holds U ck) (hck' : Holds U ck') (hw : 28 < w) (hw' : 28 < w')
    (h1 : ∀ i j, ((a.getD i 0 : ℕ) : ℤ) * ((b.getD j 0 : ℕ) : ℤ) ≤ U)
    (h4 : ∀ i j, (((Wide.karatsuba.mul.part1 ck w a b).2.2.1.getD i 0 : ℕ) : ℤ) *
      (((Wide.karatsuba.mul.part1 ck w a b).2.2.2.1.getD j 0 : ℕ) : ℤ) ≤ 4 * U) :
    Sim (Wide.karatsuba.mul ck w a b) (Wide.karatsuba.mul ck' w' a b) fun r =>
      ∀ i, r.getD i 0 < 2 ^ 29 := by
  have s : Setting U ck ck' w w' a b (Wide.karatsuba.mul.part1 ck w a b).2.2.1
    (Wide.karatsuba.mul.part1 ck w a b).2.2.2.1 := ⟨hu, hck, hck', hw, hw', h1, h4⟩
  have z : In U 1 1 0 := ⟨by push_cast; omega, by push_cast; omega⟩
  have c0 : Small FieldElement28.zero := by
    intro i
    unfold FieldElement28.zero
    rcases Nat.lt_or_ge i 16 with hi | hi
    · interval_cases i <;> decide
    · rw [List.getD_eq_getElem?_getD, List.getElem?_eq_none (by simpa using hi)]; decide
  unfold Wide.karatsuba.mul
  refine Sim.bind (part2 s c0 z z) fun r2 g2 => ?_
  refine Sim.bind (part3 s g2.1 g2.2.1 g2.2.2) fun r3 g3 => ?_
  refine Sim.bind (part4 s g3.1 g3.2.1 g3.2.2) fun r4 g4 => ?_
  refine Sim.bind (part5 s g4.1 g4.2.1 g4.2.2) fun r5 g5 => ?_
  refine Sim.bind (part6 s g5.1 g5.2.1 g5.2.2) fun r6 g6 => ?_
  refine Sim.bind (part7 s g6.1 g6.2.1 g6.2.2) fun r7 g7 => ?_
  refine Sim.bind (part8 s g7.1 g7.2.1 g7.2.2) fun r8 g8 => ?_
  refine Sim.bind (part9 s g8.1 g8.2.1 g8.2.2) fun r9 g9 => ?_
  obtain ⟨c, z0, z1, z2⟩ := r9
  obtain ⟨hc, i0, i1⟩ := g9
  have e : (Wide.karatsuba.mul.part1 ck w a b).1 = 268435455 := rfl
  have e' : (Wide.karatsuba.mul.part1 ck' w' a b).1 = 268435455 := rfl
  dsimp only at hc i0 i1 ⊢
  rw [e, e']
  simp only [mask_w hw, mask_w hw']
  refine Sim.add s i1 (In.small hc hu 8) (by decide) (by decide) fun t1 j1 => ?_
  refine Sim.add s i0 j1 (by decide) (by decide) fun t2 j2 => ?_
  refine Sim.add s i1 (In.small hc hu 0) (by decide) (by decide) fun t3 j3 => ?_
  have hs : Small ((c.set 8 (U32.maskI t2)).set 0 (U32.maskI t3)) := (hc.set _ _).set _ _
  generalize (c.set 8 (U32.maskI t2)).set 0 (U32.maskI t3) = d at hs
  have big : ∀ (x : ℤ) (i : ℕ), d.getD i 0 + U32.maskI x < 2 ^ 29 := by
    intro x i
    have := maskI_lt28 x
    have := hs i
    omega
  have up : ∀ (d : List ℕ) (v i : ℕ), (∀ j, d.getD j 0 < 2 ^ 29) → v < 2 ^ 29 → ∀ j, (d.set i v).getD j 0 < 2 ^ 29 := by
    intro d v i hd hv j
    rw [List.getD_eq_getElem?_getD, List.getElem?_set]
    split
    · split
      · exact hv
      · norm_num
    · rw [← List.getD_eq_getElem?_getD]; exact hd j
  have hd : ∀ j, d.getD j 0 < 2 ^ 29 := fun j => (hs j).trans (by norm_num)
  rw [ckU32_eq ((big _ _).trans (by norm_num)), Option.bind_some]
  have e1 : (d.set 9 (d.getD 9 0 + U32.maskI (sarZ t2 28))).getD 1 0 = d.getD 1 0 := by
    rw [List.getD_eq_getElem?_getD, List.getElem?_set_ne (by decide), ← List.getD_eq_getElem?_getD]
  rw [e1, ckU32_eq ((big _ _).trans (by norm_num)), Option.bind_some]
  exact Sim.ret (up _ _ _ (up _ _ _ hd (big _ _)) (big _ _))

end Ed448.Proofs.Bounds
