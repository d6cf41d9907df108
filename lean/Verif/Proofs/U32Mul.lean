import Verif.Proofs.U32Linear
import Mathlib.Data.ZMod.Basic

/-!
# The 32-bit backend: Karatsuba multiplication

Generated once with a script and kept as plain Lean: one lemma per unrolled block of `mul`.
-/

namespace Ed448.Model.U32

set_option exponentiation.threshold 1000

/-- All terms of a chain of additions are small. -/
def AllBd (l : List ℤ) : Prop := ∀ x ∈ l, -2 ^ 100 ≤ x ∧ x ≤ 2 ^ 100

theorem allBd_nil : AllBd [] := by intro x hx; simp at hx

theorem allBd_cons {x : ℤ} {l : List ℤ} (h1 : -2 ^ 100 ≤ x) (h2 : x ≤ 2 ^ 100) (h : AllBd l) :
    AllBd (x :: l) := by
  intro y hy
  rcases List.mem_cons.mp hy with rfl | hy
  · exact ⟨h1, h2⟩
  · exact h y hy

theorem ckSum_aux (l : List ℤ) : ∀ (s : ℤ) (n : ℕ), AllBd l → l.length + n ≤ 100 →
    -(n * 2 ^ 100) ≤ s → s ≤ n * 2 ^ 100 →
    l.foldlM (fun s y => ckI128 (s + y)) s = some (s + l.sum) := by
  induction l with
  | nil => intro s n _ _ _ _; simp
  | cons x l ih =>
    intro s n h hn h1 h2
    have hx := h x (by simp)
    rw [List.length_cons] at hn
    have hn' : (n : ℤ) ≤ 99 := by omega
    rw [List.foldlM_cons, ckI128_eq (by omega) (by omega)]
    have := ih (s + x) (n + 1) (fun y hy => h y (by simp [hy])) (by omega)
      (by push_cast; omega) (by push_cast; omega)
    rw [List.sum_cons, ← add_assoc, ← this]
    rfl

theorem ckSum_eq {l : List ℤ} (h : AllBd l) (hl : l.length ≤ 100) : ckSum l = some l.sum := by
  rcases l with _ | ⟨x, l⟩
  · rfl
  · have hx := h x (by simp)
    rw [List.length_cons] at hl
    have := ckSum_aux l x 1 (fun y hy => h y (by simp [hy])) hl (by push_cast; omega)
      (by push_cast; omega)
    rw [List.sum_cons, ← this]
    rfl

theorem ckSum_bind {β : Type} {l : List ℤ} {f : ℤ → Option β} {r : Option β} (hl : l.length ≤ 100)
    (h : AllBd l) (h2 : f l.sum = r) : (ckSum l).bind f = r := by
  rw [ckSum_eq h hl, Option.bind_some, h2]

theorem ckI128_bind {β : Type} {x : ℤ} {f : ℤ → Option β} {r : Option β} (h1 : -2 ^ 126 ≤ x)
    (h2 : x ≤ 2 ^ 126) (h : f x = r) : (ckI128 x).bind f = r := by
  rw [ckI128_eq (by omega) (by omega), Option.bind_some, h]

/-- Closes the bounds below. -/
macro "bd" : tactic => `(tactic| ((try simp only [List.sum_cons, List.sum_nil]); omega))

theorem fin_eq {x y u v : ℤ} (hx : x = u) (hy : y = v) :
    some (maskI x, maskI y, sarZ x 28, sarZ y 28) =
      some (maskI u, maskI v, u / 2 ^ 28, v / 2 ^ 28) := by
  rw [hx, hy]; rfl

/-- Coefficients of the low half of a product of two 8-limb numbers. -/
def LO (x y : ℕ → ℕ) : ℕ → ℤ
  | 0 => mm (x 0) (y 0)
  | 1 => mm (x 1) (y 0) + mm (x 0) (y 1)
  | 2 => mm (x 2) (y 0) + mm (x 1) (y 1) + mm (x 0) (y 2)
  | 3 => mm (x 3) (y 0) + mm (x 2) (y 1) + mm (x 1) (y 2) + mm (x 0) (y 3)
  | 4 => mm (x 4) (y 0) + mm (x 3) (y 1) + mm (x 2) (y 2) + mm (x 1) (y 3) + mm (x 0) (y 4)
  | 5 => mm (x 5) (y 0) + mm (x 4) (y 1) + mm (x 3) (y 2) + mm (x 2) (y 3) + mm (x 1) (y 4) + mm (x 0) (y 5)
  | 6 => mm (x 6) (y 0) + mm (x 5) (y 1) + mm (x 4) (y 2) + mm (x 3) (y 3) + mm (x 2) (y 4) + mm (x 1) (y 5) + mm (x 0) (y 6)
  | 7 => mm (x 7) (y 0) + mm (x 6) (y 1) + mm (x 5) (y 2) + mm (x 4) (y 3) + mm (x 3) (y 4) + mm (x 2) (y 5) + mm (x 1) (y 6) + mm (x 0) (y 7)
  | _ => 0

/-- Coefficients of the high half. -/
def HI (x y : ℕ → ℕ) : ℕ → ℤ
  | 0 => mm (x 7) (y 1) + mm (x 6) (y 2) + mm (x 5) (y 3) + mm (x 4) (y 4) + mm (x 3) (y 5) + mm (x 2) (y 6) + mm (x 1) (y 7)
  | 1 => mm (x 7) (y 2) + mm (x 6) (y 3) + mm (x 5) (y 4) + mm (x 4) (y 5) + mm (x 3) (y 6) + mm (x 2) (y 7)
  | 2 => mm (x 7) (y 3) + mm (x 6) (y 4) + mm (x 5) (y 5) + mm (x 4) (y 6) + mm (x 3) (y 7)
  | 3 => mm (x 7) (y 4) + mm (x 6) (y 5) + mm (x 5) (y 6) + mm (x 4) (y 7)
  | 4 => mm (x 7) (y 5) + mm (x 6) (y 6) + mm (x 5) (y 7)
  | 5 => mm (x 7) (y 6) + mm (x 6) (y 7)
  | 6 => mm (x 7) (y 7)
  | _ => 0

/-- Coefficient `k` of the low half of the reduced product. -/
def S0 (a b aa bb : ℕ → ℕ) (k : ℕ) : ℤ :=
  LO a b k + LO (fun i => a (i + 8)) (fun i => b (i + 8)) k + HI aa bb k - HI a b k

/-- Coefficient `k` of the high half of the reduced product. -/
def S1 (a b aa bb : ℕ → ℕ) (k : ℕ) : ℤ :=
  LO aa bb k - LO a b k + HI (fun i => a (i + 8)) (fun i => b (i + 8)) k + HI aa bb k

/-- What the blocks need to know about the limbs. -/
structure Lim (a b aa bb : ℕ → ℕ) : Prop where
  ab : ∀ i k, 0 ≤ mm (a i) (b k) ∧ mm (a i) (b k) ≤ 2 ^ 57
  m : ∀ i k, 0 ≤ mm (aa i) (bb k) ∧ mm (aa i) (bb k) ≤ 2 ^ 59
  le : ∀ i k, mm (a i) (b k) ≤ mm (aa i) (bb k)

theorem mulJ0_eq {a b aa bb : ℕ → ℕ} (h : Lim a b aa bb) :
    mulJ0 a b aa bb 0 = some (maskI (0 + S0 a b aa bb 0), maskI (0 + S1 a b aa bb 0),
      (0 + S0 a b aa bb 0) / 2 ^ 28, (0 + S1 a b aa bb 0) / 2 ^ 28) := by
  unfold mulJ0 S0 S1 LO HI
  simp only [Nat.reduceAdd]
  obtain ⟨l0, u0⟩ := h.ab 0 0
  obtain ⟨l1, u1⟩ := h.m 0 0
  obtain ⟨l2, u2⟩ := h.ab 8 8
  obtain ⟨l3, u3⟩ := h.m 7 1
  obtain ⟨l4, u4⟩ := h.m 6 2
  obtain ⟨l5, u5⟩ := h.m 5 3
  obtain ⟨l6, u6⟩ := h.m 4 4
  obtain ⟨l7, u7⟩ := h.m 3 5
  obtain ⟨l8, u8⟩ := h.m 2 6
  obtain ⟨l9, u9⟩ := h.m 1 7
  obtain ⟨l10, u10⟩ := h.ab 15 9
  obtain ⟨l11, u11⟩ := h.ab 14 10
  obtain ⟨l12, u12⟩ := h.ab 13 11
  obtain ⟨l13, u13⟩ := h.ab 12 12
  obtain ⟨l14, u14⟩ := h.ab 11 13
  obtain ⟨l15, u15⟩ := h.ab 10 14
  obtain ⟨l16, u16⟩ := h.ab 9 15
  obtain ⟨l17, u17⟩ := h.ab 7 1
  obtain ⟨l18, u18⟩ := h.ab 6 2
  obtain ⟨l19, u19⟩ := h.ab 5 3
  obtain ⟨l20, u20⟩ := h.ab 4 4
  obtain ⟨l21, u21⟩ := h.ab 3 5
  obtain ⟨l22, u22⟩ := h.ab 2 6
  obtain ⟨l23, u23⟩ := h.ab 1 7
  generalize mm (a 0) (b 0) = m0 at *
  generalize mm (aa 0) (bb 0) = m1 at *
  generalize mm (a 8) (b 8) = m2 at *
  generalize mm (aa 7) (bb 1) = m3 at *
  generalize mm (aa 6) (bb 2) = m4 at *
  generalize mm (aa 5) (bb 3) = m5 at *
  generalize mm (aa 4) (bb 4) = m6 at *
  generalize mm (aa 3) (bb 5) = m7 at *
  generalize mm (aa 2) (bb 6) = m8 at *
  generalize mm (aa 1) (bb 7) = m9 at *
  generalize mm (a 15) (b 9) = m10 at *
  generalize mm (a 14) (b 10) = m11 at *
  generalize mm (a 13) (b 11) = m12 at *
  generalize mm (a 12) (b 12) = m13 at *
  generalize mm (a 11) (b 13) = m14 at *
  generalize mm (a 10) (b 14) = m15 at *
  generalize mm (a 9) (b 15) = m16 at *
  generalize mm (a 7) (b 1) = m17 at *
  generalize mm (a 6) (b 2) = m18 at *
  generalize mm (a 5) (b 3) = m19 at *
  generalize mm (a 4) (b 4) = m20 at *
  generalize mm (a 3) (b 5) = m21 at *
  generalize mm (a 2) (b 6) = m22 at *
  generalize mm (a 1) (b 7) = m23 at *
  refine ckSum_bind (by simp) (allBd_cons (by bd) (by bd) (allBd_cons (by bd) (by bd) (allBd_nil))) ?_
  refine ckSum_bind (by simp) (allBd_cons (by bd) (by bd) (allBd_cons (by bd) (by bd) (allBd_nil))) ?_
  refine ckI128_bind (by bd) (by bd) ?_
  refine ckSum_bind (by simp) (allBd_cons (by bd) (by bd) (allBd_cons (by bd) (by bd) (allBd_cons (by bd) (by bd) (allBd_cons (by bd) (by bd) (allBd_cons (by bd) (by bd) (allBd_cons (by bd) (by bd) (allBd_cons (by bd) (by bd) (allBd_nil)))))))) ?_
  refine ckSum_bind (by simp) (allBd_cons (by bd) (by bd) (allBd_cons (by bd) (by bd) (allBd_cons (by bd) (by bd) (allBd_cons (by bd) (by bd) (allBd_cons (by bd) (by bd) (allBd_cons (by bd) (by bd) (allBd_cons (by bd) (by bd) (allBd_cons (by bd) (by bd) (allBd_nil))))))))) ?_
  refine ckI128_bind (by bd) (by bd) ?_
  refine ckSum_bind (by simp) (allBd_cons (by bd) (by bd) (allBd_cons (by bd) (by bd) (allBd_cons (by bd) (by bd) (allBd_cons (by bd) (by bd) (allBd_cons (by bd) (by bd) (allBd_cons (by bd) (by bd) (allBd_cons (by bd) (by bd) (allBd_cons (by bd) (by bd) (allBd_nil))))))))) ?_
  refine ckI128_bind (by bd) (by bd) ?_
  exact fin_eq (by simp only [List.sum_cons, List.sum_nil]; ring) (by simp only [List.sum_cons, List.sum_nil]; ring)

theorem mulJ1_eq {a b aa bb : ℕ → ℕ} (h : Lim a b aa bb) {z0 z1 : ℤ} (h0 : 0 ≤ z0) (h0l : z0 ≤ 2 ^ 40) (h1 : 0 ≤ z1) (h1l : z1 ≤ 2 ^ 40) :
    mulJ1 a b aa bb z0 z1 = some (maskI (z0 + S0 a b aa bb 1), maskI (z1 + S1 a b aa bb 1),
      (z0 + S0 a b aa bb 1) / 2 ^ 28, (z1 + S1 a b aa bb 1) / 2 ^ 28) := by
  unfold mulJ1 S0 S1 LO HI
  simp only [Nat.reduceAdd]
  obtain ⟨l0, u0⟩ := h.ab 1 0
  obtain ⟨l1, u1⟩ := h.ab 0 1
  obtain ⟨l2, u2⟩ := h.m 1 0
  obtain ⟨l3, u3⟩ := h.m 0 1
  obtain ⟨l4, u4⟩ := h.ab 9 8
  obtain ⟨l5, u5⟩ := h.ab 8 9
  obtain ⟨l6, u6⟩ := h.m 7 2
  obtain ⟨l7, u7⟩ := h.m 6 3
  obtain ⟨l8, u8⟩ := h.m 5 4
  obtain ⟨l9, u9⟩ := h.m 4 5
  obtain ⟨l10, u10⟩ := h.m 3 6
  obtain ⟨l11, u11⟩ := h.m 2 7
  obtain ⟨l12, u12⟩ := h.ab 15 10
  obtain ⟨l13, u13⟩ := h.ab 14 11
  obtain ⟨l14, u14⟩ := h.ab 13 12
  obtain ⟨l15, u15⟩ := h.ab 12 13
  obtain ⟨l16, u16⟩ := h.ab 11 14
  obtain ⟨l17, u17⟩ := h.ab 10 15
  obtain ⟨l18, u18⟩ := h.ab 7 2
  obtain ⟨l19, u19⟩ := h.ab 6 3
  obtain ⟨l20, u20⟩ := h.ab 5 4
  obtain ⟨l21, u21⟩ := h.ab 4 5
  obtain ⟨l22, u22⟩ := h.ab 3 6
  obtain ⟨l23, u23⟩ := h.ab 2 7
  generalize mm (a 1) (b 0) = m0 at *
  generalize mm (a 0) (b 1) = m1 at *
  generalize mm (aa 1) (bb 0) = m2 at *
  generalize mm (aa 0) (bb 1) = m3 at *
  generalize mm (a 9) (b 8) = m4 at *
  generalize mm (a 8) (b 9) = m5 at *
  generalize mm (aa 7) (bb 2) = m6 at *
  generalize mm (aa 6) (bb 3) = m7 at *
  generalize mm (aa 5) (bb 4) = m8 at *
  generalize mm (aa 4) (bb 5) = m9 at *
  generalize mm (aa 3) (bb 6) = m10 at *
  generalize mm (aa 2) (bb 7) = m11 at *
  generalize mm (a 15) (b 10) = m12 at *
  generalize mm (a 14) (b 11) = m13 at *
  generalize mm (a 13) (b 12) = m14 at *
  generalize mm (a 12) (b 13) = m15 at *
  generalize mm (a 11) (b 14) = m16 at *
  generalize mm (a 10) (b 15) = m17 at *
  generalize mm (a 7) (b 2) = m18 at *
  generalize mm (a 6) (b 3) = m19 at *
  generalize mm (a 5) (b 4) = m20 at *
  generalize mm (a 4) (b 5) = m21 at *
  generalize mm (a 3) (b 6) = m22 at *
  generalize mm (a 2) (b 7) = m23 at *
  refine ckSum_bind (by simp) (allBd_cons (by bd) (by bd) (allBd_cons (by bd) (by bd) (allBd_nil))) ?_
  refine ckSum_bind (by simp) (allBd_cons (by bd) (by bd) (allBd_cons (by bd) (by bd) (allBd_cons (by bd) (by bd) (allBd_nil)))) ?_
  refine ckI128_bind (by bd) (by bd) ?_
  refine ckSum_bind (by simp) (allBd_cons (by bd) (by bd) (allBd_cons (by bd) (by bd) (allBd_cons (by bd) (by bd) (allBd_nil)))) ?_
  refine ckI128_bind (by bd) (by bd) ?_
  refine ckSum_bind (by simp) (allBd_cons (by bd) (by bd) (allBd_cons (by bd) (by bd) (allBd_cons (by bd) (by bd) (allBd_cons (by bd) (by bd) (allBd_cons (by bd) (by bd) (allBd_cons (by bd) (by bd) (allBd_nil))))))) ?_
  refine ckSum_bind (by simp) (allBd_cons (by bd) (by bd) (allBd_cons (by bd) (by bd) (allBd_cons (by bd) (by bd) (allBd_cons (by bd) (by bd) (allBd_cons (by bd) (by bd) (allBd_cons (by bd) (by bd) (allBd_cons (by bd) (by bd) (allBd_nil)))))))) ?_
  refine ckI128_bind (by bd) (by bd) ?_
  refine ckSum_bind (by simp) (allBd_cons (by bd) (by bd) (allBd_cons (by bd) (by bd) (allBd_cons (by bd) (by bd) (allBd_cons (by bd) (by bd) (allBd_cons (by bd) (by bd) (allBd_cons (by bd) (by bd) (allBd_cons (by bd) (by bd) (allBd_nil)))))))) ?_
  refine ckI128_bind (by bd) (by bd) ?_
  exact fin_eq (by simp only [List.sum_cons, List.sum_nil]; ring) (by simp only [List.sum_cons, List.sum_nil]; ring)

theorem mulJ2_eq {a b aa bb : ℕ → ℕ} (h : Lim a b aa bb) {z0 z1 : ℤ} (h0 : 0 ≤ z0) (h0l : z0 ≤ 2 ^ 40) (h1 : 0 ≤ z1) (h1l : z1 ≤ 2 ^ 40) :
    mulJ2 a b aa bb z0 z1 = some (maskI (z0 + S0 a b aa bb 2), maskI (z1 + S1 a b aa bb 2),
      (z0 + S0 a b aa bb 2) / 2 ^ 28, (z1 + S1 a b aa bb 2) / 2 ^ 28) := by
  unfold mulJ2 S0 S1 LO HI
  simp only [Nat.reduceAdd]
  obtain ⟨l0, u0⟩ := h.ab 2 0
  obtain ⟨l1, u1⟩ := h.ab 1 1
  obtain ⟨l2, u2⟩ := h.ab 0 2
  obtain ⟨l3, u3⟩ := h.m 0 2
  obtain ⟨l4, u4⟩ := h.m 1 1
  obtain ⟨l5, u5⟩ := h.m 2 0
  obtain ⟨l6, u6⟩ := h.ab 10 8
  obtain ⟨l7, u7⟩ := h.ab 9 9
  obtain ⟨l8, u8⟩ := h.ab 8 10
  obtain ⟨l9, u9⟩ := h.m 7 3
  obtain ⟨l10, u10⟩ := h.m 6 4
  obtain ⟨l11, u11⟩ := h.m 5 5
  obtain ⟨l12, u12⟩ := h.m 4 6
  obtain ⟨l13, u13⟩ := h.m 3 7
  obtain ⟨l14, u14⟩ := h.ab 15 11
  obtain ⟨l15, u15⟩ := h.ab 14 12
  obtain ⟨l16, u16⟩ := h.ab 13 13
  obtain ⟨l17, u17⟩ := h.ab 12 14
  obtain ⟨l18, u18⟩ := h.ab 11 15
  obtain ⟨l19, u19⟩ := h.ab 7 3
  obtain ⟨l20, u20⟩ := h.ab 6 4
  obtain ⟨l21, u21⟩ := h.ab 5 5
  obtain ⟨l22, u22⟩ := h.ab 4 6
  obtain ⟨l23, u23⟩ := h.ab 3 7
  generalize mm (a 2) (b 0) = m0 at *
  generalize mm (a 1) (b 1) = m1 at *
  generalize mm (a 0) (b 2) = m2 at *
  generalize mm (aa 0) (bb 2) = m3 at *
  generalize mm (aa 1) (bb 1) = m4 at *
  generalize mm (aa 2) (bb 0) = m5 at *
  generalize mm (a 10) (b 8) = m6 at *
  generalize mm (a 9) (b 9) = m7 at *
  generalize mm (a 8) (b 10) = m8 at *
  generalize mm (aa 7) (bb 3) = m9 at *
  generalize mm (aa 6) (bb 4) = m10 at *
  generalize mm (aa 5) (bb 5) = m11 at *
  generalize mm (aa 4) (bb 6) = m12 at *
  generalize mm (aa 3) (bb 7) = m13 at *
  generalize mm (a 15) (b 11) = m14 at *
  generalize mm (a 14) (b 12) = m15 at *
  generalize mm (a 13) (b 13) = m16 at *
  generalize mm (a 12) (b 14) = m17 at *
  generalize mm (a 11) (b 15) = m18 at *
  generalize mm (a 7) (b 3) = m19 at *
  generalize mm (a 6) (b 4) = m20 at *
  generalize mm (a 5) (b 5) = m21 at *
  generalize mm (a 4) (b 6) = m22 at *
  generalize mm (a 3) (b 7) = m23 at *
  refine ckSum_bind (by simp) (allBd_cons (by bd) (by bd) (allBd_cons (by bd) (by bd) (allBd_cons (by bd) (by bd) (allBd_nil)))) ?_
  refine ckSum_bind (by simp) (allBd_cons (by bd) (by bd) (allBd_cons (by bd) (by bd) (allBd_cons (by bd) (by bd) (allBd_cons (by bd) (by bd) (allBd_nil))))) ?_
  refine ckI128_bind (by bd) (by bd) ?_
  refine ckSum_bind (by simp) (allBd_cons (by bd) (by bd) (allBd_cons (by bd) (by bd) (allBd_cons (by bd) (by bd) (allBd_cons (by bd) (by bd) (allBd_nil))))) ?_
  refine ckI128_bind (by bd) (by bd) ?_
  refine ckSum_bind (by simp) (allBd_cons (by bd) (by bd) (allBd_cons (by bd) (by bd) (allBd_cons (by bd) (by bd) (allBd_cons (by bd) (by bd) (allBd_cons (by bd) (by bd) (allBd_nil)))))) ?_
  refine ckSum_bind (by simp) (allBd_cons (by bd) (by bd) (allBd_cons (by bd) (by bd) (allBd_cons (by bd) (by bd) (allBd_cons (by bd) (by bd) (allBd_cons (by bd) (by bd) (allBd_cons (by bd) (by bd) (allBd_nil))))))) ?_
  refine ckI128_bind (by bd) (by bd) ?_
  refine ckSum_bind (by simp) (allBd_cons (by bd) (by bd) (allBd_cons (by bd) (by bd) (allBd_cons (by bd) (by bd) (allBd_cons (by bd) (by bd) (allBd_cons (by bd) (by bd) (allBd_cons (by bd) (by bd) (allBd_nil))))))) ?_
  refine ckI128_bind (by bd) (by bd) ?_
  exact fin_eq (by simp only [List.sum_cons, List.sum_nil]; ring) (by simp only [List.sum_cons, List.sum_nil]; ring)

theorem mulJ3_eq {a b aa bb : ℕ → ℕ} (h : Lim a b aa bb) {z0 z1 : ℤ} (h0 : 0 ≤ z0) (h0l : z0 ≤ 2 ^ 40) (h1 : 0 ≤ z1) (h1l : z1 ≤ 2 ^ 40) :
    mulJ3 a b aa bb z0 z1 = some (maskI (z0 + S0 a b aa bb 3), maskI (z1 + S1 a b aa bb 3),
      (z0 + S0 a b aa bb 3) / 2 ^ 28, (z1 + S1 a b aa bb 3) / 2 ^ 28) := by
  unfold mulJ3 S0 S1 LO HI
  simp only [Nat.reduceAdd]
  obtain ⟨l0, u0⟩ := h.ab 3 0
  obtain ⟨l1, u1⟩ := h.ab 2 1
  obtain ⟨l2, u2⟩ := h.ab 1 2
  obtain ⟨l3, u3⟩ := h.ab 0 3
  obtain ⟨l4, u4⟩ := h.m 3 0
  obtain ⟨l5, u5⟩ := h.m 2 1
  obtain ⟨l6, u6⟩ := h.m 1 2
  obtain ⟨l7, u7⟩ := h.m 0 3
  obtain ⟨l8, u8⟩ := h.ab 11 8
  obtain ⟨l9, u9⟩ := h.ab 10 9
  obtain ⟨l10, u10⟩ := h.ab 9 10
  obtain ⟨l11, u11⟩ := h.ab 8 11
  obtain ⟨l12, u12⟩ := h.m 7 4
  obtain ⟨l13, u13⟩ := h.m 6 5
  obtain ⟨l14, u14⟩ := h.m 5 6
  obtain ⟨l15, u15⟩ := h.m 4 7
  obtain ⟨l16, u16⟩ := h.ab 7 4
  obtain ⟨l17, u17⟩ := h.ab 6 5
  obtain ⟨l18, u18⟩ := h.ab 5 6
  obtain ⟨l19, u19⟩ := h.ab 4 7
  obtain ⟨l20, u20⟩ := h.ab 15 12
  obtain ⟨l21, u21⟩ := h.ab 14 13
  obtain ⟨l22, u22⟩ := h.ab 13 14
  obtain ⟨l23, u23⟩ := h.ab 12 15
  generalize mm (a 3) (b 0) = m0 at *
  generalize mm (a 2) (b 1) = m1 at *
  generalize mm (a 1) (b 2) = m2 at *
  generalize mm (a 0) (b 3) = m3 at *
  generalize mm (aa 3) (bb 0) = m4 at *
  generalize mm (aa 2) (bb 1) = m5 at *
  generalize mm (aa 1) (bb 2) = m6 at *
  generalize mm (aa 0) (bb 3) = m7 at *
  generalize mm (a 11) (b 8) = m8 at *
  generalize mm (a 10) (b 9) = m9 at *
  generalize mm (a 9) (b 10) = m10 at *
  generalize mm (a 8) (b 11) = m11 at *
  generalize mm (aa 7) (bb 4) = m12 at *
  generalize mm (aa 6) (bb 5) = m13 at *
  generalize mm (aa 5) (bb 6) = m14 at *
  generalize mm (aa 4) (bb 7) = m15 at *
  generalize mm (a 7) (b 4) = m16 at *
  generalize mm (a 6) (b 5) = m17 at *
  generalize mm (a 5) (b 6) = m18 at *
  generalize mm (a 4) (b 7) = m19 at *
  generalize mm (a 15) (b 12) = m20 at *
  generalize mm (a 14) (b 13) = m21 at *
  generalize mm (a 13) (b 14) = m22 at *
  generalize mm (a 12) (b 15) = m23 at *
  refine ckSum_bind (by simp) (allBd_cons (by bd) (by bd) (allBd_cons (by bd) (by bd) (allBd_cons (by bd) (by bd) (allBd_cons (by bd) (by bd) (allBd_nil))))) ?_
  refine ckSum_bind (by simp) (allBd_cons (by bd) (by bd) (allBd_cons (by bd) (by bd) (allBd_cons (by bd) (by bd) (allBd_cons (by bd) (by bd) (allBd_cons (by bd) (by bd) (allBd_nil)))))) ?_
  refine ckI128_bind (by bd) (by bd) ?_
  refine ckSum_bind (by simp) (allBd_cons (by bd) (by bd) (allBd_cons (by bd) (by bd) (allBd_cons (by bd) (by bd) (allBd_cons (by bd) (by bd) (allBd_cons (by bd) (by bd) (allBd_nil)))))) ?_
  refine ckI128_bind (by bd) (by bd) ?_
  refine ckSum_bind (by simp) (allBd_cons (by bd) (by bd) (allBd_cons (by bd) (by bd) (allBd_cons (by bd) (by bd) (allBd_cons (by bd) (by bd) (allBd_nil))))) ?_
  refine ckSum_bind (by simp) (allBd_cons (by bd) (by bd) (allBd_cons (by bd) (by bd) (allBd_cons (by bd) (by bd) (allBd_cons (by bd) (by bd) (allBd_cons (by bd) (by bd) (allBd_nil)))))) ?_
  refine ckI128_bind (by bd) (by bd) ?_
  refine ckSum_bind (by simp) (allBd_cons (by bd) (by bd) (allBd_cons (by bd) (by bd) (allBd_cons (by bd) (by bd) (allBd_cons (by bd) (by bd) (allBd_cons (by bd) (by bd) (allBd_nil)))))) ?_
  refine ckI128_bind (by bd) (by bd) ?_
  exact fin_eq (by simp only [List.sum_cons, List.sum_nil]; ring) (by simp only [List.sum_cons, List.sum_nil]; ring)

theorem mulJ4_eq {a b aa bb : ℕ → ℕ} (h : Lim a b aa bb) {z0 z1 : ℤ} (h0 : 0 ≤ z0) (h0l : z0 ≤ 2 ^ 40) (h1 : 0 ≤ z1) (h1l : z1 ≤ 2 ^ 40) :
    mulJ4 a b aa bb z0 z1 = some (maskI (z0 + S0 a b aa bb 4), maskI (z1 + S1 a b aa bb 4),
      (z0 + S0 a b aa bb 4) / 2 ^ 28, (z1 + S1 a b aa bb 4) / 2 ^ 28) := by
  unfold mulJ4 S0 S1 LO HI
  simp only [Nat.reduceAdd]
  obtain ⟨l0, u0⟩ := h.ab 4 0
  obtain ⟨l1, u1⟩ := h.ab 3 1
  obtain ⟨l2, u2⟩ := h.ab 2 2
  obtain ⟨l3, u3⟩ := h.ab 1 3
  obtain ⟨l4, u4⟩ := h.ab 0 4
  obtain ⟨l5, u5⟩ := h.m 4 0
  obtain ⟨l6, u6⟩ := h.m 3 1
  obtain ⟨l7, u7⟩ := h.m 2 2
  obtain ⟨l8, u8⟩ := h.m 1 3
  obtain ⟨l9, u9⟩ := h.m 0 4
  obtain ⟨l10, u10⟩ := h.ab 12 8
  obtain ⟨l11, u11⟩ := h.ab 11 9
  obtain ⟨l12, u12⟩ := h.ab 10 10
  obtain ⟨l13, u13⟩ := h.ab 9 11
  obtain ⟨l14, u14⟩ := h.ab 8 12
  obtain ⟨l15, u15⟩ := h.m 7 5
  obtain ⟨l16, u16⟩ := h.m 6 6
  obtain ⟨l17, u17⟩ := h.m 5 7
  obtain ⟨l18, u18⟩ := h.ab 15 13
  obtain ⟨l19, u19⟩ := h.ab 14 14
  obtain ⟨l20, u20⟩ := h.ab 13 15
  obtain ⟨l21, u21⟩ := h.ab 7 5
  obtain ⟨l22, u22⟩ := h.ab 6 6
  obtain ⟨l23, u23⟩ := h.ab 5 7
  generalize mm (a 4) (b 0) = m0 at *
  generalize mm (a 3) (b 1) = m1 at *
  generalize mm (a 2) (b 2) = m2 at *
  generalize mm (a 1) (b 3) = m3 at *
  generalize mm (a 0) (b 4) = m4 at *
  generalize mm (aa 4) (bb 0) = m5 at *
  generalize mm (aa 3) (bb 1) = m6 at *
  generalize mm (aa 2) (bb 2) = m7 at *
  generalize mm (aa 1) (bb 3) = m8 at *
  generalize mm (aa 0) (bb 4) = m9 at *
  generalize mm (a 12) (b 8) = m10 at *
  generalize mm (a 11) (b 9) = m11 at *
  generalize mm (a 10) (b 10) = m12 at *
  generalize mm (a 9) (b 11) = m13 at *
  generalize mm (a 8) (b 12) = m14 at *
  generalize mm (aa 7) (bb 5) = m15 at *
  generalize mm (aa 6) (bb 6) = m16 at *
  generalize mm (aa 5) (bb 7) = m17 at *
  generalize mm (a 15) (b 13) = m18 at *
  generalize mm (a 14) (b 14) = m19 at *
  generalize mm (a 13) (b 15) = m20 at *
  generalize mm (a 7) (b 5) = m21 at *
  generalize mm (a 6) (b 6) = m22 at *
  generalize mm (a 5) (b 7) = m23 at *
  refine ckSum_bind (by simp) (allBd_cons (by bd) (by bd) (allBd_cons (by bd) (by bd) (allBd_cons (by bd) (by bd) (allBd_cons (by bd) (by bd) (allBd_cons (by bd) (by bd) (allBd_nil)))))) ?_
  refine ckSum_bind (by simp) (allBd_cons (by bd) (by bd) (allBd_cons (by bd) (by bd) (allBd_cons (by bd) (by bd) (allBd_cons (by bd) (by bd) (allBd_cons (by bd) (by bd) (allBd_cons (by bd) (by bd) (allBd_nil))))))) ?_
  refine ckI128_bind (by bd) (by bd) ?_
  refine ckSum_bind (by simp) (allBd_cons (by bd) (by bd) (allBd_cons (by bd) (by bd) (allBd_cons (by bd) (by bd) (allBd_cons (by bd) (by bd) (allBd_cons (by bd) (by bd) (allBd_cons (by bd) (by bd) (allBd_nil))))))) ?_
  refine ckI128_bind (by bd) (by bd) ?_
  refine ckSum_bind (by simp) (allBd_cons (by bd) (by bd) (allBd_cons (by bd) (by bd) (allBd_cons (by bd) (by bd) (allBd_nil)))) ?_
  refine ckSum_bind (by simp) (allBd_cons (by bd) (by bd) (allBd_cons (by bd) (by bd) (allBd_cons (by bd) (by bd) (allBd_cons (by bd) (by bd) (allBd_nil))))) ?_
  refine ckI128_bind (by bd) (by bd) ?_
  refine ckSum_bind (by simp) (allBd_cons (by bd) (by bd) (allBd_cons (by bd) (by bd) (allBd_cons (by bd) (by bd) (allBd_cons (by bd) (by bd) (allBd_nil))))) ?_
  refine ckI128_bind (by bd) (by bd) ?_
  exact fin_eq (by simp only [List.sum_cons, List.sum_nil]; ring) (by simp only [List.sum_cons, List.sum_nil]; ring)

theorem mulJ5_eq {a b aa bb : ℕ → ℕ} (h : Lim a b aa bb) {z0 z1 : ℤ} (h0 : 0 ≤ z0) (h0l : z0 ≤ 2 ^ 40) (h1 : 0 ≤ z1) (h1l : z1 ≤ 2 ^ 40) :
    mulJ5 a b aa bb z0 z1 = some (maskI (z0 + S0 a b aa bb 5), maskI (z1 + S1 a b aa bb 5),
      (z0 + S0 a b aa bb 5) / 2 ^ 28, (z1 + S1 a b aa bb 5) / 2 ^ 28) := by
  unfold mulJ5 S0 S1 LO HI
  simp only [Nat.reduceAdd]
  obtain ⟨l0, u0⟩ := h.ab 5 0
  obtain ⟨l1, u1⟩ := h.ab 4 1
  obtain ⟨l2, u2⟩ := h.ab 3 2
  obtain ⟨l3, u3⟩ := h.ab 2 3
  obtain ⟨l4, u4⟩ := h.ab 1 4
  obtain ⟨l5, u5⟩ := h.ab 0 5
  obtain ⟨l6, u6⟩ := h.m 5 0
  obtain ⟨l7, u7⟩ := h.m 4 1
  obtain ⟨l8, u8⟩ := h.m 3 2
  obtain ⟨l9, u9⟩ := h.m 2 3
  obtain ⟨l10, u10⟩ := h.m 1 4
  obtain ⟨l11, u11⟩ := h.m 0 5
  obtain ⟨l12, u12⟩ := h.ab 13 8
  obtain ⟨l13, u13⟩ := h.ab 12 9
  obtain ⟨l14, u14⟩ := h.ab 11 10
  obtain ⟨l15, u15⟩ := h.ab 10 11
  obtain ⟨l16, u16⟩ := h.ab 9 12
  obtain ⟨l17, u17⟩ := h.ab 8 13
  obtain ⟨l18, u18⟩ := h.m 7 6
  obtain ⟨l19, u19⟩ := h.m 6 7
  obtain ⟨l20, u20⟩ := h.ab 15 14
  obtain ⟨l21, u21⟩ := h.ab 14 15
  obtain ⟨l22, u22⟩ := h.ab 7 6
  obtain ⟨l23, u23⟩ := h.ab 6 7
  generalize mm (a 5) (b 0) = m0 at *
  generalize mm (a 4) (b 1) = m1 at *
  generalize mm (a 3) (b 2) = m2 at *
  generalize mm (a 2) (b 3) = m3 at *
  generalize mm (a 1) (b 4) = m4 at *
  generalize mm (a 0) (b 5) = m5 at *
  generalize mm (aa 5) (bb 0) = m6 at *
  generalize mm (aa 4) (bb 1) = m7 at *
  generalize mm (aa 3) (bb 2) = m8 at *
  generalize mm (aa 2) (bb 3) = m9 at *
  generalize mm (aa 1) (bb 4) = m10 at *
  generalize mm (aa 0) (bb 5) = m11 at *
  generalize mm (a 13) (b 8) = m12 at *
  generalize mm (a 12) (b 9) = m13 at *
  generalize mm (a 11) (b 10) = m14 at *
  generalize mm (a 10) (b 11) = m15 at *
  generalize mm (a 9) (b 12) = m16 at *
  generalize mm (a 8) (b 13) = m17 at *
  generalize mm (aa 7) (bb 6) = m18 at *
  generalize mm (aa 6) (bb 7) = m19 at *
  generalize mm (a 15) (b 14) = m20 at *
  generalize mm (a 14) (b 15) = m21 at *
  generalize mm (a 7) (b 6) = m22 at *
  generalize mm (a 6) (b 7) = m23 at *
  refine ckSum_bind (by simp) (allBd_cons (by bd) (by bd) (allBd_cons (by bd) (by bd) (allBd_cons (by bd) (by bd) (allBd_cons (by bd) (by bd) (allBd_cons (by bd) (by bd) (allBd_cons (by bd) (by bd) (allBd_nil))))))) ?_
  refine ckSum_bind (by simp) (allBd_cons (by bd) (by bd) (allBd_cons (by bd) (by bd) (allBd_cons (by bd) (by bd) (allBd_cons (by bd) (by bd) (allBd_cons (by bd) (by bd) (allBd_cons (by bd) (by bd) (allBd_cons (by bd) (by bd) (allBd_nil)))))))) ?_
  refine ckI128_bind (by bd) (by bd) ?_
  refine ckSum_bind (by simp) (allBd_cons (by bd) (by bd) (allBd_cons (by bd) (by bd) (allBd_cons (by bd) (by bd) (allBd_cons (by bd) (by bd) (allBd_cons (by bd) (by bd) (allBd_cons (by bd) (by bd) (allBd_cons (by bd) (by bd) (allBd_nil)))))))) ?_
  refine ckI128_bind (by bd) (by bd) ?_
  refine ckSum_bind (by simp) (allBd_cons (by bd) (by bd) (allBd_cons (by bd) (by bd) (allBd_nil))) ?_
  refine ckSum_bind (by simp) (allBd_cons (by bd) (by bd) (allBd_cons (by bd) (by bd) (allBd_cons (by bd) (by bd) (allBd_nil)))) ?_
  refine ckI128_bind (by bd) (by bd) ?_
  refine ckSum_bind (by simp) (allBd_cons (by bd) (by bd) (allBd_cons (by bd) (by bd) (allBd_cons (by bd) (by bd) (allBd_nil)))) ?_
  refine ckI128_bind (by bd) (by bd) ?_
  exact fin_eq (by simp only [List.sum_cons, List.sum_nil]; ring) (by simp only [List.sum_cons, List.sum_nil]; ring)

theorem mulJ6_eq {a b aa bb : ℕ → ℕ} (h : Lim a b aa bb) {z0 z1 : ℤ} (h0 : 0 ≤ z0) (h0l : z0 ≤ 2 ^ 40) (h1 : 0 ≤ z1) (h1l : z1 ≤ 2 ^ 40) :
    mulJ6 a b aa bb z0 z1 = some (maskI (z0 + S0 a b aa bb 6), maskI (z1 + S1 a b aa bb 6),
      (z0 + S0 a b aa bb 6) / 2 ^ 28, (z1 + S1 a b aa bb 6) / 2 ^ 28) := by
  unfold mulJ6 S0 S1 LO HI
  simp only [Nat.reduceAdd]
  obtain ⟨l0, u0⟩ := h.ab 6 0
  obtain ⟨l1, u1⟩ := h.ab 5 1
  obtain ⟨l2, u2⟩ := h.ab 4 2
  obtain ⟨l3, u3⟩ := h.ab 3 3
  obtain ⟨l4, u4⟩ := h.ab 2 4
  obtain ⟨l5, u5⟩ := h.ab 1 5
  obtain ⟨l6, u6⟩ := h.ab 0 6
  obtain ⟨l7, u7⟩ := h.m 6 0
  obtain ⟨l8, u8⟩ := h.m 5 1
  obtain ⟨l9, u9⟩ := h.m 4 2
  obtain ⟨l10, u10⟩ := h.m 3 3
  obtain ⟨l11, u11⟩ := h.m 2 4
  obtain ⟨l12, u12⟩ := h.m 1 5
  obtain ⟨l13, u13⟩ := h.m 0 6
  obtain ⟨l14, u14⟩ := h.ab 14 8
  obtain ⟨l15, u15⟩ := h.ab 13 9
  obtain ⟨l16, u16⟩ := h.ab 12 10
  obtain ⟨l17, u17⟩ := h.ab 11 11
  obtain ⟨l18, u18⟩ := h.ab 10 12
  obtain ⟨l19, u19⟩ := h.ab 9 13
  obtain ⟨l20, u20⟩ := h.ab 8 14
  obtain ⟨l21, u21⟩ := h.m 7 7
  obtain ⟨l22, u22⟩ := h.ab 15 15
  obtain ⟨l23, u23⟩ := h.ab 7 7
  generalize mm (a 6) (b 0) = m0 at *
  generalize mm (a 5) (b 1) = m1 at *
  generalize mm (a 4) (b 2) = m2 at *
  generalize mm (a 3) (b 3) = m3 at *
  generalize mm (a 2) (b 4) = m4 at *
  generalize mm (a 1) (b 5) = m5 at *
  generalize mm (a 0) (b 6) = m6 at *
  generalize mm (aa 6) (bb 0) = m7 at *
  generalize mm (aa 5) (bb 1) = m8 at *
  generalize mm (aa 4) (bb 2) = m9 at *
  generalize mm (aa 3) (bb 3) = m10 at *
  generalize mm (aa 2) (bb 4) = m11 at *
  generalize mm (aa 1) (bb 5) = m12 at *
  generalize mm (aa 0) (bb 6) = m13 at *
  generalize mm (a 14) (b 8) = m14 at *
  generalize mm (a 13) (b 9) = m15 at *
  generalize mm (a 12) (b 10) = m16 at *
  generalize mm (a 11) (b 11) = m17 at *
  generalize mm (a 10) (b 12) = m18 at *
  generalize mm (a 9) (b 13) = m19 at *
  generalize mm (a 8) (b 14) = m20 at *
  generalize mm (aa 7) (bb 7) = m21 at *
  generalize mm (a 15) (b 15) = m22 at *
  generalize mm (a 7) (b 7) = m23 at *
  refine ckSum_bind (by simp) (allBd_cons (by bd) (by bd) (allBd_cons (by bd) (by bd) (allBd_cons (by bd) (by bd) (allBd_cons (by bd) (by bd) (allBd_cons (by bd) (by bd) (allBd_cons (by bd) (by bd) (allBd_cons (by bd) (by bd) (allBd_nil)))))))) ?_
  refine ckSum_bind (by simp) (allBd_cons (by bd) (by bd) (allBd_cons (by bd) (by bd) (allBd_cons (by bd) (by bd) (allBd_cons (by bd) (by bd) (allBd_cons (by bd) (by bd) (allBd_cons (by bd) (by bd) (allBd_cons (by bd) (by bd) (allBd_cons (by bd) (by bd) (allBd_nil))))))))) ?_
  refine ckI128_bind (by bd) (by bd) ?_
  refine ckSum_bind (by simp) (allBd_cons (by bd) (by bd) (allBd_cons (by bd) (by bd) (allBd_cons (by bd) (by bd) (allBd_cons (by bd) (by bd) (allBd_cons (by bd) (by bd) (allBd_cons (by bd) (by bd) (allBd_cons (by bd) (by bd) (allBd_cons (by bd) (by bd) (allBd_nil))))))))) ?_
  refine ckI128_bind (by bd) (by bd) ?_
  refine ckSum_bind (by simp) (allBd_cons (by bd) (by bd) (allBd_cons (by bd) (by bd) (allBd_nil))) ?_
  refine ckI128_bind (by bd) (by bd) ?_
  refine ckSum_bind (by simp) (allBd_cons (by bd) (by bd) (allBd_cons (by bd) (by bd) (allBd_nil))) ?_
  refine ckI128_bind (by bd) (by bd) ?_
  exact fin_eq (by simp only [List.sum_cons, List.sum_nil]; ring) (by simp only [List.sum_cons, List.sum_nil]; ring)

theorem mulJ7_eq {a b aa bb : ℕ → ℕ} (h : Lim a b aa bb) {z0 z1 : ℤ} (h0 : 0 ≤ z0) (h0l : z0 ≤ 2 ^ 40) (h1 : 0 ≤ z1) (h1l : z1 ≤ 2 ^ 40) :
    mulJ7 a b aa bb z0 z1 = some (maskI (z0 + S0 a b aa bb 7), maskI (z1 + S1 a b aa bb 7),
      (z0 + S0 a b aa bb 7) / 2 ^ 28, (z1 + S1 a b aa bb 7) / 2 ^ 28) := by
  unfold mulJ7 S0 S1 LO HI
  simp only [Nat.reduceAdd]
  obtain ⟨l0, u0⟩ := h.ab 7 0
  obtain ⟨l1, u1⟩ := h.ab 6 1
  obtain ⟨l2, u2⟩ := h.ab 5 2
  obtain ⟨l3, u3⟩ := h.ab 4 3
  obtain ⟨l4, u4⟩ := h.ab 3 4
  obtain ⟨l5, u5⟩ := h.ab 2 5
  obtain ⟨l6, u6⟩ := h.ab 1 6
  obtain ⟨l7, u7⟩ := h.ab 0 7
  obtain ⟨l8, u8⟩ := h.m 7 0
  obtain ⟨l9, u9⟩ := h.m 6 1
  obtain ⟨l10, u10⟩ := h.m 5 2
  obtain ⟨l11, u11⟩ := h.m 4 3
  obtain ⟨l12, u12⟩ := h.m 3 4
  obtain ⟨l13, u13⟩ := h.m 2 5
  obtain ⟨l14, u14⟩ := h.m 1 6
  obtain ⟨l15, u15⟩ := h.m 0 7
  obtain ⟨l16, u16⟩ := h.ab 15 8
  obtain ⟨l17, u17⟩ := h.ab 14 9
  obtain ⟨l18, u18⟩ := h.ab 13 10
  obtain ⟨l19, u19⟩ := h.ab 12 11
  obtain ⟨l20, u20⟩ := h.ab 11 12
  obtain ⟨l21, u21⟩ := h.ab 10 13
  obtain ⟨l22, u22⟩ := h.ab 9 14
  obtain ⟨l23, u23⟩ := h.ab 8 15
  generalize mm (a 7) (b 0) = m0 at *
  generalize mm (a 6) (b 1) = m1 at *
  generalize mm (a 5) (b 2) = m2 at *
  generalize mm (a 4) (b 3) = m3 at *
  generalize mm (a 3) (b 4) = m4 at *
  generalize mm (a 2) (b 5) = m5 at *
  generalize mm (a 1) (b 6) = m6 at *
  generalize mm (a 0) (b 7) = m7 at *
  generalize mm (aa 7) (bb 0) = m8 at *
  generalize mm (aa 6) (bb 1) = m9 at *
  generalize mm (aa 5) (bb 2) = m10 at *
  generalize mm (aa 4) (bb 3) = m11 at *
  generalize mm (aa 3) (bb 4) = m12 at *
  generalize mm (aa 2) (bb 5) = m13 at *
  generalize mm (aa 1) (bb 6) = m14 at *
  generalize mm (aa 0) (bb 7) = m15 at *
  generalize mm (a 15) (b 8) = m16 at *
  generalize mm (a 14) (b 9) = m17 at *
  generalize mm (a 13) (b 10) = m18 at *
  generalize mm (a 12) (b 11) = m19 at *
  generalize mm (a 11) (b 12) = m20 at *
  generalize mm (a 10) (b 13) = m21 at *
  generalize mm (a 9) (b 14) = m22 at *
  generalize mm (a 8) (b 15) = m23 at *
  refine ckSum_bind (by simp) (allBd_cons (by bd) (by bd) (allBd_cons (by bd) (by bd) (allBd_cons (by bd) (by bd) (allBd_cons (by bd) (by bd) (allBd_cons (by bd) (by bd) (allBd_cons (by bd) (by bd) (allBd_cons (by bd) (by bd) (allBd_cons (by bd) (by bd) (allBd_nil))))))))) ?_
  refine ckSum_bind (by simp) (allBd_cons (by bd) (by bd) (allBd_cons (by bd) (by bd) (allBd_cons (by bd) (by bd) (allBd_cons (by bd) (by bd) (allBd_cons (by bd) (by bd) (allBd_cons (by bd) (by bd) (allBd_cons (by bd) (by bd) (allBd_cons (by bd) (by bd) (allBd_cons (by bd) (by bd) (allBd_nil)))))))))) ?_
  refine ckI128_bind (by bd) (by bd) ?_
  refine ckSum_bind (by simp) (allBd_cons (by bd) (by bd) (allBd_cons (by bd) (by bd) (allBd_cons (by bd) (by bd) (allBd_cons (by bd) (by bd) (allBd_cons (by bd) (by bd) (allBd_cons (by bd) (by bd) (allBd_cons (by bd) (by bd) (allBd_cons (by bd) (by bd) (allBd_cons (by bd) (by bd) (allBd_nil)))))))))) ?_
  refine ckI128_bind (by bd) (by bd) ?_
  refine ckI128_bind (by bd) (by bd) ?_
  refine ckI128_bind (by bd) (by bd) ?_
  exact fin_eq (by simp only [List.sum_cons, List.sum_nil]; ring) (by simp only [List.sum_cons, List.sum_nil]; ring)

end Ed448.Model.U32