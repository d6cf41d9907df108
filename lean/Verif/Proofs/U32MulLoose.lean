import Verif.Proofs.U32Square

/-!
# The 32-bit backend: multiplication and squaring of numbers with larger limbs

The lemmas of `U32Mul` and `U32Mul2` again, with limbs below 2^31 in place of 2^28 + 2^8, and those of `U32Square` with limbs below 2^29.
-/

namespace Ed448.Model.U32.Loose
open Ed448.Model.U32

set_option exponentiation.threshold 1000

/-- Limbs whose pairwise sums are words. -/
def Below31 (a : Raw) : Prop := ∀ x ∈ a.l, x < 2 ^ 31

theorem Below31.get {a : Raw} (h : Below31 a) (i : ℕ) : a.get i < 2 ^ 31 := by
  unfold Arr.get
  rcases Nat.lt_or_ge i a.l.length with hi | hi
  · rw [List.getD_eq_getElem?_getD, List.getElem?_eq_getElem hi]; exact h _ (List.getElem_mem hi)
  · rw [List.getD_eq_getElem?_getD, List.getElem?_eq_none hi]; norm_num

/-- What the blocks need to know about the limbs. -/
structure Lim (a b aa bb : ℕ → ℕ) : Prop where
  ab : ∀ i k, 0 ≤ mm (a i) (b k) ∧ mm (a i) (b k) ≤ 2 ^ 62
  m : ∀ i k, 0 ≤ mm (aa i) (bb k) ∧ mm (aa i) (bb k) ≤ 2 ^ 64
  le : ∀ i k, mm (a i) (b k) ≤ mm (aa i) (bb k)

theorem mulJ0_eq {a b aa bb : ℕ → ℕ} (h : Lim a b aa bb) :
    mulJ0 a b aa bb 0 = some (maskI (0 + S0 a b aa bb 0), maskI (0 + S1 a b aa bb 0),
      (0 + S0 a b aa bb 0) / 2 ^ 28, (0 + S1 a b aa bb 0) / 2 ^ 28) := by
  unfold mulJ0 S0 S1 LO HI
  simp only [Nat.reduceAdd]
  obtain ⟨l0, u0⟩ := h.ab 0 0
  obtain ⟨l1, u1⟩ := h.m 0 0
  obtain ⟨l2, u2⟩ := h.ab 8 8
  obtain ⟨l3, u3⟩ := h.m 7 1
  obtain ⟨l4, u4⟩ := h.m 6 2
  obtain ⟨l5, u5⟩ := h.m 5 3
  obtain ⟨l6, u6⟩ := h.m 4 4
  obtain ⟨l7, u7⟩ := h.m 3 5
  obtain ⟨l8, u8⟩ := h.m 2 6
  obtain ⟨l9, u9⟩ := h.m 1 7
  obtain ⟨l10, u10⟩ := h.ab 15 9
  obtain ⟨l11, u11⟩ := h.ab 14 10
  obtain ⟨l12, u12⟩ := h.ab 13 11
  obtain ⟨l13, u13⟩ := h.ab 12 12
  obtain ⟨l14, u14⟩ := h.ab 11 13
  obtain ⟨l15, u15⟩ := h.ab 10 14
  obtain ⟨l16, u16⟩ := h.ab 9 15
  obtain ⟨l17, u17⟩ := h.ab 7 1
  obtain ⟨l18, u18⟩ := h.ab 6 2
  obtain ⟨l19, u19⟩ := h.ab 5 3
  obtain ⟨l20, u20⟩ := h.ab 4 4
  obtain ⟨l21, u21⟩ := h.ab 3 5
  obtain ⟨l22, u22⟩ := h.ab 2 6
  obtain ⟨l23, u23⟩ := h.ab 1 7
  generalize mm (a 0) (b 0) = m0 at *
  generalize mm (aa 0) (bb 0) = m1 at *
  generalize mm (a 8) (b 8) = m2 at *
  generalize mm (aa 7) (bb 1) = m3 at *
  generalize mm (aa 6) (bb 2) = m4 at *
  generalize mm (aa 5) (bb 3) = m5 at *
  generalize mm (aa 4) (bb 4) = m6 at *
  generalize mm (aa 3) (bb 5) = m7 at *
  generalize mm (aa 2) (bb 6) = m8 at *
  generalize mm (aa 1) (bb 7) = m9 at *
  generalize mm (a 15) (b 9) = m10 at *
  generalize mm (a 14) (b 10) = m11 at *
  generalize mm (a 13) (b 11) = m12 at *
  generalize mm (a 12) (b 12) = m13 at *
  generalize mm (a 11) (b 13) = m14 at *
  generalize mm (a 10) (b 14) = m15 at *
  generalize mm (a 9) (b 15) = m16 at *
  generalize mm (a 7) (b 1) = m17 at *
  generalize mm (a 6) (b 2) = m18 at *
  generalize mm (a 5) (b 3) = m19 at *
  generalize mm (a 4) (b 4) = m20 at *
  generalize mm (a 3) (b 5) = m21 at *
  generalize mm (a 2) (b 6) = m22 at *
  generalize mm (a 1) (b 7) = m23 at *
  refine ckSum_bind (by simp) (allBd_cons (by bd) (by bd) (allBd_cons (by bd) (by bd) (allBd_nil))) ?_
  refine ckSum_bind (by simp) (allBd_cons (by bd) (by bd) (allBd_cons (by bd) (by bd) (allBd_nil))) ?_
  refine ckI128_bind (by bd) (by bd) ?_
  refine ckSum_bind (by simp) (allBd_cons (by bd) (by bd) (allBd_cons (by bd) (by bd) (allBd_cons (by bd) (by bd) (allBd_cons (by bd) (by bd) (allBd_cons (by bd) (by bd) (allBd_cons (by bd) (by bd) (allBd_cons (by bd) (by bd) (allBd_nil)))))))) ?_
  refine ckSum_bind (by simp) (allBd_cons (by bd) (by bd) (allBd_cons (by bd) (by bd) (allBd_cons (by bd) (by bd) (allBd_cons (by bd) (by bd) (allBd_cons (by bd) (by bd) (allBd_cons (by bd) (by bd) (allBd_cons (by bd) (by bd) (allBd_cons (by bd) (by bd) (allBd_nil))))))))) ?_
  refine ckI128_bind (by bd) (by bd) ?_
  refine ckSum_bind (by simp) (allBd_cons (by bd) (by bd) (allBd_cons (by bd) (by bd) (allBd_cons (by bd) (by bd) (allBd_cons (by bd) (by bd) (allBd_cons (by bd) (by bd) (allBd_cons (by bd) (by bd) (allBd_cons (by bd) (by bd) (allBd_cons (by bd) (by bd) (allBd_nil))))))))) ?_
  refine ckI128_bind (by bd) (by bd) ?_
  exact fin_eq (by simp only [List.sum_cons, List.sum_nil]; ring) (by simp only [List.sum_cons, List.sum_nil]; ring)

theorem mulJ1_eq {a b aa bb : ℕ → ℕ} (h : Lim a b aa bb) {z0 z1 : ℤ} (h0 : 0 ≤ z0) (h0l : z0 ≤ 2 ^ 45) (h1 : 0 ≤ z1) (h1l : z1 ≤ 2 ^ 45) :
    mulJ1 a b aa bb z0 z1 = some (maskI (z0 + S0 a b aa bb 1), maskI (z1 + S1 a b aa bb 1),
      (z0 + S0 a b aa bb 1) / 2 ^ 28, (z1 + S1 a b aa bb 1) / 2 ^ 28) := by
  unfold mulJ1 S0 S1 LO HI
  simp only [Nat.reduceAdd]
  obtain ⟨l0, u0⟩ := h.ab 1 0
  obtain ⟨l1, u1⟩ := h.ab 0 1
  obtain ⟨l2, u2⟩ := h.m 1 0
  obtain ⟨l3, u3⟩ := h.m 0 1
  obtain ⟨l4, u4⟩ := h.ab 9 8
  obtain ⟨l5, u5⟩ := h.ab 8 9
  obtain ⟨l6, u6⟩ := h.m 7 2
  obtain ⟨l7, u7⟩ := h.m 6 3
  obtain ⟨l8, u8⟩ := h.m 5 4
  obtain ⟨l9, u9⟩ := h.m 4 5
  obtain ⟨l10, u10⟩ := h.m 3 6
  obtain ⟨l11, u11⟩ := h.m 2 7
  obtain ⟨l12, u12⟩ := h.ab 15 10
  obtain ⟨l13, u13⟩ := h.ab 14 11
  obtain ⟨l14, u14⟩ := h.ab 13 12
  obtain ⟨l15, u15⟩ := h.ab 12 13
  obtain ⟨l16, u16⟩ := h.ab 11 14
  obtain ⟨l17, u17⟩ := h.ab 10 15
  obtain ⟨l18, u18⟩ := h.ab 7 2
  obtain ⟨l19, u19⟩ := h.ab 6 3
  obtain ⟨l20, u20⟩ := h.ab 5 4
  obtain ⟨l21, u21⟩ := h.ab 4 5
  obtain ⟨l22, u22⟩ := h.ab 3 6
  obtain ⟨l23, u23⟩ := h.ab 2 7
  generalize mm (a 1) (b 0) = m0 at *
  generalize mm (a 0) (b 1) = m1 at *
  generalize mm (aa 1) (bb 0) = m2 at *
  generalize mm (aa 0) (bb 1) = m3 at *
  generalize mm (a 9) (b 8) = m4 at *
  generalize mm (a 8) (b 9) = m5 at *
  generalize mm (aa 7) (bb 2) = m6 at *
  generalize mm (aa 6) (bb 3) = m7 at *
  generalize mm (aa 5) (bb 4) = m8 at *
  generalize mm (aa 4) (bb 5) = m9 at *
  generalize mm (aa 3) (bb 6) = m10 at *
  generalize mm (aa 2) (bb 7) = m11 at *
  generalize mm (a 15) (b 10) = m12 at *
  generalize mm (a 14) (b 11) = m13 at *
  generalize mm (a 13) (b 12) = m14 at *
  generalize mm (a 12) (b 13) = m15 at *
  generalize mm (a 11) (b 14) = m16 at *
  generalize mm (a 10) (b 15) = m17 at *
  generalize mm (a 7) (b 2) = m18 at *
  generalize mm (a 6) (b 3) = m19 at *
  generalize mm (a 5) (b 4) = m20 at *
  generalize mm (a 4) (b 5) = m21 at *
  generalize mm (a 3) (b 6) = m22 at *
  generalize mm (a 2) (b 7) = m23 at *
  refine ckSum_bind (by simp) (allBd_cons (by bd) (by bd) (allBd_cons (by bd) (by bd) (allBd_nil))) ?_
  refine ckSum_bind (by simp) (allBd_cons (by bd) (by bd) (allBd_cons (by bd) (by bd) (allBd_cons (by bd) (by bd) (allBd_nil)))) ?_
  refine ckI128_bind (by bd) (by bd) ?_
  refine ckSum_bind (by simp) (allBd_cons (by bd) (by bd) (allBd_cons (by bd) (by bd) (allBd_cons (by bd) (by bd) (allBd_nil)))) ?_
  refine ckI128_bind (by bd) (by bd) ?_
  refine ckSum_bind (by simp) (allBd_cons (by bd) (by bd) (allBd_cons (by bd) (by bd) (allBd_cons (by bd) (by bd) (allBd_cons (by bd) (by bd) (allBd_cons (by bd) (by bd) (allBd_cons (by bd) (by bd) (allBd_nil))))))) ?_
  refine ckSum_bind (by simp) (allBd_cons (by bd) (by bd) (allBd_cons (by bd) (by bd) (allBd_cons (by bd) (by bd) (allBd_cons (by bd) (by bd) (allBd_cons (by bd) (by bd) (allBd_cons (by bd) (by bd) (allBd_cons (by bd) (by bd) (allBd_nil)))))))) ?_
  refine ckI128_bind (by bd) (by bd) ?_
  refine ckSum_bind (by simp) (allBd_cons (by bd) (by bd) (allBd_cons (by bd) (by bd) (allBd_cons (by bd) (by bd) (allBd_cons (by bd) (by bd) (allBd_cons (by bd) (by bd) (allBd_cons (by bd) (by bd) (allBd_cons (by bd) (by bd) (allBd_nil)))))))) ?_
  refine ckI128_bind (by bd) (by bd) ?_
  exact fin_eq (by simp only [List.sum_cons, List.sum_nil]; ring) (by simp only [List.sum_cons, List.sum_nil]; ring)

theorem mulJ2_eq {a b aa bb : ℕ → ℕ} (h : Lim a b aa bb) {z0 z1 : ℤ} (h0 : 0 ≤ z0) (h0l : z0 ≤ 2 ^ 45) (h1 : 0 ≤ z1) (h1l : z1 ≤ 2 ^ 45) :
    mulJ2 a b aa bb z0 z1 = some (maskI (z0 + S0 a b aa bb 2), maskI (z1 + S1 a b aa bb 2),
      (z0 + S0 a b aa bb 2) / 2 ^ 28, (z1 + S1 a b aa bb 2) / 2 ^ 28) := by
  unfold mulJ2 S0 S1 LO HI
  simp only [Nat.reduceAdd]
  obtain ⟨l0, u0⟩ := h.ab 2 0
  obtain ⟨l1, u1⟩ := h.ab 1 1
  obtain ⟨l2, u2⟩ := h.ab 0 2
  obtain ⟨l3, u3⟩ := h.m 0 2
  obtain ⟨l4, u4⟩ := h.m 1 1
  obtain ⟨l5, u5⟩ := h.m 2 0
  obtain ⟨l6, u6⟩ := h.ab 10 8
  obtain ⟨l7, u7⟩ := h.ab 9 9
  obtain ⟨l8, u8⟩ := h.ab 8 10
  obtain ⟨l9, u9⟩ := h.m 7 3
  obtain ⟨l10, u10⟩ := h.m 6 4
  obtain ⟨l11, u11⟩ := h.m 5 5
  obtain ⟨l12, u12⟩ := h.m 4 6
  obtain ⟨l13, u13⟩ := h.m 3 7
  obtain ⟨l14, u14⟩ := h.ab 15 11
  obtain ⟨l15, u15⟩ := h.ab 14 12
  obtain ⟨l16, u16⟩ := h.ab 13 13
  obtain ⟨l17, u17⟩ := h.ab 12 14
  obtain ⟨l18, u18⟩ := h.ab 11 15
  obtain ⟨l19, u19⟩ := h.ab 7 3
  obtain ⟨l20, u20⟩ := h.ab 6 4
  obtain ⟨l21, u21⟩ := h.ab 5 5
  obtain ⟨l22, u22⟩ := h.ab 4 6
  obtain ⟨l23, u23⟩ := h.ab 3 7
  generalize mm (a 2) (b 0) = m0 at *
  generalize mm (a 1) (b 1) = m1 at *
  generalize mm (a 0) (b 2) = m2 at *
  generalize mm (aa 0) (bb 2) = m3 at *
  generalize mm (aa 1) (bb 1) = m4 at *
  generalize mm (aa 2) (bb 0) = m5 at *
  generalize mm (a 10) (b 8) = m6 at *
  generalize mm (a 9) (b 9) = m7 at *
  generalize mm (a 8) (b 10) = m8 at *
  generalize mm (aa 7) (bb 3) = m9 at *
  generalize mm (aa 6) (bb 4) = m10 at *
  generalize mm (aa 5) (bb 5) = m11 at *
  generalize mm (aa 4) (bb 6) = m12 at *
  generalize mm (aa 3) (bb 7) = m13 at *
  generalize mm (a 15) (b 11) = m14 at *
  generalize mm (a 14) (b 12) = m15 at *
  generalize mm (a 13) (b 13) = m16 at *
  generalize mm (a 12) (b 14) = m17 at *
  generalize mm (a 11) (b 15) = m18 at *
  generalize mm (a 7) (b 3) = m19 at *
  generalize mm (a 6) (b 4) = m20 at *
  generalize mm (a 5) (b 5) = m21 at *
  generalize mm (a 4) (b 6) = m22 at *
  generalize mm (a 3) (b 7) = m23 at *
  refine ckSum_bind (by simp) (allBd_cons (by bd) (by bd) (allBd_cons (by bd) (by bd) (allBd_cons (by bd) (by bd) (allBd_nil)))) ?_
  refine ckSum_bind (by simp) (allBd_cons (by bd) (by bd) (allBd_cons (by bd) (by bd) (allBd_cons (by bd) (by bd) (allBd_cons (by bd) (by bd) (allBd_nil))))) ?_
  refine ckI128_bind (by bd) (by bd) ?_
  refine ckSum_bind (by simp) (allBd_cons (by bd) (by bd) (allBd_cons (by bd) (by bd) (allBd_cons (by bd) (by bd) (allBd_cons (by bd) (by bd) (allBd_nil))))) ?_
  refine ckI128_bind (by bd) (by bd) ?_
  refine ckSum_bind (by simp) (allBd_cons (by bd) (by bd) (allBd_cons (by bd) (by bd) (allBd_cons (by bd) (by bd) (allBd_cons (by bd) (by bd) (allBd_cons (by bd) (by bd) (allBd_nil)))))) ?_
  refine ckSum_bind (by simp) (allBd_cons (by bd) (by bd) (allBd_cons (by bd) (by bd) (allBd_cons (by bd) (by bd) (allBd_cons (by bd) (by bd) (allBd_cons (by bd) (by bd) (allBd_cons (by bd) (by bd) (allBd_nil))))))) ?_
  refine ckI128_bind (by bd) (by bd) ?_
  refine ckSum_bind (by simp) (allBd_cons (by bd) (by bd) (allBd_cons (by bd) (by bd) (allBd_cons (by bd) (by bd) (allBd_cons (by bd) (by bd) (allBd_cons (by bd) (by bd) (allBd_cons (by bd) (by bd) (allBd_nil))))))) ?_
  refine ckI128_bind (by bd) (by bd) ?_
  exact fin_eq (by simp only [List.sum_cons, List.sum_nil]; ring) (by simp only [List.sum_cons, List.sum_nil]; ring)

theorem mulJ3_eq {a b aa bb : ℕ → ℕ} (h : Lim a b aa bb) {z0 z1 : ℤ} (h0 : 0 ≤ z0) (h0l : z0 ≤ 2 ^ 45) (h1 : 0 ≤ z1) (h1l : z1 ≤ 2 ^ 45) :
    mulJ3 a b aa bb z0 z1 = some (maskI (z0 + S0 a b aa bb 3), maskI (z1 + S1 a b aa bb 3),
      (z0 + S0 a b aa bb 3) / 2 ^ 28, (z1 + S1 a b aa bb 3) / 2 ^ 28) := by
  unfold mulJ3 S0 S1 LO HI
  simp only [Nat.reduceAdd]
  obtain ⟨l0, u0⟩ := h.ab 3 0
  obtain ⟨l1, u1⟩ := h.ab 2 1
  obtain ⟨l2, u2⟩ := h.ab 1 2
  obtain ⟨l3, u3⟩ := h.ab 0 3
  obtain ⟨l4, u4⟩ := h.m 3 0
  obtain ⟨l5, u5⟩ := h.m 2 1
  obtain ⟨l6, u6⟩ := h.m 1 2
  obtain ⟨l7, u7⟩ := h.m 0 3
  obtain ⟨l8, u8⟩ := h.ab 11 8
  obtain ⟨l9, u9⟩ := h.ab 10 9
  obtain ⟨l10, u10⟩ := h.ab 9 10
  obtain ⟨l11, u11⟩ := h.ab 8 11
  obtain ⟨l12, u12⟩ := h.m 7 4
  obtain ⟨l13, u13⟩ := h.m 6 5
  obtain ⟨l14, u14⟩ := h.m 5 6
  obtain ⟨l15, u15⟩ := h.m 4 7
  obtain ⟨l16, u16⟩ := h.ab 7 4
  obtain ⟨l17, u17⟩ := h.ab 6 5
  obtain ⟨l18, u18⟩ := h.ab 5 6
  obtain ⟨l19, u19⟩ := h.ab 4 7
  obtain ⟨l20, u20⟩ := h.ab 15 12
  obtain ⟨l21, u21⟩ := h.ab 14 13
  obtain ⟨l22, u22⟩ := h.ab 13 14
  obtain ⟨l23, u23⟩ := h.ab 12 15
  generalize mm (a 3) (b 0) = m0 at *
  generalize mm (a 2) (b 1) = m1 at *
  generalize mm (a 1) (b 2) = m2 at *
  generalize mm (a 0) (b 3) = m3 at *
  generalize mm (aa 3) (bb 0) = m4 at *
  generalize mm (aa 2) (bb 1) = m5 at *
  generalize mm (aa 1) (bb 2) = m6 at *
  generalize mm (aa 0) (bb 3) = m7 at *
  generalize mm (a 11) (b 8) = m8 at *
  generalize mm (a 10) (b 9) = m9 at *
  generalize mm (a 9) (b 10) = m10 at *
  generalize mm (a 8) (b 11) = m11 at *
  generalize mm (aa 7) (bb 4) = m12 at *
  generalize mm (aa 6) (bb 5) = m13 at *
  generalize mm (aa 5) (bb 6) = m14 at *
  generalize mm (aa 4) (bb 7) = m15 at *
  generalize mm (a 7) (b 4) = m16 at *
  generalize mm (a 6) (b 5) = m17 at *
  generalize mm (a 5) (b 6) = m18 at *
  generalize mm (a 4) (b 7) = m19 at *
  generalize mm (a 15) (b 12) = m20 at *
  generalize mm (a 14) (b 13) = m21 at *
  generalize mm (a 13) (b 14) = m22 at *
  generalize mm (a 12) (b 15) = m23 at *
  refine ckSum_bind (by simp) (allBd_cons (by bd) (by bd) (allBd_cons (by bd) (by bd) (allBd_cons (by bd) (by bd) (allBd_cons (by bd) (by bd) (allBd_nil))))) ?_
  refine ckSum_bind (by simp) (allBd_cons (by bd) (by bd) (allBd_cons (by bd) (by bd) (allBd_cons (by bd) (by bd) (allBd_cons (by bd) (by bd) (allBd_cons (by bd) (by bd) (allBd_nil)))))) ?_
  refine ckI128_bind (by bd) (by bd) ?_
  refine ckSum_bind (by simp) (allBd_cons (by bd) (by bd) (allBd_cons (by bd) (by bd) (allBd_cons (by bd) (by bd) (allBd_cons (by bd) (by bd) (allBd_cons (by bd) (by bd) (allBd_nil)))))) ?_
  refine ckI128_bind (by bd) (by bd) ?_
  refine ckSum_bind (by simp) (allBd_cons (by bd) (by bd) (allBd_cons (by bd) (by bd) (allBd_cons (by bd) (by bd) (allBd_cons (by bd) (by bd) (allBd_nil))))) ?_
  refine ckSum_bind (by simp) (allBd_cons (by bd) (by bd) (allBd_cons (by bd) (by bd) (allBd_cons (by bd) (by bd) (allBd_cons (by bd) (by bd) (allBd_cons (by bd) (by bd) (allBd_nil)))))) ?_
  refine ckI128_bind (by bd) (by bd) ?_
  refine ckSum_bind (by simp) (allBd_cons (by bd) (by bd) (allBd_cons (by bd) (by bd) (allBd_cons (by bd) (by bd) (allBd_cons (by bd) (by bd) (allBd_cons (by bd) (by bd) (allBd_nil)))))) ?_
  refine ckI128_bind (by bd) (by bd) ?_
  exact fin_eq (by simp only [List.sum_cons, List.sum_nil]; ring) (by simp only [List.sum_cons, List.sum_nil]; ring)

theorem mulJ4_eq {a b aa bb : ℕ → ℕ} (h : Lim a b aa bb) {z0 z1 : ℤ} (h0 : 0 ≤ z0) (h0l : z0 ≤ 2 ^ 45) (h1 : 0 ≤ z1) (h1l : z1 ≤ 2 ^ 45) :
    mulJ4 a b aa bb z0 z1 = some (maskI (z0 + S0 a b aa bb 4), maskI (z1 + S1 a b aa bb 4),
      (z0 + S0 a b aa bb 4) / 2 ^ 28, (z1 + S1 a b aa bb 4) / 2 ^ 28) := by
  unfold mulJ4 S0 S1 LO HI
  simp only [Nat.reduceAdd]
  obtain ⟨l0, u0⟩ := h.ab 4 0
  obtain ⟨l1, u1⟩ := h.ab 3 1
  obtain ⟨l2, u2⟩ := h.ab 2 2
  obtain ⟨l3, u3⟩ := h.ab 1 3
  obtain ⟨l4, u4⟩ := h.ab 0 4
  obtain ⟨l5, u5⟩ := h.m 4 0
  obtain ⟨l6, u6⟩ := h.m 3 1
  obtain ⟨l7, u7⟩ := h.m 2 2
  obtain ⟨l8, u8⟩ := h.m 1 3
  obtain ⟨l9, u9⟩ := h.m 0 4
  obtain ⟨l10, u10⟩ := h.ab 12 8
  obtain ⟨l11, u11⟩ := h.ab 11 9
  obtain ⟨l12, u12⟩ := h.ab 10 10
  obtain ⟨l13, u13⟩ := h.ab 9 11
  obtain ⟨l14, u14⟩ := h.ab 8 12
  obtain ⟨l15, u15⟩ := h.m 7 5
  obtain ⟨l16, u16⟩ := h.m 6 6
  obtain ⟨l17, u17⟩ := h.m 5 7
  obtain ⟨l18, u18⟩ := h.ab 15 13
  obtain ⟨l19, u19⟩ := h.ab 14 14
  obtain ⟨l20, u20⟩ := h.ab 13 15
  obtain ⟨l21, u21⟩ := h.ab 7 5
  obtain ⟨l22, u22⟩ := h.ab 6 6
  obtain ⟨l23, u23⟩ := h.ab 5 7
  generalize mm (a 4) (b 0) = m0 at *
  generalize mm (a 3) (b 1) = m1 at *
  generalize mm (a 2) (b 2) = m2 at *
  generalize mm (a 1) (b 3) = m3 at *
  generalize mm (a 0) (b 4) = m4 at *
  generalize mm (aa 4) (bb 0) = m5 at *
  generalize mm (aa 3) (bb 1) = m6 at *
  generalize mm (aa 2) (bb 2) = m7 at *
  generalize mm (aa 1) (bb 3) = m8 at *
  generalize mm (aa 0) (bb 4) = m9 at *
  generalize mm (a 12) (b 8) = m10 at *
  generalize mm (a 11) (b 9) = m11 at *
  generalize mm (a 10) (b 10) = m12 at *
  generalize mm (a 9) (b 11) = m13 at *
  generalize mm (a 8) (b 12) = m14 at *
  generalize mm (aa 7) (bb 5) = m15 at *
  generalize mm (aa 6) (bb 6) = m16 at *
  generalize mm (aa 5) (bb 7) = m17 at *
  generalize mm (a 15) (b 13) = m18 at *
  generalize mm (a 14) (b 14) = m19 at *
  generalize mm (a 13) (b 15) = m20 at *
  generalize mm (a 7) (b 5) = m21 at *
  generalize mm (a 6) (b 6) = m22 at *
  generalize mm (a 5) (b 7) = m23 at *
  refine ckSum_bind (by simp) (allBd_cons (by bd) (by bd) (allBd_cons (by bd) (by bd) (allBd_cons (by bd) (by bd) (allBd_cons (by bd) (by bd) (allBd_cons (by bd) (by bd) (allBd_nil)))))) ?_
  refine ckSum_bind (by simp) (allBd_cons (by bd) (by bd) (allBd_cons (by bd) (by bd) (allBd_cons (by bd) (by bd) (allBd_cons (by bd) (by bd) (allBd_cons (by bd) (by bd) (allBd_cons (by bd) (by bd) (allBd_nil))))))) ?_
  refine ckI128_bind (by bd) (by bd) ?_
  refine ckSum_bind (by simp) (allBd_cons (by bd) (by bd) (allBd_cons (by bd) (by bd) (allBd_cons (by bd) (by bd) (allBd_cons (by bd) (by bd) (allBd_cons (by bd) (by bd) (allBd_cons (by bd) (by bd) (allBd_nil))))))) ?_
  refine ckI128_bind (by bd) (by bd) ?_
  refine ckSum_bind (by simp) (allBd_cons (by bd) (by bd) (allBd_cons (by bd) (by bd) (allBd_cons (by bd) (by bd) (allBd_nil)))) ?_
  refine ckSum_bind (by simp) (allBd_cons (by bd) (by bd) (allBd_cons (by bd) (by bd) (allBd_cons (by bd) (by bd) (allBd_cons (by bd) (by bd) (allBd_nil))))) ?_
  refine ckI128_bind (by bd) (by bd) ?_
  refine ckSum_bind (by simp) (allBd_cons (by bd) (by bd) (allBd_cons (by bd) (by bd) (allBd_cons (by bd) (by bd) (allBd_cons (by bd) (by bd) (allBd_nil))))) ?_
  refine ckI128_bind (by bd) (by bd) ?_
  exact fin_eq (by simp only [List.sum_cons, List.sum_nil]; ring) (by simp only [List.sum_cons, List.sum_nil]; ring)

theorem mulJ5_eq {a b aa bb : ℕ → ℕ} (h : Lim a b aa bb) {z0 z1 : ℤ} (h0 : 0 ≤ z0) (h0l : z0 ≤ 2 ^ 45) (h1 : 0 ≤ z1) (h1l : z1 ≤ 2 ^ 45) :
    mulJ5 a b aa bb z0 z1 = some (maskI (z0 + S0 a b aa bb 5), maskI (z1 + S1 a b aa bb 5),
      (z0 + S0 a b aa bb 5) / 2 ^ 28, (z1 + S1 a b aa bb 5) / 2 ^ 28) := by
  unfold mulJ5 S0 S1 LO HI
  simp only [Nat.reduceAdd]
  obtain ⟨l0, u0⟩ := h.ab 5 0
  obtain ⟨l1, u1⟩ := h.ab 4 1
  obtain ⟨l2, u2⟩ := h.ab 3 2
  obtain ⟨l3, u3⟩ := h.ab 2 3
  obtain ⟨l4, u4⟩ := h.ab 1 4
  obtain ⟨l5, u5⟩ := h.ab 0 5
  obtain ⟨l6, u6⟩ := h.m 5 0
  obtain ⟨l7, u7⟩ := h.m 4 1
  obtain ⟨l8, u8⟩ := h.m 3 2
  obtain ⟨l9, u9⟩ := h.m 2 3
  obtain ⟨l10, u10⟩ := h.m 1 4
  obtain ⟨l11, u11⟩ := h.m 0 5
  obtain ⟨l12, u12⟩ := h.ab 13 8
  obtain ⟨l13, u13⟩ := h.ab 12 9
  obtain ⟨l14, u14⟩ := h.ab 11 10
  obtain ⟨l15, u15⟩ := h.ab 10 11
  obtain ⟨l16, u16⟩ := h.ab 9 12
  obtain ⟨l17, u17⟩ := h.ab 8 13
  obtain ⟨l18, u18⟩ := h.m 7 6
  obtain ⟨l19, u19⟩ := h.m 6 7
  obtain ⟨l20, u20⟩ := h.ab 15 14
  obtain ⟨l21, u21⟩ := h.ab 14 15
  obtain ⟨l22, u22⟩ := h.ab 7 6
  obtain ⟨l23, u23⟩ := h.ab 6 7
  generalize mm (a 5) (b 0) = m0 at *
  generalize mm (a 4) (b 1) = m1 at *
  generalize mm (a 3) (b 2) = m2 at *
  generalize mm (a 2) (b 3) = m3 at *
  generalize mm (a 1) (b 4) = m4 at *
  generalize mm (a 0) (b 5) = m5 at *
  generalize mm (aa 5) (bb 0) = m6 at *
  generalize mm (aa 4) (bb 1) = m7 at *
  generalize mm (aa 3) (bb 2) = m8 at *
  generalize mm (aa 2) (bb 3) = m9 at *
  generalize mm (aa 1) (bb 4) = m10 at *
  generalize mm (aa 0) (bb 5) = m11 at *
  generalize mm (a 13) (b 8) = m12 at *
  generalize mm (a 12) (b 9) = m13 at *
  generalize mm (a 11) (b 10) = m14 at *
  generalize mm (a 10) (b 11) = m15 at *
  generalize mm (a 9) (b 12) = m16 at *
  generalize mm (a 8) (b 13) = m17 at *
  generalize mm (aa 7) (bb 6) = m18 at *
  generalize mm (aa 6) (bb 7) = m19 at *
  generalize mm (a 15) (b 14) = m20 at *
  generalize mm (a 14) (b 15) = m21 at *
  generalize mm (a 7) (b 6) = m22 at *
  generalize mm (a 6) (b 7) = m23 at *
  refine ckSum_bind (by simp) (allBd_cons (by bd) (by bd) (allBd_cons (by bd) (by bd) (allBd_cons (by bd) (by bd) (allBd_cons (by bd) (by bd) (allBd_cons (by bd) (by bd) (allBd_cons (by bd) (by bd) (allBd_nil))))))) ?_
  refine ckSum_bind (by simp) (allBd_cons (by bd) (by bd) (allBd_cons (by bd) (by bd) (allBd_cons (by bd) (by bd) (allBd_cons (by bd) (by bd) (allBd_cons (by bd) (by bd) (allBd_cons (by bd) (by bd) (allBd_cons (by bd) (by bd) (allBd_nil)))))))) ?_
  refine ckI128_bind (by bd) (by bd) ?_
  refine ckSum_bind (by simp) (allBd_cons (by bd) (by bd) (allBd_cons (by bd) (by bd) (allBd_cons (by bd) (by bd) (allBd_cons (by bd) (by bd) (allBd_cons (by bd) (by bd) (allBd_cons (by bd) (by bd) (allBd_cons (by bd) (by bd) (allBd_nil)))))))) ?_
  refine ckI128_bind (by bd) (by bd) ?_
  refine ckSum_bind (by simp) (allBd_cons (by bd) (by bd) (allBd_cons (by bd) (by bd) (allBd_nil))) ?_
  refine ckSum_bind (by simp) (allBd_cons (by bd) (by bd) (allBd_cons (by bd) (by bd) (allBd_cons (by bd) (by bd) (allBd_nil)))) ?_
  refine ckI128_bind (by bd) (by bd) ?_
  refine ckSum_bind (by simp) (allBd_cons (by bd) (by bd) (allBd_cons (by bd) (by bd) (allBd_cons (by bd) (by bd) (allBd_nil)))) ?_
  refine ckI128_bind (by bd) (by bd) ?_
  exact fin_eq (by simp only [List.sum_cons, List.sum_nil]; ring) (by simp only [List.sum_cons, List.sum_nil]; ring)

theorem mulJ6_eq {a b aa bb : ℕ → ℕ} (h : Lim a b aa bb) {z0 z1 : ℤ} (h0 : 0 ≤ z0) (h0l : z0 ≤ 2 ^ 45) (h1 : 0 ≤ z1) (h1l : z1 ≤ 2 ^ 45) :
    mulJ6 a b aa bb z0 z1 = some (maskI (z0 + S0 a b aa bb 6), maskI (z1 + S1 a b aa bb 6),
      (z0 + S0 a b aa bb 6) / 2 ^ 28, (z1 + S1 a b aa bb 6) / 2 ^ 28) := by
  unfold mulJ6 S0 S1 LO HI
  simp only [Nat.reduceAdd]
  obtain ⟨l0, u0⟩ := h.ab 6 0
  obtain ⟨l1, u1⟩ := h.ab 5 1
  obtain ⟨l2, u2⟩ := h.ab 4 2
  obtain ⟨l3, u3⟩ := h.ab 3 3
  obtain ⟨l4, u4⟩ := h.ab 2 4
  obtain ⟨l5, u5⟩ := h.ab 1 5
  obtain ⟨l6, u6⟩ := h.ab 0 6
  obtain ⟨l7, u7⟩ := h.m 6 0
  obtain ⟨l8, u8⟩ := h.m 5 1
  obtain ⟨l9, u9⟩ := h.m 4 2
  obtain ⟨l10, u10⟩ := h.m 3 3
  obtain ⟨l11, u11⟩ := h.m 2 4
  obtain ⟨l12, u12⟩ := h.m 1 5
  obtain ⟨l13, u13⟩ := h.m 0 6
  obtain ⟨l14, u14⟩ := h.ab 14 8
  obtain ⟨l15, u15⟩ := h.ab 13 9
  obtain ⟨l16, u16⟩ := h.ab 12 10
  obtain ⟨l17, u17⟩ := h.ab 11 11
  obtain ⟨l18, u18⟩ := h.ab 10 12
  obtain ⟨l19, u19⟩ := h.ab 9 13
  obtain ⟨l20, u20⟩ := h.ab 8 14
  obtain ⟨l21, u21⟩ := h.m 7 7
  obtain ⟨l22, u22⟩ := h.ab 15 15
  obtain ⟨l23, u23⟩ := h.ab 7 7
  generalize mm (a 6) (b 0) = m0 at *
  generalize mm (a 5) (b 1) = m1 at *
  generalize mm (a 4) (b 2) = m2 at *
  generalize mm (a 3) (b 3) = m3 at *
  generalize mm (a 2) (b 4) = m4 at *
  generalize mm (a 1) (b 5) = m5 at *
  generalize mm (a 0) (b 6) = m6 at *
  generalize mm (aa 6) (bb 0) = m7 at *
  generalize mm (aa 5) (bb 1) = m8 at *
  generalize mm (aa 4) (bb 2) = m9 at *
  generalize mm (aa 3) (bb 3) = m10 at *
  generalize mm (aa 2) (bb 4) = m11 at *
  generalize mm (aa 1) (bb 5) = m12 at *
  generalize mm (aa 0) (bb 6) = m13 at *
  generalize mm (a 14) (b 8) = m14 at *
  generalize mm (a 13) (b 9) = m15 at *
  generalize mm (a 12) (b 10) = m16 at *
  generalize mm (a 11) (b 11) = m17 at *
  generalize mm (a 10) (b 12) = m18 at *
  generalize mm (a 9) (b 13) = m19 at *
  generalize mm (a 8) (b 14) = m20 at *
  generalize mm (aa 7) (bb 7) = m21 at *
  generalize mm (a 15) (b 15) = m22 at *
  generalize mm (a 7) (b 7) = m23 at *
  refine ckSum_bind (by simp) (allBd_cons (by bd) (by bd) (allBd_cons (by bd) (by bd) (allBd_cons (by bd) (by bd) (allBd_cons (by bd) (by bd) (allBd_cons (by bd) (by bd) (allBd_cons (by bd) (by bd) (allBd_cons (by bd) (by bd) (allBd_nil)))))))) ?_
  refine ckSum_bind (by simp) (allBd_cons (by bd) (by bd) (allBd_cons (by bd) (by bd) (allBd_cons (by bd) (by bd) (allBd_cons (by bd) (by bd) (allBd_cons (by bd) (by bd) (allBd_cons (by bd) (by bd) (allBd_cons (by bd) (by bd) (allBd_cons (by bd) (by bd) (allBd_nil))))))))) ?_
  refine ckI128_bind (by bd) (by bd) ?_
  refine ckSum_bind (by simp) (allBd_cons (by bd) (by bd) (allBd_cons (by bd) (by bd) (allBd_cons (by bd) (by bd) (allBd_cons (by bd) (by bd) (allBd_cons (by bd) (by bd) (allBd_cons (by bd) (by bd) (allBd_cons (by bd) (by bd) (allBd_cons (by bd) (by bd) (allBd_nil))))))))) ?_
  refine ckI128_bind (by bd) (by bd) ?_
  refine ckSum_bind (by simp) (allBd_cons (by bd) (by bd) (allBd_cons (by bd) (by bd) (allBd_nil))) ?_
  refine ckI128_bind (by bd) (by bd) ?_
  refine ckSum_bind (by simp) (allBd_cons (by bd) (by bd) (allBd_cons (by bd) (by bd) (allBd_nil))) ?_
  refine ckI128_bind (by bd) (by bd) ?_
  exact fin_eq (by simp only [List.sum_cons, List.sum_nil]; ring) (by simp only [List.sum_cons, List.sum_nil]; ring)

theorem mulJ7_eq {a b aa bb : ℕ → ℕ} (h : Lim a b aa bb) {z0 z1 : ℤ} (h0 : 0 ≤ z0) (h0l : z0 ≤ 2 ^ 45) (h1 : 0 ≤ z1) (h1l : z1 ≤ 2 ^ 45) :
    mulJ7 a b aa bb z0 z1 = some (maskI (z0 + S0 a b aa bb 7), maskI (z1 + S1 a b aa bb 7),
      (z0 + S0 a b aa bb 7) / 2 ^ 28, (z1 + S1 a b aa bb 7) / 2 ^ 28) := by
  unfold mulJ7 S0 S1 LO HI
  simp only [Nat.reduceAdd]
  obtain ⟨l0, u0⟩ := h.ab 7 0
  obtain ⟨l1, u1⟩ := h.ab 6 1
  obtain ⟨l2, u2⟩ := h.ab 5 2
  obtain ⟨l3, u3⟩ := h.ab 4 3
  obtain ⟨l4, u4⟩ := h.ab 3 4
  obtain ⟨l5, u5⟩ := h.ab 2 5
  obtain ⟨l6, u6⟩ := h.ab 1 6
  obtain ⟨l7, u7⟩ := h.ab 0 7
  obtain ⟨l8, u8⟩ := h.m 7 0
  obtain ⟨l9, u9⟩ := h.m 6 1
  obtain ⟨l10, u10⟩ := h.m 5 2
  obtain ⟨l11, u11⟩ := h.m 4 3
  obtain ⟨l12, u12⟩ := h.m 3 4
  obtain ⟨l13, u13⟩ := h.m 2 5
  obtain ⟨l14, u14⟩ := h.m 1 6
  obtain ⟨l15, u15⟩ := h.m 0 7
  obtain ⟨l16, u16⟩ := h.ab 15 8
  obtain ⟨l17, u17⟩ := h.ab 14 9
  obtain ⟨l18, u18⟩ := h.ab 13 10
  obtain ⟨l19, u19⟩ := h.ab 12 11
  obtain ⟨l20, u20⟩ := h.ab 11 12
  obtain ⟨l21, u21⟩ := h.ab 10 13
  obtain ⟨l22, u22⟩ := h.ab 9 14
  obtain ⟨l23, u23⟩ := h.ab 8 15
  generalize mm (a 7) (b 0) = m0 at *
  generalize mm (a 6) (b 1) = m1 at *
  generalize mm (a 5) (b 2) = m2 at *
  generalize mm (a 4) (b 3) = m3 at *
  generalize mm (a 3) (b 4) = m4 at *
  generalize mm (a 2) (b 5) = m5 at *
  generalize mm (a 1) (b 6) = m6 at *
  generalize mm (a 0) (b 7) = m7 at *
  generalize mm (aa 7) (bb 0) = m8 at *
  generalize mm (aa 6) (bb 1) = m9 at *
  generalize mm (aa 5) (bb 2) = m10 at *
  generalize mm (aa 4) (bb 3) = m11 at *
  generalize mm (aa 3) (bb 4) = m12 at *
  generalize mm (aa 2) (bb 5) = m13 at *
  generalize mm (aa 1) (bb 6) = m14 at *
  generalize mm (aa 0) (bb 7) = m15 at *
  generalize mm (a 15) (b 8) = m16 at *
  generalize mm (a 14) (b 9) = m17 at *
  generalize mm (a 13) (b 10) = m18 at *
  generalize mm (a 12) (b 11) = m19 at *
  generalize mm (a 11) (b 12) = m20 at *
  generalize mm (a 10) (b 13) = m21 at *
  generalize mm (a 9) (b 14) = m22 at *
  generalize mm (a 8) (b 15) = m23 at *
  refine ckSum_bind (by simp) (allBd_cons (by bd) (by bd) (allBd_cons (by bd) (by bd) (allBd_cons (by bd) (by bd) (allBd_cons (by bd) (by bd) (allBd_cons (by bd) (by bd) (allBd_cons (by bd) (by bd) (allBd_cons (by bd) (by bd) (allBd_cons (by bd) (by bd) (allBd_nil))))))))) ?_
  refine ckSum_bind (by simp) (allBd_cons (by bd) (by bd) (allBd_cons (by bd) (by bd) (allBd_cons (by bd) (by bd) (allBd_cons (by bd) (by bd) (allBd_cons (by bd) (by bd) (allBd_cons (by bd) (by bd) (allBd_cons (by bd) (by bd) (allBd_cons (by bd) (by bd) (allBd_cons (by bd) (by bd) (allBd_nil)))))))))) ?_
  refine ckI128_bind (by bd) (by bd) ?_
  refine ckSum_bind (by simp) (allBd_cons (by bd) (by bd) (allBd_cons (by bd) (by bd) (allBd_cons (by bd) (by bd) (allBd_cons (by bd) (by bd) (allBd_cons (by bd) (by bd) (allBd_cons (by bd) (by bd) (allBd_cons (by bd) (by bd) (allBd_cons (by bd) (by bd) (allBd_cons (by bd) (by bd) (allBd_nil)))))))))) ?_
  refine ckI128_bind (by bd) (by bd) ?_
  refine ckI128_bind (by bd) (by bd) ?_
  refine ckI128_bind (by bd) (by bd) ?_
  exact fin_eq (by simp only [List.sum_cons, List.sum_nil]; ring) (by simp only [List.sum_cons, List.sum_nil]; ring)

theorem Lim.S0_bd {a b aa bb : ℕ → ℕ} (h : Lim a b aa bb) (k : ℕ) (hk : k ≤ 7) :
    0 ≤ S0 a b aa bb k ∧ S0 a b aa bb k ≤ 3 * 2 ^ 66 := by
  have h1 := LO_nonneg (fun i j => (h.ab i j).1) k
  have h2 := LO_nonneg (x := fun i => a (i + 8)) (y := fun i => b (i + 8))
    (fun i j => (h.ab _ _).1) k
  have h3 := HI_mono h.le k
  have h4 := LO_le (by norm_num) (fun i j => (h.ab i j).2) k
  have h5 := LO_le (x := fun i => a (i + 8)) (y := fun i => b (i + 8)) (by norm_num)
    (fun i j => (h.ab _ _).2) k
  have h6 := HI_le (fun i j => (h.m i j).2) k hk
  have h7 := HI_nonneg (fun i j => (h.ab i j).1) k
  have hk' : (k : ℤ) ≤ 7 := by exact_mod_cast hk
  have hk0 : (0 : ℤ) ≤ k := by positivity
  unfold S0
  constructor
  · linarith
  · nlinarith

theorem Lim.S1_bd {a b aa bb : ℕ → ℕ} (h : Lim a b aa bb) (k : ℕ) (hk : k ≤ 7) :
    0 ≤ S1 a b aa bb k ∧ S1 a b aa bb k ≤ 3 * 2 ^ 66 := by
  have h1 := LO_nonneg (fun i j => (h.ab i j).1) k
  have h2 := HI_nonneg (x := fun i => a (i + 8)) (y := fun i => b (i + 8))
    (fun i j => (h.ab _ _).1) k
  have h3 := LO_mono h.le k
  have h4 := LO_le (by norm_num) (fun i j => (h.m i j).2) k
  have h5 := HI_le (x := fun i => a (i + 8)) (y := fun i => b (i + 8))
    (fun i j => (h.ab _ _).2) k hk
  have h6 := HI_le (fun i j => (h.m i j).2) k hk
  have h7 := HI_nonneg (fun i j => (h.m i j).1) k
  have hk' : (k : ℤ) ≤ 7 := by exact_mod_cast hk
  have hk0 : (0 : ℤ) ≤ k := by positivity
  unfold S1
  constructor
  · linarith
  · nlinarith

theorem lim_of_loose {a b : Raw} (ha : Below31 a) (hb : Below31 b) :
    Lim a.get b.get (fun i => a.get i + a.get (i + 8)) (fun i => b.get i + b.get (i + 8)) := by
  refine ⟨fun i k => ?_, fun i k => ?_, fun i k => ?_⟩
  · have h1 := (ha.get i).le
    have h2 := (hb.get k).le
    unfold mm
    refine ⟨by positivity, ?_⟩
    have : a.get i * b.get k ≤ 2 ^ 31 * 2 ^ 31 := Nat.mul_le_mul h1 h2
    exact_mod_cast this.trans (by norm_num)
  · have h1 := ha.get i
    have h2 := hb.get k
    have h3 := ha.get (i + 8)
    have h4 := hb.get (k + 8)
    unfold mm
    refine ⟨by positivity, ?_⟩
    have : (a.get i + a.get (i + 8)) * (b.get k + b.get (k + 8)) ≤
        2 ^ 32 * 2 ^ 32 := Nat.mul_le_mul (by omega) (by omega)
    exact_mod_cast this.trans (by norm_num)
  · unfold mm
    have : a.get i * b.get k ≤ (a.get i + a.get (i + 8)) * (b.get k + b.get (k + 8)) :=
      Nat.mul_le_mul (by omega) (by omega)
    exact_mod_cast this

theorem wrap_half {a : Raw} (ha : Below31 a) :
    (fun i => wrapAddU32 (a.get i) (a.get (i + 8))) = fun i => a.get i + a.get (i + 8) := by
  funext i
  have h1 := ha.get i
  have h3 := ha.get (i + 8)
  unfold wrapAddU32
  exact Nat.mod_eq_of_lt (by omega)

theorem chain_bd {s : ℕ → ℤ} (h : ∀ k, k ≤ 7 → 0 ≤ s k ∧ s k ≤ 3 * 2 ^ 66) :
    ∀ k, k ≤ 7 → 0 ≤ chain s k ∧ chain s k ≤ 2 ^ 68
  | 0, hk => by have := h 0 hk; unfold chain; omega
  | k + 1, hk => by
    have := h (k + 1) hk
    have ih := chain_bd h k (by omega)
    unfold chain
    omega

theorem chain_last {s : ℕ → ℤ} (h : ∀ k, k ≤ 7 → 0 ≤ s k ∧ s k ≤ 3 * 2 ^ 66) :
    0 ≤ chain s 7 / 2 ^ 28 ∧ chain s 7 / 2 ^ 28 ≤ 3 * 2 ^ 38 + 2 ^ 15 := by
  have h6 := chain_bd h 6 (by norm_num)
  have h7 := h 7 (by norm_num)
  have e : chain s 7 = chain s 6 / 2 ^ 28 + s 7 := rfl
  rw [e]
  omega

theorem mulFinal_spec {c0 c1 c2 c3 c4 c5 c6 c7 c8 c9 c10 c11 c12 c13 c14 c15 : ℕ} {z0 z1 : ℤ}
    (h0 : c0 < 2 ^ 28) (h1 : c1 < 2 ^ 28) (h2 : c2 < 2 ^ 28) (h3 : c3 < 2 ^ 28) (h4 : c4 < 2 ^ 28)
    (h5 : c5 < 2 ^ 28) (h6 : c6 < 2 ^ 28) (h7 : c7 < 2 ^ 28) (h8 : c8 < 2 ^ 28) (h9 : c9 < 2 ^ 28)
    (h10 : c10 < 2 ^ 28) (h11 : c11 < 2 ^ 28) (h12 : c12 < 2 ^ 28) (h13 : c13 < 2 ^ 28)
    (h14 : c14 < 2 ^ 28) (h15 : c15 < 2 ^ 28) (hz0 : 0 ≤ z0) (hz1 : 0 ≤ z1)
    (hz0' : z0 ≤ 3 * 2 ^ 38 + 2 ^ 15) (hz1' : z1 ≤ 3 * 2 ^ 38 + 2 ^ 15) :
    ∃ r, mulFinal c0 c1 c2 c3 c4 c5 c6 c7 c8 c9 c10 c11 c12 c13 c14 c15 z0 z1 = some r ∧ (∀ x ∈ r.l, x ≤ 2 ^ 28 + 2 ^ 13) ∧
      (V r : ℤ) = (c0 + 2 ^ 28 * c1 + (2 ^ 28) ^ 2 * c2 + (2 ^ 28) ^ 3 * c3 + (2 ^ 28) ^ 4 * c4 +
        (2 ^ 28) ^ 5 * c5 + (2 ^ 28) ^ 6 * c6 + (2 ^ 28) ^ 7 * c7) + z1 + (2 ^ 28) ^ 8 *
        (c8 + 2 ^ 28 * c9 + (2 ^ 28) ^ 2 * c10 + (2 ^ 28) ^ 3 * c11 + (2 ^ 28) ^ 4 * c12 +
        (2 ^ 28) ^ 5 * c13 + (2 ^ 28) ^ 6 * c14 + (2 ^ 28) ^ 7 * c15 + z0 + z1) := by
  have m0 := maskI_lt (z0 + [z1, (c8 : ℤ)].sum)
  have m1 := maskI_lt (z1 + c0)
  have a0 := maskI_add (z0 + [z1, (c8 : ℤ)].sum)
  have a1 := maskI_add (z1 + c0)
  have q0 : (maskI (sarZ (z0 + [z1, (c8 : ℤ)].sum) 28) : ℤ) =
      (z0 + [z1, (c8 : ℤ)].sum) / 2 ^ 28 := by
    rw [maskI_eq, sarZ28]; simp only [List.sum_cons, List.sum_nil]; omega
  have q1 : (maskI (sarZ (z1 + c0) 28) : ℤ) = (z1 + c0) / 2 ^ 28 := by
    rw [maskI_eq, sarZ28]; omega
  have b0 : maskI (sarZ (z0 + [z1, (c8 : ℤ)].sum) 28) ≤ 2 ^ 13 := by
    simp only [List.sum_cons, List.sum_nil] at *; omega
  have b1 : maskI (sarZ (z1 + c0) 28) ≤ 2 ^ 13 := by omega
  have ht : ∀ x ∈ [maskI (z1 + c0), c1 + maskI (sarZ (z1 + c0) 28), c2, c3, c4, c5, c6, c7,
      maskI (z0 + [z1, (c8 : ℤ)].sum), c9 + maskI (sarZ (z0 + [z1, (c8 : ℤ)].sum) 28), c10, c11,
      c12, c13, c14, c15], x ≤ 2 ^ 28 + 2 ^ 13 := by
    refine mem16 (P := fun x => x ≤ 2 ^ 28 + 2 ^ 13) ?_ ?_ ?_ ?_ ?_ ?_ ?_ ?_ ?_ ?_ ?_ ?_ ?_ ?_ ?_ ?_
      <;> omega
  refine ⟨⟨_, rfl, fun x hx => (ht x hx).trans_lt (by norm_num)⟩, ?_, ht, ?_⟩
  · unfold mulFinal
    refine ckSum_bind (by simp) (allBd_cons (by omega) (by omega) (allBd_cons (by omega) (by omega)
      allBd_nil)) ?_
    refine ckI128_bind (by bd) (by bd) ?_
    refine ckI128_bind (by omega) (by omega) ?_
    simp only
    rw [ckU32_eq (by omega), Option.bind_some, ckU32_eq (by omega), Option.bind_some]
    exact pack_eq _ _ _
  · rw [V_eq]
    simp only [Arr.get, List.getD_cons_zero, List.getD_cons_succ]
    push_cast
    rw [q0, q1]
    simp only [List.sum_cons, List.sum_nil] at *
    linear_combination a1 + (2 ^ 28) ^ 8 * a0

/-- `mul` is right for limbs below 2^31. -/
theorem mul_spec {a b : Raw} (ha : Below31 a) (hb : Below31 b) :
    ∃ r, mul a b = some r ∧ (∀ x ∈ r.l, x ≤ 2 ^ 28 + 2 ^ 13) ∧ (V r : Fp) = (V a : Fp) * (V b : Fp) := by
  obtain ⟨k, hk⟩ := V_mul_identity (a := a) (b := b)
  have hl := lim_of_loose ha hb
  have e : mul a b = (fun (a b aa bb : ℕ → ℕ) =>
      (mulJ0 a b aa bb 0).bind fun (c0, c8, z0, z1) =>
      (mulJ1 a b aa bb z0 z1).bind fun (c1, c9, z0, z1) =>
      (mulJ2 a b aa bb z0 z1).bind fun (c2, c10, z0, z1) =>
      (mulJ3 a b aa bb z0 z1).bind fun (c3, c11, z0, z1) =>
      (mulJ4 a b aa bb z0 z1).bind fun (c4, c12, z0, z1) =>
      (mulJ5 a b aa bb z0 z1).bind fun (c5, c13, z0, z1) =>
      (mulJ6 a b aa bb z0 z1).bind fun (c6, c14, z0, z1) =>
      (mulJ7 a b aa bb z0 z1).bind fun (c7, c15, z0, z1) =>
      mulFinal c0 c1 c2 c3 c4 c5 c6 c7 c8 c9 c10 c11 c12 c13 c14 c15 z0 z1)
      a.get b.get (fun i => a.get i + a.get (i + 8)) (fun i => b.get i + b.get (i + 8)) := by
    rw [← wrap_half ha, ← wrap_half hb]; rfl
  rw [e]
  generalize (fun i => a.get i + a.get (i + 8)) = aa at *
  generalize (fun i => b.get i + b.get (i + 8)) = bb at *
  have b0 := fun k hk => hl.S0_bd k hk
  have b1 := fun k hk => hl.S1_bd k hk
  have n0 : ∀ k, k ≤ 7 → 0 ≤ chain (S0 a.get b.get aa bb) k / 2 ^ 28 ∧
      chain (S0 a.get b.get aa bb) k / 2 ^ 28 ≤ 2 ^ 45 := fun k hk => by
    have := chain_bd b0 k hk; omega
  have n1 : ∀ k, k ≤ 7 → 0 ≤ chain (S1 a.get b.get aa bb) k / 2 ^ 28 ∧
      chain (S1 a.get b.get aa bb) k / 2 ^ 28 ≤ 2 ^ 45 := fun k hk => by
    have := chain_bd b1 k hk; omega
  have l0 := chain_last b0
  have l1 := chain_last b1
  obtain ⟨r, r1, r2, r3⟩ := mulFinal_spec
    (maskI_lt (chain (S0 a.get b.get aa bb) 0))
    (maskI_lt (chain (S0 a.get b.get aa bb) 1))
    (maskI_lt (chain (S0 a.get b.get aa bb) 2))
    (maskI_lt (chain (S0 a.get b.get aa bb) 3))
    (maskI_lt (chain (S0 a.get b.get aa bb) 4))
    (maskI_lt (chain (S0 a.get b.get aa bb) 5))
    (maskI_lt (chain (S0 a.get b.get aa bb) 6))
    (maskI_lt (chain (S0 a.get b.get aa bb) 7))
    (maskI_lt (chain (S1 a.get b.get aa bb) 0))
    (maskI_lt (chain (S1 a.get b.get aa bb) 1))
    (maskI_lt (chain (S1 a.get b.get aa bb) 2))
    (maskI_lt (chain (S1 a.get b.get aa bb) 3))
    (maskI_lt (chain (S1 a.get b.get aa bb) 4))
    (maskI_lt (chain (S1 a.get b.get aa bb) 5))
    (maskI_lt (chain (S1 a.get b.get aa bb) 6))
    (maskI_lt (chain (S1 a.get b.get aa bb) 7))
    l0.1 l1.1 l0.2 l1.2
  refine ⟨r, ?_, r2, combine hk (chain_half _) (chain_half _) ?_⟩
  · rw [← r1]
    refine bind_of_eq (mulJ0_eq hl) ?_
    refine bind_of_eq (mulJ1_eq (z0 := chain (S0 a.get b.get aa bb) 0 / 2 ^ 28)
      (z1 := chain (S1 a.get b.get aa bb) 0 / 2 ^ 28) hl (n0 0 (by norm_num)).1
      (n0 0 (by norm_num)).2 (n1 0 (by norm_num)).1 (n1 0 (by norm_num)).2) ?_
    refine bind_of_eq (mulJ2_eq (z0 := chain (S0 a.get b.get aa bb) 1 / 2 ^ 28)
      (z1 := chain (S1 a.get b.get aa bb) 1 / 2 ^ 28) hl (n0 1 (by norm_num)).1
      (n0 1 (by norm_num)).2 (n1 1 (by norm_num)).1 (n1 1 (by norm_num)).2) ?_
    refine bind_of_eq (mulJ3_eq (z0 := chain (S0 a.get b.get aa bb) 2 / 2 ^ 28)
      (z1 := chain (S1 a.get b.get aa bb) 2 / 2 ^ 28) hl (n0 2 (by norm_num)).1
      (n0 2 (by norm_num)).2 (n1 2 (by norm_num)).1 (n1 2 (by norm_num)).2) ?_
    refine bind_of_eq (mulJ4_eq (z0 := chain (S0 a.get b.get aa bb) 3 / 2 ^ 28)
      (z1 := chain (S1 a.get b.get aa bb) 3 / 2 ^ 28) hl (n0 3 (by norm_num)).1
      (n0 3 (by norm_num)).2 (n1 3 (by norm_num)).1 (n1 3 (by norm_num)).2) ?_
    refine bind_of_eq (mulJ5_eq (z0 := chain (S0 a.get b.get aa bb) 4 / 2 ^ 28)
      (z1 := chain (S1 a.get b.get aa bb) 4 / 2 ^ 28) hl (n0 4 (by norm_num)).1
      (n0 4 (by norm_num)).2 (n1 4 (by norm_num)).1 (n1 4 (by norm_num)).2) ?_
    refine bind_of_eq (mulJ6_eq (z0 := chain (S0 a.get b.get aa bb) 5 / 2 ^ 28)
      (z1 := chain (S1 a.get b.get aa bb) 5 / 2 ^ 28) hl (n0 5 (by norm_num)).1
      (n0 5 (by norm_num)).2 (n1 5 (by norm_num)).1 (n1 5 (by norm_num)).2) ?_
    refine bind_of_eq (mulJ7_eq (z0 := chain (S0 a.get b.get aa bb) 6 / 2 ^ 28)
      (z1 := chain (S1 a.get b.get aa bb) 6 / 2 ^ 28) hl (n0 6 (by norm_num)).1
      (n0 6 (by norm_num)).2 (n1 6 (by norm_num)).1 (n1 6 (by norm_num)).2) ?_
    rfl
  · rw [r3]
    rfl

/-- Limbs whose squares can be added in 64 bits. -/
def Below29 (a : Raw) : Prop := ∀ x ∈ a.l, x < 2 ^ 29

theorem Below29.get {a : Raw} (h : Below29 a) (i : ℕ) : a.get i < 2 ^ 29 := by
  unfold Arr.get
  rcases Nat.lt_or_ge i a.l.length with hi | hi
  · rw [List.getD_eq_getElem?_getD, List.getElem?_eq_getElem hi]; exact h _ (List.getElem_mem hi)
  · rw [List.getD_eq_getElem?_getD, List.getElem?_eq_none hi]; norm_num

/-- What squaring needs to know about the limbs. -/
structure Lim2 (a b aa bb : ℕ → ℕ) : Prop where
  ab : ∀ i k, 0 ≤ mm (a i) (b k) ∧ mm (a i) (b k) ≤ 2 ^ 58
  m : ∀ i k, 0 ≤ mm (aa i) (bb k) ∧ mm (aa i) (bb k) ≤ 2 ^ 60
  le : ∀ i k, mm (a i) (b k) ≤ mm (aa i) (bb k)

theorem Lim2.S0_bd {a b aa bb : ℕ → ℕ} (h : Lim2 a b aa bb) (k : ℕ) (hk : k ≤ 7) :
    0 ≤ S0 a b aa bb k ∧ S0 a b aa bb k ≤ 39 * 2 ^ 58 := by
  have h1 := LO_nonneg (fun i j => (h.ab i j).1) k
  have h2 := LO_nonneg (x := fun i => a (i + 8)) (y := fun i => b (i + 8))
    (fun i j => (h.ab _ _).1) k
  have h3 := HI_mono h.le k
  have h4 := LO_le (by norm_num) (fun i j => (h.ab i j).2) k
  have h5 := LO_le (x := fun i => a (i + 8)) (y := fun i => b (i + 8)) (by norm_num)
    (fun i j => (h.ab _ _).2) k
  have h6 := HI_le (fun i j => (h.m i j).2) k hk
  have h7 := HI_nonneg (fun i j => (h.ab i j).1) k
  have hk' : (k : ℤ) ≤ 7 := by exact_mod_cast hk
  have hk0 : (0 : ℤ) ≤ k := by positivity
  unfold S0
  constructor
  · linarith
  · nlinarith

theorem Lim2.S1_bd {a b aa bb : ℕ → ℕ} (h : Lim2 a b aa bb) (k : ℕ) (hk : k ≤ 7) :
    0 ≤ S1 a b aa bb k ∧ S1 a b aa bb k ≤ 39 * 2 ^ 58 := by
  have h1 := LO_nonneg (fun i j => (h.ab i j).1) k
  have h2 := HI_nonneg (x := fun i => a (i + 8)) (y := fun i => b (i + 8))
    (fun i j => (h.ab _ _).1) k
  have h3 := LO_mono h.le k
  have h4 := LO_le (by norm_num) (fun i j => (h.m i j).2) k
  have h5 := HI_le (x := fun i => a (i + 8)) (y := fun i => b (i + 8))
    (fun i j => (h.ab _ _).2) k hk
  have h6 := HI_le (fun i j => (h.m i j).2) k hk
  have h7 := HI_nonneg (fun i j => (h.m i j).1) k
  have hk' : (k : ℤ) ≤ 7 := by exact_mod_cast hk
  have hk0 : (0 : ℤ) ≤ k := by positivity
  unfold S1
  constructor
  · linarith
  · nlinarith

theorem lim2_of {a b : Raw} (ha : Below29 a) (hb : Below29 b) :
    Lim2 a.get b.get (fun i => a.get i + a.get (i + 8)) (fun i => b.get i + b.get (i + 8)) := by
  refine ⟨fun i k => ?_, fun i k => ?_, fun i k => ?_⟩
  · have h1 := (ha.get i).le
    have h2 := (hb.get k).le
    unfold mm
    refine ⟨by positivity, ?_⟩
    have : a.get i * b.get k ≤ 2 ^ 29 * 2 ^ 29 := Nat.mul_le_mul h1 h2
    exact_mod_cast this.trans (by norm_num)
  · have h1 := ha.get i
    have h2 := hb.get k
    have h3 := ha.get (i + 8)
    have h4 := hb.get (k + 8)
    unfold mm
    refine ⟨by positivity, ?_⟩
    have : (a.get i + a.get (i + 8)) * (b.get k + b.get (k + 8)) ≤
        2 ^ 30 * 2 ^ 30 := Nat.mul_le_mul (by omega) (by omega)
    exact_mod_cast this.trans (by norm_num)
  · unfold mm
    have : a.get i * b.get k ≤ (a.get i + a.get (i + 8)) * (b.get k + b.get (k + 8)) :=
      Nat.mul_le_mul (by omega) (by omega)
    exact_mod_cast this

theorem chain_bd2 {s : ℕ → ℤ} (h : ∀ k, k ≤ 7 → 0 ≤ s k ∧ s k ≤ 39 * 2 ^ 58) :
    ∀ k, k ≤ 7 → 0 ≤ chain s k ∧ chain s k ≤ 40 * 2 ^ 58
  | 0, hk => by have := h 0 hk; unfold chain; omega
  | k + 1, hk => by
    have := h (k + 1) hk
    have ih := chain_bd2 h k (by omega)
    unfold chain
    omega

theorem chain_last2 {s : ℕ → ℤ} (h : ∀ k, k ≤ 7 → 0 ≤ s k ∧ s k ≤ 39 * 2 ^ 58) :
    0 ≤ chain s 7 / 2 ^ 28 ∧ chain s 7 / 2 ^ 28 ≤ 3 * 2 ^ 38 + 2 ^ 15 := by
  have h6 := chain_bd2 h 6 (by norm_num)
  have h7 := h 7 (by norm_num)
  have e : chain s 7 = chain s 6 / 2 ^ 28 + s 7 := rfl
  rw [e]
  omega

theorem sqFinal_eq2 {c0 c1 c2 c3 c4 c5 c6 c7 c8 c9 c10 c11 c12 c13 c14 c15 : ℕ} {a0 a1 : ℕ} {z0 z1 : ℤ}
    (h0 : c0 < 2 ^ 28) (h8 : c8 < 2 ^ 28)
    (e0 : (a0 : ℤ) = z0) (e1 : (a1 : ℤ) = z1)
    (hz0' : z0 ≤ 3 * 2 ^ 38 + 2 ^ 15) (hz1' : z1 ≤ 3 * 2 ^ 38 + 2 ^ 15) :
    sqFinal c0 c1 c2 c3 c4 c5 c6 c7 c8 c9 c10 c11 c12 c13 c14 c15 a0 a1 =
      mulFinal c0 c1 c2 c3 c4 c5 c6 c7 c8 c9 c10 c11 c12 c13 c14 c15 z0 z1 := by
  have f0 : ((a0 + a1 + c8 : ℕ) : ℤ) = z0 + [z1, (c8 : ℤ)].sum := by
    simp only [List.sum_cons, List.sum_nil]; push_cast; rw [e0, e1]; ring
  have f1 : ((a1 + c0 : ℕ) : ℤ) = z1 + c0 := by push_cast; rw [e1]
  have g0 := shr_div f0
  have g1 := shr_div f1
  have l0 : (a0 + a1 + c8) >>> 28 < 2 ^ 28 := by
    rw [Nat.shiftRight_eq_div_pow]; omega
  have l1 : (a1 + c0) >>> 28 < 2 ^ 28 := by
    rw [Nat.shiftRight_eq_div_pow]; omega
  unfold sqFinal mulFinal
  refine Eq.symm (ckSum_bind (by simp) (allBd_cons (by omega) (by omega) (allBd_cons (by omega)
    (by omega) allBd_nil)) ?_)
  refine ckI128_bind (by rw [← f0]; omega) (by rw [← f0]; omega) ?_
  refine ckI128_bind (by omega) (by omega) ?_
  rw [ckU64_eq (by omega), Option.bind_some, ckU64_eq (by omega), Option.bind_some,
    ckU64_eq (by omega), Option.bind_some]
  simp only
  rw [maskU_maskI f0, maskU_maskI f1]
  have k0 : asU32 ((a0 + a1 + c8) >>> 28) = maskI (sarZ (z0 + [z1, (c8 : ℤ)].sum) 28) := by
    have := maskI_eq (sarZ (z0 + [z1, (c8 : ℤ)].sum) 28)
    rw [sarZ28, ← g0] at this
    rw [sarZ28, ← g0]
    unfold asU32
    omega
  have k1 : asU32 ((a1 + c0) >>> 28) = maskI (sarZ (z1 + c0) 28) := by
    have := maskI_eq (sarZ (z1 + c0) 28)
    rw [sarZ28, ← g1] at this
    rw [sarZ28, ← g1]
    unfold asU32
    omega
  rw [k0, k1]

theorem sq_exact2 {u : ℕ × ℕ} {z0 z1 t0 t1 : ℤ} (hu : u.1 < 2 ^ 64 ∧ u.2 < 2 ^ 64)
    (h : ((u.1 : ℕ) : Z64) = ((z0 + t0 : ℤ) : Z64) ∧ ((u.2 : ℕ) : Z64) = ((z1 + t1 : ℤ) : Z64))
    (b0 : 0 ≤ z0 + t0 ∧ z0 + t0 ≤ 40 * 2 ^ 58) (b1 : 0 ≤ z1 + t1 ∧ z1 + t1 ≤ 40 * 2 ^ 58) :
    (u.1 : ℤ) = z0 + t0 ∧ (u.2 : ℤ) = z1 + t1 :=
  ⟨exact_of_cast hu.1 b0.1 (by omega) h.1, exact_of_cast hu.2 b1.1 (by omega) h.2⟩

/-- `square` is right for limbs below 2^29. -/
theorem square_spec {a : Raw} (ha : Below29 a) :
    ∃ r, square a = some r ∧ (∀ x ∈ r.l, x ≤ 2 ^ 28 + 2 ^ 13) ∧ (V r : Fp) = (V a : Fp) * (V a : Fp) := by
  obtain ⟨k, hk⟩ := V_mul_identity (a := a) (b := a)
  have hl := lim2_of ha ha
  unfold square
  simp only
  generalize (fun i => a.get i + a.get (i + 8)) = aa at *
  have b0 := fun k hk => hl.S0_bd k hk
  have b1 := fun k hk => hl.S1_bd k hk
  have n0 := chain_bd2 b0
  have n1 := chain_bd2 b1
  have l0 := chain_last2 b0
  have l1 := chain_last2 b1
  set C0 := chain (S0 a.get a.get aa aa) with hC0
  set C1 := chain (S1 a.get a.get aa aa) with hC1
  have x0 : ((sqJ0 a.get aa).1 : ℤ) = C0 0 ∧ ((sqJ0 a.get aa).2 : ℤ) = C1 0 :=
    sq_exact2 ⟨wrapAdd_lt _ _, wrapAdd_lt _ _⟩ (sqJ0_cast a.get aa) (n0 0 (by norm_num))
      (n1 0 (by norm_num))
  generalize sqJ0 a.get aa = s0 at *
  have x1 : ((sqStep a.get aa 1 (s0.1 >>> 28) (s0.2 >>> 28)).1 : ℤ) = C0 1 ∧
      ((sqStep a.get aa 1 (s0.1 >>> 28) (s0.2 >>> 28)).2 : ℤ) = C1 1 := by
    have e := sqStep1_cast a.get aa (s0.1 >>> 28) (s0.2 >>> 28)
    rw [shr_div x0.1, shr_div x0.2] at e
    exact sq_exact2 (sqStep_lt _ _ _ _ _) e (n0 1 (by norm_num)) (n1 1 (by norm_num))
  generalize sqStep a.get aa 1 (s0.1 >>> 28) (s0.2 >>> 28) = s1 at *
  have x2 : ((sqStep a.get aa 2 (s1.1 >>> 28) (s1.2 >>> 28)).1 : ℤ) = C0 2 ∧
      ((sqStep a.get aa 2 (s1.1 >>> 28) (s1.2 >>> 28)).2 : ℤ) = C1 2 := by
    have e := sqStep2_cast a.get aa (s1.1 >>> 28) (s1.2 >>> 28)
    rw [shr_div x1.1, shr_div x1.2] at e
    exact sq_exact2 (sqStep_lt _ _ _ _ _) e (n0 2 (by norm_num)) (n1 2 (by norm_num))
  generalize sqStep a.get aa 2 (s1.1 >>> 28) (s1.2 >>> 28) = s2 at *
  have x3 : ((sqStep a.get aa 3 (s2.1 >>> 28) (s2.2 >>> 28)).1 : ℤ) = C0 3 ∧
      ((sqStep a.get aa 3 (s2.1 >>> 28) (s2.2 >>> 28)).2 : ℤ) = C1 3 := by
    have e := sqStep3_cast a.get aa (s2.1 >>> 28) (s2.2 >>> 28)
    rw [shr_div x2.1, shr_div x2.2] at e
    exact sq_exact2 (sqStep_lt _ _ _ _ _) e (n0 3 (by norm_num)) (n1 3 (by norm_num))
  generalize sqStep a.get aa 3 (s2.1 >>> 28) (s2.2 >>> 28) = s3 at *
  have x4 : ((sqStep a.get aa 4 (s3.1 >>> 28) (s3.2 >>> 28)).1 : ℤ) = C0 4 ∧
      ((sqStep a.get aa 4 (s3.1 >>> 28) (s3.2 >>> 28)).2 : ℤ) = C1 4 := by
    have e := sqStep4_cast a.get aa (s3.1 >>> 28) (s3.2 >>> 28)
    rw [shr_div x3.1, shr_div x3.2] at e
    exact sq_exact2 (sqStep_lt _ _ _ _ _) e (n0 4 (by norm_num)) (n1 4 (by norm_num))
  generalize sqStep a.get aa 4 (s3.1 >>> 28) (s3.2 >>> 28) = s4 at *
  have x5 : ((sqStep a.get aa 5 (s4.1 >>> 28) (s4.2 >>> 28)).1 : ℤ) = C0 5 ∧
      ((sqStep a.get aa 5 (s4.1 >>> 28) (s4.2 >>> 28)).2 : ℤ) = C1 5 := by
    have e := sqStep5_cast a.get aa (s4.1 >>> 28) (s4.2 >>> 28)
    rw [shr_div x4.1, shr_div x4.2] at e
    exact sq_exact2 (sqStep_lt _ _ _ _ _) e (n0 5 (by norm_num)) (n1 5 (by norm_num))
  generalize sqStep a.get aa 5 (s4.1 >>> 28) (s4.2 >>> 28) = s5 at *
  have x6 : ((sqStep a.get aa 6 (s5.1 >>> 28) (s5.2 >>> 28)).1 : ℤ) = C0 6 ∧
      ((sqStep a.get aa 6 (s5.1 >>> 28) (s5.2 >>> 28)).2 : ℤ) = C1 6 := by
    have e := sqStep6_cast a.get aa (s5.1 >>> 28) (s5.2 >>> 28)
    rw [shr_div x5.1, shr_div x5.2] at e
    exact sq_exact2 (sqStep_lt _ _ _ _ _) e (n0 6 (by norm_num)) (n1 6 (by norm_num))
  generalize sqStep a.get aa 6 (s5.1 >>> 28) (s5.2 >>> 28) = s6 at *
  have x7 : ((sqJ7 a.get aa (s6.1 >>> 28) (s6.2 >>> 28)).1 : ℤ) = C0 7 ∧
      ((sqJ7 a.get aa (s6.1 >>> 28) (s6.2 >>> 28)).2 : ℤ) = C1 7 := by
    have e := sqJ7_cast a.get aa (s6.1 >>> 28) (s6.2 >>> 28)
    rw [shr_div x6.1, shr_div x6.2] at e
    exact sq_exact2 (⟨wrapAdd_lt _ _, wrapSub_lt _ _⟩) e (n0 7 (by norm_num)) (n1 7 (by norm_num))
  generalize sqJ7 a.get aa (s6.1 >>> 28) (s6.2 >>> 28) = s7 at *
  obtain ⟨r, r1, r2, r3⟩ := mulFinal_spec
    (maskI_lt (C0 0)) (maskI_lt (C0 1)) (maskI_lt (C0 2)) (maskI_lt (C0 3)) (maskI_lt (C0 4)) (maskI_lt (C0 5)) (maskI_lt (C0 6)) (maskI_lt (C0 7)) (maskI_lt (C1 0)) (maskI_lt (C1 1)) (maskI_lt (C1 2)) (maskI_lt (C1 3)) (maskI_lt (C1 4)) (maskI_lt (C1 5)) (maskI_lt (C1 6)) (maskI_lt (C1 7))
    l0.1 l1.1 l0.2 l1.2
  refine ⟨r, ?_, r2, combine hk (chain_half _) (chain_half _) ?_⟩
  · rw [← r1, maskU_maskI x0.1, maskU_maskI x0.2, maskU_maskI x1.1, maskU_maskI x1.2, maskU_maskI x2.1, maskU_maskI x2.2, maskU_maskI x3.1, maskU_maskI x3.2, maskU_maskI x4.1, maskU_maskI x4.2, maskU_maskI x5.1, maskU_maskI x5.2, maskU_maskI x6.1, maskU_maskI x6.2, maskU_maskI x7.1, maskU_maskI x7.2]
    exact sqFinal_eq2 (maskI_lt _) (maskI_lt _) (shr_div x7.1) (shr_div x7.2) l0.2 l1.2
  · rw [r3]
    rfl

end Ed448.Model.U32.Loose
