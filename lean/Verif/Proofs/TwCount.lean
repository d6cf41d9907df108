import Mathlib.NumberTheory.JacobiSum.Basic
import Mathlib.NumberTheory.LegendreSymbol.QuadraticChar.Basic

/-!
# The number of points of a twisted Edwards curve

Over a finite field in which `-1` and `d` are no squares and `d - 1` is one, the curve
`y² - x² = 1 + (d-1)x²y²` has two affine points less than `x² + y² = 1 + d x²y²`.  Both numbers are
sums of the quadratic character over a cubic, and a linear substitution turns one cubic into the
other.  Nothing here is about `/repo`; `Props/TwCount.lean` applies it to the two curves of
`/repo/src/curve/edwards/extended.rs` and `/repo/src/curve/twedwards/extended.rs`.
-/

namespace Ed448.TwCount

variable {K : Type} [Field K] [Fintype K] [DecidableEq K]

open Finset

theorem card_sqrts (h2 : ringChar K ≠ 2) (a : K) :
    ((univ.filter fun y : K => y ^ 2 = a).card : ℤ) = quadraticChar K a + 1 := by
  rw [← quadraticChar_card_sqrts h2 a]
  congr 2
  ext y
  simp

/-- Points `(x, y)` with `y² B(x) = A(x)`. -/
theorem card_curve (h2 : ringChar K ≠ 2) (A B : K → K) (h : ∀ x, B x = 0 → A x ≠ 0) :
    ((univ.filter fun v : K × K => v.2 ^ 2 * B v.1 = A v.1).card : ℤ) =
      ∑ x : K, (quadraticChar K (A x * B x) + 1) - ((univ.filter fun x : K => B x = 0).card : ℤ) := by
  have e : (univ.filter fun v : K × K => v.2 ^ 2 * B v.1 = A v.1).card =
      ∑ x : K, (univ.filter fun y : K => y ^ 2 * B x = A x).card := by
    rw [card_filter, ← univ_product_univ, sum_product]
    exact sum_congr rfl fun x _ => (card_filter _ _).symm
  rw [e, card_filter]
  push_cast
  rw [eq_sub_iff_add_eq, ← sum_add_distrib]
  refine sum_congr rfl fun x _ => ?_
  by_cases hB : B x = 0
  · rw [if_pos hB, hB]
    have := h x hB
    simp [this.symm]
  · rw [if_neg hB, add_zero]
    have e1 : (univ.filter fun y : K => y ^ 2 * B x = A x) =
        univ.filter fun y : K => y ^ 2 = A x / B x := by
      ext y
      simp only [mem_filter, mem_univ, true_and]
      exact (eq_div_iff hB).symm
    rw [e1, card_sqrts h2]
    have e2 : A x * B x = A x / B x * B x ^ 2 := by field_simp
    rw [e2, map_mul, quadraticChar_sq_one' hB, mul_one]

/-- A sum over squares. -/
theorem sum_sq_aux (h2 : ringChar K ≠ 2) (g : K → ℤ) :
    ∑ x : K, g (x ^ 2) = ∑ s : K, (quadraticChar K s + 1) * g s := by
  rw [← sum_fiberwise univ (fun x : K => x ^ 2) (fun x => g (x ^ 2))]
  refine sum_congr rfl fun s _ => ?_
  rw [← card_sqrts h2 s, ← nsmul_eq_mul, ← sum_const]
  refine sum_congr rfl fun x hx => ?_
  rw [(mem_filter.1 hx).2]

theorem sum_sq (h2 : ringChar K ≠ 2) (f : K → K) :
    ∑ x : K, quadraticChar K (f (x ^ 2)) =
      ∑ s : K, quadraticChar K (s * f s) + ∑ s : K, quadraticChar K (f s) := by
  rw [← sum_add_distrib]
  have := sum_sq_aux h2 fun s => quadraticChar K (f s)
  rw [this]
  refine sum_congr rfl fun s _ => ?_
  rw [map_mul]
  ring

theorem quad_sum (h2 : ringChar K ≠ 2) :
    ∑ x : K, quadraticChar K (x * (1 - x)) = -quadraticChar K (-1) := by
  rw [← jacobiSum_nontrivial_inv (quadraticChar_ne_one h2), quadraticChar_isQuadratic K |>.inv]
  simp [jacobiSum, map_mul]

omit [DecidableEq K] in
/-- Linear substitution in a character sum. -/
theorem sum_subst (f : K → ℤ) {a : K} (ha : a ≠ 0) (b : K) :
    ∑ x : K, f (a * x + b) = ∑ x : K, f x :=
  Fintype.sum_equiv ((Equiv.mulLeft₀ a ha).trans (Equiv.addRight b)) _ _ fun _ => rfl

/-- **Two curves, two points.** -/
theorem card_twisted {d : K} (h2 : ringChar K ≠ 2) (hm : ¬ IsSquare (-1 : K)) (hd : ¬ IsSquare d)
    (hd' : IsSquare (d - 1)) (h1 : d - 1 ≠ 0) :
    (univ.filter fun v : K × K => v.1 ^ 2 + v.2 ^ 2 = 1 + d * v.1 ^ 2 * v.2 ^ 2).card =
      (univ.filter fun v : K × K =>
        v.2 ^ 2 - v.1 ^ 2 = 1 + (d - 1) * v.1 ^ 2 * v.2 ^ 2).card + 2 := by
  have hd0 : d ≠ 0 := fun e => hd (e ▸ IsSquare.zero)
  have cm : quadraticChar K (-1) = -1 := quadraticChar_neg_one_iff_not_isSquare.2 hm
  have cd : quadraticChar K d = -1 := quadraticChar_neg_one_iff_not_isSquare.2 hd
  have cd' : quadraticChar K (d - 1) = 1 := (quadraticChar_one_iff_isSquare h1).2 hd'
  have eE := card_curve h2 (fun x : K => 1 - x ^ 2) (fun x => 1 - d * x ^ 2) (fun x e => by
    exact (hd ⟨1 / x, by
      have hx : x ≠ 0 := by rintro rfl; simp at e
      field_simp; linear_combination -e⟩).elim)
  have eT := card_curve h2 (fun x : K => 1 + x ^ 2) (fun x => 1 - (d - 1) * x ^ 2) (fun x _ e' =>
    hm ⟨x, by linear_combination -e'⟩)
  have z1 : (univ.filter fun x : K => 1 - d * x ^ 2 = 0).card = 0 := by
    rw [card_eq_zero, filter_eq_empty_iff]
    intro x _ e
    exact hd ⟨1 / x, by
      have hx : x ≠ 0 := by rintro rfl; simp at e
      field_simp; linear_combination -e⟩
  have z2 : ((univ.filter fun x : K => 1 - (d - 1) * x ^ 2 = 0).card : ℤ) = 2 := by
    have e : (univ.filter fun x : K => 1 - (d - 1) * x ^ 2 = 0) =
        univ.filter fun x : K => x ^ 2 = 1 / (d - 1) := by
      ext x
      simp only [mem_filter, mem_univ, true_and]
      rw [eq_div_iff h1]
      constructor <;> intro e <;> linear_combination -e
    have e' : 1 / (d - 1) = (d - 1) * (1 / (d - 1)) ^ 2 := by field_simp
    rw [e, card_sqrts h2, e', map_mul, quadraticChar_sq_one' (one_div_ne_zero h1), cd']
    norm_num
  rw [z1] at eE
  rw [z2] at eT
  have fE : (univ.filter fun v : K × K => v.1 ^ 2 + v.2 ^ 2 = 1 + d * v.1 ^ 2 * v.2 ^ 2) =
      univ.filter fun v : K × K => v.2 ^ 2 * (1 - d * v.1 ^ 2) = 1 - v.1 ^ 2 := by
    ext v
    simp only [mem_filter, mem_univ, true_and]
    constructor <;> intro e <;> linear_combination e
  have fT : (univ.filter fun v : K × K =>
        v.2 ^ 2 - v.1 ^ 2 = 1 + (d - 1) * v.1 ^ 2 * v.2 ^ 2) =
      univ.filter fun v : K × K => v.2 ^ 2 * (1 - (d - 1) * v.1 ^ 2) = 1 + v.1 ^ 2 := by
    ext v
    simp only [mem_filter, mem_univ, true_and]
    constructor <;> intro e <;> linear_combination e
  -- split off the quadratic sums
  have sE := sum_sq h2 fun s : K => (1 - s) * (1 - d * s)
  have sT := sum_sq h2 fun s : K => (1 + s) * (1 - (d - 1) * s)
  -- the quadratic sums
  have qE : ∑ s : K, quadraticChar K ((1 - s) * (1 - d * s)) = 1 := by
    have hc : (1 - d) / d ≠ 0 := div_ne_zero (fun e => h1 (by linear_combination -e)) hd0
    rw [← sum_subst _ hc 1]
    have : ∀ x : K, quadraticChar K ((1 - ((1 - d) / d * x + 1)) * (1 - d * ((1 - d) / d * x + 1))) =
        quadraticChar K (x * (1 - x)) := by
      intro x
      have e : (1 - ((1 - d) / d * x + 1)) * (1 - d * ((1 - d) / d * x + 1)) =
          (-1 * d) * ((d - 1) / d) ^ 2 * (x * (1 - x)) := by field_simp; ring
      rw [e, map_mul, map_mul, map_mul, quadraticChar_sq_one' (div_ne_zero h1 hd0), cm, cd]
      norm_num
    rw [sum_congr rfl fun x _ => this x, quad_sum h2, cm]
    norm_num
  have qT : ∑ s : K, quadraticChar K ((1 + s) * (1 - (d - 1) * s)) = 1 := by
    have hc : d / (d - 1) ≠ 0 := div_ne_zero hd0 h1
    rw [← sum_subst _ hc (-1)]
    have : ∀ x : K, quadraticChar K ((1 + (d / (d - 1) * x + -1)) *
        (1 - (d - 1) * (d / (d - 1) * x + -1))) = quadraticChar K (x * (1 - x)) := by
      intro x
      have e : (1 + (d / (d - 1) * x + -1)) * (1 - (d - 1) * (d / (d - 1) * x + -1)) =
          (d - 1) * (d / (d - 1)) ^ 2 * (x * (1 - x)) := by field_simp; ring
      rw [e, map_mul, map_mul, quadraticChar_sq_one' hc, cd']
      norm_num
    rw [sum_congr rfl fun x _ => this x, quad_sum h2, cm]
    norm_num
  -- the cubic sums
  have cE : ∑ s : K, quadraticChar K (s * ((1 - s) * (1 - d * s))) =
      ∑ t : K, quadraticChar K (t * (1 - t) * (d - 1 + t)) := by
    rw [← sum_subst _ (neg_ne_zero.2 (one_div_ne_zero hd0)) (1 / d)]
    refine sum_congr rfl fun t _ => ?_
    have e : (-(1 / d) * t + 1 / d) * ((1 - (-(1 / d) * t + 1 / d)) *
        (1 - d * (-(1 / d) * t + 1 / d))) = (1 / d) ^ 2 * (t * (1 - t) * (d - 1 + t)) := by
      field_simp; ring
    rw [e, map_mul, quadraticChar_sq_one' (one_div_ne_zero hd0), one_mul]
  have cT : ∑ s : K, quadraticChar K (s * ((1 + s) * (1 - (d - 1) * s))) =
      ∑ t : K, quadraticChar K (t * (1 - t) * (d - 1 + t)) := by
    rw [← sum_subst _ (one_div_ne_zero h1) 0]
    refine sum_congr rfl fun t _ => ?_
    have e : (1 / (d - 1) * t + 0) * ((1 + (1 / (d - 1) * t + 0)) *
        (1 - (d - 1) * (1 / (d - 1) * t + 0))) =
        (1 / (d - 1)) ^ 2 * (t * (1 - t) * (d - 1 + t)) := by
      field_simp; ring
    rw [e, map_mul, quadraticChar_sq_one' (one_div_ne_zero h1), one_mul]
  rw [qE, cE] at sE
  rw [qT, cT] at sT
  rw [fE, fT]
  simp only [sum_add_distrib] at eE eT
  rw [sE] at eE
  rw [sT] at eT
  have : ((univ.filter fun v : K × K => v.2 ^ 2 * (1 - d * v.1 ^ 2) = 1 - v.1 ^ 2).card : ℤ) =
      (univ.filter fun v : K × K => v.2 ^ 2 * (1 - (d - 1) * v.1 ^ 2) = 1 + v.1 ^ 2).card + 2 := by
    rw [eE, eT]
    push_cast
    ring
  exact_mod_cast this

end Ed448.TwCount
