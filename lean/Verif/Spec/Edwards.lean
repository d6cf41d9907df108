import Mathlib.Algebra.Field.Basic
import Mathlib.Algebra.Group.Even
import Mathlib.Tactic.LinearCombination
import Mathlib.Tactic.FieldSimp
import Mathlib.Tactic.Ring

/-!
# Specification: the affine Edwards group

`x² + y² = 1 + d x² y²` over a field in which `2 ≠ 0` and `d` is not a square, with the textbook
(complete) addition law. This file does not mention the Rust code. It proves that the affine points
form an abelian group.
-/

namespace Ed448.Edw

variable {K : Type*} [Field K]

/-- Curve equation. -/
def OnCurve (d x y : K) : Prop := x ^ 2 + y ^ 2 = 1 + d * x ^ 2 * y ^ 2

/-- An affine point. -/
@[ext] structure Pt (K : Type*) [Field K] (d : K) where
  x : K
  y : K
  on : OnCurve d x y

/-- The parameters for which the addition law is complete. -/
class Good (d : K) : Prop where
  two : (2 : K) ≠ 0
  ns : ¬ IsSquare d

variable {d : K}

theorem d_ne_zero [h : Good d] : d ≠ 0 := fun h0 => h.ns (by rw [h0]; exact ⟨0, by ring⟩)

/-- Completeness: the denominators of the addition law never vanish. -/
theorem complete [h : Good d] {x1 y1 x2 y2 e : K} (h1 : OnCurve d x1 y1) (h2 : OnCurve d x2 y2)
    (he : e ^ 2 = 1) : e ≠ d * x1 * x2 * y1 * y2 := by
  intro hd
  unfold OnCurve at h1 h2
  have hs : ∀ a b : K, b ≠ 0 → a ^ 2 = d * b ^ 2 → False := by
    intro a b hb hab
    apply h.ns
    refine ⟨a / b, ?_⟩
    field_simp
    linear_combination -hab
  have he0 : e ≠ 0 := by rintro rfl; norm_num at he
  have hx1 : x1 ≠ 0 := by rintro rfl; apply he0; rw [hd]; ring
  have hy1 : y1 ≠ 0 := by rintro rfl; apply he0; rw [hd]; ring
  have hx2 : x2 ≠ 0 := by rintro rfl; apply he0; rw [hd]; ring
  have hee : d ^ 2 * x1 ^ 2 * x2 ^ 2 * y1 ^ 2 * y2 ^ 2 = 1 := by
    rw [← he, hd]; ring
  have key : x1 ^ 2 + y1 ^ 2 = d * x1 ^ 2 * y1 ^ 2 * (x2 ^ 2 + y2 ^ 2) := by
    rw [h1, h2]; linear_combination -hee
  by_cases hp : x2 + y2 = 0
  · by_cases hm : x2 - y2 = 0
    · apply hx2
      have : (2 : K) * x2 = 0 := by linear_combination hp + hm
      exact (mul_eq_zero.mp this).resolve_left h.two
    · exact hs (x1 - e * y1) (x1 * y1 * (x2 - y2))
        (mul_ne_zero (mul_ne_zero hx1 hy1) hm)
        (by linear_combination key + y1 ^ 2 * he - 2 * x1 * y1 * hd)
  · exact hs (x1 + e * y1) (x1 * y1 * (x2 + y2))
      (mul_ne_zero (mul_ne_zero hx1 hy1) hp)
      (by linear_combination key + y1 ^ 2 * he + 2 * x1 * y1 * hd)

theorem den_add [Good d] {x1 y1 x2 y2 : K} (h1 : OnCurve d x1 y1) (h2 : OnCurve d x2 y2) :
    1 + d * x1 * x2 * y1 * y2 ≠ 0 := fun h =>
  complete (e := -1) h1 h2 (by ring) (by linear_combination -h)

theorem den_sub [Good d] {x1 y1 x2 y2 : K} (h1 : OnCurve d x1 y1) (h2 : OnCurve d x2 y2) :
    1 - d * x1 * x2 * y1 * y2 ≠ 0 := fun h =>
  complete (e := 1) h1 h2 (by ring) (by linear_combination h)

/-- Cross-multiplied closure of the addition law. -/
theorem closure_poly {x1 y1 x2 y2 : K} (h1 : OnCurve d x1 y1) (h2 : OnCurve d x2 y2) :
    (x1 * y2 + y1 * x2) ^ 2 * (1 - d * x1 * x2 * y1 * y2) ^ 2 +
      (y1 * y2 - x1 * x2) ^ 2 * (1 + d * x1 * x2 * y1 * y2) ^ 2 =
    (1 + d * x1 * x2 * y1 * y2) ^ 2 * (1 - d * x1 * x2 * y1 * y2) ^ 2 +
      d * (x1 * y2 + y1 * x2) ^ 2 * (y1 * y2 - x1 * x2) ^ 2 := by
  unfold OnCurve at h1 h2
  grind

theorem assoc_x_poly {x1 y1 x2 y2 x3 y3 : K} (h1 : OnCurve d x1 y1) (h2 : OnCurve d x2 y2)
    (h3 : OnCurve d x3 y3) :
    ((x1 * y2 + y1 * x2) * (1 - d * x1 * x2 * y1 * y2) * y3 +
      (y1 * y2 - x1 * x2) * (1 + d * x1 * x2 * y1 * y2) * x3) *
      ((1 + d * x2 * x3 * y2 * y3) * (1 - d * x2 * x3 * y2 * y3) +
        d * x1 * y1 * (x2 * y3 + y2 * x3) * (y2 * y3 - x2 * x3)) =
    (x1 * (y2 * y3 - x2 * x3) * (1 + d * x2 * x3 * y2 * y3) +
      y1 * (x2 * y3 + y2 * x3) * (1 - d * x2 * x3 * y2 * y3)) *
      ((1 + d * x1 * x2 * y1 * y2) * (1 - d * x1 * x2 * y1 * y2) +
        d * (x1 * y2 + y1 * x2) * (y1 * y2 - x1 * x2) * x3 * y3) := by
  unfold OnCurve at h1 h2 h3
  grind

theorem assoc_y_poly {x1 y1 x2 y2 x3 y3 : K} (h1 : OnCurve d x1 y1) (h2 : OnCurve d x2 y2)
    (h3 : OnCurve d x3 y3) :
    ((y1 * y2 - x1 * x2) * (1 + d * x1 * x2 * y1 * y2) * y3 -
      (x1 * y2 + y1 * x2) * (1 - d * x1 * x2 * y1 * y2) * x3) *
      ((1 + d * x2 * x3 * y2 * y3) * (1 - d * x2 * x3 * y2 * y3) -
        d * x1 * y1 * (x2 * y3 + y2 * x3) * (y2 * y3 - x2 * x3)) =
    (y1 * (y2 * y3 - x2 * x3) * (1 + d * x2 * x3 * y2 * y3) -
      x1 * (x2 * y3 + y2 * x3) * (1 - d * x2 * x3 * y2 * y3)) *
      ((1 + d * x1 * x2 * y1 * y2) * (1 - d * x1 * x2 * y1 * y2) -
        d * (x1 * y2 + y1 * x2) * (y1 * y2 - x1 * x2) * x3 * y3) := by
  unfold OnCurve at h1 h2 h3
  grind

namespace Pt

/-- The identity `(0, 1)`. -/
def zero : Pt K d := ⟨0, 1, by unfold OnCurve; ring⟩

/-- Negation `(-x, y)`. -/
def neg (P : Pt K d) : Pt K d := ⟨-P.x, P.y, by
  have := P.on; unfold OnCurve at *; linear_combination this⟩

variable [Good d]

/-- The addition law. -/
def add (P Q : Pt K d) : Pt K d where
  x := (P.x * Q.y + P.y * Q.x) / (1 + d * P.x * Q.x * P.y * Q.y)
  y := (P.y * Q.y - P.x * Q.x) / (1 - d * P.x * Q.x * P.y * Q.y)
  on := by
    have h1 := den_add P.on Q.on
    have h2 := den_sub P.on Q.on
    have h3 := closure_poly P.on Q.on
    unfold OnCurve
    generalize 1 + d * P.x * Q.x * P.y * Q.y = a at *
    generalize 1 - d * P.x * Q.x * P.y * Q.y = b at *
    field_simp
    linear_combination h3

theorem add_comm' (P Q : Pt K d) : add P Q = add Q P := by
  ext
  · show _ / _ = _ / _
    congr 1 <;> ring
  · show _ / _ = _ / _
    congr 1 <;> ring

theorem zero_add' (P : Pt K d) : add zero P = P := by
  ext
  · show (0 * P.y + 1 * P.x) / (1 + d * 0 * P.x * 1 * P.y) = P.x
    simp
  · show (1 * P.y - 0 * P.x) / (1 - d * 0 * P.x * 1 * P.y) = P.y
    simp

theorem neg_add' (P : Pt K d) : add (neg P) P = zero := by
  have h := P.on
  have h2 : 1 - d * -P.x * P.x * P.y * P.y ≠ 0 := den_sub (neg P).on P.on
  unfold OnCurve at h
  ext
  · show (-P.x * P.y + P.y * P.x) / _ = 0
    rw [show -P.x * P.y + P.y * P.x = 0 by ring, zero_div]
  · show (P.y * P.y - -P.x * P.x) / (1 - d * -P.x * P.x * P.y * P.y) = 1
    rw [div_eq_one_iff_eq h2]
    linear_combination h

theorem add_assoc' (P Q R : Pt K d) : add (add P Q) R = add P (add Q R) := by
  have hp := den_add P.on Q.on
  have hq := den_sub P.on Q.on
  have hp' := den_add Q.on R.on
  have hq' := den_sub Q.on R.on
  have u1 := den_add (add P Q).on R.on
  have u2 := den_add P.on (add Q R).on
  have v1 := den_sub (add P Q).on R.on
  have v2 := den_sub P.on (add Q R).on
  have hx := assoc_x_poly P.on Q.on R.on
  have hy := assoc_y_poly P.on Q.on R.on
  have ex : (add P Q).x = (P.x * Q.y + P.y * Q.x) / (1 + d * P.x * Q.x * P.y * Q.y) := rfl
  have ey : (add P Q).y = (P.y * Q.y - P.x * Q.x) / (1 - d * P.x * Q.x * P.y * Q.y) := rfl
  have ex' : (add Q R).x = (Q.x * R.y + Q.y * R.x) / (1 + d * Q.x * R.x * Q.y * R.y) := rfl
  have ey' : (add Q R).y = (Q.y * R.y - Q.x * R.x) / (1 - d * Q.x * R.x * Q.y * R.y) := rfl
  ext
  · show ((add P Q).x * R.y + (add P Q).y * R.x) / _ = (P.x * (add Q R).y + P.y * (add Q R).x) / _
    rw [div_eq_div_iff u1 u2, ex, ey, ex', ey']
    generalize P.x * Q.y + P.y * Q.x = A at *
    generalize P.y * Q.y - P.x * Q.x = B at *
    generalize Q.x * R.y + Q.y * R.x = A' at *
    generalize Q.y * R.y - Q.x * R.x = B' at *
    generalize 1 + d * P.x * Q.x * P.y * Q.y = p at *
    generalize 1 - d * P.x * Q.x * P.y * Q.y = q at *
    generalize 1 + d * Q.x * R.x * Q.y * R.y = p' at *
    generalize 1 - d * Q.x * R.x * Q.y * R.y = q' at *
    field_simp
    linear_combination hx
  · show ((add P Q).y * R.y - (add P Q).x * R.x) / _ = (P.y * (add Q R).y - P.x * (add Q R).x) / _
    rw [div_eq_div_iff v1 v2, ex, ey, ex', ey']
    generalize P.x * Q.y + P.y * Q.x = A at *
    generalize P.y * Q.y - P.x * Q.x = B at *
    generalize Q.x * R.y + Q.y * R.x = A' at *
    generalize Q.y * R.y - Q.x * R.x = B' at *
    generalize 1 + d * P.x * Q.x * P.y * Q.y = p at *
    generalize 1 - d * P.x * Q.x * P.y * Q.y = q at *
    generalize 1 + d * Q.x * R.x * Q.y * R.y = p' at *
    generalize 1 - d * Q.x * R.x * Q.y * R.y = q' at *
    field_simp
    linear_combination hy

instance : Zero (Pt K d) := ⟨zero⟩
instance : Add (Pt K d) := ⟨add⟩
instance : Neg (Pt K d) := ⟨neg⟩

/-- The affine points form an abelian group. -/
instance : AddCommGroup (Pt K d) where
  add_assoc := add_assoc'
  zero_add := zero_add'
  add_zero := fun P => (add_comm' P zero).trans (zero_add' P)
  neg_add_cancel := neg_add'
  add_comm := add_comm'
  nsmul := nsmulRec
  zsmul := zsmulRec

omit [Good d] in
theorem zero_x : (0 : Pt K d).x = 0 := rfl
omit [Good d] in
theorem zero_y : (0 : Pt K d).y = 1 := rfl
omit [Good d] in
theorem neg_x (P : Pt K d) : (-P).x = -P.x := rfl
omit [Good d] in
theorem neg_y (P : Pt K d) : (-P).y = P.y := rfl
theorem add_x (P Q : Pt K d) : (P + Q).x =
    (P.x * Q.y + P.y * Q.x) / (1 + d * P.x * Q.x * P.y * Q.y) := rfl
theorem add_y (P Q : Pt K d) : (P + Q).y =
    (P.y * Q.y - P.x * Q.x) / (1 - d * P.x * Q.x * P.y * Q.y) := rfl

end Pt

end Ed448.Edw
