import Verif.Spec.Curve
import Mathlib.AlgebraicGeometry.EllipticCurve.Affine.Point

/-!
# Specification: Curve448 (RFC 7748, section 4.2)

`v² = u³ + 156326 u² + u`, as a Weierstrass curve over any field `K` containing `Fp`; its group law
is Mathlib's. Points of the quadratic twist with `u`-coordinate in `Fp` are points of this curve over
an extension of `Fp` with the same `u`-coordinate.
-/

namespace Ed448
open WeierstrassCurve

/-- Curve448 over `K`. -/
def curve448 (K : Type) [Field K] : WeierstrassCurve.Affine K :=
  { a₁ := 0, a₂ := 156326, a₃ := 0, a₄ := 1, a₆ := 0 }

/-- The `u`-coordinate of a point; 0 for the point at infinity, as in RFC 7748. -/
def ucoord {K : Type} [Field K] : (curve448 K).Point → K
  | .zero => 0
  | .some x _ _ => x

theorem curve448_equation {K : Type} [Field K] (u v : K) :
    (curve448 K).Equation u v ↔ v ^ 2 = u ^ 3 + 156326 * u ^ 2 + u := by
  rw [Affine.equation_iff]
  simp [curve448]

end Ed448
