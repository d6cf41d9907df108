import Verif.Spec.Edwards
import Verif.Spec.Params
import Mathlib.NumberTheory.LegendreSymbol.Basic

/-!
# Specification: the Ed448-Goldilocks group

The Edwards curve `x² + y² = 1 - 39081 x² y²` over `Fp` and its RFC 8032 base point.
-/

namespace Ed448

set_option exponentiation.threshold 1000

theorem natCast_eq_of_mod {a b : ℕ} (h : a % p = b % p) : (a : Fp) = (b : Fp) :=
  (ZMod.natCast_eq_natCast_iff' a b p).2 h

theorem natCast_ne_of_mod {a b : ℕ} (h : a % p ≠ b % p) : (a : Fp) ≠ (b : Fp) := fun e =>
  h ((ZMod.natCast_eq_natCast_iff' a b p).1 e)

theorem p_half_lt : p / 2 < 2 ^ 512 := by rw [p_lit]; decide +kernel

/-- Euler's criterion, evaluated. -/
theorem isSquare_nat_iff {a : ℕ} (h0 : a % p ≠ 0) :
    IsSquare (a : Fp) ↔ powMod p a 512 (p / 2) = 1 := by
  have h0' : (a : Fp) ≠ 0 := by
    have := natCast_ne_of_mod (a := a) (b := 0) (by simpa using h0)
    simpa using this
  rw [ZMod.euler_criterion p h0', ← powMod_cast p a 512 (p / 2) p_half_lt]
  have hlt : powMod p a 512 (p / 2) < p := by
    rw [powMod_eq _ _ _ _ p_half_lt]; exact Nat.mod_lt _ p_prime.pos
  constructor
  · intro h
    have h1 := (ZMod.natCast_eq_natCast_iff' (powMod p a 512 (p / 2)) 1 p).1 (by simpa using h)
    rwa [Nat.mod_eq_of_lt hlt, Nat.mod_eq_of_lt p_prime.one_lt] at h1
  · intro h; rw [h]; simp

theorem neg_cast (a : ℕ) (h : a ≤ p) : ((p - a : ℕ) : Fp) = -(a : Fp) := by
  rw [Nat.cast_sub h]; simp

theorem d_eq : d = ((p - 39081 : ℕ) : Fp) := by
  rw [neg_cast 39081 (by rw [p_lit]; norm_num)]; rfl

theorem d_nonsquare : ¬ IsSquare d := by
  rw [d_eq, isSquare_nat_iff (by rw [p_lit]; decide +kernel), p_lit]
  decide +kernel

theorem neg_one_nonsquare : ¬ IsSquare (-1 : Fp) := by
  have : (-1 : Fp) = ((p - 1 : ℕ) : Fp) := by rw [neg_cast 1 p_prime.one_lt.le]; simp
  rw [this, isSquare_nat_iff (by rw [p_lit]; decide +kernel), p_lit]
  decide +kernel

theorem n39082_nonsquare : ¬ IsSquare (39082 : Fp) := by
  have : (39082 : Fp) = ((39082 : ℕ) : Fp) := by norm_num
  rw [this, isSquare_nat_iff (by rw [p_lit]; decide +kernel), p_lit]
  decide +kernel

theorem smallNat_ne_zero (n : ℕ) (h0 : n ≠ 0) (h : n < 2 ^ 40) : (n : Fp) ≠ 0 := by
  have h2 : (2 : ℕ) ^ 40 < p := by rw [p_lit]; norm_num
  have := natCast_ne_of_mod (a := n) (b := 0) (by
    rw [Nat.mod_eq_of_lt (lt_trans h h2)]; simpa using h0)
  simpa using this

theorem two_ne : (2 : Fp) ≠ 0 := by exact_mod_cast smallNat_ne_zero 2 (by norm_num) (by norm_num)

instance : Edw.Good d := ⟨two_ne, d_nonsquare⟩

/-- The Edwards curve group. -/
abbrev E := Edw.Pt Fp d

/-- Base point, RFC 8032 section 5.2. -/
def Gx : ℕ := 224580040295924300187604334099896036246789641632564134246125461686950415467406032909029192869357953282578032075146446173674602635247710
/-- Base point, RFC 8032 section 5.2. -/
def Gy : ℕ := 298819210078481492676017930443930673437544040154080242095928241372331506189835876003536878655418784733982303233503462500531545062832660

theorem G_on : Edw.OnCurve d (Gx : Fp) (Gy : Fp) := by
  have h : ((Gx ^ 2 + Gy ^ 2 + 39081 * Gx ^ 2 * Gy ^ 2 : ℕ) : Fp) = ((1 : ℕ) : Fp) :=
    natCast_eq_of_mod (by rw [p_lit]; decide +kernel)
  push_cast at h
  unfold Edw.OnCurve d
  linear_combination h

/-- The base point. -/
def G : E := ⟨Gx, Gy, G_on⟩

/-- The point of order two. -/
def torsion2 : E := ⟨0, -1, by unfold Edw.OnCurve; ring⟩

/-- A point of order four. -/
def torsion4 : E := ⟨1, 0, by unfold Edw.OnCurve; ring⟩

end Ed448
