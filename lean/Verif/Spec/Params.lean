import Verif.Spec.Primes

/-!
# Parameters of Ed448-Goldilocks (RFC 7748 / RFC 8032), independent of the code
-/

namespace Ed448

set_option exponentiation.threshold 1000

/-- The field prime of Goldilocks. -/
def p : ℕ := 2 ^ 448 - 2 ^ 224 - 1

/-- The prime order of the base-point subgroup. -/
def ell : ℕ := 2 ^ 446 - 0x8335dc163bb124b65129c96fde933d8d723a70aadc873d6d54a7bb0d

theorem p_lit : p = 726838724295606890549323807888004534353641360687318060281490199180612328166730772686396383698676545930088884461843637361053498018365439 := by decide +kernel
theorem ell_lit : ell = 181709681073901722637330951972001133588410340171829515070372549795146003961539585716195755291692375963310293709091662304773755859649779 := by
  decide +kernel

theorem p_prime : p.Prime := by
  rw [p_lit]; exact Primes.prime_726838724295606890549323807888004534353641360687318060281490199180612328166730772686396383698676545930088884461843637361053498018365439

theorem ell_prime : ell.Prime := by
  rw [ell_lit]
  exact Primes.prime_181709681073901722637330951972001133588410340171829515070372549795146003961539585716195755291692375963310293709091662304773755859649779

attribute [irreducible] p ell

instance : Fact p.Prime := ⟨p_prime⟩
instance : Fact ell.Prime := ⟨ell_prime⟩

/-- The field of definition. -/
abbrev Fp := ZMod p

/-- The scalar field. -/
abbrev Fl := ZMod ell

/-- The Edwards curve coefficient `d = -39081`. -/
def d : Fp := -39081

end Ed448
