import Verif.Spec.Params

/-!
# Specification: the prime in the order of the quadratic twist of Curve448
-/

namespace Ed448.TwistPrimes

theorem prime_84869 : Nat.Prime 84869 := by norm_num

theorem prime_277 : Nat.Prime 277 := by norm_num

theorem prime_1049 : Nat.Prime 1049 := by norm_num

theorem prime_3486877 :
    Nat.Prime 3486877 :=
  pratt 3486877 2
    [(2, 2), (3, 1), (277, 1), (1049, 1)]
    (by simp only [List.forall_mem_cons, List.not_mem_nil, false_imp_iff, implies_true, and_true]; exact ⟨Primes.prime_2, Primes.prime_3, prime_277, prime_1049⟩)
    (by decide +kernel)

theorem prime_661 : Nat.Prime 661 := by norm_num

theorem prime_8423 : Nat.Prime 8423 := by norm_num

theorem prime_77946443 :
    Nat.Prime 77946443 :=
  pratt 77946443 2
    [(2, 1), (7, 1), (661, 1), (8423, 1)]
    (by simp only [List.forall_mem_cons, List.not_mem_nil, false_imp_iff, implies_true, and_true]; exact ⟨Primes.prime_2, Primes.prime_7, prime_661, prime_8423⟩)
    (by decide +kernel)

theorem prime_10067 : Nat.Prime 10067 := by norm_num

theorem prime_3491 : Nat.Prime 3491 := by norm_num

theorem prime_30257753761 :
    Nat.Prime 30257753761 :=
  pratt 30257753761 17
    [(2, 5), (3, 2), (5, 1), (13, 1), (463, 1), (3491, 1)]
    (by simp only [List.forall_mem_cons, List.not_mem_nil, false_imp_iff, implies_true, and_true]; exact ⟨Primes.prime_2, Primes.prime_3, Primes.prime_5, Primes.prime_13, Primes.prime_463, prime_3491⟩)
    (by decide +kernel)

theorem prime_107 : Nat.Prime 107 := by norm_num

theorem prime_773 : Nat.Prime 773 := by norm_num

theorem prime_552833 : Nat.Prime 552833 := by norm_num

theorem prime_91450740527 :
    Nat.Prime 91450740527 :=
  pratt 91450740527 5
    [(2, 1), (107, 1), (773, 1), (552833, 1)]
    (by simp only [List.forall_mem_cons, List.not_mem_nil, false_imp_iff, implies_true, and_true]; exact ⟨Primes.prime_2, prime_107, prime_773, prime_552833⟩)
    (by decide +kernel)

theorem prime_3458867485158836715058751 :
    Nat.Prime 3458867485158836715058751 :=
  pratt 3458867485158836715058751 13
    [(2, 1), (5, 4), (30257753761, 1), (91450740527, 1)]
    (by simp only [List.forall_mem_cons, List.not_mem_nil, false_imp_iff, implies_true, and_true]; exact ⟨Primes.prime_2, Primes.prime_5, prime_30257753761, prime_91450740527⟩)
    (by decide +kernel)

theorem prime_1671380110708512442103829423217 :
    Nat.Prime 1671380110708512442103829423217 :=
  pratt 1671380110708512442103829423217 5
    [(2, 4), (3, 1), (10067, 1), (3458867485158836715058751, 1)]
    (by simp only [List.forall_mem_cons, List.not_mem_nil, false_imp_iff, implies_true, and_true]; exact ⟨Primes.prime_2, Primes.prime_3, prime_10067, prime_3458867485158836715058751⟩)
    (by decide +kernel)

theorem prime_181709681073901722637330951972001133588410340171829515070372549795160160121825800627002436557645897001734148521830156375752993149532941 :
    Nat.Prime 181709681073901722637330951972001133588410340171829515070372549795160160121825800627002436557645897001734148521830156375752993149532941 :=
  bls 181709681073901722637330951972001133588410340171829515070372549795160160121825800627002436557645897001734148521830156375752993149532941 3
    329455942027590151339625656808540642329508643423048 1222541408711842120689185490220375
    329455942027590151339625656808540642329508643423047
    [2, 5, 84869, 3486877, 77946443, 1671380110708512442103829423217]
    (by simp only [List.forall_mem_cons, List.not_mem_nil, false_imp_iff, implies_true, and_true]; exact ⟨Primes.prime_2, Primes.prime_5, prime_84869, prime_3486877, prime_77946443, prime_1671380110708512442103829423217⟩)
    (by decide +kernel)

end Ed448.TwistPrimes

namespace Ed448

set_option exponentiation.threshold 1000

/-- The twist of Curve448 has `4 * ellTwist` points. -/
def ellTwist : ℕ := 2 ^ 446 + 0x335dc163bb124b65129c96fde933d8d723a70aadc873d6d54a7bb0d

theorem ellTwist_lit : ellTwist = 181709681073901722637330951972001133588410340171829515070372549795160160121825800627002436557645897001734148521830156375752993149532941 := by
  decide +kernel

theorem ellTwist_prime : ellTwist.Prime := by
  rw [ellTwist_lit]
  exact TwistPrimes.prime_181709681073901722637330951972001133588410340171829515070372549795160160121825800627002436557645897001734148521830156375752993149532941

/-- The orders of the curve and of its twist add up to `2 p + 2`. -/
theorem orders_sum : 4 * ell + 4 * ellTwist = 2 * p + 2 := by
  rw [ell_lit, ellTwist_lit, p_lit]

attribute [irreducible] ellTwist

end Ed448
