import Verif.Props.Edwards
import Verif.Props.X448
import Verif.Props.Decaf

/-!
# What the choice of the curve is for (C95)

The group of the Edwards curve is cyclic. The known ways to compute discrete logarithms faster than in a
generic group do not apply to the subgroups of prime order of the curve and of its twist: they do not
embed into the multiplicative group of an extension of small degree, their orders differ from the
characteristic, the curve is not supersingular and has no automorphism but the sign.
-/

namespace Ed448.Props
open Ed448.Model

set_option exponentiation.threshold 1000
set_option maxRecDepth 10000

/-- A prime of `n - 1` divides the order of `a`, if a power says so. -/
theorem prime_dvd_order {n a f : ℕ} [hn : Fact n.Prime] (hlt : n < 2 ^ 512) (ha : ¬ n ∣ a) (hf : f.Prime)
    (hd : f ∣ n - 1) (h : powMod n a 512 ((n - 1) / f) ≠ 1) : f ∣ orderOf (a : ZMod n) := by
  have hn1 := hn.out.one_lt
  have e1 : (a : ZMod n) ^ (n - 1) = 1 :=
    ZMod.pow_card_sub_one_eq_one (by rwa [Ne, ZMod.natCast_eq_zero_iff])
  have hl : (n - 1) / f < 2 ^ 512 := lt_of_le_of_lt (Nat.div_le_self _ _) (by omega)
  by_contra hnd
  have hcop : Nat.Coprime (orderOf (a : ZMod n)) f :=
    Nat.coprime_comm.mp ((Nat.Prime.coprime_iff_not_dvd hf).mpr hnd)
  have hdiv : orderOf (a : ZMod n) ∣ n - 1 := orderOf_dvd_of_pow_eq_one e1
  rw [← Nat.div_mul_cancel hd] at hdiv
  have e2 := orderOf_dvd_iff_pow_eq_one.mp (hcop.dvd_of_dvd_mul_right hdiv)
  rw [← powMod_cast n a 512 _ hl] at e2
  have hlt' : powMod n a 512 ((n - 1) / f) < n := by
    rw [powMod_eq _ _ _ _ hl]; exact Nat.mod_lt _ (by omega)
  have : Fact (1 < n) := ⟨hn1⟩
  have := congrArg ZMod.val e2
  rw [ZMod.val_natCast_of_lt hlt', ZMod.val_one] at this
  exact h this

/-- Distinct primes that all divide a number. -/
theorem prod_dvd_of_primes {m : ℕ} : ∀ l : List ℕ, l.Nodup → (∀ f ∈ l, f.Prime ∧ f ∣ m) → l.prod ∣ m
  | [], _, _ => one_dvd _
  | f :: l, hn, h => by
    rw [List.nodup_cons] at hn
    rw [List.prod_cons]
    refine Nat.Coprime.mul_dvd_of_dvd_of_dvd ?_ (h f (List.mem_cons_self ..)).2
      (prod_dvd_of_primes l hn.2 fun g hg => h g (List.mem_cons_of_mem _ hg))
    refine (Nat.coprime_list_prod_right_iff).2 fun g hg => ?_
    refine (Nat.coprime_primes (h f (List.mem_cons_self ..)).1 (h g (List.mem_cons_of_mem _ hg)).1).2 ?_
    rintro rfl
    exact hn.1 hg

/-- The embedding degree is at least the product of such primes. -/
theorem embedding {n a : ℕ} [Fact n.Prime] (hlt : n < 2 ^ 512) (ha : ¬ n ∣ a) (l : List ℕ)
    (hp : ∀ f ∈ l, f.Prime) (hn : l.Nodup)
    (hc : ∀ f ∈ l, f ∣ n - 1 ∧ powMod n a 512 ((n - 1) / f) ≠ 1) {k : ℕ} (hk : 0 < k)
    (h : (a : ZMod n) ^ k = 1) : l.prod ≤ k :=
  Nat.le_of_dvd hk ((prod_dvd_of_primes l hn fun f hf =>
    ⟨hp f hf, prime_dvd_order hlt ha (hp f hf) (hc f hf).1 (hc f hf).2⟩).trans
      (orderOf_dvd_of_pow_eq_one h))

instance : Fact ellTwist.Prime := ⟨ellTwist_prime⟩

/-- **No transfer to a finite field.**  The subgroups of prime order of the curve and of its twist do not
embed into the multiplicative group of a field with `p ^ k` elements for any positive `k` below 2^192 (of the
curve) and 2^167 (of its twist). -/
theorem C95_embedding (k : ℕ) (hk : 0 < k) :
    (ell ∣ p ^ k - 1 → 2 ^ 192 ≤ k) ∧ (ellTwist ∣ p ^ k - 1 → 2 ^ 167 ≤ k) := by
  have hp1 : 1 ≤ p ^ k := Nat.one_le_pow _ _ p_prime.pos
  constructor
  · intro h
    have e : ((p : ℕ) : ZMod ell) ^ k = 1 := by
      rw [← ZMod.natCast_eq_zero_iff, Nat.cast_sub hp1, Nat.cast_pow, Nat.cast_one, sub_eq_zero] at h
      exact h
    refine le_trans ?_ (embedding (n := ell) (a := p) (by rw [ell_lit]; decide +kernel)
      (by rw [ell_lit, p_lit]; decide +kernel)
      [3, 19, 97, 227393, 3009341, 342682509629, 6730519843040614479184435237013] ?_ (by decide +kernel)
      ?_ hk e)
    · decide +kernel
    · simp only [List.forall_mem_cons, List.not_mem_nil, false_imp_iff, implies_true, and_true]
      exact ⟨Primes.prime_3, Primes.prime_19, by norm_num, Primes.prime_227393, Primes.prime_3009341,
        Primes.prime_342682509629, Primes.prime_6730519843040614479184435237013⟩
    · rw [ell_lit, p_lit]; decide +kernel
  · intro h
    have e : ((p : ℕ) : ZMod ellTwist) ^ k = 1 := by
      rw [← ZMod.natCast_eq_zero_iff, Nat.cast_sub hp1, Nat.cast_pow, Nat.cast_one, sub_eq_zero] at h
      exact h
    refine le_trans ?_ (embedding (n := ellTwist) (a := p) (by rw [ellTwist_lit]; decide +kernel)
      (by rw [ellTwist_lit, p_lit]; decide +kernel)
      [5, 84869, 3486877, 77946443, 1671380110708512442103829423217] ?_ (by decide +kernel) ?_ hk e)
    · decide +kernel
    · simp only [List.forall_mem_cons, List.not_mem_nil, false_imp_iff, implies_true, and_true]
      exact ⟨Primes.prime_5, TwistPrimes.prime_84869, TwistPrimes.prime_3486877,
        TwistPrimes.prime_77946443, TwistPrimes.prime_1671380110708512442103829423217⟩
    · rw [ellTwist_lit, p_lit]; decide +kernel

/-- In other words: whatever homomorphism leads from the points of the curve into the units of a field of
characteristic `p` with fewer than `p ^ (2 ^ 192)` elements, all multiples of `G` are mapped to 1. -/
theorem C95_transfer {K : Type} [Field K] [Finite K] {k : ℕ} (hK : Nat.card K = p ^ k) (hk : k < 2 ^ 192)
    (f : Multiplicative E →* Kˣ) (n : ℕ) : f (Multiplicative.ofAdd (n • G)) = 1 := by
  have hk0 : 0 < k := by
    rcases Nat.eq_zero_or_pos k with rfl | h
    · have := Finite.one_lt_card (α := K)
      rw [hK, pow_zero] at this
      omega
    · exact h
  have h1 : f (Multiplicative.ofAdd G) ^ ell = 1 := by
    rw [← map_pow, ← ofAdd_nsmul, ell_G, ofAdd_zero, map_one]
  have h2 : f (Multiplicative.ofAdd G) ^ (p ^ k - 1) = 1 := by
    rw [← hK, ← Nat.card_units]
    exact pow_card_eq_one'
  have h3 : f (Multiplicative.ofAdd G) = 1 := by
    rcases (Nat.dvd_prime ell_prime).1 (orderOf_dvd_of_pow_eq_one h1) with h | h
    · exact orderOf_eq_one_iff.1 h
    · exact absurd ((C95_embedding k hk0).1 (h ▸ orderOf_dvd_of_pow_eq_one h2)) (not_le.2 hk)
  rw [ofAdd_nsmul, map_pow, h3, one_pow]

/-- **The group of the Edwards curve is cyclic**, of order `4 l`; `G` and its translate by the point of order
four `(1, 0)` are of order `l` and `4 l`. -/
theorem C95_cyclic : ∃ g : E, addOrderOf g = 4 * ell ∧ ∀ R : E, ∃ n < 4 * ell, R = n • g := by
  have h4 : addOrderOf torsion4 = 4 := by
    refine addOrderOf_eq_prime_pow (p := 2) (n := 1) ?_ four_torsion4
    rw [pow_one, two_nsmul, torsion4_two]
    exact torsion2_ne
  have ho : addOrderOf (torsion4 + G) = 4 * ell := by
    rw [(AddCommute.all torsion4 G).addOrderOf_add_eq_mul_addOrderOf_of_coprime
      (by rw [h4, addOrderOf_G]; exact coprime4), h4, addOrderOf_G]
  refine ⟨torsion4 + G, ho, fun R => ?_⟩
  have hR : R ∈ AddSubgroup.zmultiples (torsion4 + G) := by
    rw [AddSubgroup.eq_top_of_card_eq (AddSubgroup.zmultiples (torsion4 + G))
      (by rw [Nat.card_zmultiples, ho, card_E])]
    trivial
  rw [mem_zmultiples_iff_mem_range_addOrderOf, ho, Finset.mem_image] at hR
  obtain ⟨n, hn, e⟩ := hR
  exact ⟨n, Finset.mem_range.1 hn, e.symm⟩

/-- **No other shortcut.**  The orders differ from the characteristic, the trace of Frobenius is not
divisible by it, and the invariants `c₄`, `c₆` of Curve448 are not zero (`j` is neither 0 nor 1728). -/
theorem C95_invariants : 2 ^ 445 < ell ∧ 2 ^ 445 < ellTwist ∧ ell ≠ p ∧ ellTwist ≠ p ∧ 4 * ell ≠ p ∧
    ¬ (p : ℤ) ∣ p + 1 - 4 * ell ∧ (curve448 Fp).c₄ ≠ 0 ∧ (curve448 Fp).c₆ ≠ 0 ∧ (curve448 Fp).Δ ≠ 0 := by
  refine ⟨by rw [ell_lit]; decide +kernel, by rw [ellTwist_lit]; decide +kernel,
    by rw [ell_lit, p_lit]; decide +kernel, by rw [ellTwist_lit, p_lit]; decide +kernel,
    by rw [ell_lit, p_lit]; decide +kernel, by rw [ell_lit, p_lit]; decide +kernel, ?_, ?_, ?_⟩
  · have h := natCast_ne_of_mod (a := 391005092368) (b := 0) (by rw [p_lit]; decide +kernel)
    simp only [curve448, WeierstrassCurve.c₄, WeierstrassCurve.b₂, WeierstrassCurve.b₄]
    intro e
    refine h ?_
    push_cast
    linear_combination e
  · have h := natCast_ne_of_mod (a := 244497048263072576) (b := 0) (by rw [p_lit]; decide +kernel)
    simp only [curve448, WeierstrassCurve.c₆, WeierstrassCurve.b₂, WeierstrassCurve.b₄,
      WeierstrassCurve.b₆]
    intro e
    refine h ?_
    push_cast
    linear_combination -e
  · have h := natCast_ne_of_mod (a := 391005092352) (b := 0) (by rw [p_lit]; decide +kernel)
    simp only [curve448, WeierstrassCurve.Δ, WeierstrassCurve.b₂, WeierstrassCurve.b₄,
      WeierstrassCurve.b₆, WeierstrassCurve.b₈]
    intro e
    refine h ?_
    push_cast
    linear_combination e

/-- The prime 2 of `l - 1` is missing from the list for a reason: `p` is a square modulo `l`. -/
example : powMod ell p 512 ((ell - 1) / 2) = 1 := by rw [ell_lit, p_lit]; decide +kernel

/-- The point `(1, 0)` of order four is a multiple of any generator. -/
example : ∃ g : E, ∃ n : ℕ, torsion4 = n • g ∧ addOrderOf g = 4 * ell := by
  obtain ⟨g, hg, h⟩ := C95_cyclic
  obtain ⟨n, -, e⟩ := h torsion4
  exact ⟨g, n, e, hg⟩

/-- In the field with `p ^ 12` elements no pairing of the curve has its values. -/
example : ¬ ell ∣ p ^ 12 - 1 := fun h => absurd ((C95_embedding 12 (by norm_num)).1 h) (by decide +kernel)

/-- Every prime that does not divide `a` divides some `a ^ k - 1`. -/
theorem embedding_exists {n a : ℕ} [hn : Fact n.Prime] (ha : ¬ n ∣ a) : ∃ k, 0 < k ∧ n ∣ a ^ k - 1 := by
  refine ⟨n - 1, Nat.sub_pos_of_lt hn.out.one_lt, ?_⟩
  have h1 : 1 ≤ a ^ (n - 1) := Nat.one_le_pow _ _ (Nat.pos_of_ne_zero fun h => ha (h ▸ dvd_zero n))
  rw [← ZMod.natCast_eq_zero_iff, Nat.cast_sub h1, Nat.cast_pow,
    ZMod.pow_card_sub_one_eq_one (by rwa [Ne, ZMod.natCast_eq_zero_iff]), Nat.cast_one, sub_self]

/-- So there are extensions into which the subgroup embeds; they are just too large. -/
example : ∃ k, 0 < k ∧ ell ∣ p ^ k - 1 ∧ 2 ^ 192 ≤ k := by
  obtain ⟨k, h0, h⟩ := embedding_exists (n := ell) (a := p) (by rw [ell_lit, p_lit]; decide +kernel)
  exact ⟨k, h0, h, (C95_embedding k h0).1 h⟩

end Ed448.Props
