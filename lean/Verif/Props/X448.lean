import Verif.Proofs.Twist
import Verif.Props.Protocols

/-!
# Contributory behaviour of X448 (C62, C63)

`x448` is the RFC 7748 function written over the library (`Props/Protocols`). Curve448 has `4 ell`
points over `Fp` and its quadratic twist `4 ellTwist`, both four times a prime (`Proofs/Twist`).
-/

namespace Ed448.Props
open Ed448.Model Ed448.Twist
open WeierstrassCurve

set_option exponentiation.threshold 1000
set_option maxRecDepth 10000

variable {F L : Type} [FieldBackend F L] [Lawful F]

/-- `u` is the `u`-coordinate of a point of Curve448 over `Fp` (and not only of its twist). -/
def OnCurve448 (u : Fp) : Prop := IsSquare (u ^ 3 + 156326 * u ^ 2 + u)

/-- `u` belongs to a point whose order divides 4. -/
def SmallOrder (u : Fp) : Prop := u = 0 ∨ u = 1 ∨ u = -1

/-- The clamped scalar is `4 m` with `2 ^ 445 ≤ m < 2 ^ 446`. -/
theorem clamp448_form (k : ℕ) : ∃ m, clamp448 k = 4 * m ∧ 2 ^ 445 ≤ m ∧ m < 2 ^ 446 := by
  refine ⟨k % 2 ^ 447 / 4 + 2 ^ 445, ?_, by omega, ?_⟩
  · unfold clamp448
    have : (2 : ℕ) ^ 447 = 4 * 2 ^ 445 := by norm_num
    omega
  · have := Nat.mod_lt k (show 0 < 2 ^ 447 by norm_num)
    have : (2 : ℕ) ^ 447 = 4 * 2 ^ 445 := by norm_num
    have : (2 : ℕ) ^ 446 = 2 * 2 ^ 445 := by norm_num
    omega

theorem ell_bounds : 2 ^ 445 < ell ∧ ell < 2 ^ 446 ∧ 2 ^ 446 < ellTwist ∧ ellTwist < 2 ^ 447 := by
  rw [ell_lit, ellTwist_lit]; decide +kernel

/-- The output of `x448` in terms of a point over the algebraic closure. -/
theorem x448_point (k u r : Bytes 56) (h : (x448 k u).eval F = some r) {P : C}
    (hu : ucoord P = algebraMap Fp KK (u.val : Fp)) {m : ℕ} (hm : clamp448 k.val = 4 * m) :
    r.val < p ∧ algebraMap Fp KK (r.val : Fp) = ucoord (m • (4 • P)) := by
  obtain ⟨r', e, hlt, hr⟩ := C59_x448 (F := F) P k u hu.symm
  rw [h] at e
  cases e
  rw [hm, mul_nsmul] at hr
  exact ⟨hlt, hr⟩

theorem fp_zero_iff {r : ℕ} (h : r < p) : ((r : ℕ) : Fp) = 0 ↔ r = 0 := by
  rw [ZMod.natCast_eq_zero_iff]
  exact ⟨fun hd => Nat.eq_zero_of_dvd_of_lt hd h, fun e => e ▸ dvd_zero _⟩

/-- Multiples of `4 P` by clamped scalars: infinity only for points of small order, and on the curve
for the scalar `ell`. -/
theorem smul_zero_iff {P : C} (h0 : P ≠ 0) {u : Fp} (hu : ucoord P = algebraMap Fp KK u) {m : ℕ}
    (h1 : 2 ^ 445 ≤ m) (h2 : m < 2 ^ 446) :
    m • (4 • P) = 0 ↔ SmallOrder u ∨ (m = ell ∧ OnCurve448 u) := by
  obtain ⟨b1, b2, b3, b4⟩ := ell_bounds
  by_cases h4 : 4 • P = 0
  · rw [h4, nsmul_zero]
    exact ⟨fun _ => Or.inl ((four_smul_iff P u hu.symm).1 h4), fun _ => rfl⟩
  have hs : ¬ SmallOrder u := fun h => h4 ((four_smul_iff P u hu.symm).2 h)
  have hA := mem_A_iff hu h0
  rw [← addOrderOf_dvd_iff_nsmul_eq_zero]
  rcases A_or_T hu with h | h
  · rw [A_order h h4]
    constructor
    · rintro ⟨c, hc⟩
      right
      refine ⟨?_, hA.1 h⟩
      have hc1 : c = 1 := by
        have h445 : (2 : ℕ) ^ 446 = 2 * 2 ^ 445 := by norm_num
        rcases c with _ | _ | c
        · omega
        · rfl
        · have : ell * 2 ≤ ell * (c + 1 + 1) := Nat.mul_le_mul_left _ (by omega)
          omega
      rw [hc, hc1, mul_one]
    · rintro (h | ⟨h, -⟩)
      · exact absurd h hs
      · rw [h]
  · rw [T_order h h4]
    constructor
    · intro hd
      have := Nat.le_of_dvd (by omega) hd
      omega
    · rintro (h' | ⟨-, h'⟩)
      · exact absurd h' hs
      · exfalso
        apply h4
        have hPA := hA.2 h'
        have e : P = -P := (mem_A.1 hPA).symm.trans (mem_T.1 h)
        have e2 : P + P = 0 := by nth_rw 1 [e]; exact neg_add_cancel P
        rw [show 4 • P = (P + P) + (P + P) by abel, e2, add_zero]

/-! ## C62: all-zero outputs -/

/-- The shared secret is zero exactly for inputs of small order, and for the clamped scalar `4 ell`
on inputs on the curve. In particular the all-zero check of RFC 7748 detects every input of small
order, and rejects honest inputs for one scalar out of `2 ^ 445` only. -/
theorem C62_zero_output (k u r : Bytes 56) (h : (x448 k u).eval F = some r) :
    r.val = 0 ↔ SmallOrder (u.val : Fp) ∨ (clamp448 k.val = 4 * ell ∧ OnCurve448 (u.val : Fp)) := by
  obtain ⟨P, h0, hu⟩ := exists_point (u.val : Fp)
  obtain ⟨m, hm, h1, h2⟩ := clamp448_form k.val
  obtain ⟨hlt, hr⟩ := x448_point k u r h hu hm
  have e : clamp448 k.val = 4 * ell ↔ m = ell := by omega
  rw [e, ← smul_zero_iff h0 hu h1 h2, ← ucoord_zero hu, ← hr, map_eq_zero, fp_zero_iff hlt]

/-- Points of the twist never give zero, except those of small order: no secret key is exposed to
small-subgroup information by leaving the curve. -/
theorem C62_twist (k u r : Bytes 56) (h : (x448 k u).eval F = some r)
    (ht : ¬ OnCurve448 (u.val : Fp)) : r.val = 0 ↔ SmallOrder (u.val : Fp) := by
  rw [C62_zero_output k u r h]
  exact ⟨fun h => h.resolve_right fun h => ht h.2, Or.inl⟩

/-- Affine points of Curve448 over `Fp`. -/
abbrev CurvePts := {q : Fp × Fp // q.2 ^ 2 = q.1 ^ 3 + 156326 * q.1 ^ 2 + q.1}
/-- Affine points of its quadratic twist (by -1, which is not a square). -/
abbrev TwistPts := {q : Fp × Fp // -q.2 ^ 2 = q.1 ^ 3 + 156326 * q.1 ^ 2 + q.1}

theorem card_curvePts : Nat.card CurvePts + 1 = Nat.card A := by
  rw [card_of_range 1 A range_A, Finite.card_option]
  congr 1
  refine Nat.card_congr (Equiv.ofBijective (fun q : CurvePts => (⟨q.1.1, algebraMap Fp KK q.1.2,
    by rw [← map_pow, q.2]; rfl, by rw [one_mul]; exact frob_fixed.2 ⟨_, rfl⟩⟩ :
      Σ u : Fp, Fib 1 u)) ⟨?_, ?_⟩)
  · rintro ⟨⟨u, v⟩, h⟩ ⟨⟨u', v'⟩, h'⟩ e
    have e1 : u = u' := congrArg Sigma.fst e
    subst e1
    have e2 := congrArg Subtype.val (eq_of_heq (Sigma.mk.inj e).2)
    have e2 : v = v' := (algebraMap Fp KK).injective e2
    subst e2
    rfl
  · rintro ⟨u, y, h1, h2⟩
    rw [one_mul] at h2
    obtain ⟨v, rfl⟩ := frob_fixed.1 h2
    exact ⟨⟨(u, v), (algebraMap Fp KK).injective (by rw [map_pow, h1]; rfl)⟩, rfl⟩

/-- A square root of -1 is moved by Frobenius. -/
theorem exists_i : ∃ i : KK, i ^ 2 = -1 ∧ i ^ p = -i ∧ i ≠ 0 := by
  obtain ⟨i, hi⟩ := IsAlgClosed.exists_pow_nat_eq (-1 : KK) (n := 2) (by norm_num)
  have h0 : i ≠ 0 := by rintro rfl; simp at hi
  refine ⟨i, hi, ?_, h0⟩
  have hp2 : (i ^ p) ^ 2 = i ^ 2 := by
    rw [pow_right_comm, hi, Odd.neg_one_pow (by rw [p_lit]; decide)]
  rcases sq_eq_sq_iff_eq_or_eq_neg.1 hp2 with e | e
  · exfalso
    obtain ⟨u, rfl⟩ := frob_fixed.1 e
    apply neg_one_nonsquare
    refine ⟨u, (algebraMap Fp KK).injective ?_⟩
    rw [map_mul, ← sq, hi, map_neg, map_one]
  · exact e

theorem card_twistPts : Nat.card TwistPts + 1 = Nat.card T := by
  obtain ⟨i, hi, hip, h0⟩ := exists_i
  rw [card_of_range (-1) T range_T, Finite.card_option]
  congr 1
  refine Nat.card_congr (Equiv.ofBijective (fun q : TwistPts => (⟨q.1.1, i * algebraMap Fp KK q.1.2,
    by rw [mul_pow, hi, ← map_pow, neg_one_mul, ← map_neg, q.2]; rfl,
    by rw [mul_pow, hip, frob_fixed.2 ⟨_, rfl⟩]; ring⟩ : Σ u : Fp, Fib (-1) u)) ⟨?_, ?_⟩)
  · rintro ⟨⟨u, v⟩, h⟩ ⟨⟨u', v'⟩, h'⟩ e
    have e1 : u = u' := congrArg Sigma.fst e
    subst e1
    have e2 := congrArg Subtype.val (eq_of_heq (Sigma.mk.inj e).2)
    have e2 : v = v' := (algebraMap Fp KK).injective (mul_left_cancel₀ h0 e2)
    subst e2
    rfl
  · rintro ⟨u, y, h1, h2⟩
    have h3 : (y / i) ^ p = y / i := by
      rw [div_pow, h2, hip, neg_one_mul, neg_div_neg_eq]
    obtain ⟨v, hv⟩ := frob_fixed.1 h3
    have hy : y = i * algebraMap Fp KK v := by rw [hv, mul_div_cancel₀ _ h0]
    subst hy
    refine ⟨⟨(u, v), (algebraMap Fp KK).injective ?_⟩, rfl⟩
    rw [mul_pow, hi] at h1
    rw [map_neg, map_pow, ← neg_one_mul, h1]; rfl

/-- The curve and its twist have, with the point at infinity, four times a prime number of points. -/
theorem C62_orders : Nat.card CurvePts + 1 = 4 * ell ∧ Nat.card TwistPts + 1 = 4 * ellTwist ∧
    ell.Prime ∧ ellTwist.Prime :=
  ⟨card_curvePts.trans card_A, card_twistPts.trans card_T, ell_prime, ellTwist_prime⟩

/-! ## C63: which keys give the same output -/

theorem dvd_add_of_smul {G : Type} [AddCommGroup G] {P : G} {m n : ℕ} (h : m • P = -(n • P)) :
    addOrderOf P ∣ m + n := by
  rw [addOrderOf_dvd_iff_nsmul_eq_zero, add_nsmul, h, neg_add_cancel]

theorem eq_of_smul {G : Type} [AddCommGroup G] {P : G} {m n c : ℕ} (hm : c ≤ m) (hn : c ≤ n)
    (hm' : m < c + addOrderOf P) (hn' : n < c + addOrderOf P) (h : m • P = n • P) : m = n := by
  obtain ⟨a, rfl⟩ := Nat.exists_eq_add_of_le hm
  obtain ⟨b, rfl⟩ := Nat.exists_eq_add_of_le hn
  rw [add_nsmul, add_nsmul, add_right_inj] at h
  have := nsmul_injOn_Iio_addOrderOf (x := P) (show a < _ by omega) (show b < _ by omega) h
  omega

/-- Points with equal `u` (zero standing for infinity), among multiples of `4 P`. -/
theorem same_output {P P' : C} {u u' : Fp} (hu : ucoord P = algebraMap Fp KK u)
    (hu' : ucoord P' = algebraMap Fp KK u') (m n : ℕ) :
    ucoord (m • (4 • P)) = ucoord (n • (4 • P')) ↔
      m • (4 • P) = n • (4 • P') ∨ m • (4 • P) = (-(n • (4 • P') : C) : C) := by
  constructor
  · intro h
    by_cases h1 : m • (4 • P) = 0
    · rw [h1] at h
      have : n • (4 • P') = 0 := (ucoord_zero hu' n).1 h.symm
      left; rw [h1, this]
    by_cases h2 : n • (4 • P') = 0
    · rw [h2] at h
      exact absurd ((ucoord_zero hu m).1 h) h1
    exact same_u h1 h2 h
  · rintro (h | h)
    · rw [h]
    · rw [h]
      generalize n • (4 • P') = Q
      cases Q with
      | zero => rfl
      | some x y hn => rfl

/-- Two secret keys give the same output on an input that is not of small order exactly when their
clamped values agree or are opposite modulo the order of the input: on the curve, when they add up to
`8 ell`; on the twist, when they add up to `4 ellTwist`. -/
theorem C63_same_output (k k' u : Bytes 56) (hs : ¬ SmallOrder (u.val : Fp)) :
    (x448 k u).eval F = (x448 k' u).eval F ↔ clamp448 k.val = clamp448 k'.val ∨
      (OnCurve448 (u.val : Fp) ∧ clamp448 k.val + clamp448 k'.val = 8 * ell) ∨
      (¬ OnCurve448 (u.val : Fp) ∧ clamp448 k.val + clamp448 k'.val = 4 * ellTwist) := by
  obtain ⟨b1, b2, b3, b4⟩ := ell_bounds
  have h445 : (2 : ℕ) ^ 446 = 2 * 2 ^ 445 := by norm_num
  have h447 : (2 : ℕ) ^ 447 = 4 * 2 ^ 445 := by norm_num
  obtain ⟨P, h0, hu⟩ := exists_point (u.val : Fp)
  obtain ⟨m, hm, h1, h2⟩ := clamp448_form k.val
  obtain ⟨n, hn, h1', h2'⟩ := clamp448_form k'.val
  have h4 : 4 • P ≠ 0 := fun h => hs ((four_smul_iff P _ hu.symm).1 h)
  obtain ⟨hlt, hr⟩ := x448_point (F := F) k u _ (eval_x448 k u) hu hm
  obtain ⟨hlt', hr'⟩ := x448_point (F := F) k' u _ (eval_x448 k' u) hu hn
  have hA := mem_A_iff hu h0
  rw [eval_x448, eval_x448, Option.some_inj]
  have step : (montMulScalar F u (Arr.ofVal 14 (2 ^ 32) (by norm_num) (clamp448 k.val)) =
      montMulScalar F u (Arr.ofVal 14 (2 ^ 32) (by norm_num) (clamp448 k'.val))) ↔
      (m • (4 • P) = n • (4 • P) ∨ m • (4 • P) = (-(n • (4 • P) : C) : C)) := by
    rw [← same_output hu hu, ← hr, ← hr']
    exact ⟨fun h => by rw [h], fun h => bytes_ext hlt hlt' ((algebraMap Fp KK).injective h)⟩
  rw [step, hm, hn]
  have key : ∀ q, addOrderOf (4 • P) = q → 2 ^ 445 < q → q < 2 ^ 447 → ∀ a, (q = ell ∧ a = 2 ∨
      q = ellTwist ∧ a = 1) → ((m • (4 • P) = n • (4 • P) ∨ m • (4 • P) = (-(n • (4 • P) : C) : C)) ↔
      m = n ∨ m + n = a * q) := by
    intro q hq q1 q2 a ha
    constructor
    · rintro (h | h)
      · left
        exact eq_of_smul (c := 2 ^ 445) h1 h1' (by rw [hq]; omega) (by rw [hq]; omega) h
      · right
        obtain ⟨c, hc⟩ := dvd_add_of_smul h
        rw [hq] at hc
        rw [hc, mul_comm]
        congr 1
        rcases c with _ | _ | _ | c
        · omega
        · omega
        · omega
        · have : q * 3 ≤ q * (c + 1 + 1 + 1) := Nat.mul_le_mul_left _ (by omega)
          have : 3 * 2 ^ 445 < q * 3 := by omega
          exfalso
          rcases ha with ⟨rfl, -⟩ | ⟨rfl, -⟩
          · have hell : 2 ^ 447 < ell * 3 := by rw [ell_lit]; decide +kernel
            omega
          · omega
    · rintro (h | h)
      · left; rw [h]
      · right
        rw [eq_neg_iff_add_eq_zero, ← add_nsmul, h, mul_comm, mul_nsmul, ← hq,
          addOrderOf_nsmul_eq_zero, nsmul_zero]
  by_cases hc : OnCurve448 (u.val : Fp)
  · rw [key ell (A_order (hA.2 hc) h4) b1 (by omega) 2 (Or.inl ⟨rfl, rfl⟩)]
    simp only [hc, true_and, not_true_eq_false, false_and, or_false]
    omega
  · have hT : P ∈ T := (A_or_T hu).resolve_left fun h => hc (hA.1 h)
    rw [key ellTwist (T_order hT h4) (by omega) b4 1 (Or.inr ⟨rfl, rfl⟩)]
    simp only [hc, not_false_eq_true, true_and, false_and, false_or]
    omega

theorem onCurve_five : OnCurve448 5 := f_five_square

/-- Public keys: two secret keys have the same public key exactly when their clamped values agree or
add up to `8 ell`. -/
theorem C63_public_keys (k k' : Bytes 56) :
    (x448 k montGenerator).eval F = (x448 k' montGenerator).eval F ↔
      clamp448 k.val = clamp448 k'.val ∨ clamp448 k.val + clamp448 k'.val = 8 * ell := by
  have h5 : ((montGenerator.val : ℕ) : Fp) = 5 := by rw [montGenerator_val]; norm_num
  have hs : ¬ SmallOrder ((montGenerator.val : ℕ) : Fp) := by
    rw [h5]
    rintro (h | h | h)
    · exact smallNat_ne_zero 5 (by norm_num) (by norm_num) (by exact_mod_cast h)
    · exact smallNat_ne_zero 4 (by norm_num) (by norm_num) (by push_cast; linear_combination h)
    · exact smallNat_ne_zero 6 (by norm_num) (by norm_num) (by push_cast; linear_combination h)
  rw [C63_same_output k k' montGenerator hs, h5]
  simp [onCurve_five]

/-- Whether two inputs give the same output does not depend on the secret key, the key `4 ell` aside:
the points agree up to sign and small order. -/
theorem C63_same_inputs (k k' u u' : Bytes 56) (hk : clamp448 k.val ≠ 4 * ell)
    (h : (x448 k u).eval F = (x448 k u').eval F) : (x448 k' u).eval F = (x448 k' u').eval F := by
  obtain ⟨P, h0, hu⟩ := exists_point (u.val : Fp)
  obtain ⟨P', h0', hu'⟩ := exists_point (u'.val : Fp)
  obtain ⟨m, hm, h1, h2⟩ := clamp448_form k.val
  obtain ⟨n, hn, h1', h2'⟩ := clamp448_form k'.val
  have hml : m ≠ ell := by omega
  obtain ⟨hlt, hr⟩ := x448_point (F := F) k u _ (eval_x448 k u) hu hm
  obtain ⟨hlt', hr'⟩ := x448_point (F := F) k u' _ (eval_x448 k u') hu' hm
  obtain ⟨klt, kr⟩ := x448_point (F := F) k' u _ (eval_x448 k' u) hu hn
  obtain ⟨klt', kr'⟩ := x448_point (F := F) k' u' _ (eval_x448 k' u') hu' hn
  rw [eval_x448, eval_x448, Option.some_inj] at h ⊢
  rw [h, hr', eq_comm, same_output hu hu'] at hr
  refine bytes_ext klt klt' ((algebraMap Fp KK).injective ?_)
  rw [kr, kr', same_output hu hu']
  -- the difference (or sum) of the two points is killed by `m`, hence by 4
  have cancel : ∀ {Q : C}, (Q ∈ A ∨ Q ∈ T) → m • (4 • Q) = 0 → 4 • Q = 0 := by
    intro Q hQ hz
    by_contra h4
    obtain ⟨b1, b2, b3, b4⟩ := ell_bounds
    have hd := addOrderOf_dvd_of_nsmul_eq_zero hz
    rcases hQ with hQ | hQ
    · rw [A_order hQ h4] at hd
      obtain ⟨c, hc⟩ := hd
      have h445 : (2 : ℕ) ^ 446 = 2 * 2 ^ 445 := by norm_num
      rcases c with _ | _ | c
      · omega
      · omega
      · have : ell * 2 ≤ ell * (c + 1 + 1) := Nat.mul_le_mul_left _ (by omega)
        omega
    · rw [T_order hQ h4] at hd
      have := Nat.le_of_dvd (by omega) hd
      omega
  -- points on the curve and on the twist have no common multiples of odd order
  have mixed : ∀ {Q R : C}, Q ∈ A → R ∈ T → (m • (4 • Q) = m • (4 • R) ∨ m • (4 • Q) = (-(m • (4 • R) : C) : C))
      → 4 • Q = 0 ∧ 4 • R = 0 := by
    intro Q R hQ hR e
    have hz : m • (4 • R) ∈ A := by
      have hQ' : m • (4 • Q) ∈ A := A.nsmul_mem (A.nsmul_mem hQ _) _
      rcases e with e | e
      · rwa [e] at hQ'
      · rw [e] at hQ'; exact (neg_mem_iff).1 hQ'
    have hzT : m • (4 • R) ∈ T := T.nsmul_mem (T.nsmul_mem hR _) _
    have e2 : m • (4 • R) = (-(m • (4 • R) : C) : C) := (mem_A.1 hz).symm.trans (mem_T.1 hzT)
    have e3 : (2 * m) • (4 • R) = 0 := by
      rw [mul_comm, mul_nsmul, two_nsmul]
      exact eq_neg_iff_add_eq_zero.1 e2
    have hRz : m • (4 • R) = 0 := by
      by_cases h4 : 4 • R = 0
      · rw [h4, nsmul_zero]
      have hd := addOrderOf_dvd_of_nsmul_eq_zero e3
      rw [← addOrderOf_dvd_iff_nsmul_eq_zero]
      rw [T_order hR h4] at hd ⊢
      have hc : Nat.Coprime ellTwist 2 := by rw [ellTwist_lit]; decide +kernel
      exact hc.dvd_of_dvd_mul_left hd
    refine ⟨cancel (Or.inl hQ) ?_, cancel (Or.inr hR) hRz⟩
    rcases e with e | e <;> rw [e, hRz]
    exact neg_zero
  have both : ∀ {S : AddSubgroup C}, (∀ Q ∈ S, Q ∈ A ∨ Q ∈ T) → P ∈ S → P' ∈ S →
      n • (4 • P) = n • (4 • P') ∨ n • (4 • P) = (-(n • (4 • P') : C) : C) := by
    intro S hS hP hP'
    rcases hr with e | e
    · left
      have : m • (4 • (P - P')) = 0 := by rw [nsmul_sub, nsmul_sub, e, sub_self]
      have := cancel (hS _ (S.sub_mem hP hP')) this
      rw [nsmul_sub, sub_eq_zero] at this
      rw [this]
    · right
      have : m • (4 • (P + P')) = 0 := by rw [nsmul_add, nsmul_add, e, neg_add_cancel]
      have := cancel (hS _ (S.add_mem hP hP')) this
      rw [nsmul_add, add_eq_zero_iff_eq_neg] at this
      rw [this, neg_nsmul]
  rcases A_or_T hu with hP | hP <;> rcases A_or_T hu' with hP' | hP'
  · exact both (S := A) (fun _ h => Or.inl h) hP hP'
  · obtain ⟨e1, e2⟩ := mixed hP hP' hr
    left; rw [e1, e2]
  · obtain ⟨e1, e2⟩ := mixed hP' hP (by
      rcases hr with e | e
      · exact Or.inl e.symm
      · right; rw [e, neg_neg])
    left; rw [e1, e2]
  · exact both (S := T) (fun _ h => Or.inr h) hP hP'

/-! ## Examples -/

/-- A key whose clamped value is `4 ell`: every shared secret with it is zero. -/
def zeroKey : Bytes 56 := Arr.ofVal 56 256 (by norm_num) (4 * ell)

theorem zeroKey_clamp : clamp448 zeroKey.val = 4 * ell := by
  unfold zeroKey
  rw [Arr.ofVal_val _ _ (by rw [ell_lit]; norm_num), ell_lit]
  decide +kernel

/-- The public key of `zeroKey` is zero. -/
example (r : Bytes 56) (h : (x448 zeroKey montGenerator).eval F = some r) : r.val = 0 := by
  rw [C62_zero_output _ _ _ h]
  right
  refine ⟨zeroKey_clamp, ?_⟩
  rw [montGenerator_val]
  exact_mod_cast onCurve_five

/-- `u = 6` is on the twist, `u = 5` on the curve. -/
example : ¬ OnCurve448 6 := by
  have : (6 : Fp) ^ 3 + 156326 * 6 ^ 2 + 6 = ((5627958 : ℕ) : Fp) := by norm_num
  unfold OnCurve448
  rw [this, isSquare_nat_iff (by rw [p_lit]; decide +kernel), p_lit]
  decide +kernel

/-- Different secrets with the same public key: `4 (ell - 1)` and `4 (ell + 1)`. -/
example : clamp448 (4 * (ell - 1)) ≠ clamp448 (4 * (ell + 1)) ∧
    clamp448 (4 * (ell - 1)) + clamp448 (4 * (ell + 1)) = 8 * ell := by
  rw [ell_lit]; decide +kernel

end Ed448.Props
