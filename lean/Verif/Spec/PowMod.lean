import Mathlib.NumberTheory.LucasPrimality
import Mathlib.Data.ZMod.Basic
import Mathlib.Tactic.Ring
import Mathlib.Tactic.NormNum.Prime
import Mathlib.FieldTheory.Finite.Basic
import Mathlib.Tactic.Linarith

/-!
# Kernel-evaluable modular exponentiation and primality certificates

`powMod` is a plain square-and-multiply that the Lean kernel can run on big numbers; the
theorems below turn such runs into facts about `ZMod`.
-/

namespace Ed448

/-- `b^e mod m` by square and multiply; `fuel` bounds the number of binary digits of `e`. -/
def powMod (m b : ℕ) : ℕ → ℕ → ℕ
  | 0, _ => 1 % m
  | f + 1, e =>
    if e = 0 then 1 % m else
      let r := powMod m b f (e / 2)
      if e % 2 = 1 then (r * r % m * b) % m else r * r % m

theorem powMod_eq (m b : ℕ) : ∀ f e : ℕ, e < 2 ^ f → powMod m b f e = b ^ e % m
  | 0, e, h => by
    have : e = 0 := by simpa using h
    subst this; simp [powMod]
  | f + 1, e, h => by
    unfold powMod
    split
    · next h0 => subst h0; simp
    · have h2 : e / 2 < 2 ^ f := by
        rw [pow_succ] at h; omega
      have ih := powMod_eq m b f (e / 2) h2
      have hsq : b ^ (e / 2) % m * (b ^ (e / 2) % m) % m = b ^ (e / 2 + e / 2) % m := by
        rw [pow_add, ← Nat.mul_mod]
      simp only [ih]
      split
      · next h1 =>
        rw [hsq, Nat.mod_mul_mod, ← pow_succ]
        congr 2; omega
      · next h1 =>
        rw [hsq]; congr 2; omega

theorem powMod_cast (m b f e : ℕ) (h : e < 2 ^ f) :
    ((powMod m b f e : ℕ) : ZMod m) = (b : ZMod m) ^ e := by
  rw [powMod_eq m b f e h, ZMod.natCast_mod, Nat.cast_pow]

/-- Check of a Lucas/Pratt certificate; `fs` lists prime powers whose product is `n-1`. -/
def prattCheck (n a : ℕ) (fs : List (ℕ × ℕ)) : Bool :=
  decide (1 < n) && decide (n < 2 ^ 512) && ((fs.map fun f => f.1 ^ f.2).prod == n - 1) &&
    (powMod n a 512 (n - 1) == 1) &&
    fs.all fun f => powMod n a 512 ((n - 1) / f.1) != 1

theorem pratt (n a : ℕ) (fs : List (ℕ × ℕ)) (hp : ∀ f ∈ fs, f.1.Prime)
    (h : prattCheck n a fs = true) : n.Prime := by
  simp only [prattCheck, Bool.and_eq_true, decide_eq_true_eq, beq_iff_eq, List.all_eq_true,
    bne_iff_ne] at h
  obtain ⟨⟨⟨⟨h1, hlt⟩, hprod⟩, hone⟩, hne⟩ := h
  have : NeZero n := ⟨by omega⟩
  have : Fact (1 < n) := ⟨h1⟩
  have hb : ∀ k, k ≤ n - 1 → k < 2 ^ 512 := fun k hk => by omega
  refine lucas_primality n (a : ZMod n) ?_ ?_
  · rw [← powMod_cast n a 512 _ (hb _ le_rfl), hone]; simp
  · intro q hq hqd
    rw [← powMod_cast n a 512 _ (hb _ (Nat.div_le_self _ _))]
    have : ∃ f ∈ fs, f.1 = q := by
      rw [← hprod] at hqd
      obtain ⟨x, hx, hqx⟩ := (Nat.Prime.prime hq).dvd_prod_iff.mp hqd
      obtain ⟨f, hf, rfl⟩ := List.mem_map.mp hx
      refine ⟨f, hf, ?_⟩
      exact ((Nat.prime_dvd_prime_iff_eq hq (hp f hf)).mp (hq.dvd_of_dvd_pow hqx)).symm
    obtain ⟨f, hf, rfl⟩ := this
    have hlt' : powMod n a 512 ((n - 1) / f.1) < n := by
      rw [powMod_eq _ _ _ _ (hb _ (Nat.div_le_self _ _))]
      exact Nat.mod_lt _ (by omega)
    intro hc
    apply hne f hf
    have := congrArg ZMod.val hc
    rwa [ZMod.val_natCast_of_lt hlt', ZMod.val_one] at this

/-- Check of a Brillhart–Lehmer–Selfridge certificate: `fs` lists distinct primes dividing `n-1`
whose product `F` exceeds the cube root of `n`. The last conditions say that `n = c₂F² + c₁F + 1`
with `c₂ + 1 < F` and `c₁² - 4c₂` strictly between two consecutive squares. -/
def blsCheck (n a c1 c2 s : ℕ) (fs : List ℕ) : Bool :=
  let F := fs.prod
  decide (1 < n) && decide (n < 2 ^ 512) && decide (c1 < F) && decide (c2 + 1 < F) &&
    (n == c2 * F * F + c1 * F + 1) &&
    (powMod n a 512 (n - 1) == 1) && decide (fs.Nodup) &&
    (fs.all fun f => decide (Nat.gcd (powMod n a 512 ((n - 1) / f) + (n - 1)) n = 1) && decide ((n-1) % f = 0)) &&
    decide (s * s + 4 * c2 < c1 * c1) && decide (c1 * c1 < (s + 1) * (s + 1) + 4 * c2)

theorem bls_factor (n a q f : ℕ) (hn : 1 < n) (hlt : n < 2 ^ 512) (hq : q.Prime) (hqn : q ∣ n)
    (hf : f.Prime) (hfd : f ∣ n - 1) (h1 : powMod n a 512 (n - 1) = 1)
    (hg : Nat.gcd (powMod n a 512 ((n - 1) / f) + (n - 1)) n = 1) : f ∣ q - 1 := by
  have : Fact q.Prime := ⟨hq⟩
  have hb : ∀ k, k ≤ n - 1 → k < 2 ^ 512 := fun k hk => by omega
  have hcast : ∀ k, k ≤ n - 1 → ((powMod n a 512 k : ℕ) : ZMod q) = (a : ZMod q) ^ k := by
    intro k hk
    rw [powMod_eq _ _ _ _ (hb k hk), ← Nat.cast_pow]
    rw [ZMod.natCast_eq_natCast_iff]
    exact (Nat.mod_modEq _ _).of_dvd hqn
  have e1 : (a : ZMod q) ^ (n - 1) = 1 := by rw [← hcast _ le_rfl, h1]; simp
  have e2 : (a : ZMod q) ^ ((n - 1) / f) ≠ 1 := by
    intro hc
    rw [← hcast _ (Nat.div_le_self _ _)] at hc
    have : ((powMod n a 512 ((n - 1) / f) + (n - 1) : ℕ) : ZMod q) = 0 := by
      have hn0 : ((n : ℕ) : ZMod q) = 0 := (ZMod.natCast_eq_zero_iff _ _).mpr hqn
      have : ((n - 1 : ℕ) : ZMod q) = -1 := by
        rw [Nat.cast_sub (by omega), hn0]; simp
      rw [Nat.cast_add, hc, this]; ring
    have hd := (ZMod.natCast_eq_zero_iff _ _).mp this
    have := Nat.dvd_gcd hd hqn
    rw [hg] at this
    exact hq.one_lt.ne' (Nat.dvd_one.mp this)
  have ho : f ∣ orderOf (a : ZMod q) := by
    by_contra hnd
    have hcop : Nat.Coprime (orderOf (a : ZMod q)) f :=
      (Nat.coprime_comm.mp ((Nat.Prime.coprime_iff_not_dvd hf).mpr hnd))
    have hdiv : orderOf (a : ZMod q) ∣ n - 1 := orderOf_dvd_of_pow_eq_one e1
    rw [← Nat.div_mul_cancel hfd] at hdiv
    exact e2 (orderOf_dvd_iff_pow_eq_one.mp (hcop.dvd_of_dvd_mul_right hdiv))
  refine ho.trans (orderOf_dvd_of_pow_eq_one (ZMod.pow_card_sub_one_eq_one ?_))
  intro h0
  rw [h0, zero_pow (by omega)] at e1
  exact zero_ne_one e1

theorem bls_arith {F A B c1 c2 s : ℕ} (hF0 : 0 < F) (hc1 : c1 < F) (hc2 : c2 + 1 < F)
    (hs1 : s * s + 4 * c2 < c1 * c1) (hs2 : c1 * c1 < (s + 1) * (s + 1) + 4 * c2)
    (hA0 : 0 < A) (hB0 : 0 < B) (e3 : c2 * F + c1 = A * B * F + (A + B)) : False := by
  have hAB : A * B ≤ c2 := by
    by_contra hcon
    have h : (c2 + 1) * F ≤ A * B * F := Nat.mul_le_mul_right _ (by omega)
    rw [add_mul, one_mul] at h
    omega
  have hsum : A + B ≤ A * B + 1 := by
    obtain ⟨a, rfl⟩ := Nat.exists_eq_succ_of_ne_zero hA0.ne'
    obtain ⟨b, rfl⟩ := Nat.exists_eq_succ_of_ne_zero hB0.ne'
    simp only [Nat.succ_eq_add_one]
    nlinarith [Nat.zero_le (a * b)]
  have hsumF : A + B < F := by omega
  have e1 : (c2 * F + c1) / F = c2 := by
    rw [mul_comm, Nat.mul_add_div hF0, Nat.div_eq_of_lt hc1]; simp
  have e2 : (A * B * F + (A + B)) / F = A * B := by
    rw [mul_comm (A * B), Nat.mul_add_div hF0, Nat.div_eq_of_lt hsumF]; simp
  have h2 : c2 = A * B := by rw [← e1, e3, e2]
  have h1 : c1 = A + B := by rw [h2] at e3; omega
  clear e1 e2 e3 hsumF hsum hAB hc1 hc2 hF0 F
  subst h1 h2
  rcases le_total A B with hAB' | hAB'
  · obtain ⟨k, rfl⟩ := Nat.exists_eq_add_of_le hAB'
    have h3 : s * s < k * k := by linarith
    have h4 : k * k < (s + 1) * (s + 1) := by linarith
    have := Nat.mul_self_lt_mul_self_iff.mp h3
    have := Nat.mul_self_lt_mul_self_iff.mp h4
    omega
  · obtain ⟨k, rfl⟩ := Nat.exists_eq_add_of_le hAB'
    have h3 : s * s < k * k := by linarith
    have h4 : k * k < (s + 1) * (s + 1) := by linarith
    have := Nat.mul_self_lt_mul_self_iff.mp h3
    have := Nat.mul_self_lt_mul_self_iff.mp h4
    omega

theorem bls (n a c1 c2 s : ℕ) (fs : List ℕ) (hp : ∀ f ∈ fs, f.Prime)
    (h : blsCheck n a c1 c2 s fs = true) : n.Prime := by
  simp only [blsCheck, Bool.and_eq_true, decide_eq_true_eq, beq_iff_eq, List.all_eq_true] at h
  obtain ⟨⟨⟨⟨⟨⟨⟨⟨⟨h1, hlt⟩, hc1⟩, hc2⟩, hnF⟩, hone⟩, hnd⟩, hg⟩, hs1⟩, hs2⟩ := h
  set F := fs.prod with hF
  have key : ∀ q, q.Prime → q ∣ n → F ∣ q - 1 := by
    intro q hq hqn
    have hall : ∀ f ∈ fs, f ∣ q - 1 := fun f hf =>
      bls_factor n a q f h1 hlt hq hqn (hp f hf) (Nat.dvd_of_mod_eq_zero (hg f hf).2) hone (hg f hf).1
    rw [hF]
    clear_value F
    clear hF hg hnF hc1 hc2
    induction fs with
    | nil => simp
    | cons f fs ih =>
      rw [List.prod_cons]
      refine Nat.Coprime.mul_dvd_of_dvd_of_dvd ?_ (hall f (by simp)) ?_
      · refine Nat.Coprime.symm (Nat.coprime_list_prod_left_iff.mpr ?_)
        intro g hg
        refine (Nat.coprime_primes (hp g (by simp [hg])) (hp f (by simp))).mpr ?_
        rintro rfl
        exact (List.nodup_cons.mp hnd).1 hg
      · exact ih (fun g hg => hp g (by simp [hg])) (List.nodup_cons.mp hnd).2
          (fun g hg => hall g (by simp [hg]))
  by_contra hnp
  obtain ⟨q, hq, hqn⟩ := Nat.exists_prime_and_dvd (n := n) (by omega)
  obtain ⟨m, hm⟩ := hqn
  obtain ⟨A, hA⟩ := key q hq ⟨m, hm⟩
  have hq1 := hq.one_lt
  have hqA : q = F * A + 1 := by omega
  have hF0 : 0 < F := by omega
  have hm1 : 1 < m := by
    rcases Nat.lt_or_ge 1 m with h | h
    · exact h
    · interval_cases m
      · omega
      · exfalso; apply hnp; rw [hm, mul_one]; exact hq
  -- m ≡ 1 mod F
  have hmF : F ∣ m - 1 := by
    have e : n = F * (c2 * F + c1) + 1 := by rw [hnF]; ring
    have e2 : F * (c2 * F + c1) = F * (A * m) + (m - 1) := by
      have : F * (c2 * F + c1) + 1 = F * (A * m) + (m - 1) + 1 := by
        rw [← e, hm, hqA]
        have : m - 1 + 1 = m := by omega
        rw [add_assoc, this]; ring
      omega
    exact (Nat.dvd_add_right (Dvd.intro _ rfl)).mp (e2 ▸ Dvd.intro _ rfl)
  obtain ⟨B, hB⟩ := hmF
  have hmB : m = F * B + 1 := by omega
  have hA0 : 0 < A := by
    rcases Nat.eq_zero_or_pos A with h | h
    · subst h; omega
    · exact h
  have hB0 : 0 < B := by
    rcases Nat.eq_zero_or_pos B with h | h
    · subst h; omega
    · exact h
  have e3 : c2 * F + c1 = A * B * F + (A + B) := by
    have : F * (c2 * F + c1) = F * (A * B * F + (A + B)) := by
      have e : n = F * (c2 * F + c1) + 1 := by rw [hnF]; ring
      have : F * (c2 * F + c1) + 1 = F * (A * B * F + (A + B)) + 1 := by
        rw [← e, hm, hqA, hmB]; ring
      omega
    exact Nat.eq_of_mul_eq_mul_left hF0 this
  exact bls_arith hF0 hc1 hc2 hs1 hs2 hA0 hB0 e3

end Ed448
