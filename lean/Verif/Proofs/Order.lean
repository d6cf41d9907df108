import Verif.Proofs.Isogeny
import Mathlib.GroupTheory.Sylow
import Mathlib.GroupTheory.OrderOfElement

/-!
# The number of points of the Edwards curve
-/

namespace Ed448

set_option exponentiation.threshold 1000
open Edw Iso

/-! ## `l • G = 0`, by kernel evaluation -/

/-- Forces evaluation of a number (in the kernel) before continuing. -/
def force {α : Type} (n : ℕ) (k : ℕ → α) : α :=
  match n with
  | 0 => k 0
  | m + 1 => k (m + 1)

theorem force_eq {α : Type} (n : ℕ) (k : ℕ → α) : force n k = k n := by cases n <;> rfl

/-- Extended coordinates as plain numbers. -/
structure NPt where
  X : ℕ
  Y : ℕ
  Z : ℕ
  T : ℕ

/-- Unified addition on numbers modulo `q` for the coefficient `dd`. -/
def nadd (q dd : ℕ) (P Q : NPt) : NPt :=
  force (P.X * Q.X % q) fun A => force (P.Y * Q.Y % q) fun B =>
  force (dd * (P.T * Q.T % q) % q) fun C => force (P.Z * Q.Z % q) fun D =>
  force ((P.X * Q.Y + P.Y * Q.X) % q) fun E' => force ((D + (q - C)) % q) fun F' =>
  force ((D + C) % q) fun G' => force ((B + (q - A)) % q) fun H' =>
  force (E' * F' % q) fun X3 => force (G' * H' % q) fun Y3 =>
  force (F' * G' % q) fun Z3 => force (E' * H' % q) fun T3 => ⟨X3, Y3, Z3, T3⟩

/-- Binary scalar multiplication on numbers. -/
def nmul (q dd : ℕ) (P : NPt) : ℕ → ℕ → NPt
  | 0, _ => ⟨0, 1, 1, 0⟩
  | f + 1, n =>
    let r := nmul q dd P f (n / 2)
    let r2 := nadd q dd r r
    if n % 2 = 1 then nadd q dd r2 P else r2

/-- The numbers represent the affine point. -/
structure NRep (P : NPt) (R : E) : Prop where
  z : (P.Z : Fp) ≠ 0
  x : (P.X : Fp) = R.x * P.Z
  y : (P.Y : Fp) = R.y * P.Z
  t : (P.T : Fp) = R.x * R.y * P.Z

theorem cast_mod (a : ℕ) : ((a % p : ℕ) : Fp) = (a : Fp) := ZMod.natCast_mod a p

theorem cast_sub_mod (a b : ℕ) : ((a + (p - b % p) : ℕ) : Fp) = (a : Fp) - (b : Fp) := by
  rw [Nat.cast_add, Nat.cast_sub (Nat.mod_lt _ p_prime.pos).le, cast_mod]
  simp [sub_eq_add_neg]

theorem nadd_rep {P Q : NPt} {R S : E} (h : NRep P R) (k : NRep Q S) :
    NRep (nadd p (p - 39081) P Q) (R + S) := by
  have h1 := den_add R.on S.on
  have h2 := den_sub R.on S.on
  have ex := Iso.add_x_mul R S
  have ey := Iso.add_y_mul R S
  have hz := mul_ne_zero h.z k.z
  simp only [nadd, force_eq]
  have hC : ((((p - 39081) * (P.T * Q.T % p)) % p : ℕ) : Fp) =
      d * R.x * S.x * R.y * S.y * ((P.Z : Fp) * Q.Z) := by
    rw [cast_mod, Nat.cast_mul, ← d_eq, cast_mod, Nat.cast_mul, h.t, k.t]; ring
  have hD : ((P.Z * Q.Z % p : ℕ) : Fp) = (P.Z : Fp) * Q.Z := by rw [cast_mod, Nat.cast_mul]
  have hA : ((P.X * Q.X % p : ℕ) : Fp) = R.x * S.x * ((P.Z : Fp) * Q.Z) := by
    rw [cast_mod, Nat.cast_mul, h.x, k.x]; ring
  have hB : ((P.Y * Q.Y % p : ℕ) : Fp) = R.y * S.y * ((P.Z : Fp) * Q.Z) := by
    rw [cast_mod, Nat.cast_mul, h.y, k.y]; ring
  have hE : (((P.X * Q.Y + P.Y * Q.X) % p : ℕ) : Fp) =
      (R.x * S.y + R.y * S.x) * ((P.Z : Fp) * Q.Z) := by
    rw [cast_mod, Nat.cast_add, Nat.cast_mul, Nat.cast_mul, h.x, k.x, h.y, k.y]; ring
  have hF : (((P.Z * Q.Z % p + (p - (p - 39081) * (P.T * Q.T % p) % p)) % p : ℕ) : Fp) =
      (1 - d * R.x * S.x * R.y * S.y) * ((P.Z : Fp) * Q.Z) := by
    rw [cast_mod, cast_sub_mod, hD, ← cast_mod ((p - 39081) * _), hC]; ring
  have hG : (((P.Z * Q.Z % p + (p - 39081) * (P.T * Q.T % p) % p) % p : ℕ) : Fp) =
      (1 + d * R.x * S.x * R.y * S.y) * ((P.Z : Fp) * Q.Z) := by
    rw [cast_mod, Nat.cast_add, hC, hD]; ring
  have hH : (((P.Y * Q.Y % p + (p - P.X * Q.X % p)) % p : ℕ) : Fp) =
      (R.y * S.y - R.x * S.x) * ((P.Z : Fp) * Q.Z) := by
    rw [cast_mod, cast_sub_mod, hB, ← cast_mod (P.X * Q.X), hA]; ring
  rw [← ex] at hE
  rw [← ey] at hH
  generalize (P.X * Q.Y + P.Y * Q.X) % p = e at *
  generalize (P.Z * Q.Z % p + (p - (p - 39081) * (P.T * Q.T % p) % p)) % p = f at *
  generalize (P.Z * Q.Z % p + (p - 39081) * (P.T * Q.T % p) % p) % p = g at *
  generalize (P.Y * Q.Y % p + (p - P.X * Q.X % p)) % p = hh at *
  refine ⟨?_, ?_, ?_, ?_⟩
  · show ((f * g % p : ℕ) : Fp) ≠ 0
    rw [cast_mod, Nat.cast_mul, hF, hG]
    exact mul_ne_zero (mul_ne_zero h2 hz) (mul_ne_zero h1 hz)
  · show ((e * f % p : ℕ) : Fp) = _ * ((f * g % p : ℕ) : Fp)
    rw [cast_mod, cast_mod, Nat.cast_mul, Nat.cast_mul, hE, hF, hG]; ring
  · show ((g * hh % p : ℕ) : Fp) = _ * ((f * g % p : ℕ) : Fp)
    rw [cast_mod, cast_mod, Nat.cast_mul, Nat.cast_mul, hF, hG, hH]; ring
  · show ((e * hh % p : ℕ) : Fp) = _ * ((f * g % p : ℕ) : Fp)
    rw [cast_mod, cast_mod, Nat.cast_mul, Nat.cast_mul, hE, hF, hG, hH]; ring

theorem nmul_rep {P : NPt} {R : E} (h : NRep P R) : ∀ f n : ℕ, n < 2 ^ f →
    NRep (nmul p (p - 39081) P f n) (n • R)
  | 0, n, hn => by
    have : n = 0 := by simpa using hn
    subst this
    rw [zero_nsmul]
    constructor <;> simp [nmul, Pt.zero_x, Pt.zero_y]
  | f + 1, n, hn => by
    have ih := nmul_rep h f (n / 2) (by rw [pow_succ] at hn; omega)
    have h2 := nadd_rep ih ih
    rw [nmul]
    split
    · have := nadd_rep h2 h
      convert this using 1
      rw [← add_nsmul, ← succ_nsmul]
      congr 1; omega
    · convert h2 using 1
      rw [← add_nsmul]
      congr 1; omega

theorem nrep_G : NRep ⟨Gx, Gy, 1, Gx * Gy % p⟩ G := by
  refine ⟨?_, ?_, ?_, ?_⟩
  · simp
  · simp [G]
  · simp [G]
  · show ((Gx * Gy % p : ℕ) : Fp) = _
    rw [cast_mod]; simp [G]

/-- The check evaluated by the kernel. -/
def orderCheck (q n : ℕ) : Bool :=
  let r := nmul q (q - 39081) ⟨Gx, Gy, 1, Gx * Gy % q⟩ 446 n
  r.X == 0 && r.Y == r.Z

theorem orderCheck_ell : orderCheck p ell = true := by
  rw [p_lit, ell_lit]
  decide +kernel

theorem ell_G : ell • G = 0 := by
  have h := nmul_rep nrep_G 446 ell (by rw [ell_lit]; decide +kernel)
  have hc := orderCheck_ell
  unfold orderCheck at hc
  simp only [Bool.and_eq_true, beq_iff_eq] at hc
  generalize nmul p (p - 39081) ⟨Gx, Gy, 1, Gx * Gy % p⟩ 446 ell = r at *
  ext
  · have := h.x
    rw [hc.1, Nat.cast_zero] at this
    exact (mul_eq_zero.mp this.symm).resolve_right h.z
  · have := h.y
    rw [hc.2] at this
    exact mul_right_cancel₀ h.z (by rw [← this]; show (r.Z : Fp) = 1 * _; ring)

/-! ## Torsion of order dividing 4 -/

theorem sq_eq_one' {a : Fp} (h : a ^ 2 = 1) : a = 1 ∨ a = -1 := by
  have : (a - 1) * (a + 1) = 0 := by linear_combination h
  rcases mul_eq_zero.mp this with h | h
  · exact Or.inl (sub_eq_zero.mp h)
  · exact Or.inr (eq_neg_of_add_eq_zero_left h)

theorem one_sub_d_ne (x : Fp) : 1 - d * x ^ 2 ≠ 0 := by
  intro h
  have hx : x ≠ 0 := by rintro rfl; simp at h
  exact d_nonsquare ⟨x⁻¹, by field_simp; linear_combination -h⟩


theorem G_ne : G ≠ 0 := by
  intro h
  have : (Gx : Fp) = ((0 : ℕ) : Fp) := by
    rw [Nat.cast_zero]; exact congrArg Pt.x h
  exact natCast_ne_of_mod (by rw [p_lit]; decide +kernel) this

theorem two_tors {R : E} (h : R + R = 0) : R = 0 ∨ R = torsion2 := by
  have e : R = -R := eq_neg_of_add_eq_zero_left h
  have ex : R.x = -R.x := congrArg Pt.x e
  have hx : R.x = 0 := by
    have : 2 * R.x = 0 := by linear_combination ex
    exact (mul_eq_zero.mp this).resolve_left two_ne
  have hy : R.y ^ 2 = 1 := by
    have := R.on
    unfold OnCurve at this
    rw [hx] at this
    linear_combination this
  rcases sq_eq_one' hy with h | h
  · left; ext
    · exact hx
    · exact h
  · right; ext
    · exact hx
    · exact h

theorem torsion2_two : torsion2 + torsion2 = 0 := by
  ext
  · rw [two_x']; simp [t, torsion2, Pt.zero_x]
  · rw [two_y']; simp [t, N, torsion2, Pt.zero_y]

theorem torsion4_two : torsion4 + torsion4 = torsion2 := by
  ext
  · rw [two_x']; simp [t, torsion4, torsion2]
  · rw [two_y']; simp [t, N, torsion4, torsion2]

theorem torsion2_ne : torsion2 ≠ 0 := by
  intro h
  have h' : (-1 : Fp) = 1 := congrArg Pt.y h
  apply two_ne
  linear_combination -h'

/-- `2R = (0, -1)` forces `xy = 0`. -/
theorem t_zero_of_four {R : E} (h : (4 : ℕ) • R = 0) : t R = 0 := by
  have h2 : (R + R) + (R + R) = 0 := by rw [← h]; abel
  have hx : (R + R).x = 0 := by
    rcases two_tors h2 with e | e <;> rw [e] <;> rfl
  have := two_x R
  rw [hx, zero_mul] at this
  exact (mul_eq_zero.mp this.symm).resolve_left two_ne

theorem four_of_t_zero {R : E} (h : t R = 0) : (4 : ℕ) • R = 0 := by
  have hx : (R + R).x = 0 := by rw [two_x', h]; simp
  have e : (4 : ℕ) • R = (R + R) + (R + R) := by abel
  rw [e]
  have ht : t (R + R) = 0 := by unfold t; rw [hx]; ring
  have hy : (R + R).y ^ 2 = 1 := by
    have := (R + R).on
    unfold OnCurve at this
    rw [hx] at this
    linear_combination this
  ext
  · rw [two_x', ht]; simp [Pt.zero_x]
  · rw [two_y', ht]; unfold N; rw [hx, hy]; simp [Pt.zero_y]

/-- The kernel of multiplication by 4 is the set of points with `x y = 0`. -/
theorem four_iff {R : E} : (4 : ℕ) • R = 0 ↔ t R = 0 := ⟨t_zero_of_four, four_of_t_zero⟩

/-- There are exactly four such points. -/
theorem four_tors {R : E} (h : (4 : ℕ) • R = 0) :
    R = 0 ∨ R = torsion2 ∨ R = torsion4 ∨ R = -torsion4 := by
  have ht := t_zero_of_four h
  have on := R.on
  unfold OnCurve at on
  rcases mul_eq_zero.mp ht with hx | hy
  · rw [hx] at on
    rcases sq_eq_one' (show R.y ^ 2 = 1 by linear_combination on) with h | h
    · left; ext
      · exact hx
      · exact h
    · right; left; ext
      · exact hx
      · exact h
  · rw [hy] at on
    rcases sq_eq_one' (show R.x ^ 2 = 1 by linear_combination on) with h | h
    · right; right; left; ext
      · exact h
      · exact hy
    · right; right; right; ext
      · exact h
      · exact hy

/-- No point has order 8. -/
theorem no_order_eight {R : E} (h : (8 : ℕ) • R = 0) : (4 : ℕ) • R = 0 := by
  have h4 : (4 : ℕ) • (R + R) = 0 := by rw [← h]; abel
  have ht := t_zero_of_four h4
  rcases mul_eq_zero.mp ht with hx | hy
  · have := two_x R
    rw [hx, zero_mul] at this
    exact four_of_t_zero ((mul_eq_zero.mp this.symm).resolve_left two_ne)
  · have := two_y R
    rw [hy, zero_mul] at this
    exact absurd this.symm (N_ne R)

/-! ## Counting -/

/-- Points inject into pairs (x, sign). -/
theorem y_sq (R : E) : R.y ^ 2 = (1 - R.x ^ 2) / (1 - d * R.x ^ 2) := by
  have hd : 1 - d * R.x ^ 2 ≠ 0 := one_sub_d_ne R.x
  rw [eq_div_iff hd]
  have := R.on
  unfold OnCurve at this
  linear_combination this

noncomputable instance : DecidableEq E := Classical.decEq _

instance : Finite E :=
  Finite.of_injective (fun R : E => (R.x, R.y)) fun R S h => by
    ext
    · exact congrArg Prod.fst h
    · exact congrArg Prod.snd h

theorem card_le : Nat.card E ≤ 2 * p := by
  have inj : Function.Injective (fun R : E => (R.x, decide (R.y.val % 2 = 1))) := by
    intro R S h
    have hx : R.x = S.x := congrArg Prod.fst h
    have hs : decide (R.y.val % 2 = 1) = decide (S.y.val % 2 = 1) := congrArg Prod.snd h
    ext
    · exact hx
    · have hy : R.y ^ 2 = S.y ^ 2 := by rw [y_sq, y_sq, hx]
      rcases sq_eq_sq_iff_eq_or_eq_neg.mp hy with e | e
      · exact e
      · by_cases h0 : S.y = 0
        · rw [e, h0, neg_zero]
        · exfalso
          have hv : (-S.y).val = p - S.y.val := by
            have : NeZero S.y := ⟨h0⟩
            exact ZMod.val_neg_of_ne_zero S.y
          have hlt : S.y.val < p := ZMod.val_lt _
          have hodd : p % 2 = 1 := by rw [p_lit]
          rw [e, hv] at hs
          rw [decide_eq_decide] at hs
          omega
  have := Nat.card_le_card_of_injective _ inj
  rw [Nat.card_prod, Nat.card_zmod] at this
  simpa [mul_comm] using this

theorem ell_dvd : ell ∣ Nat.card E := by
  have : addOrderOf G = ell := by
    have : Fact ell.Prime := ⟨ell_prime⟩
    exact addOrderOf_eq_prime ell_G G_ne
  rw [← this]; exact addOrderOf_dvd_natCard G

theorem addOrderOf_G : addOrderOf G = ell := by
  have : Fact ell.Prime := ⟨ell_prime⟩
  exact addOrderOf_eq_prime ell_G G_ne

theorem four_torsion4 : (4 : ℕ) • torsion4 = 0 := by
  have : (4 : ℕ) • torsion4 = (torsion4 + torsion4) + (torsion4 + torsion4) := by abel
  rw [this, torsion4_two, torsion2_two]

theorem addOrderOf_torsion4 : addOrderOf torsion4 = 4 := by
  have : addOrderOf torsion4 = 2 ^ (1 + 1) := by
    apply addOrderOf_eq_prime_pow
    · rw [pow_one, two_nsmul, torsion4_two]; exact torsion2_ne
    · exact four_torsion4
  exact this

theorem four_dvd : 4 ∣ Nat.card E := by
  rw [← addOrderOf_torsion4]; exact addOrderOf_dvd_natCard _

theorem not_eight_dvd : ¬ 8 ∣ Nat.card E := by
  intro h
  have h8 : 2 ^ 3 ∣ Nat.card (Multiplicative E) := h
  have : Fact (Nat.Prime 2) := ⟨Nat.prime_two⟩
  have : Finite (Multiplicative E) := inferInstanceAs (Finite E)
  obtain ⟨K, hK⟩ := Sylow.exists_subgroup_card_pow_prime (G := Multiplicative E) 2 h8
  have all : ∀ x : K, (4 : ℕ) • (Multiplicative.toAdd (x : Multiplicative E)) = 0 := by
    intro x
    apply no_order_eight
    have := pow_card_eq_one' (x := x)
    rw [hK] at this
    have h2 : ((x : Multiplicative E)) ^ 8 = 1 := by
      have := congrArg Subtype.val this
      simpa using this
    have := congrArg Multiplicative.toAdd h2
    simpa using this
  have inj : Function.Injective (fun x : K =>
      (⟨Multiplicative.toAdd (x : Multiplicative E), by
        rcases four_tors (all x) with h | h | h | h <;> simp [h]⟩ :
        ({0, torsion2, torsion4, -torsion4} : Finset E))) := by
    intro x y h
    have h' := Subtype.mk.inj h
    exact Subtype.ext h'
  have := Nat.card_le_card_of_injective _ inj
  rw [hK, Nat.card_eq_fintype_card, Fintype.card_coe] at this
  have h4 : ({0, torsion2, torsion4, -torsion4} : Finset E).card ≤ 4 := Finset.card_le_four
  omega

/-- The curve has exactly `4 l` points. -/
theorem card_E : Nat.card E = 4 * ell := by
  have hc : Nat.Coprime 4 ell := by rw [ell_lit]; decide +kernel
  obtain ⟨k, hk⟩ := Nat.Coprime.mul_dvd_of_dvd_of_dvd hc four_dvd ell_dvd
  have hle := card_le
  have h8 := not_eight_dvd
  have hpos : 0 < Nat.card E := Nat.card_pos
  have hb : 2 * p < 12 * ell := by rw [p_lit, ell_lit]; decide +kernel
  rw [hk] at hle h8 hpos
  have hk0 : k ≠ 0 := by rintro rfl; simp at hpos
  have hk3 : k < 3 := by
    by_contra hcon
    have : 4 * ell * 3 ≤ 4 * ell * k := Nat.mul_le_mul_left _ (by omega)
    omega
  have hk2 : k ≠ 2 := by
    rintro rfl
    exact h8 ⟨ell, by ring⟩
  have : k = 1 := by omega
  rw [hk, this, mul_one]

theorem zmultiples_index : (AddSubgroup.zmultiples G).index = 4 := by
  have h := AddSubgroup.card_mul_index (AddSubgroup.zmultiples G)
  rw [Nat.card_zmultiples, addOrderOf_G, card_E, mul_comm 4] at h
  exact Nat.eq_of_mul_eq_mul_left ell_prime.pos h

theorem four_mem (R : E) : (4 : ℕ) • R ∈ AddSubgroup.zmultiples G := by
  have := AddSubgroup.nsmul_index_mem (AddSubgroup.zmultiples G) R
  rwa [zmultiples_index] at this

/-- The prime-order subgroup is generated by the base point. -/
theorem ell_nsmul_iff (R : E) : ell • R = 0 ↔ R ∈ AddSubgroup.zmultiples G := by
  constructor
  · intro h
    -- ell = 4 k + 3, so R = (4 (k + 1) - ell) R
    have he : 4 * (ell / 4 + 1) = ell + 1 := by rw [ell_lit]
    have : R = (ell / 4 + 1) • ((4 : ℕ) • R) := by
      rw [← mul_nsmul, he, add_nsmul, h, zero_add, one_nsmul]
    rw [this]
    exact AddSubgroup.nsmul_mem _ (four_mem R) _
  · intro h
    obtain ⟨k, rfl⟩ := AddSubgroup.mem_zmultiples_iff.mp h
    rw [smul_comm, ell_G, smul_zero]

theorem four_ell (R : E) : (4 * ell) • R = 0 := by
  rw [← card_E]; exact card_nsmul_eq_zero'

end Ed448
