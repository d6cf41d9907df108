import Verif.Spec.Twist
import Verif.Props.Montgomery
import Verif.Proofs.Ideal
import Mathlib.GroupTheory.Sylow
import Mathlib.FieldTheory.Finite.Basic

/-!
# Orders of Curve448 and of its quadratic twist

Over the algebraic closure of `Fp` with Frobenius endomorphism `σ`, the points of Curve448 with
`u`-coordinate in `Fp` are the points with `σ P = P` (the curve) or `σ P = -P` (the twist). Both are
subgroups; they have `4 ell` and `4 ellTwist` elements.
-/

namespace Ed448.Twist
open Ed448.Model Ed448.Props
open WeierstrassCurve

set_option exponentiation.threshold 1000
set_option maxRecDepth 10000

/-- The algebraic closure of `Fp`. -/
abbrev KK := AlgebraicClosure Fp

noncomputable instance : DecidableEq KK := Classical.decEq _

/-- Points of Curve448 over the algebraic closure. -/
abbrev C := (curve448 KK).Point

theorem exists_frob_of (W : WeierstrassCurve.Affine KK)
    (h : W = ((curve448 Fp).baseChange KK).toAffine) :
    ∃ σ : W.Point →+ W.Point, ∀ x y (hxy : W.Nonsingular x y),
      ∃ h', σ (.some x y hxy) = .some (x ^ p) (y ^ p) h' := by
  subst h
  refine ⟨Affine.Point.map (W' := curve448 Fp) (FiniteField.frobeniusAlgHom Fp KK), fun x y hxy => ?_⟩
  have e : ∀ z : KK, FiniteField.frobeniusAlgHom Fp KK z = z ^ p := fun z => by
    rw [FiniteField.coe_frobeniusAlgHom, ZMod.card]
  have := Affine.Point.map_some (W' := curve448 Fp) (FiniteField.frobeniusAlgHom Fp KK) hxy
  simp only [e] at this
  exact ⟨_, this⟩

theorem exists_frob : ∃ σ : C →+ C, ∀ x y (hxy : (curve448 KK).Nonsingular x y),
    ∃ h', σ (.some x y hxy) = .some (x ^ p) (y ^ p) h' := by
  apply exists_frob_of
  ext <;> simp [curve448, WeierstrassCurve.baseChange, WeierstrassCurve.map,
    map_ofNat (algebraMap Fp KK) 156326]

/-- The Frobenius endomorphism on points. -/
noncomputable def σ : C →+ C := exists_frob.choose

theorem σ_some (x y) (hxy : (curve448 KK).Nonsingular x y) :
    ∃ h', σ (.some x y hxy) = .some (x ^ p) (y ^ p) h' := exists_frob.choose_spec x y hxy

/-- Points over `Fp`. -/
noncomputable def A : AddSubgroup C := (σ - AddMonoidHom.id C).ker
/-- Points of the twist. -/
noncomputable def T : AddSubgroup C := (σ + AddMonoidHom.id C).ker

theorem mem_A {P : C} : P ∈ A ↔ σ P = P := by
  unfold A; rw [AddMonoidHom.mem_ker]; simp [sub_eq_zero]
theorem mem_T {P : C} : P ∈ T ↔ σ P = -P := by
  unfold T; rw [AddMonoidHom.mem_ker]; simp [add_eq_zero_iff_eq_neg]

theorem mem_A_some {x y} (h : (curve448 KK).Nonsingular x y) :
    (Affine.Point.some x y h : C) ∈ A ↔ x ^ p = x ∧ y ^ p = y := by
  obtain ⟨h', e⟩ := σ_some x y h
  rw [mem_A, e]
  simp

theorem mem_T_some {x y} (h : (curve448 KK).Nonsingular x y) :
    (Affine.Point.some x y h : C) ∈ T ↔ x ^ p = x ∧ y ^ p = -y := by
  obtain ⟨h', e⟩ := σ_some x y h
  rw [mem_T, e, Affine.Point.neg_some, Affine.Point.some.injEq, negY_eq]

/-- The fixed field of Frobenius. -/
theorem frob_fixed {x : KK} : x ^ p = x ↔ ∃ u : Fp, algebraMap Fp KK u = x := by
  constructor
  · intro h
    have : CharP KK p := charP_of_injective_algebraMap (algebraMap Fp KK).injective p
    have h := (Subfield.mem_bot_iff_pow_eq_self KK p).2 h
    rw [← ZMod.fieldRange_castHom_eq_bot p] at h
    obtain ⟨u, hu⟩ := h
    refine ⟨u, ?_⟩
    rw [← hu]
    exact congrArg (fun f : Fp →+* KK => f u) (Subsingleton.elim _ _)
  · rintro ⟨u, rfl⟩
    rw [← map_pow, ZMod.pow_card]

/-! ## Counting -/

/-- The right-hand side of the curve equation. -/
def f (u : Fp) : Fp := u ^ 3 + 156326 * u ^ 2 + u

theorem map_f (u : Fp) : algebraMap Fp KK (f u) = algebraMap Fp KK u ^ 3 +
    156326 * algebraMap Fp KK u ^ 2 + algebraMap Fp KK u := by
  unfold f
  simp only [map_add, map_mul, map_pow, map_ofNat]

/-- Second coordinates over `u` with `y ^ p = s y`. -/
abbrev Fib (s : KK) (u : Fp) := {y : KK // y ^ 2 = algebraMap Fp KK (f u) ∧ y ^ p = s * y}

theorem fib_point {s : KK} {u : Fp} (y : Fib s u) :
    (curve448 KK).Nonsingular (algebraMap Fp KK u) y.1 :=
  (Affine.equation_iff_nonsingular_of_Δ_ne_zero curve448_Δ).1
    ((curve448_equation _ _).2 (by rw [y.2.1, map_f]))

instance (s : KK) (u : Fp) : Finite (Fib s u) := by
  have : {y : KK | y ^ 2 = algebraMap Fp KK (f u) ∧ y ^ p = s * y}.Finite := by
    obtain ⟨v, hv⟩ := IsAlgClosed.exists_pow_nat_eq (algebraMap Fp KK (f u)) (n := 2) (by norm_num)
    refine Set.Finite.subset (Set.toFinite {v, -v}) fun y hy => ?_
    exact sq_eq_sq_iff_eq_or_eq_neg.1 (hy.1.trans hv.symm)
  exact this

/-- Over each `u` the curve and the twist have two points together. -/
theorem card_fib (u : Fp) : Nat.card (Fib 1 u) + Nat.card (Fib (-1) u) = 2 := by
  obtain ⟨v, hv⟩ := IsAlgClosed.exists_pow_nat_eq (algebraMap Fp KK (f u)) (n := 2) (by norm_num)
  have hodd : Odd p := by rw [p_lit]; decide
  have hroot : ∀ y : KK, y ^ 2 = algebraMap Fp KK (f u) → y = v ∨ y = -v := fun y hy =>
    sq_eq_sq_iff_eq_or_eq_neg.1 (hy.trans hv.symm)
  have hn : (-v) ^ p = -v ^ p := hodd.neg_pow v
  have two (s : KK) (hs : v ^ p = s * v) (h0 : v ≠ 0) : Nat.card (Fib s u) = 2 := by
    have : Nat.card (Fib s u) = Nat.card ({v, -v} : Set KK) := by
      apply Nat.card_congr
      refine Equiv.subtypeEquivRight fun y => ⟨fun h => hroot y h.1, ?_⟩
      rintro (rfl | rfl)
      · exact ⟨hv, hs⟩
      · exact ⟨by rw [neg_sq, hv], by rw [hn, hs, mul_neg]⟩
    rw [this, Nat.card_coe_set_eq, Set.ncard_pair]
    intro e
    apply h0
    have : 2 * v = 0 := by linear_combination e
    exact (mul_eq_zero.1 this).resolve_left K_two
  have none (s : KK) (hs : v ^ p ≠ s * v) : Nat.card (Fib s u) = 0 := by
    have : IsEmpty (Fib s u) := ⟨fun y => by
      rcases hroot y.1 y.2.1 with e | e
      · exact hs (e ▸ y.2.2)
      · have := y.2.2
        rw [e, hn, mul_neg, neg_inj] at this
        exact hs this⟩
    exact Nat.card_of_isEmpty
  by_cases h0 : v = 0
  · have one (s : KK) : Nat.card (Fib s u) = 1 := by
      rw [Nat.card_eq_one_iff_unique]
      refine ⟨⟨fun a b => Subtype.ext ?_⟩, ⟨⟨0, ?_, ?_⟩⟩⟩
      · rcases hroot a.1 a.2.1 with e | e <;> rcases hroot b.1 b.2.1 with e' | e' <;>
          rw [e, e', h0] <;> simp
      · rw [← hv, h0]
      · rw [mul_zero, zero_pow p_prime.ne_zero]
    rw [one, one]
  · have hp2 : (v ^ p) ^ 2 = v ^ 2 := by
      rw [pow_right_comm, hv, ← map_pow, ZMod.pow_card]
    have hne : v ≠ -v := by
      intro e
      apply h0
      have : 2 * v = 0 := by linear_combination e
      exact (mul_eq_zero.1 this).resolve_left K_two
    rcases sq_eq_sq_iff_eq_or_eq_neg.1 hp2 with e | e
    · rw [two 1 (by rw [e, one_mul]) h0, none (-1) (by rw [e]; simpa using hne)]
    · rw [two (-1) (by rw [e]; ring) h0, none 1 (by rw [e, one_mul]; exact hne.symm)]

/-- Points with `σ P = ± P`, as pairs. -/
noncomputable def ofFib (s : KK) : Option (Σ u : Fp, Fib s u) → C
  | none => 0
  | some y => .some _ _ (fib_point y.2)

theorem ofFib_inj (s : KK) : Function.Injective (ofFib s) := by
  rintro (_ | ⟨u, y⟩) (_ | ⟨u', y'⟩) h
  · rfl
  · exact absurd h.symm (Affine.Point.some_ne_zero _)
  · exact absurd h (Affine.Point.some_ne_zero _)
  · have h := Affine.Point.some.inj h
    have hu : u = u' := (algebraMap Fp KK).injective h.1
    subst hu
    have : y = y' := Subtype.ext h.2
    rw [this]

theorem card_of_range (s : KK) (H : AddSubgroup C) (h : ∀ P, P ∈ H ↔ P ∈ Set.range (ofFib s)) :
    Nat.card H = Nat.card (Option (Σ u : Fp, Fib s u)) := by
  have e1 : Nat.card H = Nat.card (Set.range (ofFib s)) :=
    Nat.card_congr (Equiv.subtypeEquivRight h)
  rw [e1, Nat.card_range_of_injective (ofFib_inj s)]

theorem range_A (P : C) : P ∈ A ↔ P ∈ Set.range (ofFib 1) := by
  cases P with
  | zero => exact ⟨fun _ => ⟨none, rfl⟩, fun _ => A.zero_mem⟩
  | some x y h =>
    rw [mem_A_some]
    constructor
    · rintro ⟨hx, hy⟩
      obtain ⟨u, rfl⟩ := frob_fixed.1 hx
      exact ⟨some ⟨u, y, by rw [map_f, (curve448_equation _ _).1 h.1], by rw [hy, one_mul]⟩, rfl⟩
    · rintro ⟨_ | ⟨u, y'⟩, e⟩
      · exact absurd e.symm (Affine.Point.some_ne_zero _)
      · have e := Affine.Point.some.inj e
        rw [← e.1, ← e.2]
        exact ⟨frob_fixed.2 ⟨u, rfl⟩, y'.2.2.trans (one_mul _)⟩

theorem range_T (P : C) : P ∈ T ↔ P ∈ Set.range (ofFib (-1)) := by
  cases P with
  | zero => exact ⟨fun _ => ⟨none, rfl⟩, fun _ => T.zero_mem⟩
  | some x y h =>
    rw [mem_T_some]
    constructor
    · rintro ⟨hx, hy⟩
      obtain ⟨u, rfl⟩ := frob_fixed.1 hx
      exact ⟨some ⟨u, y, by rw [map_f, (curve448_equation _ _).1 h.1], by rw [hy]; ring⟩, rfl⟩
    · rintro ⟨_ | ⟨u, y'⟩, e⟩
      · exact absurd e.symm (Affine.Point.some_ne_zero _)
      · have e := Affine.Point.some.inj e
        rw [← e.1, ← e.2]
        exact ⟨frob_fixed.2 ⟨u, rfl⟩, y'.2.2.trans (neg_one_mul _)⟩

theorem sum_two {ι : Type} [Finite ι] (a b : ι → Type) [∀ i, Finite (a i)] [∀ i, Finite (b i)]
    (h : ∀ i, Nat.card (a i) + Nat.card (b i) = 2) :
    Nat.card (Option (Σ i, a i)) + Nat.card (Option (Σ i, b i)) = 2 * Nat.card ι + 2 := by
  have := Fintype.ofFinite ι
  rw [Finite.card_option, Finite.card_option, Nat.card_sigma, Nat.card_sigma]
  have : ∑ i, Nat.card (a i) + ∑ i, Nat.card (b i) = 2 * Nat.card ι := by
    rw [← Finset.sum_add_distrib, Finset.sum_congr rfl fun i _ => h i, Finset.sum_const,
      Finset.card_univ, smul_eq_mul, mul_comm, Nat.card_eq_fintype_card]
  omega

theorem card_sum : Nat.card A + Nat.card T = 2 * p + 2 := by
  rw [card_of_range 1 A range_A, card_of_range (-1) T range_T, sum_two _ _ card_fib, Nat.card_zmod]

instance : Finite A := by
  have h : Finite (Set.range (ofFib 1)) := Set.finite_coe_iff.2 (Set.finite_range _)
  exact Finite.of_equiv _ (Equiv.subtypeEquivRight range_A).symm
instance : Finite T := by
  have h : Finite (Set.range (ofFib (-1))) := Set.finite_coe_iff.2 (Set.finite_range _)
  exact Finite.of_equiv _ (Equiv.subtypeEquivRight range_T).symm

/-! ## Torsion of the curve over `Fp` -/

/-- Points over `Fp` in coordinates. -/
theorem A_cases {P : C} (h : P ∈ A) : P = 0 ∨ ∃ (u v : Fp) (hn : (curve448 KK).Nonsingular
    (algebraMap Fp KK u) (algebraMap Fp KK v)), v ^ 2 = f u ∧ P = .some _ _ hn := by
  cases P with
  | zero => exact Or.inl rfl
  | some x y hn =>
    right
    obtain ⟨hx, hy⟩ := (mem_A_some hn).1 h
    obtain ⟨u, rfl⟩ := frob_fixed.1 hx
    obtain ⟨v, rfl⟩ := frob_fixed.1 hy
    refine ⟨u, v, hn, ?_, rfl⟩
    apply (algebraMap Fp KK).injective
    rw [map_pow, map_f, (curve448_equation _ _).1 hn.1]

theorem exists_A {u v : Fp} (h : v ^ 2 = f u) : ∃ hn : (curve448 KK).Nonsingular
    (algebraMap Fp KK u) (algebraMap Fp KK v), (Affine.Point.some _ _ hn : C) ∈ A := by
  refine ⟨(Affine.equation_iff_nonsingular_of_Δ_ne_zero curve448_Δ).1
    ((curve448_equation _ _).2 (by rw [← map_f, ← h, map_pow])), ?_⟩
  rw [mem_A_some]
  exact ⟨frob_fixed.2 ⟨u, rfl⟩, frob_fixed.2 ⟨v, rfl⟩⟩

theorem f_one_nonsquare : ¬ IsSquare (f 1) := by
  have : f 1 = ((156328 : ℕ) : Fp) := by unfold f; norm_num
  rw [this, isSquare_nat_iff (by rw [p_lit]; decide +kernel), p_lit]
  decide +kernel

theorem f_neg_one_square : IsSquare (f (-1)) := by
  have : f (-1) = ((156324 : ℕ) : Fp) := by unfold f; norm_num
  rw [this, isSquare_nat_iff (by rw [p_lit]; decide +kernel), p_lit]
  decide +kernel

/-- A point over `Fp` killed by 4 has `u = 0` or `u = -1`. -/
theorem A_four {u v : Fp} {hn : (curve448 KK).Nonsingular (algebraMap Fp KK u) (algebraMap Fp KK v)}
    (hv : v ^ 2 = f u) (h : 4 • (Affine.Point.some _ _ hn : C) = 0) : u = 0 ∨ u = -1 := by
  rcases (four_smul_iff _ u rfl).1 h with h | h | h
  · exact Or.inl h
  · subst h
    exact absurd ⟨v, by rw [← hv, sq]⟩ f_one_nonsquare
  · exact Or.inr h

theorem A_no_order_eight {P : C} (hP : P ∈ A) (h : 8 • P = 0) : 4 • P = 0 := by
  rcases A_cases hP with rfl | ⟨u, v, hn, hv, rfl⟩
  · exact nsmul_zero 4
  set P : C := .some _ _ hn with hPdef
  have hQ : P + P ∈ A := A.add_mem hP hP
  have h4 : 4 • (P + P) = 0 := by rw [← h]; abel
  have e4 : 4 • P = P + P + (P + P) := by abel
  rcases A_cases hQ with e | ⟨u', v', hn', hv', e⟩
  · rw [e4, e, add_zero]
  rw [e] at h4
  rcases A_four hv' h4 with h0 | h1
  · subst h0
    rw [e4, e]
    have hv0 : v' = 0 := by
      have : v' ^ 2 = 0 := by rw [hv']; unfold f; ring
      simpa using this
    subst hv0
    exact Affine.Point.add_of_Y_eq rfl (by rw [negY_eq]; simp)
  · exfalso
    apply neg_one_nonsquare
    obtain ⟨c, hc, c1, c2⟩ := c_dbl P
    have cu : cU P = algebraMap Fp KK u := rfl
    have cw : cW P = 1 := rfl
    have cu' : cU (P + P) = algebraMap Fp KK u' := by rw [e]; rfl
    have cw' : cW (P + P) = 1 := by rw [e]; rfl
    have hf : 4 * u * (u ^ 2 + 156326 * u + 1) = (2 * v) ^ 2 := by
      rw [mul_pow, hv]; unfold f; ring
    have c2 : 1 = c * algebraMap Fp KK ((2 * v) ^ 2) := by
      rw [← cw', c2, cu, cw, ← hf]
      simp only [map_mul, map_add, map_pow, map_one, map_ofNat]
      ring
    have c1 : algebraMap Fp KK (-1) = c * algebraMap Fp KK ((u ^ 2 - 1) ^ 2) := by
      rw [← h1, ← cu', c1, cu, cw]
      simp only [map_sub, map_pow, map_one]
      ring
    have hv0 : 2 * v ≠ 0 := by
      intro h0
      rw [h0] at c2
      simp at c2
    have hmul : algebraMap Fp KK (-1 * (2 * v) ^ 2) = algebraMap Fp KK ((u ^ 2 - 1) ^ 2) := by
      apply mul_left_cancel₀ hc
      rw [map_mul]
      linear_combination c1 - algebraMap Fp KK (-1) * c2
    have hmul := (algebraMap Fp KK).injective hmul
    refine ⟨(u ^ 2 - 1) / (2 * v), ?_⟩
    rw [div_mul_div_comm, eq_div_iff (mul_ne_zero hv0 hv0)]
    linear_combination hmul

/-- A point of order 4. -/
theorem exists_order_four : ∃ P : C, P ∈ A ∧ ucoord P = algebraMap Fp KK (-1) ∧ P ≠ 0 ∧
    addOrderOf P = 4 := by
  obtain ⟨v, hv⟩ := f_neg_one_square
  obtain ⟨hn, hA⟩ := exists_A (u := -1) (v := v) (by rw [hv, sq])
  refine ⟨_, hA, rfl, Affine.Point.some_ne_zero _, ?_⟩
  have : addOrderOf (Affine.Point.some _ _ hn : C) = 2 ^ (1 + 1) := by
    apply addOrderOf_eq_prime_pow
    · rw [pow_one, two_nsmul]
      intro h0
      obtain ⟨c, hc, -, c2⟩ := c_dbl (Affine.Point.some _ _ hn : C)
      rw [h0] at c2
      have c2 : 0 = c * (4 * algebraMap Fp KK (-1) * 1 *
        (algebraMap Fp KK (-1) ^ 2 + 156326 * algebraMap Fp KK (-1) * 1 + 1 ^ 2)) := c2
      have h1 : (4 : KK) * 156324 ≠ 0 := mul_ne_zero K_four K_Am
      apply mul_ne_zero hc h1
      rw [map_neg, map_one] at c2
      linear_combination -c2
    · exact (four_smul_iff _ (-1) rfl).2 (Or.inr (Or.inr rfl))
  exact this

theorem A_four_dvd : 4 ∣ Nat.card A := by
  obtain ⟨P, hA, -, -, h4⟩ := exists_order_four
  rw [← h4, ← AddSubgroup.addOrderOf_mk P hA]
  exact addOrderOf_dvd_natCard _

theorem same_u {P Q : C} (hP : P ≠ 0) (hQ : Q ≠ 0) (h : ucoord P = ucoord Q) : P = Q ∨ P = -Q := by
  cases P with
  | zero => exact absurd rfl hP
  | some x y hn =>
    cases Q with
    | zero => exact absurd rfl hQ
    | some x' y' hn' => exact Affine.Point.X_eq_iff.1 h

theorem A_not_eight_dvd : ¬ 8 ∣ Nat.card A := by
  intro h
  have h8 : 2 ^ 3 ∣ Nat.card (Multiplicative A) := h
  have : Fact (Nat.Prime 2) := ⟨Nat.prime_two⟩
  have : Finite (Multiplicative A) := inferInstanceAs (Finite A)
  obtain ⟨K, hK⟩ := Sylow.exists_subgroup_card_pow_prime (G := Multiplicative A) 2 h8
  obtain ⟨P1, hA1, hu1, h01, -⟩ := exists_order_four
  obtain ⟨hn0, -⟩ := exists_A (u := 0) (v := 0) (by unfold f; ring)
  set P0 : C := .some _ _ hn0 with hP0
  have all : ∀ x : K, ((Multiplicative.toAdd (x : Multiplicative A) : A) : C) ∈
      ({0, P0, P1, -P1} : Finset C) := by
    intro x
    have hx : 8 • ((Multiplicative.toAdd (x : Multiplicative A) : A) : C) = 0 := by
      have := pow_card_eq_one' (x := x)
      rw [hK] at this
      have h2 : ((x : Multiplicative A)) ^ 8 = 1 := by
        have := congrArg Subtype.val this
        simpa using this
      have := congrArg (fun y => ((Multiplicative.toAdd y : A) : C)) h2
      simpa using this
    have hm := (Multiplicative.toAdd (x : Multiplicative A)).2
    have h4 := A_no_order_eight hm hx
    generalize ((Multiplicative.toAdd (x : Multiplicative A) : A) : C) = P at *
    rw [Finset.mem_insert, Finset.mem_insert, Finset.mem_insert, Finset.mem_singleton]
    by_cases hP : P = 0
    · exact Or.inl hP
    right
    rcases A_cases hm with h | ⟨u, v, hn, hv, rfl⟩
    · exact absurd h hP
    rcases A_four hv h4 with h | h
    · left
      subst h
      have hv0 : v = 0 := by
        have : v ^ 2 = 0 := by rw [hv]; unfold f; ring
        simpa using this
      subst hv0
      rfl
    · right
      subst h
      exact same_u hP h01 hu1.symm
  have inj : Function.Injective (fun x : K =>
      (⟨((Multiplicative.toAdd (x : Multiplicative A) : A) : C), all x⟩ :
        ({0, P0, P1, -P1} : Finset C))) := by
    intro x y h
    have h' := Subtype.mk.inj h
    exact Subtype.ext (Subtype.ext h')
  have := Nat.card_le_card_of_injective _ inj
  rw [hK, Nat.card_eq_fintype_card, Fintype.card_coe] at this
  have h4 : ({0, P0, P1, -P1} : Finset C).card ≤ 4 := Finset.card_le_four
  omega

/-! ## The base point -/

theorem f_five_square : IsSquare (f 5) := by
  have : f 5 = ((3908280 : ℕ) : Fp) := by unfold f; norm_num
  rw [this, isSquare_nat_iff (by rw [p_lit]; decide +kernel), p_lit]
  decide +kernel

/-- Multiplying the base point by `8 l` gives infinity: transported from the Edwards curve by the
ladder, which computes both. -/
theorem eight_ell {P : C} (h : ucoord P = algebraMap Fp KK 5) : (8 * ell) • P = 0 := by
  have hv : (Arr.ofVal 14 (2 ^ 32) (by norm_num) (2 * ell)).val = 2 * ell :=
    Arr.ofVal_val _ _ (by rw [ell_lit]; norm_num)
  have h5 : ((montGenerator.val : ℕ) : Fp) = 5 := by rw [montGenerator_val]; norm_num
  have e1 := C31_even (F := Fp) P montGenerator _ (by rw [hv]; omega) (by rw [h5, h])
  have e2 := montMul_rep (F := Fp) (K := Fp) edXMap G montGenerator (by
    have := toMontgomery_val (rep_generator (F := Fp))
    rw [C30_generator] at this
    exact this) (Arr.ofVal 14 (2 ^ 32) (by norm_num) (2 * ell))
  rw [hv] at e1 e2
  have h0 : (2 * ell + 2 * ell % 2) • G = 0 := by
    rw [show 2 * ell + 2 * ell % 2 = ell * 2 by omega, mul_nsmul, ell_G, nsmul_zero]
  rw [h0, edXMap.zero, div_zero] at e2
  have e2 : ((montMulScalar Fp montGenerator (Arr.ofVal 14 (2 ^ 32) (by norm_num) (2 * ell))).val : Fp)
      = 0 := e2
  rw [e2] at e1
  have := (four_smul_iff _ 0 e1).2 (Or.inl rfl)
  rw [smul_smul] at this
  rw [← this]
  congr 1
  ring

theorem A_ell_dvd : ell ∣ Nat.card A := by
  obtain ⟨v, hv⟩ := f_five_square
  obtain ⟨hn, hA⟩ := exists_A (u := 5) (v := v) (by rw [hv, sq])
  have h8 := eight_ell (P := .some _ _ hn) rfl
  have hd := addOrderOf_dvd_of_nsmul_eq_zero h8
  have hc : addOrderOf (Affine.Point.some _ _ hn : C) ∣ Nat.card A := by
    rw [← AddSubgroup.addOrderOf_mk _ hA]
    exact addOrderOf_dvd_natCard _
  by_contra hcon
  have hco : Nat.Coprime (addOrderOf (Affine.Point.some _ _ hn : C)) ell := by
    rw [Nat.coprime_comm, Nat.Prime.coprime_iff_not_dvd ell_prime]
    exact fun h => hcon (h.trans hc)
  have h8 := addOrderOf_dvd_iff_nsmul_eq_zero.1 (hco.dvd_of_dvd_mul_right hd)
  have h4 := A_no_order_eight hA h8
  rcases A_four (by rw [hv, sq]) h4 with h | h
  · have : ((5 : ℕ) : Fp) = 0 := by exact_mod_cast h
    exact smallNat_ne_zero 5 (by norm_num) (by norm_num) this
  · have : ((6 : ℕ) : Fp) = 0 := by push_cast; linear_combination h
    exact smallNat_ne_zero 6 (by norm_num) (by norm_num) this

/-- Curve448 has `4 l` points over `Fp`. -/
theorem card_A : Nat.card A = 4 * ell := by
  have hc : Nat.Coprime 4 ell := by rw [ell_lit]; decide +kernel
  obtain ⟨k, hk⟩ := Nat.Coprime.mul_dvd_of_dvd_of_dvd hc A_four_dvd A_ell_dvd
  have hle := card_sum
  have hT : 0 < Nat.card T := Nat.card_pos
  have h8 := A_not_eight_dvd
  have hpos : 0 < Nat.card A := Nat.card_pos
  have hb : 2 * p + 2 < 12 * ell := by rw [p_lit, ell_lit]; decide +kernel
  rw [hk] at hle h8 hpos
  have hk0 : k ≠ 0 := by rintro rfl; simp at hpos
  have hk3 : k < 3 := by
    by_contra hcon
    have : 4 * ell * 3 ≤ 4 * ell * k := Nat.mul_le_mul_left _ (by omega)
    omega
  have hk2 : k ≠ 2 := by
    rintro rfl
    exact h8 ⟨ell, by ring⟩
  have : k = 1 := by omega
  rw [hk, this, mul_one]

/-- The quadratic twist has four times a prime number of points. -/
theorem card_T : Nat.card T = 4 * ellTwist := by
  have h := card_sum
  rw [card_A, ← orders_sum] at h
  omega

/-! ## Points with a given `u` in `Fp` -/

theorem A_or_T {P : C} {u : Fp} (h : ucoord P = algebraMap Fp KK u) : P ∈ A ∨ P ∈ T := by
  cases P with
  | zero => exact Or.inl A.zero_mem
  | some x y hn =>
    have hx : x = algebraMap Fp KK u := h
    subst hx
    have hy : y ^ 2 = algebraMap Fp KK (f u) := by rw [map_f, (curve448_equation _ _).1 hn.1]
    have hp2 : (y ^ p) ^ 2 = y ^ 2 := by
      rw [pow_right_comm, hy, ← map_pow, ZMod.pow_card]
    rw [mem_A_some, mem_T_some]
    have hu := frob_fixed.2 ⟨u, rfl⟩
    rcases sq_eq_sq_iff_eq_or_eq_neg.1 hp2 with e | e
    · exact Or.inl ⟨hu, e⟩
    · exact Or.inr ⟨hu, e⟩

/-- Whether `u` is on the curve. -/
theorem mem_A_iff {P : C} {u : Fp} (h : ucoord P = algebraMap Fp KK u) (h0 : P ≠ 0) :
    P ∈ A ↔ IsSquare (f u) := by
  constructor
  · intro hA
    rcases A_cases hA with rfl | ⟨u', v, hn, hv, rfl⟩
    · exact absurd rfl h0
    have : u' = u := (algebraMap Fp KK).injective h
    subst this
    exact ⟨v, by rw [← hv, sq]⟩
  · rintro ⟨v, hv⟩
    obtain ⟨hn, hA⟩ := exists_A (u := u) (v := v) (by rw [hv, sq])
    rcases same_u h0 (Affine.Point.some_ne_zero hn) h with e | e
    · rw [e]; exact hA
    · rw [e]; exact A.neg_mem hA

theorem A_kill {P : C} (h : P ∈ A) : ell • (4 • P) = 0 := by
  have : Nat.card A • (⟨P, h⟩ : A) = 0 := card_nsmul_eq_zero'
  rw [card_A, mul_nsmul] at this
  exact congrArg Subtype.val this

theorem T_kill {P : C} (h : P ∈ T) : ellTwist • (4 • P) = 0 := by
  have : Nat.card T • (⟨P, h⟩ : T) = 0 := card_nsmul_eq_zero'
  rw [card_T, mul_nsmul] at this
  exact congrArg Subtype.val this

theorem A_order {P : C} (h : P ∈ A) (h4 : 4 • P ≠ 0) : addOrderOf (4 • P) = ell := by
  have : Fact ell.Prime := ⟨ell_prime⟩
  exact addOrderOf_eq_prime (A_kill h) h4

theorem T_order {P : C} (h : P ∈ T) (h4 : 4 • P ≠ 0) : addOrderOf (4 • P) = ellTwist := by
  have : Fact ellTwist.Prime := ⟨ellTwist_prime⟩
  exact addOrderOf_eq_prime (T_kill h) h4

/-- Multiples of `4 P` with `u = 0` are infinity. -/
theorem ucoord_zero {P : C} {u : Fp} (h : ucoord P = algebraMap Fp KK u) (m : ℕ) :
    ucoord (m • (4 • P)) = 0 ↔ m • (4 • P) = 0 := by
  constructor
  · intro h0
    by_cases h4 : 4 • P = 0
    · rw [h4, nsmul_zero]
    have := (four_smul_iff (m • (4 • P)) 0 (by rw [h0, map_zero])).2 (Or.inl rfl)
    rw [smul_smul] at this
    have hd := addOrderOf_dvd_of_nsmul_eq_zero this
    rw [← addOrderOf_dvd_iff_nsmul_eq_zero]
    rcases A_or_T h with hA | hT
    · rw [A_order hA h4] at hd ⊢
      have hc : Nat.Coprime ell 4 := by rw [ell_lit]; decide +kernel
      exact hc.dvd_of_dvd_mul_left hd
    · rw [T_order hT h4] at hd ⊢
      have hc : Nat.Coprime ellTwist 4 := by rw [ellTwist_lit]; decide +kernel
      exact hc.dvd_of_dvd_mul_left hd
  · intro h0; rw [h0]; rfl


end Ed448.Twist
