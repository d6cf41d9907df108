import Verif.Proofs.Ladder
import Verif.Props.Edwards
import Mathlib.FieldTheory.IsAlgClosed.AlgebraicClosure

/-!
# Properties of `MontgomeryPoint` (C30–C35)

`curve448 K` is RFC 7748's Curve448 over an extension `K` of `Fp` with Mathlib's group law, and
`ucoord` its `u`-coordinate (0 at infinity). Taking `K` larger than `Fp` covers the points of the
quadratic twist: every `u` in `Fp` is the `u`-coordinate of a point over the algebraic closure
(`exists_point`).
-/

namespace Ed448.Props
open Ed448.Model Ed448.Edw
open FieldVal (val)
open WeierstrassCurve

set_option exponentiation.threshold 1000
set_option maxRecDepth 10000

variable {F L : Type} [FieldBackend F L] [Lawful F]
variable {K : Type} [Field K] [DecidableEq K] [Algebra Fp K]

/-! ## Points with a given `u`-coordinate -/

omit [DecidableEq K] in
theorem curve448_Δ : (curve448 K).Δ ≠ 0 := by
  have e : (curve448 K).Δ = (16 : ℕ) * ((156328 : ℕ) * (156324 : ℕ)) := by
    simp only [WeierstrassCurve.Δ, WeierstrassCurve.b₂, WeierstrassCurve.b₄, WeierstrassCurve.b₆,
      WeierstrassCurve.b₈, curve448]
    push_cast; ring
  rw [e]
  refine mul_ne_zero ?_ (mul_ne_zero ?_ ?_) <;> exact map_nat_ne _ (by norm_num) (by norm_num)

omit [DecidableEq K] in
/-- A point from a solution of the curve equation. -/
theorem point_of_eq {u v : K} (h : v ^ 2 = u ^ 3 + 156326 * u ^ 2 + u) :
    ∃ P : (curve448 K).Point, P ≠ 0 ∧ ucoord P = u :=
  ⟨.some u v ((Affine.equation_iff_nonsingular_of_Δ_ne_zero curve448_Δ).1
    ((curve448_equation u v).2 h)), Affine.Point.some_ne_zero _, rfl⟩

open Classical in
/-- Every `u` is the `u`-coordinate of a point, on the curve or on its twist. -/
theorem exists_point (u : Fp) : ∃ P : (curve448 (AlgebraicClosure Fp)).Point,
    P ≠ 0 ∧ ucoord P = algebraMap Fp (AlgebraicClosure Fp) u := by
  obtain ⟨v, hv⟩ := IsAlgClosed.exists_pow_nat_eq
    (algebraMap Fp (AlgebraicClosure Fp) u ^ 3 + 156326 * algebraMap Fp (AlgebraicClosure Fp) u ^ 2 +
      algebraMap Fp (AlgebraicClosure Fp) u) (n := 2) (by norm_num)
  exact point_of_eq hv

omit [DecidableEq K] [Algebra Fp K] in
theorem ucoord_eq (P : (curve448 K).Point) : ucoord P = cU P / cW P := by
  cases P with
  | zero => show (0 : K) = 1 / 0; simp
  | some x y h => show x = x / 1; simp

/-! ## C30: the map from Edwards points -/

theorem C30_to_montgomery {P : EdPt F} {R : E} (h : Rep P R) :
    (P.toMontgomery.val : Fp) = R.y ^ 2 / R.x ^ 2 ∧ P.toMontgomery.val < p ∧
    P.negate.toMontgomery = P.toMontgomery ∧ P.torque.toMontgomery = P.toMontgomery ∧
    ∀ Q : EdPt F, Rep Q R → Q.toMontgomery = P.toMontgomery := by
  have lt : ∀ Q : EdPt F, Q.toMontgomery.val < p := fun Q => toBytes_val_lt _
  have ext : ∀ Q : EdPt F, (Q.toMontgomery.val : Fp) = P.toMontgomery.val →
      Q.toMontgomery = P.toMontgomery := by
    intro Q e
    apply Arr.val_inj (by norm_num)
    rw [ZMod.natCast_eq_natCast_iff, Nat.ModEq, Nat.mod_eq_of_lt (lt _), Nat.mod_eq_of_lt (lt _)] at e
    exact e
  have hP := toMontgomery_val h
  refine ⟨hP, lt P, ext _ ?_, ext _ ?_, fun Q hQ => ext _ ?_⟩
  · rw [toMontgomery_val (rep_negate h), hP]
    show R.y ^ 2 / (-R.x) ^ 2 = _
    rw [neg_sq]
  · rw [toMontgomery_val (rep_torque h), hP, (add_torsion2 R).1, (add_torsion2 R).2, neg_sq,
      neg_sq]
  · rw [toMontgomery_val hQ, hP]

/-- Non-identity images satisfy the curve equation: `u` lies on Curve448 (not on the twist). -/
theorem C30_on_curve (R : E) (hx : R.x ≠ 0) :
    ((2 - R.x ^ 2 - R.y ^ 2) * R.y / R.x ^ 3) ^ 2 =
      (R.y ^ 2 / R.x ^ 2) ^ 3 + 156326 * (R.y ^ 2 / R.x ^ 2) ^ 2 + R.y ^ 2 / R.x ^ 2 := by
  have ho := R.on
  unfold OnCurve at ho
  have hd : (156326 : Fp) = 2 - 4 * d := by unfold d; ring
  rw [hd]
  field_simp
  grind

/-- The generator goes to `u = 5`, the generator of `MontgomeryPoint`. -/
theorem C30_generator : (EdPt.generator : EdPt F).toMontgomery = montGenerator := by
  apply Arr.val_inj (by norm_num)
  have h1 : montGenerator.val = 5 := by decide
  have h2 := (C30_to_montgomery (rep_generator (F := F))).2.1
  have h3 := (C30_to_montgomery (rep_generator (F := F))).1
  have hx : G.x ≠ 0 := by
    show ((Gx : ℕ) : Fp) ≠ 0
    have := natCast_ne_of_mod (a := Gx) (b := 0) (by rw [p_lit]; decide +kernel)
    simpa using this
  have h5 : G.y ^ 2 / G.x ^ 2 = ((5 : ℕ) : Fp) := by
    rw [div_eq_iff (pow_ne_zero 2 hx)]
    show ((Gy : ℕ) : Fp) ^ 2 = ((5 : ℕ) : Fp) * ((Gx : ℕ) : Fp) ^ 2
    have := natCast_eq_of_mod (a := Gy ^ 2) (b := 5 * Gx ^ 2) (by rw [p_lit]; decide +kernel)
    push_cast at this ⊢
    exact this
  rw [h5, ZMod.natCast_eq_natCast_iff, Nat.ModEq, Nat.mod_eq_of_lt h2,
    Nat.mod_eq_of_lt (by rw [p_lit]; norm_num)] at h3
  rw [h3, h1]

/-! ## C31: scalar multiplication -/

/-- The claim of C31: `s * u` is the `u`-coordinate of `[s] P`. -/
def MontgomeryMulCorrect (F : Type) {L : Type} [FieldBackend F L] : Prop :=
  ∀ (K : Type) [Field K] [DecidableEq K] [Algebra Fp K] (P : (curve448 K).Point) (u : Bytes 56)
    (s : Scalar), algebraMap Fp K (u.val : Fp) = ucoord P →
    algebraMap Fp K ((montMulScalar F u s).val : Fp) = ucoord (s.val • P)

/-- What the code computes: the `u`-coordinate of `[s] P` for even `s` and of `[s + 1] P` for odd
`s`. Missing from the claim of C31: odd scalars. -/
theorem C31_montgomery_mul_partial (P : (curve448 K).Point) (u : Bytes 56)
    (s : Scalar) (hu : algebraMap Fp K (u.val : Fp) = ucoord P) :
    algebraMap Fp K ((montMulScalar F u s).val : Fp) = ucoord ((s.val + s.val % 2) • P) := by
  rw [ucoord_eq]
  rw [ucoord_eq] at hu
  exact montMul_rep (cXMap K) P u hu s

/-- The claim holds for even scalars, which include all clamped X448 scalars. -/
theorem C31_even (P : (curve448 K).Point) (u : Bytes 56) (s : Scalar) (hs : s.val % 2 = 0)
    (hu : algebraMap Fp K (u.val : Fp) = ucoord P) :
    algebraMap Fp K ((montMulScalar F u s).val : Fp) = ucoord (s.val • P) := by
  rw [C31_montgomery_mul_partial P u s hu, hs, add_zero]

/-- For odd `s` the output is wrong unless `P` is special: the answer `[s] P` and the output
`[s + 1] P` differ in `u` whenever none of `P`, `[s] P`, `[s + 1] P`, `[2 s + 1] P` is infinity. -/
theorem C31_odd_wrong (P : (curve448 K).Point) (u : Bytes 56) (s : Scalar) (hs : s.val % 2 = 1)
    (hu : algebraMap Fp K (u.val : Fp) = ucoord P) (h1 : P ≠ 0) (h2 : s.val • P ≠ 0)
    (h3 : (s.val + 1) • P ≠ 0) (h4 : (2 * s.val + 1) • P ≠ 0) :
    algebraMap Fp K ((montMulScalar F u s).val : Fp) ≠ ucoord (s.val • P) := by
  rw [C31_montgomery_mul_partial P u s hu, hs]
  have key : ∀ A B : (curve448 K).Point, A ≠ 0 → B ≠ 0 → ucoord A = ucoord B → A = B ∨ A = -B := by
    intro A B hA hB e
    cases A with
    | zero => exact absurd rfl hA
    | some x y h =>
      cases B with
      | zero => exact absurd rfl hB
      | some x' y' h' => exact Affine.Point.X_eq_iff.1 e
  intro e
  rcases key _ _ h3 h2 e with e | e
  · apply h1
    rw [add_nsmul, one_nsmul] at e
    exact left_eq_add.1 e.symm
  · apply h4
    have : (2 * s.val + 1) • P = (s.val + 1) • P + s.val • P := by
      rw [← add_nsmul]; congr 1; omega
    rw [this, e, neg_add_cancel]

theorem montGenerator_val : montGenerator.val = 5 := by decide

/-- `1 * 5` and `2 * 5` both come out as the `u`-coordinate `576 / 15633120` of the doubled base
point. -/
theorem C31_small (s : Scalar) (hs : s.val + s.val % 2 = 2) :
    ((montMulScalar F montGenerator s).val : Fp) * 15633120 = 576 := by
  classical
  obtain ⟨P, hP, hu⟩ := exists_point ((5 : ℕ) : Fp)
  have h := C31_montgomery_mul_partial (F := F) P montGenerator s (by rw [montGenerator_val, hu])
  rw [hs, two_nsmul, ucoord_eq] at h
  obtain ⟨c, hc, c1, c2⟩ := c_dbl P
  cases P with
  | zero => exact absurd rfl hP
  | some x y hxy =>
    have hx : x = (5 : ℕ) := (show x = _ from hu).trans (map_natCast _ 5)
    have cu : cU (Affine.Point.some x y hxy) = (5 : ℕ) := hx
    have cw : cW (Affine.Point.some x y hxy) = 1 := rfl
    rw [c1, c2, cu, cw, mul_div_mul_left _ _ hc] at h
    have hd : (15633120 : AlgebraicClosure Fp) ≠ 0 := by
      exact_mod_cast map_nat_ne (K := AlgebraicClosure Fp) 15633120 (by norm_num) (by norm_num)
    have e1 : (4 * (5 : ℕ) * 1 * ((5 : ℕ) ^ 2 + 156326 * (5 : ℕ) * 1 + 1 ^ 2) :
        AlgebraicClosure Fp) = 15633120 := by
      push_cast; ring
    rw [e1, eq_div_iff hd] at h
    apply (algebraMap Fp (AlgebraicClosure Fp)).injective
    rw [map_mul, map_ofNat, map_ofNat, h]
    push_cast; ring

/-- The claim of C31 is false: `1 * 5 ≠ 5`. -/
theorem C31_one_times_generator :
    (montMulScalar F montGenerator (smallScalar 1)).val ≠ montGenerator.val := by
  intro e
  have h := C31_small (F := F) (smallScalar 1) (by rw [smallScalar_val 1 (by norm_num)])
  rw [e, montGenerator_val] at h
  have := smallNat_ne_zero 78165024 (by norm_num) (by norm_num)
  apply this
  push_cast at h ⊢
  linear_combination h

theorem C31_montgomery_mul_false : ¬ MontgomeryMulCorrect F := by
  classical
  intro hc
  obtain ⟨P, hP, hu⟩ := exists_point 5
  have hs : (smallScalar 1).val = 1 := smallScalar_val 1 (by norm_num)
  have hg : ((montGenerator.val : ℕ) : Fp) = 5 := by rw [montGenerator_val]; norm_num
  have h := hc (AlgebraicClosure Fp) P montGenerator (smallScalar 1) (by rw [hg, hu])
  rw [hs, one_nsmul, hu] at h
  have h := (algebraMap Fp (AlgebraicClosure Fp)).injective h
  apply C31_one_times_generator (F := F)
  rw [← hg, ZMod.natCast_eq_natCast_iff, Nat.ModEq, Nat.mod_eq_of_lt (montMul_lt _ _),
    Nat.mod_eq_of_lt (by rw [montGenerator_val, p_lit]; norm_num)] at h
  exact h

/-! ## C33, C34 -/

theorem bytes_ext {a b : Bytes 56} (ha : a.val < p) (hb : b.val < p)
    (h : (a.val : Fp) = (b.val : Fp)) : a = b := by
  apply Arr.val_inj (by norm_num)
  rwa [ZMod.natCast_eq_natCast_iff, Nat.ModEq, Nat.mod_eq_of_lt ha, Nat.mod_eq_of_lt hb] at h

/-- Both parties compute the same bytes, for every `u` (curve or twist) and all scalars. -/
theorem C33_dh_agreement (u : Bytes 56) (a b : Scalar) :
    montMulScalar F (montMulScalar F u b) a = montMulScalar F (montMulScalar F u a) b := by
  classical
  obtain ⟨P, -, hu⟩ := exists_point (u.val : Fp)
  refine bytes_ext (montMul_lt _ _) (montMul_lt _ _) ?_
  apply (algebraMap Fp (AlgebraicClosure Fp)).injective
  have ha := C31_montgomery_mul_partial (F := F) P u a hu.symm
  have hb := C31_montgomery_mul_partial (F := F) P u b hu.symm
  rw [C31_montgomery_mul_partial _ _ a hb, C31_montgomery_mul_partial _ _ b ha, smul_smul,
    smul_smul, mul_comm]

/-- The output depends only on `u` modulo `p`, and is below `p`. -/
theorem C34_reads_mod_p (u u' : Bytes 56) (s : Scalar) :
    (u.val % p = u'.val % p → montMulScalar F u s = montMulScalar F u' s) ∧
    (montMulScalar F u s).val < p := by
  classical
  refine ⟨fun h => ?_, montMul_lt _ _⟩
  obtain ⟨P, -, hu⟩ := exists_point (u.val : Fp)
  refine bytes_ext (montMul_lt _ _) (montMul_lt _ _) ?_
  apply (algebraMap Fp (AlgebraicClosure Fp)).injective
  have e : (u'.val : Fp) = u.val := natCast_eq_of_mod h.symm
  rw [C31_montgomery_mul_partial (F := F) P u s hu.symm,
    C31_montgomery_mul_partial (F := F) P u' s (by rw [hu, e])]

/-! ## C32: compatibility with Edwards multiplication -/

/-- The claim of C32. -/
def MapCommutes (F : Type) {L : Type} [FieldBackend F L] : Prop :=
  ∀ (P r : EdPt F) (s : Scalar), EdReach P → P.scalarMul s = some r →
    r.toMontgomery = montMulScalar F P.toMontgomery s

/-- The map commutes with multiplication by even scalars; for odd `s` the Montgomery side computes
the image of `[s + 1] P`. -/
theorem C32_commutes_partial {P : EdPt F} {R : E} (h : Rep P R) (s : Scalar) :
    (s.val % 2 = 0 → ∃ r, P.scalarMul s = some r ∧
      r.toMontgomery = montMulScalar F P.toMontgomery s) ∧
    (s.val % 2 = 1 → ∃ r, P.scalarMul s = some r ∧
      (r.add P).toMontgomery = montMulScalar F P.toMontgomery s) := by
  have key : ∀ Q : EdPt F, Rep Q ((s.val + s.val % 2) • R) →
      Q.toMontgomery = montMulScalar F P.toMontgomery s := by
    intro Q hQ
    refine bytes_ext (toBytes_val_lt _) (montMul_lt _ _) ?_
    rw [toMontgomery_val hQ]
    have := montMul_rep (F := F) (K := Fp) edXMap R P.toMontgomery (toMontgomery_val h) s
    exact this.symm
  obtain ⟨r, e, hr⟩ := rep_scalarMul h s
  refine ⟨fun hs => ⟨r, e, key r ?_⟩, fun hs => ⟨r, e, key _ ?_⟩⟩
  · rwa [hs, add_zero]
  · rw [hs, add_nsmul, one_nsmul]; exact rep_add hr h

theorem C32_commutes_false : ¬ MapCommutes F := by
  intro hc
  have hs : (smallScalar 1).val = 1 := smallScalar_val 1 (by norm_num)
  obtain ⟨r, e, hr⟩ := rep_scalarMul (rep_generator (F := F)) (smallScalar 1)
  have h := hc _ _ _ .generator e
  rw [hs, one_nsmul] at hr
  rw [(C30_to_montgomery rep_generator).2.2.2.2 r hr, C30_generator] at h
  exact C31_one_times_generator (F := F) (congrArg Arr.val h).symm

/-! ## C35: low order check -/

/-- `A² - 4` is not a square. -/
theorem disc_nonsquare : ¬ IsSquare (24437818272 : Fp) := by
  have : (24437818272 : Fp) = ((24437818272 : ℕ) : Fp) := by norm_num
  rw [this, isSquare_nat_iff (by rw [p_lit]; decide +kernel), p_lit]
  decide +kernel

theorem aniso {a b : Fp} (h : a ^ 2 + 156326 * a * b + b ^ 2 = 0) : a = 0 ∧ b = 0 := by
  by_cases hb : b = 0
  · subst hb
    refine ⟨?_, rfl⟩
    have : a ^ 2 = 0 := by linear_combination h
    simpa using this
  · exfalso
    apply disc_nonsquare
    refine ⟨(2 * a + 156326 * b) / b, ?_⟩
    field_simp
    linear_combination -4 * h

/-- `[4] P = 0` iff `u` is 0, 1 or -1. -/
theorem four_smul_iff (P : (curve448 K).Point) (u : Fp) (hu : algebraMap Fp K u = ucoord P) :
    4 • P = 0 ↔ u = 0 ∨ u = 1 ∨ u = -1 := by
  cases P with
  | zero =>
    have h0 : algebraMap Fp K u = 0 := hu
    have : u = 0 := (map_eq_zero _).1 h0
    exact ⟨fun _ => Or.inl this, fun _ => nsmul_zero 4⟩
  | some x y hxy =>
    set P : (curve448 K).Point := .some x y hxy with hP
    have hx : x = algebraMap Fp K u := hu.symm
    obtain ⟨c, hc, c1, c2⟩ := c_dbl P
    obtain ⟨e, he, e1, e2⟩ := c_dbl (P + P)
    have cu : cU P = algebraMap Fp K u := hx
    have cw : cW P = 1 := rfl
    rw [cu, cw] at c1 c2
    have e4 : 4 • P = P + P + (P + P) := by
      rw [show (4 : ℕ) = 2 + 2 from rfl, add_nsmul, two_nsmul]
    have e2' : cW (P + P + (P + P)) = e * c ^ 4 * algebraMap Fp K
        (4 * (u ^ 2 - 1) ^ 2 * (4 * u * (u ^ 2 + 156326 * u + 1)) *
          (((u ^ 2 - 1) ^ 2) ^ 2 + 156326 * (u ^ 2 - 1) ^ 2 * (4 * u * (u ^ 2 + 156326 * u + 1)) +
            (4 * u * (u ^ 2 + 156326 * u + 1)) ^ 2)) := by
      rw [e2, c1, c2]
      simp only [map_mul, map_add, map_sub, map_pow, map_one, map_ofNat]
      ring
    have h4 : (4 : Fp) ≠ 0 := by
      exact_mod_cast smallNat_ne_zero 4 (by norm_num) (by norm_num)
    have hq : u ^ 2 + 156326 * u + 1 ≠ 0 := by
      intro h
      have := (aniso (a := u) (b := 1) (by linear_combination h)).2
      exact one_ne_zero this
    rw [e4, ← cW_eq_zero, e2', mul_eq_zero, map_eq_zero]
    constructor
    · rintro (h | h)
      · exact absurd h (mul_ne_zero he (pow_ne_zero 4 hc))
      · rcases mul_eq_zero.1 h with h | h
        · rcases mul_eq_zero.1 h with h | h
          · rcases mul_eq_zero.1 h with h | h
            · exact absurd h h4
            · have h := pow_eq_zero_iff (two_ne_zero) |>.1 h
              right
              have : (u - 1) * (u + 1) = 0 := by linear_combination h
              rcases mul_eq_zero.1 this with h | h
              · left; linear_combination h
              · right; linear_combination h
          · rcases mul_eq_zero.1 h with h | h
            · rcases mul_eq_zero.1 h with h | h
              · exact absurd h h4
              · exact Or.inl h
            · exact absurd h hq
        · have := (aniso h).2
          rcases mul_eq_zero.1 this with h | h
          · rcases mul_eq_zero.1 h with h | h
            · exact absurd h h4
            · exact Or.inl h
          · exact absurd h hq
    · rintro (h | h | h) <;> right <;> rw [h] <;> ring

theorem isLowOrder_iff (u : Bytes 56) :
    isLowOrder u = true ↔ u.val = 0 ∨ u.val = 1 ∨ u.val = p - 1 := by
  have key : ∀ (l : List ℕ) (h1 : l.length = 56) (h2 : ∀ x ∈ l, x < 256),
      u.l = l ↔ u.val = Nat.ofDigits 256 l := by
    intro l h1 h2
    constructor
    · intro h; unfold Arr.val; rw [h]
    · intro h
      have := Arr.val_inj (a := u) (b := ⟨l, h1, h2⟩) (by norm_num) h
      rw [this]
  unfold isLowOrder
  rw [Bool.or_eq_true, Bool.or_eq_true, beq_iff_eq, beq_iff_eq, beq_iff_eq,
    key LOW_A (by decide) (by decide), key LOW_B (by decide) (by decide),
    key LOW_C (by decide) (by decide), or_assoc]
  have a : Nat.ofDigits 256 LOW_A = 0 := by decide +kernel
  have b : Nat.ofDigits 256 LOW_B = 1 := by decide +kernel
  have c : Nat.ofDigits 256 LOW_C = p - 1 := by rw [p_lit]; decide +kernel
  rw [a, b, c]

/-- The claim of C35: the check decides whether the point has order dividing 4. -/
def LowOrderCheck : Prop :=
  ∀ (K : Type) [Field K] [DecidableEq K] [Algebra Fp K] (P : (curve448 K).Point) (u : Bytes 56),
    algebraMap Fp K (u.val : Fp) = ucoord P → (isLowOrder u = true ↔ 4 • P = 0)

/-- The check is right for canonical encodings and never flags a point of another order.
Missing from the claim of C35: the non-canonical encodings `p` and `p + 1`. -/
theorem C35_low_order_partial (P : (curve448 K).Point) (u : Bytes 56)
    (hu : algebraMap Fp K (u.val : Fp) = ucoord P) :
    (u.val < p → (isLowOrder u = true ↔ 4 • P = 0)) ∧ (isLowOrder u = true → 4 • P = 0) ∧
    (4 • P = 0 ↔ isLowOrder u = true ∨ u.val = p ∨ u.val = p + 1) := by
  have hlt : u.val < 256 ^ 56 := Arr.val_lt (by norm_num) u
  have h2p : 256 ^ 56 < 2 * p - 1 := by rw [p_lit]; norm_num
  have h1 := p_prime.one_lt
  have k := four_smul_iff P _ hu
  have n : ∀ m : ℕ, m < p → ((u.val : Fp) = (m : Fp) ↔ u.val = m ∨ u.val = m + p) := by
    intro m hm
    rw [ZMod.natCast_eq_natCast_iff, Nat.ModEq, Nat.mod_eq_of_lt hm]
    rcases lt_or_ge u.val p with h | h
    · rw [Nat.mod_eq_of_lt h]; omega
    · rw [Nat.mod_eq_sub_mod h, Nat.mod_eq_of_lt (by omega)]; omega
  have n0 := n 0 (by omega)
  have n1 := n 1 (by omega)
  have n2 := n (p - 1) (by omega)
  rw [Nat.cast_zero] at n0
  rw [Nat.cast_one] at n1
  rw [neg_cast 1 h1.le, Nat.cast_one] at n2
  rw [n0, n1, n2] at k
  have l := isLowOrder_iff u
  refine ⟨fun h => ?_, fun h => ?_, ?_⟩
  · rw [l, k]; omega
  · rw [l] at h; rw [k]; omega
  · rw [l, k]; omega

/-- The claim of C35 is false: the encoding `p` of `u = 0` is not recognised. -/
theorem C35_low_order_false : ¬ LowOrderCheck := by
  classical
  intro hc
  have hv : (Arr.ofVal 56 256 (by norm_num) p).val = p := Arr.ofVal_val _ _ (by rw [p_lit]; norm_num)
  have h := hc Fp 0 (Arr.ofVal 56 256 (by norm_num) p) (by
    rw [hv]; simp; rfl)
  rw [isLowOrder_iff, hv] at h
  have := h.2 (nsmul_zero 4)
  have h1 := p_prime.one_lt
  omega

/-! ## Examples on the 32-bit backend -/

example : (montMulScalar U32.Fe montGenerator (smallScalar 2)).val ≠ 5 := by
  intro e
  have h := C31_small (F := U32.Fe) (smallScalar 2) (by rw [smallScalar_val 2 (by norm_num)])
  rw [e] at h
  apply smallNat_ne_zero 78165024 (by norm_num) (by norm_num)
  push_cast at h ⊢
  linear_combination h
example : ((EdPt.generator : EdPt U32.Fe).toMontgomery).val = 5 := by
  rw [C30_generator]; decide
example : montMulScalar U32.Fe (montMulScalar U32.Fe montGenerator lMinusOne) (smallScalar 3) =
    montMulScalar U32.Fe (montMulScalar U32.Fe montGenerator (smallScalar 3)) lMinusOne :=
  C33_dh_agreement _ _ _
/-- `u = 5` and `u = p + 5`. -/
example : montMulScalar U32.Fe (Arr.ofVal 56 256 (by norm_num) (p + 5)) (smallScalar 3) =
    montMulScalar U32.Fe montGenerator (smallScalar 3) := by
  refine (C34_reads_mod_p _ _ _).1 ?_
  rw [Arr.ofVal_val _ _ (by rw [p_lit]; norm_num), montGenerator_val, Nat.add_mod_left]
example : isLowOrder montGenerator = false := by decide
example : isLowOrder (Arr.ofVal 56 256 (by norm_num) 1) = true := by decide +kernel
example : ∃ P : (curve448 Fp).Point, P ≠ 0 ∧ ucoord P = 0 := point_of_eq (v := 0) (by ring)

end Ed448.Props
