import Verif.Proofs.U32Mul2

/-!
# The 32-bit backend: correctness of Karatsuba squaring

The code accumulates with wrapping 64-bit operations, so intermediate values may wrap around. Each
accumulator is shown to agree modulo `2^64` with the exact coefficient, and the exact coefficient is
shown to lie in `[0, 2^64)`.
-/

namespace Ed448.Model.U32

set_option exponentiation.threshold 1000
set_option linter.unusedSimpArgs false

/-- Integers modulo `2^64`. -/
abbrev Z64 := ZMod (2 ^ 64)

theorem cast_wrapAdd (x y : ℕ) : ((wrapAddU64 x y : ℕ) : Z64) = x + y := by
  unfold wrapAddU64; rw [ZMod.natCast_mod]; push_cast; rfl

theorem cast_wrapMul (x y : ℕ) : ((wrapMulU64 x y : ℕ) : Z64) = x * y := by
  unfold wrapMulU64; rw [ZMod.natCast_mod]; push_cast; rfl

theorem cast_shl1 (x : ℕ) : ((shl1U64 x : ℕ) : Z64) = 2 * x := by
  unfold shl1U64; rw [ZMod.natCast_mod]; push_cast; ring

theorem cast_wrapSub (x y : ℕ) : ((wrapSubU64 x y : ℕ) : Z64) = x - y := by
  unfold wrapSubU64
  rw [ZMod.natCast_mod, Nat.cast_add, Nat.cast_sub (Nat.mod_lt _ (by positivity)).le,
    ZMod.natCast_self, ZMod.natCast_mod]
  ring

theorem wrapAdd_lt (x y : ℕ) : wrapAddU64 x y < 2 ^ 64 := Nat.mod_lt _ (by positivity)
theorem wrapSub_lt (x y : ℕ) : wrapSubU64 x y < 2 ^ 64 := Nat.mod_lt _ (by positivity)

theorem exact_of_cast {x : ℕ} {t : ℤ} (hx : x < 2 ^ 64) (h0 : 0 ≤ t) (h1 : t < 2 ^ 64)
    (h : (x : Z64) = (t : Z64)) : (x : ℤ) = t := by
  have h' : (((x : ℤ)) : Z64) = (t : Z64) := by rw [← h]; push_cast; rfl
  rw [ZMod.intCast_eq_intCast_iff_dvd_sub] at h'
  omega

theorem sqJ0_cast (a aa : ℕ → ℕ) :
    (((sqJ0 a aa).1 : ℕ) : Z64) = ((0 + S0 a a aa aa 0 : ℤ) : Z64) ∧
    (((sqJ0 a aa).2 : ℕ) : Z64) = ((0 + S1 a a aa aa 0 : ℤ) : Z64) := by
  simp only [sqJ0, sqMid, List.foldl, sq0Body, widemul, cast_wrapAdd, cast_wrapSub, cast_wrapMul,
    cast_shl1, S0, S1, LO, HI, mm]
  push_cast
  constructor <;> ring

theorem sqStep1_cast (a aa : ℕ → ℕ) (z0 z1 : ℕ) :
    (((sqStep a aa 1 z0 z1).1 : ℕ) : Z64) = ((z0 + S0 a a aa aa 1 : ℤ) : Z64) ∧
    (((sqStep a aa 1 z0 z1).2 : ℕ) : Z64) = ((z1 + S1 a a aa aa 1 : ℤ) : Z64) := by
  have e1 : List.range' 0 (1 / 2 + 1) = [0] := rfl
  have e2 : List.range' 1 ((8 - 1) / 2) = [1, 2, 3] := rfl
  simp only [sqStep, e1, e2, sqMid, List.foldl, sqFirst, sqSecond, widemul, ne_eq, Nat.reduceSub,
    Nat.reduceAdd, Nat.reduceDiv, Nat.reduceEqDiff, not_true_eq_false, not_false_eq_true, if_true,
    if_false, OfNat.ofNat_ne_zero, OfNat.zero_ne_ofNat, zero_ne_one, one_ne_zero, OfNat.ofNat_ne_one,
    OfNat.one_ne_ofNat]
  simp only [cast_wrapAdd, cast_wrapSub, cast_wrapMul, cast_shl1, S0, S1, LO, HI, mm]
  push_cast
  constructor <;> ring

theorem sqStep2_cast (a aa : ℕ → ℕ) (z0 z1 : ℕ) :
    (((sqStep a aa 2 z0 z1).1 : ℕ) : Z64) = ((z0 + S0 a a aa aa 2 : ℤ) : Z64) ∧
    (((sqStep a aa 2 z0 z1).2 : ℕ) : Z64) = ((z1 + S1 a a aa aa 2 : ℤ) : Z64) := by
  have e1 : List.range' 0 (2 / 2 + 1) = [0, 1] := rfl
  have e2 : List.range' 1 ((8 - 2) / 2) = [1, 2, 3] := rfl
  simp only [sqStep, e1, e2, sqMid, List.foldl, sqFirst, sqSecond, widemul, ne_eq, Nat.reduceSub,
    Nat.reduceAdd, Nat.reduceDiv, Nat.reduceEqDiff, not_true_eq_false, not_false_eq_true, if_true,
    if_false, OfNat.ofNat_ne_zero, OfNat.zero_ne_ofNat, zero_ne_one, one_ne_zero, OfNat.ofNat_ne_one,
    OfNat.one_ne_ofNat]
  simp only [cast_wrapAdd, cast_wrapSub, cast_wrapMul, cast_shl1, S0, S1, LO, HI, mm]
  push_cast
  constructor <;> ring

theorem sqStep3_cast (a aa : ℕ → ℕ) (z0 z1 : ℕ) :
    (((sqStep a aa 3 z0 z1).1 : ℕ) : Z64) = ((z0 + S0 a a aa aa 3 : ℤ) : Z64) ∧
    (((sqStep a aa 3 z0 z1).2 : ℕ) : Z64) = ((z1 + S1 a a aa aa 3 : ℤ) : Z64) := by
  have e1 : List.range' 0 (3 / 2 + 1) = [0, 1] := rfl
  have e2 : List.range' 1 ((8 - 3) / 2) = [1, 2] := rfl
  simp only [sqStep, e1, e2, sqMid, List.foldl, sqFirst, sqSecond, widemul, ne_eq, Nat.reduceSub,
    Nat.reduceAdd, Nat.reduceDiv, Nat.reduceEqDiff, not_true_eq_false, not_false_eq_true, if_true,
    if_false, OfNat.ofNat_ne_zero, OfNat.zero_ne_ofNat, zero_ne_one, one_ne_zero, OfNat.ofNat_ne_one,
    OfNat.one_ne_ofNat]
  simp only [cast_wrapAdd, cast_wrapSub, cast_wrapMul, cast_shl1, S0, S1, LO, HI, mm]
  push_cast
  constructor <;> ring

theorem sqStep4_cast (a aa : ℕ → ℕ) (z0 z1 : ℕ) :
    (((sqStep a aa 4 z0 z1).1 : ℕ) : Z64) = ((z0 + S0 a a aa aa 4 : ℤ) : Z64) ∧
    (((sqStep a aa 4 z0 z1).2 : ℕ) : Z64) = ((z1 + S1 a a aa aa 4 : ℤ) : Z64) := by
  have e1 : List.range' 0 (4 / 2 + 1) = [0, 1, 2] := rfl
  have e2 : List.range' 1 ((8 - 4) / 2) = [1, 2] := rfl
  simp only [sqStep, e1, e2, sqMid, List.foldl, sqFirst, sqSecond, widemul, ne_eq, Nat.reduceSub,
    Nat.reduceAdd, Nat.reduceDiv, Nat.reduceEqDiff, not_true_eq_false, not_false_eq_true, if_true,
    if_false, OfNat.ofNat_ne_zero, OfNat.zero_ne_ofNat, zero_ne_one, one_ne_zero, OfNat.ofNat_ne_one,
    OfNat.one_ne_ofNat]
  simp only [cast_wrapAdd, cast_wrapSub, cast_wrapMul, cast_shl1, S0, S1, LO, HI, mm]
  push_cast
  constructor <;> ring

theorem sqStep5_cast (a aa : ℕ → ℕ) (z0 z1 : ℕ) :
    (((sqStep a aa 5 z0 z1).1 : ℕ) : Z64) = ((z0 + S0 a a aa aa 5 : ℤ) : Z64) ∧
    (((sqStep a aa 5 z0 z1).2 : ℕ) : Z64) = ((z1 + S1 a a aa aa 5 : ℤ) : Z64) := by
  have e1 : List.range' 0 (5 / 2 + 1) = [0, 1, 2] := rfl
  have e2 : List.range' 1 ((8 - 5) / 2) = [1] := rfl
  simp only [sqStep, e1, e2, sqMid, List.foldl, sqFirst, sqSecond, widemul, ne_eq, Nat.reduceSub,
    Nat.reduceAdd, Nat.reduceDiv, Nat.reduceEqDiff, not_true_eq_false, not_false_eq_true, if_true,
    if_false, OfNat.ofNat_ne_zero, OfNat.zero_ne_ofNat, zero_ne_one, one_ne_zero, OfNat.ofNat_ne_one,
    OfNat.one_ne_ofNat]
  simp only [cast_wrapAdd, cast_wrapSub, cast_wrapMul, cast_shl1, S0, S1, LO, HI, mm]
  push_cast
  constructor <;> ring

theorem sqStep6_cast (a aa : ℕ → ℕ) (z0 z1 : ℕ) :
    (((sqStep a aa 6 z0 z1).1 : ℕ) : Z64) = ((z0 + S0 a a aa aa 6 : ℤ) : Z64) ∧
    (((sqStep a aa 6 z0 z1).2 : ℕ) : Z64) = ((z1 + S1 a a aa aa 6 : ℤ) : Z64) := by
  have e1 : List.range' 0 (6 / 2 + 1) = [0, 1, 2, 3] := rfl
  have e2 : List.range' 1 ((8 - 6) / 2) = [1] := rfl
  simp only [sqStep, e1, e2, sqMid, List.foldl, sqFirst, sqSecond, widemul, ne_eq, Nat.reduceSub,
    Nat.reduceAdd, Nat.reduceDiv, Nat.reduceEqDiff, not_true_eq_false, not_false_eq_true, if_true,
    if_false, OfNat.ofNat_ne_zero, OfNat.zero_ne_ofNat, zero_ne_one, one_ne_zero, OfNat.ofNat_ne_one,
    OfNat.one_ne_ofNat]
  simp only [cast_wrapAdd, cast_wrapSub, cast_wrapMul, cast_shl1, S0, S1, LO, HI, mm]
  push_cast
  constructor <;> ring

theorem sqJ7_cast (a aa : ℕ → ℕ) (z0 z1 : ℕ) :
    (((sqJ7 a aa z0 z1).1 : ℕ) : Z64) = ((z0 + S0 a a aa aa 7 : ℤ) : Z64) ∧
    (((sqJ7 a aa z0 z1).2 : ℕ) : Z64) = ((z1 + S1 a a aa aa 7 : ℤ) : Z64) := by
  simp only [sqJ7, sqMid, List.foldl, sq7Body, widemul, cast_wrapAdd, cast_wrapSub, cast_wrapMul,
    cast_shl1, S0, S1, LO, HI, mm]
  push_cast
  constructor <;> ring

theorem maskU_eq (n : ℕ) : maskU n = n % 2 ^ 28 := by
  unfold maskU; rw [and_MASK]; unfold asU32; omega

theorem maskU_maskI {n : ℕ} {z : ℤ} (h : (n : ℤ) = z) : maskU n = maskI z := by
  have := maskI_eq z
  rw [maskU_eq]
  omega

theorem shr_div {n : ℕ} {z : ℤ} (h : (n : ℤ) = z) : ((n >>> 28 : ℕ) : ℤ) = z / 2 ^ 28 := by
  rw [Nat.shiftRight_eq_div_pow, ← h]; push_cast; rfl

/-- The final step agrees with the final step of multiplication. -/
theorem sqFinal_eq {c0 c1 c2 c3 c4 c5 c6 c7 c8 c9 c10 c11 c12 c13 c14 c15 : ℕ} {a0 a1 : ℕ} {z0 z1 : ℤ}
    (h0 : c0 < 2 ^ 28) (h8 : c8 < 2 ^ 28)
    (e0 : (a0 : ℤ) = z0) (e1 : (a1 : ℤ) = z1)
    (hz0' : z0 ≤ 3 * 2 ^ 33 + 2 ^ 10) (hz1' : z1 ≤ 3 * 2 ^ 33 + 2 ^ 10) :
    sqFinal c0 c1 c2 c3 c4 c5 c6 c7 c8 c9 c10 c11 c12 c13 c14 c15 a0 a1 =
      mulFinal c0 c1 c2 c3 c4 c5 c6 c7 c8 c9 c10 c11 c12 c13 c14 c15 z0 z1 := by
  have f0 : ((a0 + a1 + c8 : ℕ) : ℤ) = z0 + [z1, (c8 : ℤ)].sum := by
    simp only [List.sum_cons, List.sum_nil]; push_cast; rw [e0, e1]; ring
  have f1 : ((a1 + c0 : ℕ) : ℤ) = z1 + c0 := by push_cast; rw [e1]
  have g0 := shr_div f0
  have g1 := shr_div f1
  have l0 : (a0 + a1 + c8) >>> 28 < 2 ^ 28 := by
    rw [Nat.shiftRight_eq_div_pow]; omega
  have l1 : (a1 + c0) >>> 28 < 2 ^ 28 := by
    rw [Nat.shiftRight_eq_div_pow]; omega
  unfold sqFinal mulFinal
  refine Eq.symm (ckSum_bind (by simp) (allBd_cons (by omega) (by omega) (allBd_cons (by omega)
    (by omega) allBd_nil)) ?_)
  refine ckI128_bind (by rw [← f0]; omega) (by rw [← f0]; omega) ?_
  refine ckI128_bind (by omega) (by omega) ?_
  rw [ckU64_eq (by omega), Option.bind_some, ckU64_eq (by omega), Option.bind_some,
    ckU64_eq (by omega), Option.bind_some]
  simp only
  rw [maskU_maskI f0, maskU_maskI f1]
  have k0 : asU32 ((a0 + a1 + c8) >>> 28) = maskI (sarZ (z0 + [z1, (c8 : ℤ)].sum) 28) := by
    have := maskI_eq (sarZ (z0 + [z1, (c8 : ℤ)].sum) 28)
    rw [sarZ28, ← g0] at this
    rw [sarZ28, ← g0]
    unfold asU32
    omega
  have k1 : asU32 ((a1 + c0) >>> 28) = maskI (sarZ (z1 + c0) 28) := by
    have := maskI_eq (sarZ (z1 + c0) 28)
    rw [sarZ28, ← g1] at this
    rw [sarZ28, ← g1]
    unfold asU32
    omega
  rw [k0, k1]

theorem sqStep_lt (a aa : ℕ → ℕ) (j z0 z1 : ℕ) :
    (sqStep a aa j z0 z1).1 < 2 ^ 64 ∧ (sqStep a aa j z0 z1).2 < 2 ^ 64 :=
  ⟨wrapAdd_lt _ _, wrapAdd_lt _ _⟩

/-- The accumulators hold the exact coefficients. -/
theorem sq_exact {u : ℕ × ℕ} {z0 z1 t0 t1 : ℤ} (hu : u.1 < 2 ^ 64 ∧ u.2 < 2 ^ 64)
    (h : ((u.1 : ℕ) : Z64) = ((z0 + t0 : ℤ) : Z64) ∧ ((u.2 : ℕ) : Z64) = ((z1 + t1 : ℤ) : Z64))
    (b0 : 0 ≤ z0 + t0 ∧ z0 + t0 ≤ 2 ^ 63) (b1 : 0 ≤ z1 + t1 ∧ z1 + t1 ≤ 2 ^ 63) :
    (u.1 : ℤ) = z0 + t0 ∧ (u.2 : ℤ) = z1 + t1 :=
  ⟨exact_of_cast hu.1 b0.1 (by omega) h.1, exact_of_cast hu.2 b1.1 (by omega) h.2⟩

theorem square_spec {a : Raw} (ha : Tight a) :
    ∃ r, square a = some r ∧ Tight r ∧ (V r : Fp) = (V a : Fp) * (V a : Fp) := by
  obtain ⟨k, hk⟩ := V_mul_identity (a := a) (b := a)
  have hl := lim_of_tight ha ha
  unfold square
  simp only
  generalize (fun i => a.get i + a.get (i + 8)) = aa at *
  have b0 := fun k hk => hl.S0_bd k hk
  have b1 := fun k hk => hl.S1_bd k hk
  have n0 := chain_bd b0
  have n1 := chain_bd b1
  have l0 := chain_last b0
  have l1 := chain_last b1
  set C0 := chain (S0 a.get a.get aa aa) with hC0
  set C1 := chain (S1 a.get a.get aa aa) with hC1
  have x0 : ((sqJ0 a.get aa).1 : ℤ) = C0 0 ∧ ((sqJ0 a.get aa).2 : ℤ) = C1 0 :=
    sq_exact ⟨wrapAdd_lt _ _, wrapAdd_lt _ _⟩ (sqJ0_cast a.get aa) (n0 0 (by norm_num))
      (n1 0 (by norm_num))
  generalize sqJ0 a.get aa = s0 at *
  have x1 : ((sqStep a.get aa 1 (s0.1 >>> 28) (s0.2 >>> 28)).1 : ℤ) = C0 1 ∧
      ((sqStep a.get aa 1 (s0.1 >>> 28) (s0.2 >>> 28)).2 : ℤ) = C1 1 := by
    have e := sqStep1_cast a.get aa (s0.1 >>> 28) (s0.2 >>> 28)
    rw [shr_div x0.1, shr_div x0.2] at e
    exact sq_exact (sqStep_lt _ _ _ _ _) e (n0 1 (by norm_num)) (n1 1 (by norm_num))
  generalize sqStep a.get aa 1 (s0.1 >>> 28) (s0.2 >>> 28) = s1 at *
  have x2 : ((sqStep a.get aa 2 (s1.1 >>> 28) (s1.2 >>> 28)).1 : ℤ) = C0 2 ∧
      ((sqStep a.get aa 2 (s1.1 >>> 28) (s1.2 >>> 28)).2 : ℤ) = C1 2 := by
    have e := sqStep2_cast a.get aa (s1.1 >>> 28) (s1.2 >>> 28)
    rw [shr_div x1.1, shr_div x1.2] at e
    exact sq_exact (sqStep_lt _ _ _ _ _) e (n0 2 (by norm_num)) (n1 2 (by norm_num))
  generalize sqStep a.get aa 2 (s1.1 >>> 28) (s1.2 >>> 28) = s2 at *
  have x3 : ((sqStep a.get aa 3 (s2.1 >>> 28) (s2.2 >>> 28)).1 : ℤ) = C0 3 ∧
      ((sqStep a.get aa 3 (s2.1 >>> 28) (s2.2 >>> 28)).2 : ℤ) = C1 3 := by
    have e := sqStep3_cast a.get aa (s2.1 >>> 28) (s2.2 >>> 28)
    rw [shr_div x2.1, shr_div x2.2] at e
    exact sq_exact (sqStep_lt _ _ _ _ _) e (n0 3 (by norm_num)) (n1 3 (by norm_num))
  generalize sqStep a.get aa 3 (s2.1 >>> 28) (s2.2 >>> 28) = s3 at *
  have x4 : ((sqStep a.get aa 4 (s3.1 >>> 28) (s3.2 >>> 28)).1 : ℤ) = C0 4 ∧
      ((sqStep a.get aa 4 (s3.1 >>> 28) (s3.2 >>> 28)).2 : ℤ) = C1 4 := by
    have e := sqStep4_cast a.get aa (s3.1 >>> 28) (s3.2 >>> 28)
    rw [shr_div x3.1, shr_div x3.2] at e
    exact sq_exact (sqStep_lt _ _ _ _ _) e (n0 4 (by norm_num)) (n1 4 (by norm_num))
  generalize sqStep a.get aa 4 (s3.1 >>> 28) (s3.2 >>> 28) = s4 at *
  have x5 : ((sqStep a.get aa 5 (s4.1 >>> 28) (s4.2 >>> 28)).1 : ℤ) = C0 5 ∧
      ((sqStep a.get aa 5 (s4.1 >>> 28) (s4.2 >>> 28)).2 : ℤ) = C1 5 := by
    have e := sqStep5_cast a.get aa (s4.1 >>> 28) (s4.2 >>> 28)
    rw [shr_div x4.1, shr_div x4.2] at e
    exact sq_exact (sqStep_lt _ _ _ _ _) e (n0 5 (by norm_num)) (n1 5 (by norm_num))
  generalize sqStep a.get aa 5 (s4.1 >>> 28) (s4.2 >>> 28) = s5 at *
  have x6 : ((sqStep a.get aa 6 (s5.1 >>> 28) (s5.2 >>> 28)).1 : ℤ) = C0 6 ∧
      ((sqStep a.get aa 6 (s5.1 >>> 28) (s5.2 >>> 28)).2 : ℤ) = C1 6 := by
    have e := sqStep6_cast a.get aa (s5.1 >>> 28) (s5.2 >>> 28)
    rw [shr_div x5.1, shr_div x5.2] at e
    exact sq_exact (sqStep_lt _ _ _ _ _) e (n0 6 (by norm_num)) (n1 6 (by norm_num))
  generalize sqStep a.get aa 6 (s5.1 >>> 28) (s5.2 >>> 28) = s6 at *
  have x7 : ((sqJ7 a.get aa (s6.1 >>> 28) (s6.2 >>> 28)).1 : ℤ) = C0 7 ∧
      ((sqJ7 a.get aa (s6.1 >>> 28) (s6.2 >>> 28)).2 : ℤ) = C1 7 := by
    have e := sqJ7_cast a.get aa (s6.1 >>> 28) (s6.2 >>> 28)
    rw [shr_div x6.1, shr_div x6.2] at e
    exact sq_exact (⟨wrapAdd_lt _ _, wrapSub_lt _ _⟩) e (n0 7 (by norm_num)) (n1 7 (by norm_num))
  generalize sqJ7 a.get aa (s6.1 >>> 28) (s6.2 >>> 28) = s7 at *
  obtain ⟨r, r1, r2, r3⟩ := mulFinal_spec
    (maskI_lt (C0 0)) (maskI_lt (C0 1)) (maskI_lt (C0 2)) (maskI_lt (C0 3)) (maskI_lt (C0 4)) (maskI_lt (C0 5)) (maskI_lt (C0 6)) (maskI_lt (C0 7)) (maskI_lt (C1 0)) (maskI_lt (C1 1)) (maskI_lt (C1 2)) (maskI_lt (C1 3)) (maskI_lt (C1 4)) (maskI_lt (C1 5)) (maskI_lt (C1 6)) (maskI_lt (C1 7))
    l0.1 l1.1 l0.2 l1.2
  refine ⟨r, ?_, r2, combine hk (chain_half _) (chain_half _) ?_⟩
  · rw [← r1, maskU_maskI x0.1, maskU_maskI x0.2, maskU_maskI x1.1, maskU_maskI x1.2, maskU_maskI x2.1, maskU_maskI x2.2, maskU_maskI x3.1, maskU_maskI x3.2, maskU_maskI x4.1, maskU_maskI x4.2, maskU_maskI x5.1, maskU_maskI x5.2, maskU_maskI x6.1, maskU_maskI x6.2, maskU_maskI x7.1, maskU_maskI x7.2]
    exact sqFinal_eq (maskI_lt _) (maskI_lt _) (shr_div x7.1) (shr_div x7.2) l0.2 l1.2
  · rw [r3]
    rfl

end Ed448.Model.U32