import Verif.Proofs.ScalarAdd
import Mathlib.Tactic.LinearCombination
import Mathlib.Tactic.FieldSimp

/-! # Montgomery multiplication of `scalar.rs` -/

namespace Ed448.Model

theorem mulAddLoop_spec (a : ℕ) (ha : a < W) : ∀ (n chain : ℕ) (ys rs : List ℕ),
    ys.length = n → rs.length = n → (∀ x ∈ ys, x < W) → (∀ x ∈ rs, x < W) → chain < W →
    ∃ r c, mulAddLoop a chain ys rs = some (r, c) ∧ r.length = n ∧ (∀ x ∈ r, x < W) ∧ c < W ∧
      Nat.ofDigits W r + W ^ n * c = chain + a * Nat.ofDigits W ys + Nat.ofDigits W rs
  | 0, chain, ys, rs, hy, hr, _, _, hc => by
    obtain rfl := List.length_eq_zero_iff.mp hy
    obtain rfl := List.length_eq_zero_iff.mp hr
    exact ⟨[], chain, rfl, rfl, by simp, hc, by simp⟩
  | n + 1, chain, y :: ys, z :: rs, hy, hr, hY, hR, hc => by
    have h1 : y < W := hY y (by simp)
    have h2 : z < W := hR z (by simp)
    have hay : a * y ≤ (W - 1) * (W - 1) := Nat.mul_le_mul (by omega) (by omega)
    have hW1 : (W - 1) * (W - 1) = 18446744065119617025 := by norm_num
    rw [hW1] at hay
    unfold W at h1 h2 hc
    obtain ⟨r, c, e1, e2, e3, e4, e5⟩ := mulAddLoop_spec a ha n ((chain + (a * y + z)) / 2 ^ 32)
      ys rs (by simpa using hy) (by simpa using hr) (fun t ht => hY t (by simp [ht]))
      (fun t ht => hR t (by simp [ht])) (by unfold W; omega)
    refine ⟨asU32 (chain + (a * y + z)) :: r, c, ?_, by simp [e2], ?_, e4, ?_⟩
    · rw [mulAddLoop, mulAdd, ckU64_eq (by omega)]
      simp only [Option.bind_eq_bind, Option.bind_some]
      rw [ckU64_eq (by omega)]
      simp only [Option.bind_some]
      rw [ckU64_eq (by omega)]
      simp only [Option.bind_some, e1]
    · intro t ht
      rcases List.mem_cons.mp ht with rfl | ht
      · exact Nat.mod_lt _ (by norm_num)
      · exact e3 t ht
    · simp only [Nat.ofDigits_cons, asU32]
      have hdm := Nat.mod_add_div (chain + (a * y + z)) (2 ^ 32)
      have : W * (Nat.ofDigits W r + W ^ n * c) = W * ((chain + (a * y + z)) / 2 ^ 32) +
        W * (a * Nat.ofDigits W ys) + W * Nat.ofDigits W rs := by rw [e5]; ring
      rw [pow_succ _ n]
      linarith

theorem montFactor : (MONTGOMERY_FACTOR * ell + 1) % W = 0 := by rw [ell_lit]; decide +kernel

/-- The low limb of `m*l + r` vanishes. -/
theorem mont_low (h1 h2 c2 : ℕ) (t1 t2 : List ℕ) (hlt : h2 < W)
    (b5 : Nat.ofDigits W (h2 :: t2) + W ^ 14 * c2 =
      0 + wrapMulU32 h1 MONTGOMERY_FACTOR * ell + Nat.ofDigits W (h1 :: t1)) : h2 = 0 := by
  have e1 : (Nat.ofDigits W (h2 :: t2) + W ^ 14 * c2) % W = h2 := by
    rw [Nat.ofDigits_cons, add_assoc, pow_succ _ 13, mul_comm (W ^ 13) W, mul_assoc, ← mul_add,
      Nat.add_mul_mod_self_left]
    exact Nat.mod_eq_of_lt hlt
  have e2 : (0 + wrapMulU32 h1 MONTGOMERY_FACTOR * ell + Nat.ofDigits W (h1 :: t1)) % W = 0 := by
    rw [Nat.ofDigits_cons, zero_add, ← add_assoc, Nat.add_mul_mod_self_left]
    unfold wrapMulU32
    have e : (h1 * MONTGOMERY_FACTOR % 2 ^ 32 * ell + h1) % W =
        (h1 * MONTGOMERY_FACTOR * ell + h1) % W := by
      rw [Nat.add_mod, Nat.mod_mul_mod, ← Nat.add_mod]
    refine e.trans ?_
    have : h1 * MONTGOMERY_FACTOR * ell + h1 = h1 * (MONTGOMERY_FACTOR * ell + 1) := by ring
    rw [this, Nat.mul_mod, montFactor]; simp
  rw [b5] at e1
  rw [← e1, e2]

/-- Pure arithmetic of one step, with the word size `w`, `V = w^13` and modulus `l` abstract. -/
theorem mont_arith (w V l T2 c1 c2 carry R1 R Y x m : ℕ)
    (a5 : R1 + V * w * c1 = 0 + x * Y + R) (b5 : w * T2 + V * w * c2 = 0 + m * l + R1) :
    w * (T2 + V * (c2 + (c1 + carry))) = R + V * w * carry + x * Y + m * l := by
  calc w * (T2 + V * (c2 + (c1 + carry)))
      = (w * T2 + V * w * c2) + V * w * c1 + V * w * carry := by ring
    _ = (R1 + V * w * c1) + m * l + V * w * carry := by rw [b5]; ring
    _ = _ := by rw [a5]; ring

theorem mont_bound (w T' T Y l x m : ℕ) (hw : 0 < w) (hx : x < w) (hm : m < w) (hT : T < Y + l)
    (h : w * T' = T + x * Y + m * l) : T' < Y + l := by
  have h1 : x * Y ≤ (w - 1) * Y := Nat.mul_le_mul_right _ (by omega)
  have h2 : m * l ≤ (w - 1) * l := Nat.mul_le_mul_right _ (by omega)
  have h3 : w * T' < w * (Y + l) := by
    obtain ⟨v, rfl⟩ : ∃ v, w = v + 1 := ⟨w - 1, by omega⟩
    simp only [Nat.add_sub_cancel] at h1 h2
    rw [h, add_mul, one_mul, mul_add]
    omega
  exact lt_of_mul_lt_mul_left h3 (Nat.zero_le _)

theorem mont_carry (c1 c2 carry : ℕ) (a4 : c1 < 2 ^ 32) (b4 : c2 < 2 ^ 32) (hc : carry ≤ 1) :
    (c2 + (c1 + carry)) / 2 ^ 32 < 2 ^ 32 ∧ c1 + carry < 2 ^ 64 ∧ c2 + (c1 + carry) < 2 ^ 64 := by
  omega

theorem mont_carry_le (Q D q Y l : ℕ) (h : D + Q * q < Y + l) (hY : Y < Q) (hl : 4 * l < Q) :
    q ≤ 1 := by
  by_contra hcon
  have h3 : Q * 2 ≤ Q * q := Nat.mul_le_mul_left _ (by omega)
  omega

theorem montStep_eq (y r t1 t2 : List ℕ) (carry xi h1 h2 c1 c2 : ℕ)
    (a : mulAddLoop xi 0 y r = some (h1 :: t1, c1))
    (b : mulAddLoop (wrapMulU32 h1 MONTGOMERY_FACTOR) 0 modulusLimbs (h1 :: t1) =
      some (h2 :: t2, c2)) (hc1 : asU32 c1 = c1) (h3 : c1 + carry < 2 ^ 64)
    (h4 : c2 + (c1 + carry) < 2 ^ 64) :
    montStep y (r, carry) xi = some (t2 ++ [asU32 (c2 + (c1 + carry))],
      asU32 ((c2 + (c1 + carry)) / 2 ^ 32)) := by
  unfold montStep
  rw [a, Option.bind_some]
  unfold montReduce
  rw [List.headD_cons, b, Option.bind_some, hc1]
  unfold montFinish
  rw [ckU64_eq h3, Option.bind_eq_bind, Option.bind_some, ckU64_eq h4, Option.bind_some,
    List.tail_cons]

/-- Montgomery invariant of one outer iteration. -/
theorem montStep_spec (y r : List ℕ) (carry xi : ℕ) (hy : y.length = 14) (hr : r.length = 14)
    (hY : ∀ x ∈ y, x < W) (hR : ∀ x ∈ r, x < W) (hx : xi < W) (hc : carry ≤ 1)
    (hT : Nat.ofDigits W r + RR * carry < Nat.ofDigits W y + ell) :
    ∃ r' c' m, montStep y (r, carry) xi = some (r', c') ∧ r'.length = 14 ∧ (∀ x ∈ r', x < W) ∧
      c' ≤ 1 ∧
      W * (Nat.ofDigits W r' + RR * c') =
        Nat.ofDigits W r + RR * carry + xi * Nat.ofDigits W y + m * ell ∧
      Nat.ofDigits W r' + RR * c' < Nat.ofDigits W y + ell := by
  obtain ⟨r1, c1, a1, a2, a3, a4, a5⟩ := mulAddLoop_spec xi hx 14 0 y r hy hr hY hR (by norm_num)
  obtain ⟨h1, t1, rfl⟩ : ∃ h t, r1 = h :: t := by
    cases r1 with
    | nil => simp at a2
    | cons h t => exact ⟨h, t, rfl⟩
  have hmW : wrapMulU32 h1 MONTGOMERY_FACTOR < W := Nat.mod_lt _ (by norm_num)
  obtain ⟨r2, c2, b1, b2, b3, b4, b5⟩ := mulAddLoop_spec (wrapMulU32 h1 MONTGOMERY_FACTOR) hmW 14 0
    modulusLimbs (h1 :: t1) rfl a2 modulusLimbs_lt a3 (by norm_num)
  rw [modulus_val] at b5
  obtain ⟨h2, t2, rfl⟩ : ∃ h t, r2 = h :: t := by
    cases r2 with
    | nil => simp at b2
    | cons h t => exact ⟨h, t, rfl⟩
  obtain rfl := mont_low h1 h2 c2 t1 t2 (b3 h2 (by simp)) b5
  have ht2 : Nat.ofDigits W (0 :: t2) = W * Nat.ofDigits W t2 := by
    rw [Nat.ofDigits_cons]; exact zero_add _
  rw [ht2] at b5
  have hlen2 : t2.length = 13 := by simpa using b2
  have ht2lt : ∀ x ∈ t2, x < W := fun x hx => b3 x (by simp [hx])
  have hsaved : asU32 c1 = c1 := Nat.mod_eq_of_lt a4
  have hcar := mont_carry c1 c2 carry a4 b4 hc
  obtain ⟨ch, hch⟩ : ∃ ch, ch = c2 + (c1 + carry) := ⟨_, rfl⟩
  have hcarry : asU32 (ch / 2 ^ 32) = ch / 2 ^ 32 := Nat.mod_eq_of_lt (hch ▸ hcar.1)
  have hval : Nat.ofDigits W (t2 ++ [asU32 ch]) + RR * (ch / 2 ^ 32) =
      Nat.ofDigits W t2 + W ^ 13 * ch := by
    rw [Nat.ofDigits_append, hlen2, Nat.ofDigits_singleton]
    have h := Nat.mod_add_div ch (2 ^ 32)
    rw [RR, pow_succ _ 13, asU32]
    rw [add_assoc, mul_assoc, ← mul_add]
    exact congrArg (fun z => Nat.ofDigits W t2 + W ^ 13 * z) h
  have hmain : W * (Nat.ofDigits W (t2 ++ [asU32 ch]) + RR * (ch / 2 ^ 32)) =
        Nat.ofDigits W r + RR * carry + xi * Nat.ofDigits W y +
          wrapMulU32 h1 MONTGOMERY_FACTOR * ell := by
    rw [hval, hch, RR, pow_succ _ 13]
    rw [pow_succ _ 13] at a5 b5
    exact mont_arith _ _ _ _ _ _ _ _ _ _ _ _ a5 b5
  have hbound : Nat.ofDigits W (t2 ++ [asU32 ch]) + RR * (ch / 2 ^ 32) <
      Nat.ofDigits W y + ell :=
    mont_bound W _ _ _ _ _ _ (by norm_num) hx hmW hT hmain
  refine ⟨t2 ++ [asU32 ch], ch / 2 ^ 32, _, ?_, by simp [hlen2], ?_, ?_, hmain, hbound⟩
  · rw [montStep_eq y r t1 t2 carry xi h1 0 c1 c2 a1 b1 hsaved hcar.2.1 hcar.2.2, ← hch, hcarry]
  · intro x hx
    rcases List.mem_append.mp hx with h | h
    · exact ht2lt x h
    · rw [List.mem_singleton.mp h]; exact Nat.mod_lt _ (by norm_num)
  · have hY' : Nat.ofDigits W y < W ^ 14 := by
      have := Nat.ofDigits_lt_base_pow_length (b := W) (by norm_num) hY
      rwa [hy] at this
    exact mont_carry_le RR _ _ _ _ hbound hY' ell_lt_RR

theorem montFold_spec (y : List ℕ) (hy : y.length = 14) (hY : ∀ x ∈ y, x < W) :
    ∀ (n : ℕ) (xs r : List ℕ) (carry : ℕ), xs.length = n → (∀ x ∈ xs, x < W) →
    r.length = 14 → (∀ x ∈ r, x < W) → carry ≤ 1 →
    Nat.ofDigits W r + RR * carry < Nat.ofDigits W y + ell →
    ∃ r' c' M, xs.foldlM (montStep y) (r, carry) = some (r', c') ∧ r'.length = 14 ∧
      (∀ x ∈ r', x < W) ∧ c' ≤ 1 ∧
      W ^ n * (Nat.ofDigits W r' + RR * c') =
        Nat.ofDigits W r + RR * carry + Nat.ofDigits W xs * Nat.ofDigits W y + M * ell ∧
      Nat.ofDigits W r' + RR * c' < Nat.ofDigits W y + ell
  | 0, xs, r, carry, hxs, _, hr, hR, hc, hT => by
    obtain rfl := List.length_eq_zero_iff.mp hxs
    exact ⟨r, carry, 0, rfl, hr, hR, hc, by simp, hT⟩
  | n + 1, x :: xs, r, carry, hxs, hX, hr, hR, hc, hT => by
    obtain ⟨r1, c1, m, h1, h2, h3, h4, h5, h6⟩ :=
      montStep_spec y r carry x hy hr hY hR (hX x (by simp)) hc hT
    obtain ⟨r2, c2, M, g1, g2, g3, g4, g5, g6⟩ := montFold_spec y hy hY n xs r1 c1
      (by simpa using hxs) (fun z hz => hX z (by simp [hz])) h2 h3 h4 h6
    refine ⟨r2, c2, m + W * M, ?_, g2, g3, g4, ?_, g6⟩
    · rw [List.foldlM_cons, h1]
      exact g1
    · rw [Nat.ofDigits_cons, pow_succ _ n]
      calc W ^ n * W * (Nat.ofDigits W r2 + RR * c2)
          = W * (W ^ n * (Nat.ofDigits W r2 + RR * c2)) := by ring
        _ = W * (Nat.ofDigits W r1 + RR * c1) + W * (Nat.ofDigits W xs * Nat.ofDigits W y)
            + W * (M * ell) := by rw [g5]; ring
        _ = _ := by rw [h5]; ring

theorem zero_digits : Nat.ofDigits W Scalar.zero.l = 0 := by decide

theorem ell_pos : 0 < ell := ell_prime.pos

/-- `montgomery_multiply` for all inputs: it never panics, its result is `x*y/R` modulo `l`, and it
is fully reduced as soon as the second operand is. -/
theorem montMul_spec (x y : Scalar) : ∃ r, montMul x y = some r ∧
    r.val * RR ≡ x.val * y.val [MOD ell] ∧ (y.val < ell → r.val < ell) := by
  obtain ⟨r, c, M, h1, h2, h3, h4, h5, h6⟩ := montFold_spec y.l y.len y.lt 14 x.l Scalar.zero.l 0
    x.len x.lt Scalar.zero.len Scalar.zero.lt (by norm_num)
    (by rw [zero_digits]; have := ell_pos; omega)
  have hY' : Nat.ofDigits W y.l < RR := y.val_lt
  obtain ⟨s, g1, g2⟩ := subExtraRaw_reduce r c h2 h3 h4 (by omega)
  refine ⟨s, ?_, ?_, ?_⟩
  · unfold montMul
    rw [h1]
    exact g1
  · rw [zero_digits] at h5
    have hT : (Nat.ofDigits W r + RR * c) * RR ≡ x.val * y.val [MOD ell] := by
      have e : (Nat.ofDigits W r + RR * c) * RR = x.val * y.val + M * ell := by
        rw [mul_comm]
        refine Eq.trans h5 ?_
        simp only [mul_zero, zero_add]; rfl
      rw [e]
      unfold Nat.ModEq
      rw [Nat.add_mul_mod_self_right]
    refine Nat.ModEq.trans (Nat.ModEq.mul_right RR ?_) hT
    rw [g2]
    split
    · rfl
    · next h =>
      unfold Nat.ModEq
      rw [← Nat.mod_eq_sub_mod (by omega)]
  · intro hy
    have hy' : Nat.ofDigits W y.l < ell := hy
    rw [g2]
    split <;> omega

theorem RR_ne_zero : (RR : Fl) ≠ 0 := by
  have h : ¬ (ell ∣ RR) := by rw [ell_lit]; decide +kernel
  intro hc
  exact h ((ZMod.natCast_eq_zero_iff _ _).mp hc)

theorem montMul_zmod (x y : Scalar) : ∃ r, montMul x y = some r ∧
    (r.val : Fl) = x.val * y.val / RR ∧ (y.val < ell → r.val < ell) := by
  obtain ⟨r, h1, h2, h3⟩ := montMul_spec x y
  refine ⟨r, h1, ?_, h3⟩
  have := (ZMod.natCast_eq_natCast_iff _ _ _).mpr h2
  rw [eq_div_iff RR_ne_zero]
  simpa only [Nat.cast_mul] using this

theorem R2_val : ((R2.val : ℕ) : Fl) = RR * RR := by
  rw [← Nat.cast_mul, ZMod.natCast_eq_natCast_iff]
  unfold Nat.ModEq
  rw [ell_lit]; decide +kernel

theorem R2_lt : R2.val < ell := by rw [ell_lit]; decide +kernel

theorem Rconst_val : ((Rconst.val : ℕ) : Fl) = RR := by
  rw [ZMod.natCast_eq_natCast_iff]
  unfold Nat.ModEq
  rw [ell_lit]; decide +kernel

theorem Rconst_lt : Rconst.val < ell := by rw [ell_lit]; decide +kernel

theorem one_val : Scalar.one.val = 1 := by decide
theorem zero_val : Scalar.zero.val = 0 := by decide

/-- Two numbers below `l` that agree in `ZMod l` are equal. -/
theorem eq_mod_of_cast {a b : ℕ} (ha : a < ell) (h : (a : Fl) = b) : a = b % ell := by
  have := (ZMod.natCast_eq_natCast_iff _ _ _).mp h
  unfold Nat.ModEq at this
  rwa [Nat.mod_eq_of_lt ha] at this

theorem Scalar.mul_spec (a b : Scalar) :
    ∃ r, Scalar.mul a b = some r ∧ r.val = a.val * b.val % ell := by
  obtain ⟨u, h1, h2, -⟩ := montMul_zmod a b
  obtain ⟨r, g1, g2, g3⟩ := montMul_zmod u R2
  refine ⟨r, by simp [Scalar.mul, h1, g1], ?_⟩
  refine eq_mod_of_cast (g3 R2_lt) ?_
  have := RR_ne_zero
  rw [g2, h2, R2_val, Nat.cast_mul]
  field_simp

end Ed448.Model
