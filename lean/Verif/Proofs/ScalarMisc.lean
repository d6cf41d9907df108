import Verif.Proofs.ScalarMul

/-! # Codecs, halving, digit expansions of `scalar.rs` -/

namespace Ed448.Model

/-! ## Byte codec -/

theorem or4 (b0 b1 b2 b3 : ℕ) (h0 : b0 < 256) (h1 : b1 < 256) (h2 : b2 < 256) :
    b0 ||| (b1 <<< 8) ||| (b2 <<< 16) ||| (b3 <<< 24) =
      b0 + 256 * (b1 + 256 * (b2 + 256 * b3)) := by
  have e1 : b0 ||| (b1 <<< 8) = b1 <<< 8 + b0 := by
    rw [Nat.or_comm, Nat.shiftLeft_add_eq_or_of_lt (show b0 < 2 ^ 8 by omega)]
  have e2 : (b1 <<< 8 + b0) ||| (b2 <<< 16) = b2 <<< 16 + (b1 <<< 8 + b0) := by
    rw [Nat.or_comm, Nat.shiftLeft_add_eq_or_of_lt (i := 16) (a := b2)
      (show b1 <<< 8 + b0 < 2 ^ 16 by rw [Nat.shiftLeft_eq]; omega)]
  have e3 : (b2 <<< 16 + (b1 <<< 8 + b0)) ||| (b3 <<< 24) =
      b3 <<< 24 + (b2 <<< 16 + (b1 <<< 8 + b0)) := by
    rw [Nat.or_comm, Nat.shiftLeft_add_eq_or_of_lt (i := 24) (a := b3)
      (show b2 <<< 16 + (b1 <<< 8 + b0) < 2 ^ 24 by simp only [Nat.shiftLeft_eq]; omega)]
  rw [e1, e2, e3]
  simp only [Nat.shiftLeft_eq]
  ring

theorem fromBytesRaw_val : ∀ (n : ℕ) (l : List ℕ), l.length = 4 * n → (∀ x ∈ l, x < 256) →
    Nat.ofDigits W (fromBytesRaw l) = Nat.ofDigits 256 l
  | 0, l, hl, _ => by
    obtain rfl := List.length_eq_zero_iff.mp hl
    simp [fromBytesRaw]
  | n + 1, b0 :: b1 :: b2 :: b3 :: rest, hl, h => by
    have ih := fromBytesRaw_val n rest (by simp at hl; omega) (fun x hx => h x (by simp [hx]))
    have h0 : b0 < 256 := h b0 (by simp)
    have h1 : b1 < 256 := h b1 (by simp)
    have h2 : b2 < 256 := h b2 (by simp)
    have h3 : b3 < 256 := h b3 (by simp)
    rw [fromBytesRaw, or4 b0 b1 b2 b3 h0 h1 h2, asU32, Nat.mod_eq_of_lt (by omega)]
    simp only [Nat.ofDigits_cons, ih]
    generalize Nat.ofDigits 256 rest = D
    simp only [W]
    ring
  | n + 1, [], hl, _ => by simp at hl
  | n + 1, [_], hl, _ => by simp at hl; omega
  | n + 1, [_, _], hl, _ => by simp at hl; omega
  | n + 1, [_, _, _], hl, _ => by simp at hl; omega

theorem toBytesRaw_val : ∀ (l : List ℕ), (∀ x ∈ l, x < W) →
    Nat.ofDigits 256 (toBytesRaw l) = Nat.ofDigits W l
  | [], _ => by simp [toBytesRaw]
  | x :: l, h => by
    have ih := toBytesRaw_val l (fun z hz => h z (by simp [hz]))
    have hx : x < W := h x (by simp)
    simp only [toBytesRaw, Nat.ofDigits_cons, ih, asU8, Nat.shiftRight_eq_div_pow]
    generalize Nat.ofDigits W l = D
    have : x = x % 2 ^ 8 + 256 * (x / 2 ^ 8 % 2 ^ 8 + 256 * (x / 2 ^ 8 / 2 ^ 8 % 2 ^ 8 +
      256 * (x / 2 ^ 8 / 2 ^ 8 / 2 ^ 8 % 2 ^ 8))) := by unfold W at hx; omega
    conv_rhs => rw [this]
    simp only [W]
    ring

theorem Scalar.fromBytes_val (b : Bytes 56) : (Scalar.fromBytes b).val = b.val :=
  fromBytesRaw_val 14 b.l b.len b.lt

theorem Scalar.toBytes_val (s : Scalar) : (Scalar.toBytes s).val = s.val := toBytesRaw_val s.l s.lt

theorem Scalar.eq_iff (a b : Scalar) : Scalar.eq a b = true ↔ a.val = b.val := by
  unfold Scalar.eq
  rw [decide_eq_true_eq, ← Arr.val_inj_iff (by norm_num), Scalar.toBytes_val, Scalar.toBytes_val]

/-! ## Slices -/

theorem ofDigits_split (B : ℕ) (l : List ℕ) (k : ℕ) (hk : k ≤ l.length) :
    Nat.ofDigits B l = Nat.ofDigits B (l.take k) + B ^ k * Nat.ofDigits B (l.drop k) := by
  conv_lhs => rw [← List.take_append_drop k l, Nat.ofDigits_append, List.length_take,
    min_eq_left hk]

/-! ## Halving -/

theorem halveLoop_spec (mask : ℕ) : ∀ (n chain : ℕ) (a m : List ℕ), a.length = n → m.length = n →
    (∀ x ∈ a, x < W) → (∀ x ∈ m, x < W) → chain ≤ 1 →
    ∃ r c, halveLoop mask chain a m = some (r, c) ∧ r.length = n ∧ (∀ x ∈ r, x < W) ∧ c ≤ 1 ∧
      Nat.ofDigits W r + W ^ n * c = chain + Nat.ofDigits W a +
        Nat.ofDigits W (m.map fun x => x &&& mask)
  | 0, chain, a, b, ha, hb, _, _, hc => by
    obtain rfl := List.length_eq_zero_iff.mp ha
    obtain rfl := List.length_eq_zero_iff.mp hb
    exact ⟨[], chain, rfl, rfl, by simp, hc, by simp⟩
  | n + 1, chain, x :: a, y :: b, ha, hb, hA, hB, hc => by
    have hx : x < W := hA x (by simp)
    have hy : y < W := hB y (by simp)
    have hy' : y &&& mask ≤ y := Nat.and_le_left
    obtain ⟨r, c, h1, h2, h3, h4, h5⟩ := halveLoop_spec mask n
      ((chain + (x + (y &&& mask))) / 2 ^ 32) a b
      (by simpa using ha) (by simpa using hb) (fun z hz => hA z (by simp [hz]))
      (fun z hz => hB z (by simp [hz])) (by unfold W at *; omega)
    refine ⟨asU32 (chain + (x + (y &&& mask))) :: r, c, ?_, by simp [h2], ?_, h4, ?_⟩
    · rw [halveLoop, ckU64_eq (by unfold W at *; omega)]
      simp only [Option.bind_eq_bind, Option.bind_some]
      rw [ckU64_eq (by unfold W at *; omega)]
      simp only [Option.bind_some, h1]
    · intro z hz
      rcases List.mem_cons.mp hz with rfl | hz
      · exact Nat.mod_lt _ (by norm_num)
      · exact h3 z hz
    · simp only [List.map_cons, Nat.ofDigits_cons, asU32]
      have hdm := Nat.mod_add_div (chain + (x + (y &&& mask))) (2 ^ 32)
      have : W * (Nat.ofDigits W r + W ^ n * c) = W * ((chain + (x + (y &&& mask))) / 2 ^ 32) +
        W * Nat.ofDigits W a + W * Nat.ofDigits W (b.map fun x => x &&& mask) := by rw [h5]; ring
      rw [pow_succ _ n]
      linarith

theorem shr1_limb (x y : ℕ) (hx : x < W) :
    (x >>> 1) ||| asU32 (y <<< 31) = x / 2 + 2 ^ 31 * (y % 2) := by
  have e : asU32 (y <<< 31) = (y % 2) <<< 31 := by
    rw [asU32, Nat.shiftLeft_eq, Nat.shiftLeft_eq]; omega
  rw [e, Nat.or_comm, ← Nat.shiftLeft_add_eq_or_of_lt, Nat.shiftLeft_eq, Nat.shiftRight_eq_div_pow]
  · ring
  · rw [Nat.shiftRight_eq_div_pow]; unfold W at hx; omega

theorem shr2_limb (x y : ℕ) (hx : x < W) :
    asU32 (y <<< 30) ||| (x >>> 2) = x / 4 + 2 ^ 30 * (y % 4) := by
  have e : asU32 (y <<< 30) = (y % 4) <<< 30 := by
    rw [asU32, Nat.shiftLeft_eq, Nat.shiftLeft_eq]; omega
  rw [e, ← Nat.shiftLeft_add_eq_or_of_lt, Nat.shiftLeft_eq, Nat.shiftRight_eq_div_pow]
  · ring
  · rw [Nat.shiftRight_eq_div_pow]; unfold W at hx; omega

theorem ofDigits_mod (k : ℕ) (x : ℕ) (l : List ℕ) (h : k ∣ W) :
    Nat.ofDigits W (x :: l) % k = x % k := by
  obtain ⟨q, hq⟩ := h
  rw [Nat.ofDigits_cons, Nat.add_mod, Nat.mul_mod, hq]
  simp

theorem shr1Loop_spec (c : ℕ) (hc : c ≤ 1) : ∀ (n : ℕ) (l : List ℕ), l.length = n + 1 →
    (∀ x ∈ l, x < W) →
    (shr1Loop c l).length = n + 1 ∧ (∀ x ∈ shr1Loop c l, x < W) ∧
      2 * Nat.ofDigits W (shr1Loop c l) + Nat.ofDigits W l % 2 = Nat.ofDigits W l + W ^ (n + 1) * c
  | 0, [x], _, h => by
    have hx : x < W := h x (by simp)
    have e : asU32 (c <<< 31 % 2 ^ 64) = asU32 (c <<< 31) := by
      rw [asU32, asU32, Nat.shiftLeft_eq]; omega
    rw [shr1Loop, e, shr1_limb x c hx]
    refine ⟨rfl, ?_, ?_⟩
    · simp only [List.mem_singleton, forall_eq]; unfold W at *; omega
    · simp only [Nat.ofDigits_singleton, W, pow_one, zero_add]; unfold W at hx; omega
  | n + 1, x :: y :: rest, hl, h => by
    have hx : x < W := h x (by simp)
    obtain ⟨h1, h2, h3⟩ := shr1Loop_spec c hc n (y :: rest) (by simpa using hl)
      (fun z hz => h z (by simp at hz ⊢; tauto))
    have hm : Nat.ofDigits W (y :: rest) % 2 = y % 2 := ofDigits_mod 2 y rest ⟨2 ^ 31, by norm_num⟩
    have hm' : Nat.ofDigits W (x :: y :: rest) % 2 = x % 2 :=
      ofDigits_mod 2 x _ ⟨2 ^ 31, by norm_num⟩
    rw [shr1Loop, shr1_limb x y hx, hm']
    rw [hm] at h3
    refine ⟨by simp [h1], ?_, ?_⟩
    · intro z hz
      rcases List.mem_cons.mp hz with rfl | hz
      · unfold W at *; omega
      · exact h2 z hz
    · rw [Nat.ofDigits_cons, Nat.ofDigits_cons (hd := x)]
      generalize Nat.ofDigits W (shr1Loop c (y :: rest)) = A at *
      generalize Nat.ofDigits W (y :: rest) = B at *
      rw [pow_succ _ (n + 1)]
      generalize W ^ (n + 1) = V at *
      have h4 : W * (2 * A + y % 2) = W * (B + V * c) := by rw [h3]
      have h5 : x / 2 * 2 + x % 2 = x := by omega
      have h6 : W = 2 * 2 ^ 31 := by norm_num
      calc _ = (x / 2 * 2 + x % 2) + (2 * 2 ^ 31) * (y % 2) + W * (2 * A) := by ring
        _ = x + (W * (y % 2) + W * (2 * A)) := by rw [h5, ← h6]; ring
        _ = x + W * (2 * A + y % 2) := by ring
        _ = _ := by rw [h4]; ring
  | 0, [], hl, _ => by simp at hl
  | 0, _ :: _ :: _, hl, _ => by simp at hl
  | _ + 1, [], hl, _ => by simp at hl
  | _ + 1, [_], hl, _ => by simp at hl

theorem shr2Loop_spec : ∀ (n : ℕ) (l : List ℕ), l.length = n + 1 → (∀ x ∈ l, x < W) →
    (shr2Loop l).length = n + 1 ∧ (∀ x ∈ shr2Loop l, x < W) ∧
      4 * Nat.ofDigits W (shr2Loop l) + Nat.ofDigits W l % 4 = Nat.ofDigits W l
  | 0, [x], _, h => by
    have hx : x < W := h x (by simp)
    rw [shr2Loop, Nat.shiftRight_eq_div_pow]
    refine ⟨rfl, ?_, ?_⟩
    · simp only [List.mem_singleton, forall_eq]; unfold W at *; omega
    · simp only [Nat.ofDigits_singleton]; omega
  | n + 1, x :: y :: rest, hl, h => by
    have hx : x < W := h x (by simp)
    obtain ⟨h1, h2, h3⟩ := shr2Loop_spec n (y :: rest) (by simpa using hl)
      (fun z hz => h z (by simp at hz ⊢; tauto))
    have hm : Nat.ofDigits W (y :: rest) % 4 = y % 4 := ofDigits_mod 4 y rest ⟨2 ^ 30, by norm_num⟩
    have hm' : Nat.ofDigits W (x :: y :: rest) % 4 = x % 4 :=
      ofDigits_mod 4 x _ ⟨2 ^ 30, by norm_num⟩
    rw [shr2Loop, shr2_limb x y hx, hm']
    rw [hm] at h3
    refine ⟨by simp [h1], ?_, ?_⟩
    · intro z hz
      rcases List.mem_cons.mp hz with rfl | hz
      · unfold W at *; omega
      · exact h2 z hz
    · rw [Nat.ofDigits_cons, Nat.ofDigits_cons (hd := x)]
      generalize Nat.ofDigits W (shr2Loop (y :: rest)) = A at *
      generalize Nat.ofDigits W (y :: rest) = B at *
      have h5 : x / 4 * 4 + x % 4 = x := by omega
      have h6 : W = 4 * 2 ^ 30 := by norm_num
      calc _ = (x / 4 * 4 + x % 4) + (4 * 2 ^ 30) * (y % 4) + W * (4 * A) := by ring
        _ = x + (W * (y % 4) + W * (4 * A)) := by rw [h5, ← h6]; ring
        _ = x + W * (4 * A + y % 4) := by ring
        _ = _ := by rw [h3]
  | 0, [], hl, _ => by simp at hl
  | 0, _ :: _ :: _, hl, _ => by simp at hl
  | _ + 1, [], hl, _ => by simp at hl
  | _ + 1, [_], hl, _ => by simp at hl

theorem Scalar.divByFour_spec (a : Scalar) :
    ∃ r, Scalar.divByFour a = some r ∧ r.val = a.val / 4 := by
  obtain ⟨h1, h2, h3⟩ := shr2Loop_spec 13 a.l a.len a.lt
  refine ⟨⟨_, h1, h2⟩, Arr.ofList?_eq _ h1 h2, ?_⟩
  show Nat.ofDigits W (shr2Loop a.l) = Nat.ofDigits W a.l / 4
  omega

theorem and_mask_val (m : List ℕ) (h : ∀ x ∈ m, x < W) :
    (m.map fun x => x &&& (2 ^ 32 - 1)) = m := by
  conv_rhs => rw [← List.map_id m]
  refine List.map_congr_left fun x hx => ?_
  rw [Nat.and_two_pow_sub_one_eq_mod, Nat.mod_eq_of_lt (h x hx)]; rfl

theorem and_zero_val (m : List ℕ) : Nat.ofDigits W (m.map fun x => x &&& 0) = 0 := by
  induction m with
  | nil => rfl
  | cons x m ih => simp [Nat.ofDigits_cons] at *

/-- Exact value of `halve` for all scalars. -/
theorem Scalar.halve_spec (a : Scalar) : ∃ r, Scalar.halve a = some r ∧
    r.val = (a.val + (a.val % 2) * ell) / 2 := by
  obtain ⟨x, l, hl⟩ : ∃ x l, a.l = x :: l := by
    cases h : a.l with
    | nil => have := a.len; simp [h] at this
    | cons x l => exact ⟨x, l, rfl⟩
  have hpar : a.val % 2 = x % 2 := by
    show Nat.ofDigits W a.l % 2 = _
    rw [hl]; exact ofDigits_mod 2 x l ⟨2 ^ 31, by norm_num⟩
  set mask := halveMask (a.l.headD 0) with hmask
  obtain ⟨r, c, h1, h2, h3, h4, h5⟩ := halveLoop_spec mask 14 0 a.l modulusLimbs a.len rfl a.lt
    modulusLimbs_lt (by norm_num)
  obtain ⟨g1, g2, g3⟩ := shr1Loop_spec c h4 13 r h2 h3
  have hmod : Nat.ofDigits W (modulusLimbs.map fun x => x &&& mask) = a.val % 2 * ell := by
    rw [hpar, hmask, hl, List.headD_cons, halveMask, Nat.and_one_is_mod]
    split
    · next h => rw [and_mask_val _ modulusLimbs_lt, modulus_val, h, one_mul]
    · next h =>
      rw [and_zero_val]
      have : x % 2 = 0 := by omega
      rw [this, zero_mul]
  rw [hmod, zero_add] at h5
  refine ⟨⟨_, g1, g2⟩, ?_, ?_⟩
  · unfold Scalar.halve
    rw [← hmask, h1, Option.bind_some]
    exact Arr.ofList?_eq _ g1 g2
  · show Nat.ofDigits W (shr1Loop c r) = (Nat.ofDigits W a.l + _) / 2
    rw [← h5, ← g3]
    have he : Nat.ofDigits W r % 2 = 0 := by
      have h6 : (Nat.ofDigits W r + W ^ 14 * c) % 2 = Nat.ofDigits W r % 2 := by
        have : W ^ 14 * c = 2 * (2 ^ 31 * W ^ 13 * c) := by
          rw [pow_succ, show W ^ 13 * W = W ^ 13 * (2 * 2 ^ 31) from by norm_num]; ring
        rw [this, Nat.add_mul_mod_self_left]
      rw [← h6, h5]
      have hodd : ell % 2 = 1 := by rw [ell_lit]
      have : Nat.ofDigits W a.l = a.val := rfl
      rw [this]
      rcases Nat.mod_two_eq_zero_or_one a.val with h | h
      · rw [h, zero_mul, add_zero, h]
      · rw [h, one_mul]; omega
    rw [he]; omega

/-! ## Bits -/

theorem bit_toNat (limb j : ℕ) :
    (decide (limb &&& (1 <<< j) ≠ 0)).toNat = limb / 2 ^ j % 2 := by
  have h1 : limb.testBit j = decide (limb / 2 ^ j % 2 = 1) := by
    rw [Nat.testBit_eq_decide_div_mod_eq]
  have h2 : (limb &&& (1 <<< j) ≠ 0) ↔ limb.testBit j = true := by
    rw [Nat.one_shiftLeft]
    constructor
    · intro h
      by_contra hc
      apply h
      apply Nat.eq_of_testBit_eq
      intro i
      rw [Nat.testBit_and, Nat.testBit_two_pow, Nat.zero_testBit]
      by_cases hij : j = i
      · subst hij; simp [Bool.eq_false_iff.mpr hc]
      · simp [hij]
    · intro h hc
      have := congrArg (fun z => z.testBit j) hc
      simp [Nat.testBit_and, h] at this
  rw [h1, decide_eq_true_eq] at h2
  have h3 : decide (limb &&& (1 <<< j) ≠ 0) = decide (limb / 2 ^ j % 2 = 1) :=
    decide_eq_decide.mpr h2
  rw [h3]
  rcases Nat.mod_two_eq_zero_or_one (limb / 2 ^ j) with h | h <;> simp [h]

theorem bits_val : ∀ l : List ℕ, (∀ x ∈ l, x < W) →
    Nat.ofDigits 2 ((l.flatMap fun limb => (List.range 32).map fun j =>
      decide (limb &&& (1 <<< j) ≠ 0)).map Bool.toNat) = Nat.ofDigits W l
  | [], _ => rfl
  | x :: l, h => by
    rw [List.flatMap_cons, List.map_append, Nat.ofDigits_append,
      bits_val l (fun z hz => h z (by simp [hz]))]
    rw [List.map_map]
    have e : (Bool.toNat ∘ fun j => decide (x &&& 1 <<< j ≠ 0)) = fun j => x / 2 ^ j % 2 := by
      funext j; exact bit_toNat x j
    rw [e, Arr.ofDigits_digits_range, Nat.mod_eq_of_lt (h x (by simp)), List.length_map,
      List.length_range, Nat.ofDigits_cons]

theorem Scalar.bits_len (s : Scalar) : s.bits.length = 448 := by
  unfold Scalar.bits
  rw [List.length_flatMap]
  simp [s.len]

theorem Scalar.bits_val (s : Scalar) : Nat.ofDigits 2 (s.bits.map Bool.toNat) = s.val :=
  Model.bits_val s.l s.lt

/-! ## Radix 16 -/

theorem nibbles_spec : ∀ l : List ℕ, (∀ x ∈ l, x < 256) →
    (nibbles l).length = 2 * l.length ∧ (∀ d ∈ nibbles l, 0 ≤ d ∧ d < 16) ∧
      (nibbles l).foldr (fun d acc => d + 16 * acc) 0 = ((Nat.ofDigits 256 l : ℕ) : ℤ)
  | [], _ => by simp [nibbles]
  | x :: l, h => by
    obtain ⟨h1, h2, h3⟩ := nibbles_spec l (fun z hz => h z (by simp [hz]))
    have hx := h x (by simp)
    have e1 : (x >>> 0 &&& 15) = x % 16 := by
      rw [show (15 : ℕ) = 2 ^ 4 - 1 by norm_num, Nat.and_two_pow_sub_one_eq_mod]; simp
    have e2 : (x >>> 4 &&& 15) = x / 16 := by
      rw [show (15 : ℕ) = 2 ^ 4 - 1 by norm_num, Nat.and_two_pow_sub_one_eq_mod,
        Nat.shiftRight_eq_div_pow]
      omega
    simp only [nibbles, e1, e2, List.length_cons, List.mem_cons, List.foldr_cons, h1, h3,
      Nat.ofDigits_cons]
    refine ⟨by omega, ?_, ?_⟩
    · rintro d (rfl | rfl | hd)
      · omega
      · omega
      · exact h2 d hd
    · push_cast; omega

theorem recenter_spec : ∀ (n : ℕ) (l : List ℤ) (c : ℤ), l.length = n → (c = 0 ∨ c = 1) →
    (∀ d ∈ l, 0 ≤ d ∧ d < 16) →
    ∃ r, recenter c (l ++ [0]) = some r ∧ r.length = n + 1 ∧
      (∀ i, i < n → -8 ≤ r.getD i 0 ∧ r.getD i 0 < 8) ∧ (r.getD n 0 = 0 ∨ r.getD n 0 = 1) ∧
      r.foldr (fun d acc => d + 16 * acc) 0 = c + l.foldr (fun d acc => d + 16 * acc) 0
  | 0, l, c, hl, hc, _ => by
    obtain rfl := List.length_eq_zero_iff.mp hl
    refine ⟨[c], ?_, rfl, by simp, by simpa using hc, by simp⟩
    rw [List.nil_append, recenter, zero_add, ckI8_eq (by omega) (by omega)]
    rfl
  | n + 1, x :: l, c, hl, hc, h => by
    have hx := h x (by simp)
    obtain ⟨r, h1, h2, h3, h4, h5⟩ := recenter_spec n l (sarZ (x + c + 8) 4) (by simpa using hl)
      (by unfold sarZ; omega) (fun d hd => h d (by simp [hd]))
    refine ⟨(x + c - sarZ (x + c + 8) 4 * 16) :: r, ?_, by simp [h2], ?_, by simpa using h4, ?_⟩
    · rw [List.cons_append, recenter, ckI8_eq (by omega) (by omega)]
      simp only [Option.bind_eq_bind, Option.bind_some]
      rw [if_neg (by simp), ckI8_eq (by omega) (by omega)]
      simp only [Option.bind_some]
      rw [ckI8_eq (by unfold sarZ; omega) (by unfold sarZ; omega)]
      simp only [Option.bind_some, h1]
    · intro i hi
      cases i with
      | zero => simp only [List.getD_cons_zero]; unfold sarZ; omega
      | succ i => simp only [List.getD_cons_succ]; exact h3 i (by omega)
    · simp only [List.foldr_cons, h5]; ring

/-- `to_radix_16` never overflows; its digits are in `[-8, 8)` except the last, which is 0 or 1, and
they spell the scalar in base 16. -/
theorem Scalar.toRadix16_spec (s : Scalar) : ∃ r, Scalar.toRadix16 s = some r ∧ r.length = 113 ∧
    (∀ i, i < 112 → -8 ≤ r.getD i 0 ∧ r.getD i 0 < 8) ∧ (r.getD 112 0 = 0 ∨ r.getD 112 0 = 1) ∧
    r.foldr (fun d acc => d + 16 * acc) 0 = (s.val : ℤ) := by
  obtain ⟨h1, h2, h3⟩ := nibbles_spec s.toBytes.l s.toBytes.lt
  obtain ⟨r, g1, g2, g3, g4, g5⟩ := recenter_spec 112 (nibbles s.toBytes.l) 0
    (by rw [h1, s.toBytes.len]) (Or.inl rfl) h2
  refine ⟨r, g1, g2, g3, g4, ?_⟩
  rw [g5, h3, zero_add, ← Scalar.toBytes_val]; rfl

theorem bytes_take_val {n m : ℕ} (b : Bytes n) (off : ℕ) (h : off + m ≤ n) :
    (Bytes.slice b off m h).val = b.val / 256 ^ off % 256 ^ m := by
  show Nat.ofDigits 256 ((b.l.drop off).take m) = Nat.ofDigits 256 b.l / 256 ^ off % 256 ^ m
  have hlt : ∀ l : List ℕ, (∀ x ∈ l, x < 256) → Nat.ofDigits 256 l < 256 ^ l.length :=
    fun l hl => Nat.ofDigits_lt_base_pow_length (by norm_num) hl
  rw [ofDigits_split 256 b.l off (by rw [b.len]; omega), Nat.add_mul_div_left _ _ (by positivity),
    Nat.div_eq_of_lt, zero_add]
  · have hlen : (b.l.drop off).length = n - off := by rw [List.length_drop, b.len]
    conv_rhs => rw [ofDigits_split 256 (b.l.drop off) m (by rw [hlen]; omega)]
    rw [Nat.add_mul_mod_self_left, Nat.mod_eq_of_lt]
    have := hlt ((b.l.drop off).take m)
      (fun x hx => b.lt x (List.mem_of_mem_drop (List.mem_of_mem_take hx)))
    rwa [List.length_take, hlen, min_eq_left (by omega)] at this
  · have := hlt (b.l.take off) (fun x hx => b.lt x (List.mem_of_mem_take hx))
    rwa [List.length_take, b.len, min_eq_left (by omega)] at this

theorem bytes_get_eq {n : ℕ} (b : Bytes n) (i : ℕ) (hi : i < n) :
    Arr.get b i = b.val / 256 ^ i % 256 := by
  have h := bytes_take_val (m := 1) b i (by omega)
  rw [pow_one] at h
  rw [← h]
  show b.l.getD i 0 = Nat.ofDigits 256 ((b.l.drop i).take 1)
  have hi' : i < b.l.length := by rw [b.len]; exact hi
  rw [List.drop_eq_getElem_cons hi', List.getD_eq_getElem?_getD, List.getElem?_eq_getElem hi',
    List.take_succ_cons, List.take_zero, Nat.ofDigits_singleton]
  rfl

end Ed448.Model
