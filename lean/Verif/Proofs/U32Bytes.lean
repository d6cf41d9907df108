import Verif.Proofs.U32Linear

/-!
# The 32-bit backend: serialisation
-/

namespace Ed448.Model.U32

set_option exponentiation.threshold 1000

theorem load7_eq (b0 b1 b2 b3 b4 b5 b6 : ℕ) (h0 : b0 < 256) (h1 : b1 < 256) (h2 : b2 < 256)
    (h3 : b3 < 256) (h4 : b4 < 256) (h5 : b5 < 256) :
    load7 b0 b1 b2 b3 b4 b5 b6 = b0 + 2 ^ 8 * b1 + 2 ^ 16 * b2 + 2 ^ 24 * b3 + 2 ^ 32 * b4 +
      2 ^ 40 * b5 + 2 ^ 48 * b6 := by
  have key : ∀ (i x b : ℕ), x < 2 ^ i → x ||| (b <<< i) = x + 2 ^ i * b := by
    intro i x b hx
    rw [Nat.or_comm, Nat.shiftLeft_eq, mul_comm b]
    rw [← Nat.two_pow_add_eq_or_of_lt hx]
    ring
  unfold load7
  rw [key 8 _ _ (by omega), key 16 _ _ (by omega), key 24 _ _ (by omega), key 32 _ _ (by omega),
    key 40 _ _ (by omega), key 48 _ _ (by omega)]

theorem fromBytesLoop_spec : ∀ (n : ℕ) (l : List ℕ), l.length = 7 * n → (∀ x ∈ l, x < 256) →
    (fromBytesLoop l).length = 2 * n ∧ (∀ x ∈ fromBytesLoop l, x < 2 ^ 28) ∧
      Nat.ofDigits (2 ^ 28) (fromBytesLoop l) = Nat.ofDigits 256 l := by
  intro n
  induction n with
  | zero =>
    intro l hl _
    rw [mul_zero, List.length_eq_zero_iff] at hl
    subst hl
    exact ⟨rfl, by simp [fromBytesLoop], by simp [fromBytesLoop]⟩
  | succ n ih =>
    intro l hl hb
    match l, hl, hb with
    | b0 :: b1 :: b2 :: b3 :: b4 :: b5 :: b6 :: rest, hl, hb =>
      obtain ⟨i1, i2, i3⟩ := ih rest (by simp only [List.length_cons] at hl; omega)
        (fun x hx => hb x (by simp [hx]))
      have h0 := hb b0 (by simp)
      have h1 := hb b1 (by simp)
      have h2 := hb b2 (by simp)
      have h3 := hb b3 (by simp)
      have h4 := hb b4 (by simp)
      have h5 := hb b5 (by simp)
      have h6 := hb b6 (by simp)
      have e := load7_eq b0 b1 b2 b3 b4 b5 b6 h0 h1 h2 h3 h4 h5
      have elt : load7 b0 b1 b2 b3 b4 b5 b6 < 2 ^ 56 := by rw [e]; omega
      have d1 : fromBytesLoop (b0 :: b1 :: b2 :: b3 :: b4 :: b5 :: b6 :: rest) =
          (load7 b0 b1 b2 b3 b4 b5 b6 % 2 ^ 28) :: (load7 b0 b1 b2 b3 b4 b5 b6 / 2 ^ 28) ::
            fromBytesLoop rest := by
        rw [fromBytesLoop]
        simp only [and_MASK, asU32, Nat.shiftRight_eq_div_pow]
        congr 1
        · omega
        · congr 1
          omega
      rw [d1]
      refine ⟨by simp [i1]; ring, ?_, ?_⟩
      · intro x hx
        simp only [List.mem_cons] at hx
        rcases hx with rfl | rfl | hx
        · exact Nat.mod_lt _ (by norm_num)
        · omega
        · exact i2 x hx
      · simp only [Nat.ofDigits_cons]
        rw [i3]
        have := Nat.mod_add_div (load7 b0 b1 b2 b3 b4 b5 b6) (2 ^ 28)
        linear_combination this + e

theorem fromBytes_spec (b : Bytes 56) :
    ∃ r, fromBytes b = some r ∧ (∀ x ∈ r.l, x < 2 ^ 28) ∧ V r = b.val := by
  obtain ⟨h1, h2, h3⟩ := fromBytesLoop_spec 8 b.l b.len b.lt
  exact ⟨⟨_, h1, fun x hx => (h2 x hx).trans (by norm_num)⟩, pack_eq _ _ _, h2, h3⟩

theorem storeBytes_spec : ∀ (n l : ℕ), (storeBytes n l).length = n ∧
    (∀ x ∈ storeBytes n l, x < 256) ∧ Nat.ofDigits 256 (storeBytes n l) = l % 256 ^ n := by
  intro n
  induction n with
  | zero => intro l; exact ⟨rfl, by simp [storeBytes], by simp [storeBytes, Nat.mod_one]⟩
  | succ n ih =>
    intro l
    obtain ⟨h1, h2, h3⟩ := ih (l >>> 8)
    refine ⟨by simp [storeBytes, h1], ?_, ?_⟩
    · intro x hx
      rw [storeBytes, List.mem_cons] at hx
      rcases hx with rfl | hx
      · exact Nat.mod_lt _ (by norm_num)
      · exact h2 x hx
    · rw [storeBytes, Nat.ofDigits_cons, h3, Nat.shiftRight_eq_div_pow, pow_succ' 256 n, Nat.mod_mul]
      rfl

theorem toBytesLoop_spec : ∀ (n : ℕ) (l : List ℕ), l.length = 2 * n → (∀ x ∈ l, x < 2 ^ 28) →
    ∃ r, toBytesLoop l = some r ∧ r.length = 7 * n ∧ (∀ x ∈ r, x < 256) ∧
      Nat.ofDigits 256 r = Nat.ofDigits (2 ^ 28) l := by
  intro n
  induction n with
  | zero =>
    intro l hl _
    rw [mul_zero, List.length_eq_zero_iff] at hl
    subst hl
    exact ⟨[], rfl, rfl, by simp, by simp⟩
  | succ n ih =>
    intro l hl hb
    match l, hl, hb with
    | x :: y :: rest, hl, hb =>
      obtain ⟨r, i1, i2, i3, i4⟩ := ih rest (by simp only [List.length_cons] at hl; omega)
        (fun x hx => hb x (by simp [hx]))
      have hx := hb x (by simp)
      have hy := hb y (by simp)
      have e : ckU64 (x + y <<< 28) = some (x + 2 ^ 28 * y) := by
        rw [Nat.shiftLeft_eq, mul_comm]
        exact ckU64_eq (by omega)
      obtain ⟨s1, s2, s3⟩ := storeBytes_spec 7 (x + 2 ^ 28 * y)
      refine ⟨storeBytes 7 (x + 2 ^ 28 * y) ++ r, ?_, ?_, ?_, ?_⟩
      · rw [toBytesLoop, e, Option.bind_eq_bind, Option.bind_some, i1]
        rfl
      · rw [List.length_append, s1, i2]; ring
      · intro z hz
        rcases List.mem_append.mp hz with h | h
        · exact s2 z h
        · exact i3 z h
      · rw [Nat.ofDigits_append, s1, s3, i4, Nat.mod_eq_of_lt (by omega)]
        simp only [Nat.ofDigits_cons]
        ring

/-- `to_bytes` is the canonical little-endian encoding. -/
theorem toBytes_spec {a : Raw} (ha : Tight a) :
    ∃ r, toBytes a = some r ∧ r.val = V a % p := by
  obtain ⟨s, h1, h2, h3⟩ := strongReduce_spec ha
  obtain ⟨r, g1, g2, g3, g4⟩ := toBytesLoop_spec 8 s.l s.len h2
  refine ⟨⟨r, g2, g3⟩, ?_, ?_⟩
  · unfold toBytes
    rw [h1, Option.bind_eq_bind, Option.bind_some, g1, Option.bind_eq_bind, Option.bind_some]
    exact Arr.ofList?_eq _ _ _
  · exact g4.trans h3

end Ed448.Model.U32
