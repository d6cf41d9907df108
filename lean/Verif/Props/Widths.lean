import Verif.Proofs.MulBounds
import Verif.Proofs.U32MulLoose
import Verif.Proofs.SourceU32Square
import Verif.Proofs.U32Instance

/-!
# C98: which words the multiplication of field elements needs

The comment above `mul` in src/field/u32/karatsuba.rs (lines 15-16) says that the type was changed to i128 to avoid
wrapping arithmetic and that the bounds are to be checked. Here they are: i128 suffices for all words, i64 for
field elements as the backend keeps them, and not for all words. The product is right for limbs below 2^31, the
square, which is computed modulo 2^64, for limbs below 2^29, and neither for limbs of one bit more.
-/

set_option exponentiation.threshold 1000

namespace Ed448.Props
open Ed448.Model Ed448.Proofs.Bounds

/-- Lists of words that are at most `m`. -/
def WordsTo (m : ℕ) (a : List ℕ) : Prop := ∀ x ∈ a, x ≤ m

/-- The function with the type as a parameter is the translated one for i128. -/
theorem C98_i128 : Gen.Wide.karatsuba.mul ckI128 128 = Gen.karatsuba.mul := rfl

/-- And for i64 it is the translation of the source where i128 is replaced by i64. -/
theorem C98_i64 : Gen.Wide.karatsuba.mul ckI64 64 = Gen.Narrow.karatsuba.mul := rfl

theorem getD_le {m : ℕ} {a : List ℕ} (h : WordsTo m a) (i : ℕ) : a.getD i 0 ≤ m := by
  rcases Nat.lt_or_ge i a.length with hi | hi
  · rw [List.getD_eq_getElem?_getD, List.getElem?_eq_getElem hi]; exact h _ (List.getElem_mem hi)
  · rw [List.getD_eq_getElem?_getD, List.getElem?_eq_none hi]; exact Nat.zero_le _

theorem wadd_le (x y : ℕ) : Gen.Rt.waddU 32 x y ≤ x + y := by
  unfold Gen.Rt.waddU
  exact Nat.mod_le _ _

theorem wide_words {m : ℕ} (hm : 2 ^ 14 ≤ m) {ck ck' : ℤ → Option ℤ} {w w' : ℕ}
    (hck : Holds (m * m) ck) (hck' : Holds (m * m) ck') (hw : 28 < w) (hw' : 28 < w') {a b : List ℕ}
    (ha : WordsTo m a) (hb : WordsTo m b) :
    Sim (Gen.Wide.karatsuba.mul ck w a b) (Gen.Wide.karatsuba.mul ck' w' a b) fun r =>
      ∀ i, r.getD i 0 < 2 ^ 29 := by
  have two : ∀ {a : List ℕ}, WordsTo m a → ∀ i j, Gen.Rt.waddU 32 (a.getD i 0) (a.getD j 0) ≤ 2 * m := by
    intro a ha i j
    have := wadd_le (a.getD i 0) (a.getD j 0)
    have := getD_le ha i
    have := getD_le ha j
    omega
  have all : ∀ {a : List ℕ}, WordsTo m a → ∀ i,
      (Gen.karatsuba.mul.part1 a a).2.2.1.getD i 0 ≤ 2 * m := by
    intro a ha i
    rcases Nat.lt_or_ge i 8 with hi | hi
    · interval_cases i <;> exact two ha _ _
    · have e : (Gen.karatsuba.mul.part1 a a).2.2.1.getD i 0 = 0 := by
        rw [List.getD_eq_getElem?_getD, List.getElem?_eq_none (by simpa [Gen.karatsuba.mul.part1] using hi)]
        rfl
      rw [e]; exact Nat.zero_le _
  refine mul_sim (U := m * m) ?_ hck hck' hw hw' ?_ ?_
  · have : ((2 ^ 14 : ℕ) : ℤ) ≤ m := by exact_mod_cast hm
    push_cast at this
    nlinarith
  · intro i j
    exact_mod_cast Nat.mul_le_mul (getD_le ha i) (getD_le hb j)
  · intro i j
    have e1 : (Gen.Wide.karatsuba.mul.part1 ck w a b).2.2.1.getD i 0 ≤ 2 * m := all ha i
    have e2 : (Gen.Wide.karatsuba.mul.part1 ck w a b).2.2.2.1.getD j 0 ≤ 2 * m := all hb j
    have := Nat.mul_le_mul e1 e2
    have e : 2 * m * (2 * m) = 4 * (m * m) := by ring
    rw [e] at this
    exact_mod_cast this

/-- The multiplication never overflows, whatever the limbs are; the limbs of the result are below 2^29. -/
theorem C98_total {a b : List ℕ} (ha : WordsTo (2 ^ 32 - 1) a) (hb : WordsTo (2 ^ 32 - 1) b) :
    ∃ r, Gen.karatsuba.mul a b = some r ∧ ∀ i, r.getD i 0 < 2 ^ 29 := by
  have hck : Holds (((2 ^ 32 - 1 : ℕ) : ℤ) * ((2 ^ 32 - 1 : ℕ) : ℤ)) ckI128 := by
    intro x ⟨h1, h2⟩
    norm_num at h1 h2
    exact ckI128_eq (by norm_num; linarith) (by norm_num; linarith)
  obtain ⟨r, h, _, hr⟩ := wide_words (by norm_num) hck hck (w := 128) (w' := 128) (by norm_num) (by norm_num) ha hb
  exact ⟨r, h, hr⟩

/-- For limbs up to 1.75 times 2^28 the result is the same with i64. -/
theorem C98_narrow {a b : List ℕ} (ha : WordsTo (7 * 2 ^ 26) a) (hb : WordsTo (7 * 2 ^ 26) b) :
    ∃ r, Gen.Narrow.karatsuba.mul a b = some r ∧ Gen.karatsuba.mul a b = some r := by
  have hck : Holds (((7 * 2 ^ 26 : ℕ) : ℤ) * ((7 * 2 ^ 26 : ℕ) : ℤ)) ckI64 := by
    intro x ⟨h1, h2⟩
    norm_num at h1 h2
    exact ckI64_eq (by norm_num; linarith) (by norm_num; linarith)
  have hck' : Holds (((7 * 2 ^ 26 : ℕ) : ℤ) * ((7 * 2 ^ 26 : ℕ) : ℤ)) ckI128 := by
    intro x ⟨h1, h2⟩
    norm_num at h1 h2
    exact ckI128_eq (by norm_num; linarith) (by norm_num; linarith)
  obtain ⟨r, h, h', _⟩ := wide_words (by norm_num) hck hck' (w := 64) (w' := 128) (by norm_num) (by norm_num) ha hb
  exact ⟨r, h, h'⟩

/-- So i64 suffices for the elements of the backend, which keeps limbs up to 2^28 + 2^8. -/
theorem C98_elements (a b : U32.Fe) :
    Gen.Narrow.karatsuba.mul a.1.l b.1.l = Gen.karatsuba.mul a.1.l b.1.l := by
  obtain ⟨r, h, h'⟩ := C98_narrow (a := a.1.l) (b := b.1.l) (fun x hx => (a.2 x hx).trans (by norm_num))
    (fun x hx => (b.2 x hx).trans (by norm_num))
  rw [h, h']

/-- Not for all words: one bit more in every limb, the size of a sum before its reduction, is too much. -/
theorem C98_too_narrow :
    WordsTo (2 ^ 29 - 1) (List.replicate 16 (2 ^ 29 - 1)) ∧
    Gen.Narrow.karatsuba.mul (List.replicate 16 (2 ^ 29 - 1)) (List.replicate 16 (2 ^ 29 - 1)) = none := by
  refine ⟨?_, by decide +kernel⟩
  intro x hx
  exact (List.eq_of_mem_replicate hx).le

/-- The product is right whenever all limbs are below 2^31, three bits more than the backend promises. -/
theorem C98_mul (a b : U32.Raw) (ha : ∀ x ∈ a.l, x < 2 ^ 31) (hb : ∀ x ∈ b.l, x < 2 ^ 31) :
    ∃ r : U32.Raw, Gen.karatsuba.mul a.l b.l = some r.l ∧ (∀ x ∈ r.l, x ≤ 2 ^ 28 + 2 ^ 13) ∧
      U32.V r ≡ U32.V a * U32.V b [MOD p] := by
  obtain ⟨r, h, hr, hv⟩ := U32.Loose.mul_spec ha hb
  refine ⟨r, by rw [Ed448.Proofs.Source.karatsuba_mul, h]; rfl, hr, ?_⟩
  rw [← ZMod.natCast_eq_natCast_iff]
  push_cast
  exact hv

/-- The square is right whenever all limbs are below 2^29, one bit more. -/
theorem C98_square (a : U32.Raw) (ha : ∀ x ∈ a.l, x < 2 ^ 29) :
    ∃ r : U32.Raw, Gen.karatsuba.square a.l = some r.l ∧ (∀ x ∈ r.l, x ≤ 2 ^ 28 + 2 ^ 13) ∧
      U32.V r ≡ U32.V a * U32.V a [MOD p] := by
  obtain ⟨r, h, hr, hv⟩ := U32.Loose.square_spec ha
  refine ⟨r, by rw [Ed448.Proofs.Source.karatsuba_square, h]; rfl, hr, ?_⟩
  rw [← ZMod.natCast_eq_natCast_iff]
  push_cast
  exact hv

/-- Sixteen equal limbs. -/
def sixteen (x : ℕ) (h : x < 2 ^ 32) : U32.Raw :=
  ⟨List.replicate 16 x, rfl, fun y hy => by rw [List.eq_of_mem_replicate hy]; exact h⟩

/-- With one bit more the product is wrong, without a panic: 2^31 in each limb. -/
theorem C98_mul_bound : ∃ r : U32.Raw,
    Gen.karatsuba.mul (sixteen (2 ^ 31) (by norm_num)).l (sixteen (2 ^ 31) (by norm_num)).l = some r.l ∧
    ¬ U32.V r ≡ U32.V (sixteen (2 ^ 31) (by norm_num)) * U32.V (sixteen (2 ^ 31) (by norm_num)) [MOD p] := by
  have h : ∃ r : U32.Raw, U32.mul (sixteen (2 ^ 31) (by norm_num)) (sixteen (2 ^ 31) (by norm_num)) = some r ∧
    U32.V r % p ≠ U32.V (sixteen (2 ^ 31) (by norm_num)) * U32.V (sixteen (2 ^ 31) (by norm_num)) % p := by
    refine ⟨(U32.mul (sixteen (2 ^ 31) (by norm_num)) (sixteen (2 ^ 31) (by norm_num))).getD U32.zero, ?_, ?_⟩ <;>
      decide +kernel
  obtain ⟨r, h, hv⟩ := h
  exact ⟨r, by rw [Ed448.Proofs.Source.karatsuba_mul, h]; rfl, hv⟩

/-- With one bit more the square is wrong, without a panic, and differs from the product, which is right:
2^30 - 1 in each limb. -/
theorem C98_square_bound : ∃ r s : U32.Raw,
    Gen.karatsuba.square (sixteen (2 ^ 30 - 1) (by norm_num)).l = some r.l ∧
    Gen.karatsuba.mul (sixteen (2 ^ 30 - 1) (by norm_num)).l (sixteen (2 ^ 30 - 1) (by norm_num)).l = some s.l ∧
    ¬ U32.V r ≡ U32.V s [MOD p] := by
  have h : ∃ r s : U32.Raw, U32.square (sixteen (2 ^ 30 - 1) (by norm_num)) = some r ∧
      U32.mul (sixteen (2 ^ 30 - 1) (by norm_num)) (sixteen (2 ^ 30 - 1) (by norm_num)) = some s ∧
      U32.V r % p ≠ U32.V s % p := by
    refine ⟨(U32.square (sixteen (2 ^ 30 - 1) (by norm_num))).getD U32.zero,
      (U32.mul (sixteen (2 ^ 30 - 1) (by norm_num)) (sixteen (2 ^ 30 - 1) (by norm_num))).getD U32.zero, ?_, ?_, ?_⟩ <;>
      decide +kernel
  obtain ⟨r, s, h, h', hv⟩ := h
  exact ⟨r, s, by rw [Ed448.Proofs.Source.karatsuba_square, h]; rfl,
    by rw [Ed448.Proofs.Source.karatsuba_mul, h']; rfl, hv⟩

/-- Two products, one of them of the largest words. -/
example : Gen.Narrow.karatsuba.mul (List.replicate 16 3) (List.replicate 16 5) =
    Gen.karatsuba.mul (List.replicate 16 3) (List.replicate 16 5) := by
  obtain ⟨r, h, h'⟩ := C98_narrow (a := List.replicate 16 3) (b := List.replicate 16 5)
    (fun x hx => by rw [List.eq_of_mem_replicate hx]; norm_num)
    (fun x hx => by rw [List.eq_of_mem_replicate hx]; norm_num)
  rw [h, h']

example : (Gen.karatsuba.mul (List.replicate 16 (2 ^ 32 - 1)) (List.replicate 16 (2 ^ 32 - 1))).isSome = true := by
  decide +kernel

end Ed448.Props
