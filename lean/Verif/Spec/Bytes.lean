import Mathlib.Data.Nat.Digits.Lemmas

/-!
# Fixed-length little-endian digit strings

`Arr n B` is an array of `n` machine words, each below `B`. Rust's `[u8; n]` is `Arr n 256`, the
scalar's `[u32; 14]` is `Arr 14 (2^32)`. `Arr.val` is the little-endian number it spells.
-/

namespace Ed448

/-- Array of `n` words below `B`. -/
@[ext] structure Arr (n B : ℕ) where
  l : List ℕ
  len : l.length = n
  lt : ∀ x ∈ l, x < B

instance {n B : ℕ} : DecidableEq (Arr n B) := fun a b =>
  decidable_of_iff (a.l = b.l) Arr.ext_iff.symm

/-- Little-endian value. -/
def Arr.val {n B : ℕ} (a : Arr n B) : ℕ := Nat.ofDigits B a.l

/-- `[u8; n]`. -/
abbrev Bytes (n : ℕ) := Arr n 256

/-- Wraps a list as an array if it has the right shape. -/
def Arr.ofList? (n B : ℕ) (l : List ℕ) : Option (Arr n B) :=
  if h : l.length = n ∧ ∀ x ∈ l, x < B then some ⟨l, h.1, h.2⟩ else none

namespace Arr
variable {n B : ℕ}

theorem ofList?_eq (l : List ℕ) (h1 : l.length = n) (h2 : ∀ x ∈ l, x < B) :
    ofList? n B l = some ⟨l, h1, h2⟩ := dif_pos ⟨h1, h2⟩

theorem val_lt (hB : 1 < B) (a : Arr n B) : a.val < B ^ n := by
  have := Nat.ofDigits_lt_base_pow_length hB a.lt
  rwa [a.len] at this

theorem val_inj (hB : 1 < B) {a b : Arr n B} (h : a.val = b.val) : a = b := by
  ext1
  exact Nat.ofDigits_inj_of_len_eq hB (a.len.trans b.len.symm) a.lt b.lt h

theorem val_inj_iff (hB : 1 < B) {a b : Arr n B} : a.val = b.val ↔ a = b :=
  ⟨val_inj hB, fun h => h ▸ rfl⟩

/-- The array of `n` base-`B` digits of `v`. -/
def ofVal (n B : ℕ) (hB : 0 < B) (v : ℕ) : Arr n B where
  l := (List.range n).map fun i => v / B ^ i % B
  len := by simp
  lt := by
    intro x hx
    obtain ⟨i, -, rfl⟩ := List.mem_map.mp hx
    exact Nat.mod_lt _ hB

theorem ofDigits_digits_range (B : ℕ) (n v : ℕ) :
    Nat.ofDigits B ((List.range n).map fun i => v / B ^ i % B) = v % B ^ n := by
  induction n with
  | zero => simp [Nat.mod_one]
  | succ n ih =>
    rw [List.range_succ, List.map_append, Nat.ofDigits_append, ih]
    simp only [List.map_cons, List.map_nil, Nat.ofDigits_singleton, List.length_map,
      List.length_range]
    rw [pow_succ, Nat.mod_mul]

theorem ofVal_val (hB : 0 < B) (v : ℕ) (h : v < B ^ n) : (ofVal n B hB v).val = v := by
  unfold val ofVal
  rw [ofDigits_digits_range, Nat.mod_eq_of_lt h]

/-- The word with index `i` (0 if out of range, which no use below reaches). -/
def get (a : Arr n B) (i : ℕ) : ℕ := a.l.getD i 0

theorem get_lt (a : Arr n B) (i : ℕ) (hB : 0 < B) : a.get i < B := by
  unfold get
  rw [List.getD_eq_getElem?_getD]
  rcases h : a.l[i]? with _ | x
  · simpa using hB
  · simpa using a.lt x (List.mem_of_getElem? h)

end Arr
end Ed448
