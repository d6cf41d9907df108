import Verif.Spec.Bytes

/-!
# Machine arithmetic used by the code

Unsigned words are `ℕ`, signed words are `ℤ`. Plain `+ - *` is checked: `none` is the overflow
panic of a debug build. Whenever the result is `some`, a release build (which wraps) computes the
same value. Casts and `wrapping_*` operations are explicit.
-/

namespace Ed448.Model

/-- Result of a plain `u8` operation whose exact value is `x`. -/
def ckU8 (x : ℕ) : Option ℕ := if x < 2 ^ 8 then some x else none

/-- Result of a plain `u32` operation whose exact value is `x`. -/
def ckU32 (x : ℕ) : Option ℕ := if x < 2 ^ 32 then some x else none

/-- Result of a plain `u64` operation whose exact value is `x`. -/
def ckU64 (x : ℕ) : Option ℕ := if x < 2 ^ 64 then some x else none

/-- Result of a plain unsigned subtraction. -/
def ckSub (x y : ℕ) : Option ℕ := if y ≤ x then some (x - y) else none

/-- Result of a plain `i64` operation whose exact value is `x`. -/
def ckI64 (x : ℤ) : Option ℤ := if -2 ^ 63 ≤ x ∧ x < 2 ^ 63 then some x else none

/-- Result of a plain `i128` operation whose exact value is `x`. -/
def ckI128 (x : ℤ) : Option ℤ := if -2 ^ 127 ≤ x ∧ x < 2 ^ 127 then some x else none

/-- Result of a plain `i8` operation whose exact value is `x`. -/
def ckI8 (x : ℤ) : Option ℤ := if -2 ^ 7 ≤ x ∧ x < 2 ^ 7 then some x else none

/-- `x as u8`. -/
def asU8 (x : ℕ) : ℕ := x % 2 ^ 8

/-- `x as u32` for unsigned `x`. -/
def asU32 (x : ℕ) : ℕ := x % 2 ^ 32

/-- `x as u32` for signed `x` (two's complement truncation). -/
def asU32Z (x : ℤ) : ℕ := (x % 2 ^ 32).toNat

/-- `u32::wrapping_mul`. -/
def wrapMulU32 (x y : ℕ) : ℕ := x * y % 2 ^ 32

/-- `(m as i64) & b` for an unsigned word `m`, `b` in two's complement. -/
def landI64 (m : ℕ) (b : ℤ) : ℤ := ((m &&& (b % 2 ^ 64).toNat : ℕ) : ℤ)

/-- `x >> k` on a signed word (arithmetic shift). -/
def sarZ (x : ℤ) (k : ℕ) : ℤ := x / 2 ^ k

theorem ckU8_eq {x : ℕ} (h : x < 2 ^ 8) : ckU8 x = some x := if_pos h
theorem ckU32_eq {x : ℕ} (h : x < 2 ^ 32) : ckU32 x = some x := if_pos h
theorem ckU64_eq {x : ℕ} (h : x < 2 ^ 64) : ckU64 x = some x := if_pos h
theorem ckSub_eq {x y : ℕ} (h : y ≤ x) : ckSub x y = some (x - y) := if_pos h
theorem ckI64_eq {x : ℤ} (h : -2 ^ 63 ≤ x) (h' : x < 2 ^ 63) : ckI64 x = some x := if_pos ⟨h, h'⟩
theorem ckI128_eq {x : ℤ} (h : -2 ^ 127 ≤ x) (h' : x < 2 ^ 127) : ckI128 x = some x :=
  if_pos ⟨h, h'⟩
theorem ckI8_eq {x : ℤ} (h : -2 ^ 7 ≤ x) (h' : x < 2 ^ 7) : ckI8 x = some x := if_pos ⟨h, h'⟩

end Ed448.Model
