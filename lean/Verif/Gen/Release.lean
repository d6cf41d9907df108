import Verif.Gen.Rt

/-!
# Run-time support for the translation of a release build

The crate's Cargo.toml (/repo/Cargo.toml) sets no `overflow-checks`, so a build with `--release`
contains no checks of the arithmetic: `+`, `-`, `*` and negation of machine integers wrap around, and
the amount of a shift is taken modulo the width. Indexing, `unwrap`, `assert!` and `todo!` still panic.
The third pass of `tools/rust2lean.py` translates the source with these operations in place of the
checked ones of `Verif.Gen.Rt`. `usize` has 32 bits, as in the other passes. `Choice::from` of the
crate `subtle` keeps the check of its argument here, although it is a `debug_assert!` there; where it
fails the translation says nothing.
-/

namespace Ed448.Rel

/-- Result of an unsigned operation of width `w` whose exact value is `x ≥ 0`. -/
def wrU (w x : ℕ) : Option ℕ := some (x % 2 ^ w)

/-- Result of a signed operation of width `w` whose exact value is `x`. -/
def wrI (w : ℕ) (x : ℤ) : Option ℤ := some (Int.bmod x (2 ^ w))

/-- Result of the unsigned subtraction `x - y` of width `w`. -/
def wrSub (w x y : ℕ) : Option ℕ := some (if y ≤ x then x - y else x + 2 ^ w - y)

/-- The amount of a shift of a value of width `w`. -/
def shiftAmount (w k : ℕ) : Option ℕ := some (k % w)

/-- The same with a signed amount. -/
def shiftAmountZ (w : ℕ) (k : ℤ) : Option ℕ := some (k % w).toNat

end Ed448.Rel
