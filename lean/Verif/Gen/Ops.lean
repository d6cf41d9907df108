import Verif.Gen.Release

/-!
# The arithmetic of a release build as a parameter

The fourth pass of `tools/rust2lean.py` translates the source once more with the operations on machine
integers as a parameter `o : Ops`; `Ops.release` are those of `Verif.Gen.Release`, for which the result
is the translation `Ed448.Rel` (`Verif.Text.Bridge`). The types of indices and of the bounds of loops
(`usize`) keep their arithmetic. The interpreter of `Verif.Text.IntEval` has the same parameter: that the
text and the translation agree does not depend on the arithmetic, and is proved for any.
-/

namespace Ed448

/-- Operations on machine integers; the first argument is the width. -/
structure Ops where
  /-- `x + y` -/
  addU : ℕ → ℕ → ℕ → ℕ
  /-- `x - y` -/
  subU : ℕ → ℕ → ℕ → ℕ
  /-- `x * y` -/
  mulU : ℕ → ℕ → ℕ → ℕ
  /-- `x & y` -/
  andU : ℕ → ℕ → ℕ
  /-- `x | y` -/
  orU : ℕ → ℕ → ℕ
  /-- `x ^ y` -/
  xorU : ℕ → ℕ → ℕ
  /-- `x << k` -/
  shlU : ℕ → ℕ → ℕ → ℕ
  /-- `x >> k` -/
  shrU : ℕ → ℕ → ℕ
  /-- `x as u…` to a narrower type -/
  modU : ℕ → ℕ → ℕ
  /-- `x.wrapping_add(y)` -/
  waddU : ℕ → ℕ → ℕ → ℕ
  /-- `x.wrapping_sub(y)` -/
  wsubU : ℕ → ℕ → ℕ → ℕ
  /-- `x.wrapping_mul(y)` -/
  wmulU : ℕ → ℕ → ℕ → ℕ
  /-- signed `x + y` -/
  addI : ℕ → ℤ → ℤ → ℤ
  /-- signed `x - y` -/
  subI : ℕ → ℤ → ℤ → ℤ
  /-- signed `x * y` -/
  mulI : ℕ → ℤ → ℤ → ℤ
  /-- signed `-x` -/
  negI : ℕ → ℤ → ℤ
  /-- signed `x & y` -/
  andI : ℕ → ℤ → ℤ → ℤ
  /-- signed `x | y` -/
  orI : ℕ → ℤ → ℤ → ℤ
  /-- signed `x ^ y` -/
  xorI : ℕ → ℤ → ℤ → ℤ
  /-- signed `x << k` -/
  shlI : ℕ → ℤ → ℕ → ℤ
  /-- signed `x >> k` -/
  shrI : ℤ → ℕ → ℤ
  /-- unsigned to a wider signed type -/
  ext : ℕ → ℤ
  /-- unsigned to a signed type -/
  toI : ℕ → ℕ → ℤ
  /-- signed to unsigned -/
  asU : ℕ → ℤ → ℕ
  /-- signed to a narrower signed type -/
  modI : ℕ → ℤ → ℤ

/-- The operations of a release build. -/
def Ops.release : Ops where
  addU w x y := (x + y) % 2 ^ w
  subU w x y := if y ≤ x then x - y else x + 2 ^ w - y
  mulU w x y := (x * y) % 2 ^ w
  andU x y := x &&& y
  orU x y := x ||| y
  xorU x y := x ^^^ y
  shlU := Gen.Rt.shlU
  shrU x k := x >>> k
  modU w x := x % 2 ^ w
  waddU := Gen.Rt.waddU
  wsubU := Gen.Rt.wsubU
  wmulU := Gen.Rt.wmulU
  addI w x y := Int.bmod (x + y) (2 ^ w)
  subI w x y := Int.bmod (x - y) (2 ^ w)
  mulI w x y := Int.bmod (x * y) (2 ^ w)
  negI w x := Int.bmod (-x) (2 ^ w)
  andI := Gen.Rt.andZ
  orI := Gen.Rt.orZ
  xorI := Gen.Rt.xorZ
  shlI := Gen.Rt.shlZ
  shrI := Model.sarZ
  ext x := (x : ℤ)
  toI w x := Int.bmod (x : ℤ) (2 ^ w)
  asU := Gen.Rt.asU
  modI w x := Int.bmod x (2 ^ w)

end Ed448
