import Verif.Model.Backend

/-!
# Model: `/repo/src/field/mod.rs`

Equality, inversion, inverse square root and square-root ratio, for any backend.
-/

namespace Ed448.Model
open FieldBackend
variable {F L : Type} [FieldBackend F L]

/-- `ct_eq` and `==` on field elements: compare canonical bytes. /repo/src/field/mod.rs:18-28 -/
def feq (a b : F) : Bool := toBytes a == toBytes b

/-- `is_zero`. /repo/src/field/mod.rs:33-35 -/
def isZero (a : F) : Bool := feq a (zero : F)

/-- The loop of `square_n`. /repo/src/field/mod.rs:67-69 -/
def squareLoop : ℕ → F → F
  | 0, r => r
  | n + 1, r => squareLoop n (square r)

/-- `square_n`: one squaring, then `n - 1` more. All call sites pass a literal `n ≥ 2`, so the
checked subtraction `n - 1` does not underflow. /repo/src/field/mod.rs:61-72 -/
def squareN (a : F) (n : ℕ) : F := squareLoop (n - 1) (square a)

/-- `invert`. /repo/src/field/mod.rs:38-59 -/
def invert (self : F) : F :=
  let _1 := self
  let _10 := square _1
  let _11 := _1 *ᶠ _10
  let _110 := square _11
  let _111 := _1 *ᶠ _110
  let _111000 := squareN _111 3
  let _111111 := _111 *ᶠ _111000
  let x12 := squareN _111111 6 *ᶠ _111111
  let x24 := squareN x12 12 *ᶠ x12
  let i34 := squareN x24 6
  let x30 := _111111 *ᶠ i34
  let x48 := squareN i34 18 *ᶠ x24
  let x96 := squareN x48 48 *ᶠ x48
  let x192 := squareN x96 96 *ᶠ x96
  let x222 := squareN x192 30 *ᶠ x30
  let x223 := square x222 *ᶠ _1
  squareN (squareN x223 223 *ᶠ x222) 2 *ᶠ _1

/-- The value `l1` and the check value `l0` of `inverse_square_root`.
/repo/src/field/mod.rs:78-109. The Rust variables are reassigned; here each assignment shadows the
previous binding. -/
def isrChain (self : F) : F × F :=
  let l1 := square self
  let l2 := l1 *ᶠ self
  let l1 := square l2
  let l2 := l1 *ᶠ self
  let l1 := squareN l2 3
  let l0 := l2 *ᶠ l1
  let l1 := squareN l0 3
  let l0 := l2 *ᶠ l1
  let l2 := squareN l0 9
  let l1 := l0 *ᶠ l2
  let l0 := l1 *ᶠ l1
  let l2 := l0 *ᶠ self
  let l0 := squareN l2 18
  let l2 := l1 *ᶠ l0
  let l0 := squareN l2 37
  let l1 := l2 *ᶠ l0
  let l0 := squareN l1 37
  let l1 := l2 *ᶠ l0
  let l0 := squareN l1 111
  let l2 := l1 *ᶠ l0
  let l0 := square l2
  let l1 := l0 *ᶠ self
  let l0 := squareN l1 223
  let l1 := l2 *ᶠ l0
  let l2 := square l1
  let l0 := l2 *ᶠ self
  (l1, l0)

/-- `inverse_square_root`. /repo/src/field/mod.rs:77-113 -/
def inverseSquareRoot (self : F) : F × Bool :=
  ((isrChain self).1, feq (isrChain self).2 (one : F))

/-- `sqrt_ratio`. /repo/src/field/mod.rs:116-125 -/
def sqrtRatio (u v : F) : F × Bool :=
  let r := inverseSquareRoot (u *ᶠ v)
  (r.1 *ᶠ u, feq u (zero : F) || r.2)

end Ed448.Model
