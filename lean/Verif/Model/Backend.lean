import Verif.Spec.Bytes

/-!
# Model: the interface of a field backend

`/repo/src/field/mod.rs:11-15` selects one of two implementations of `FieldElement` at compile time:
`FieldElement28` (`src/field/u32`) and `FieldElement56` (`src/field/fiat_u64`). All curve code is
written against the common interface, so the model of the curve code is generic over the interface
below. `F` is the type of in-range ("tight") field elements. `L` is the type of values that may
only be used as operands of a multiplication or squaring ("loose", see
`/repo/src/field/fiat_u64/prime_field.rs:42-46`): some constants of the 64-bit backend exceed the
tight bound. For the 32-bit backend `L = F`.

`subtle::Choice` is modelled as `Bool`; its constant-time implementation is not modelled.
-/

namespace Ed448.Model

/-- The interface of a field backend; the cited lines are those of the 64-bit backend and of the
32-bit backend in `/repo/src/field`. -/
class FieldBackend (F : Type) (L : outParam Type) where
  /-- `fiat_p448_relax`, fiat_u64/prime_field.rs:42-45; identity for the 32-bit backend. -/
  relax : F → L
  /-- `Mul`, fiat_u64/prime_field.rs:38-61, u32/prime_field.rs:29-40. -/
  mulL : L → L → F
  /-- `square`, fiat_u64/prime_field.rs:172-178, u32/prime_field.rs:187-189. -/
  squareL : L → F
  /-- `Add`, fiat_u64/prime_field.rs:63-72, u32/prime_field.rs:42-49. -/
  add : F → F → F
  /-- `Sub`, fiat_u64/prime_field.rs:73-82, u32/prime_field.rs:50-58. -/
  sub : F → F → F
  /-- `negate`, fiat_u64/prime_field.rs:180-186, u32/prime_field.rs:192-194. -/
  negate : F → F
  /-- `conditional_select(a, b, choice)`, `b` if the choice is set;
  fiat_u64/prime_field.rs:91-101, u32/prime_field.rs:67-92. -/
  select : F → F → Bool → F
  /-- `strong_reduce`, fiat_u64/prime_field.rs:191-195, u32/prime_field.rs:254-391. -/
  strongReduce : F → F
  /-- `from_bytes`, fiat_u64/prime_field.rs:156-160, u32/prime_field.rs:141-163. -/
  fromBytes : Bytes 56 → F
  /-- `to_bytes`, fiat_u64/prime_field.rs:163-167, u32/prime_field.rs:166-182. -/
  toBytes : F → Bytes 56
  /-- `zero`, fiat_u64/prime_field.rs:114-116, u32/prime_field.rs:105-107. -/
  zero : F
  /-- `one`, fiat_u64/prime_field.rs:117-119, u32/prime_field.rs:108-110. -/
  one : F
  /-- `minus_one`, fiat_u64/prime_field.rs:120-131, u32/prime_field.rs:111-116. -/
  minusOne : L
  /-- `EDWARDS_D`, fiat_u64/constants.rs:23-32, u32/constants.rs:16-19. -/
  EDWARDS_D : L
  /-- `TWISTED_D`, fiat_u64/constants.rs:39-48, u32/constants.rs:26-29. -/
  TWISTED_D : L
  /-- `TWO_TIMES_TWISTED_D`, fiat_u64/constants.rs:51-60, u32/constants.rs:32-35. -/
  TWO_TIMES_TWISTED_D : L
  /-- `NEG_EDWARDS_D`, fiat_u64/constants.rs:35-36, u32/constants.rs:22-23. -/
  NEG_EDWARDS_D : F
  /-- `NEG_FOUR_TIMES_TWISTED_D`, fiat_u64/constants.rs:10-20, u32/constants.rs:8-11. -/
  NEG_FOUR_TIMES_TWISTED_D : F
  /-- `DECAF_FACTOR`, fiat_u64/constants.rs:63-72, u32/constants.rs:38-41. -/
  DECAF_FACTOR : F
  /-- `A_PLUS_TWO_OVER_FOUR`, fiat_u64/constants.rs:75-76, u32/constants.rs:43-44. -/
  A_PLUS_TWO_OVER_FOUR : F
  /-- `GOLDILOCKS_BASE_POINT` (X, Y, Z, T), fiat_u64/constants.rs:79-111, u32/constants.rs:47-61. -/
  GOLDILOCKS_BASE_POINT : F × F × F × F
  /-- `TWISTED_EDWARDS_BASE_POINT` (X, Y, Z, T), fiat_u64/constants.rs:114-146,
  u32/constants.rs:64-78. -/
  TWISTED_EDWARDS_BASE_POINT : F × F × F × F

namespace FieldBackend
variable {F L : Type} [FieldBackend F L]

/-- `a * b` of two tight elements: both are relaxed first
(fiat_u64/prime_field.rs:40-48). -/
def mul (a b : F) : F := mulL (relax a) (relax b)

/-- `c * b` with a constant on the left. -/
def mulC (c : L) (b : F) : F := mulL c (relax b)

/-- `a * c` with a constant on the right. -/
def mulR (a : F) (c : L) : F := mulL (relax a) c

/-- `x.square()`. -/
def square (a : F) : F := squareL (relax a)

/-- `conditional_negate`, fiat_u64/prime_field.rs:84-89, u32/prime_field.rs:60-65. -/
def condNegate (a : F) (c : Bool) : F := select a (negate a) c

/-- `is_negative`, fiat_u64/prime_field.rs:138-141, u32/prime_field.rs:123-126. -/
def isNegative (a : F) : Bool := (toBytes a).l.headD 0 &&& 1 == 1

end FieldBackend

scoped infixl:70 " *ᶠ " => FieldBackend.mul
scoped infixl:70 " *ˡ " => FieldBackend.mulC
scoped infixl:70 " *ʳ " => FieldBackend.mulR
scoped infixl:65 " +ᶠ " => FieldBackend.add
scoped infixl:65 " -ᶠ " => FieldBackend.sub

end Ed448.Model
