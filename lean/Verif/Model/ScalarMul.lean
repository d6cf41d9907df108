import Verif.Model.Twisted
import Verif.Model.Scalar

/-!
# Model: `/repo/src/curve/scalar_mul`
-/

namespace Ed448.Model
open FieldBackend
variable {F L : Type} [FieldBackend F L]

/-! ## window/wnaf/mod.rs -/

/-- Entry `i` of the table: `table[0] = P`, `table[i] = P + table[i-1]`.
/repo/src/curve/scalar_mul/window/wnaf/mod.rs:12-18 -/
def tableEntry (P : TwExt F) : ℕ → PNiels F
  | 0 => P.toProjectiveNiels
  | i + 1 => (P.addProjectiveNiels (tableEntry P i)).toProjectiveNiels

/-- `LookupTable::from`. /repo/src/curve/scalar_mul/window/wnaf/mod.rs:10-22 -/
def lookupTable (point : TwPt F) : List (PNiels F) :=
  (List.range 8).map (tableEntry point.toExtensible)

/-- `LookupTable::select`: `for i in 1..9`, `conditional_assign(table[i-1], index == i)`.
/repo/src/curve/scalar_mul/window/wnaf/mod.rs:26-34 -/
def tableSelect (table : List (PNiels F)) (index : ℕ) : PNiels F :=
  (List.range 8).foldl
    (fun result i => PNiels.select result (table.getD i PNiels.identity) (index == i + 1))
    PNiels.identity

/-! ## variable_base.rs -/

/-- Sign and absolute value of a digit (an `i8`): `mask = s >> 7`, `sign = mask & 1`,
`abs = ((s + mask) ^ mask) as u32`. `none` is overflow of the checked `i8` addition.
/repo/src/curve/scalar_mul/variable_base.rs:22-26 -/
def digitAbs (s : ℤ) : Option (Bool × ℕ) :=
  let mask := (BitVec.ofInt 8 s).sshiftRight 7
  let sign := mask &&& 1#8
  (ckI8 (s + mask.toInt)).map fun t =>
    (sign == 1#8, ((BitVec.ofInt 8 t ^^^ mask).signExtend 32).toNat)

/-- One iteration: four doublings, table lookup, conditional negation, addition.
/repo/src/curve/scalar_mul/variable_base.rs:16-31 -/
def vbStep (table : List (PNiels F)) (result : TwExt F) (sign : Bool) (abs : ℕ) : TwExt F :=
  let result := result.double
  let result := result.double
  let result := result.double
  let result := result.double
  let negP := (tableSelect table abs).condNegate sign
  result.addProjectiveNiels negP

/-- The loop `for i in (0..113).rev()`, over the reversed digit array.
/repo/src/curve/scalar_mul/variable_base.rs:16-32 -/
def vbLoop (table : List (PNiels F)) : List ℤ → TwExt F → Option (TwExt F)
  | [], r => some r
  | s :: rest, r => (digitAbs s).bind fun d => vbLoop table rest (vbStep table r d.1 d.2)

/-- `variable_base`. /repo/src/curve/scalar_mul/variable_base.rs:8-35 -/
def variableBase (point : TwPt F) (s : Scalar) : Option (TwPt F) :=
  (s.toRadix16).bind fun scalar =>
    (vbLoop (lookupTable point) scalar.reverse TwExt.identity).map TwExt.toExtended

/-! ## double_and_add.rs, double_base.rs -/

/-- One iteration of double-and-add. /repo/src/curve/scalar_mul/double_and_add.rs:12-16 -/
def daStep (point : TwPt F) (result : TwPt F) (bit : Bool) : TwPt F :=
  let result := result.double
  let p := TwPt.select TwPt.identity point bit
  result.add p

/-- `double_and_add`. /repo/src/curve/scalar_mul/double_and_add.rs:6-20 -/
def doubleAndAdd (point : TwPt F) (s : Scalar) : TwPt F :=
  s.bits.reverse.foldl (daStep point) TwPt.identity

/-- `double_base_scalar_mul`. /repo/src/curve/scalar_mul/double_base.rs:10-14 -/
def doubleBaseScalarMul (a : Scalar) (A : TwPt F) (b : Scalar) : TwPt F :=
  (doubleAndAdd A a).add (doubleAndAdd TwPt.generator b)

end Ed448.Model
