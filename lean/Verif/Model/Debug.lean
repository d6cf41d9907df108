import Verif.Model.Montgomery
import Verif.Model.Decaf
import Verif.Model.U32
import Verif.Model.Fiat

/-!
# Text, hashes and wiping

The `Debug` implementations (`{:?}` without flags), the derived `Hash` and the derived `Zeroize` of
the crate, with the formatting of the standard library written out: numbers in decimal, arrays as
`[a, b]`, tuple structs as `Name(a)`, structs as `Name { F: a, G: b }`.  The pretty form `{:#?}` and
width, sign and radix flags are not modelled.
-/

namespace Ed448.Model

namespace Fmt

/-- An unsigned number in decimal, as `core` prints it with `{:?}`. -/
def num (n : ℕ) : List Char := Nat.toDigits 10 n

/-- Items separated by a comma and a blank, as `DebugList` and `DebugStruct` of `core` do. -/
def sep : List (List Char) → List Char
  | [] => []
  | [x] => x
  | x :: y :: l => x ++ ',' :: ' ' :: sep (y :: l)

/-- An array or slice of numbers. -/
def list (l : List ℕ) : List Char := '[' :: (sep (l.map num) ++ [']'])

/-- A tuple struct with one field: derived `Debug`, or `debug_tuple(name).field(x).finish()`. -/
def tuple (name x : List Char) : List Char := name ++ '(' :: (x ++ [')'])

/-- A field of a struct. -/
def field (name x : List Char) : List Char := name ++ ':' :: ' ' :: x

/-- A struct with named fields: derived `Debug`. -/
def struct (name : List Char) (fields : List (List Char)) : List Char :=
  name ++ ' ' :: '{' :: ' ' :: (sep fields ++ [' ', '}'])

end Fmt

/-- `Debug` of a field backend. -/
class DebugField (F : Type) where
  /-- The text. -/
  debug : F → List Char

/-- Derived `Debug` of the four-coordinate points.
/repo/src/curve/edwards/extended.rs:19-25, /repo/src/curve/twedwards/extended.rs:10-16 -/
def debugCoords {F : Type} [DebugField F] (X Y Z T : F) : List Char :=
  Fmt.struct "ExtendedPoint".toList [Fmt.field ['X'] (DebugField.debug X),
    Fmt.field ['Y'] (DebugField.debug Y), Fmt.field ['Z'] (DebugField.debug Z),
    Fmt.field ['T'] (DebugField.debug T)]

/-- `Debug` of `ExtendedPoint`. /repo/src/curve/edwards/extended.rs:19-25 -/
def EdPt.debug {F : Type} [DebugField F] (P : EdPt F) : List Char := debugCoords P.X P.Y P.Z P.T

/-- `Debug` of the twisted `ExtendedPoint`. /repo/src/curve/twedwards/extended.rs:10-16 -/
def TwPt.debug {F : Type} [DebugField F] (P : TwPt F) : List Char := debugCoords P.X P.Y P.Z P.T

/-- Derived `Debug` of `DecafPoint`. /repo/src/decaf/decaf.rs:9-10 -/
def DecafPt.debug {F : Type} [DebugField F] (P : DecafPt F) : List Char :=
  Fmt.tuple "DecafPoint".toList P.pt.debug

/-- Derived `Debug` of `Scalar`. /repo/src/field/scalar.rs:12-13 -/
def Scalar.debug (s : Scalar) : List Char := Fmt.tuple "Scalar".toList (Fmt.list s.l)

/-- `Debug` of `MontgomeryPoint`, `CompressedDecaf` and `CompressedRistretto`: the slice of their bytes.
/repo/src/curve/montgomery/montgomery.rs:47-51, /repo/src/decaf/decaf.rs:15-19, /repo/src/ristretto/ristretto.rs:12-16 -/
def debugBytes (b : Bytes 56) : List Char := Fmt.list b.l

/-- Derived `Debug` of `FieldElement28`. /repo/src/field/u32/prime_field.rs:10-11 -/
def U32.debug (a : U32.Raw) : List Char := Fmt.tuple "FieldElement28".toList (Fmt.list a.l)

/-- `Debug` of `FieldElement56`. /repo/src/field/fiat_u64/prime_field.rs:16-20 -/
def Fiat.debug (a : Fiat.Limbs) : List Char := Fmt.tuple "FieldElement56".toList (Fmt.list a.l)

/-- What a hasher is given. -/
inductive HashCall where
  /-- The length of a slice. -/
  | len (n : ℕ)
  /-- Bytes. -/
  | bytes (l : List ℕ)
deriving DecidableEq

/-- Derived `Hash` of `MontgomeryPoint`: the array is hashed like a slice, its length and its bytes.
/repo/src/curve/montgomery/montgomery.rs:43-45 -/
def montHash (b : Bytes 56) : List HashCall := [.len b.l.length, .bytes b.l]

/-- Derived `Zeroize` of `MontgomeryPoint` (feature `zeroize`): every byte is overwritten with zero.
/repo/src/curve/montgomery/montgomery.rs:43-45 -/
def montZeroize (b : Bytes 56) : Bytes 56 where
  l := b.l.map fun _ => 0
  len := by rw [List.length_map, b.len]
  lt := by
    intro x hx
    obtain ⟨_, _, rfl⟩ := List.mem_map.1 hx
    norm_num

end Ed448.Model
