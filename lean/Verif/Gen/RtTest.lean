import Verif.Gen.Rt

/-!
# Operations used by the translated tests
-/

namespace Ed448.Gen.Rt

/-- The value of a hexadecimal digit given by its character code. -/
def hexDigit (c : ℕ) : Option ℕ :=
  if 48 ≤ c ∧ c ≤ 57 then some (c - 48)
  else if 97 ≤ c ∧ c ≤ 102 then some (c - 87)
  else if 65 ≤ c ∧ c ≤ 70 then some (c - 55)
  else none

/-- The bytes of one string of hexadecimal digits. -/
def hexString : List ℕ → Option (List ℕ)
  | [] => some []
  | a :: b :: l => (hexDigit a).bind fun a => (hexDigit b).bind fun b => (hexString l).map ((16 * a + b) :: ·)
  | [_] => none

/-- `hex_literal::decode` and `hex!`, without white space in the strings. -/
def hexDecode (l : List (List ℕ)) : Option (List ℕ) := (l.mapM hexString).map List.flatten

/-- `PartialEq` of `Option`. -/
def optEq {α : Type} (e : α → α → Option Bool) : Option α → Option α → Option Bool
  | some a, some b => e a b
  | none, none => some true
  | _, _ => some false

end Ed448.Gen.Rt
