import Verif.Text.Source
import Verif.Text.ConstSource

/-!
# Constants in the text of the source files
-/

namespace Ed448.Text

/-- The expression of the first constant of a given name. -/
def constAt (name : ℕ) : List Tok → Option T
  | .id k :: ts =>
    match bif Nat.beq k (t! "const") then ts else [] with
    | .id n :: us =>
      bif Nat.beq n name then
        match skipType 0 us with
        | .sym c :: vs =>
          bif Nat.beq c (t! "=") then (parse 1000 (.expr 0) vs).bind fun r => single r.1 else none
        | _ => none
      else constAt name ts
    | _ => constAt name ts
  | _ :: ts => constAt name ts
  | [] => none

/-- The expression of a constant in a text of at most 20000 bytes. -/
def constText (text name : ℕ) : Option T := constAt name (lex 40000 text .start)

/-- Numbers. -/
def nums : List T → Option (List ℕ)
  | [] => some []
  | .num n :: l => (nums l).bind fun r => some (n :: r)
  | _ => none

/-- The numbers of an array inside tuple structures. The argument bounds their depth. -/
def words : ℕ → T → Option (List ℕ)
  | _, .arr [.rep (.num x) (.num n)] => some (List.replicate n x)
  | _, .arr l => nums l
  | f + 1, .call _ [e] => words f e
  | _, _ => none

/-- The fields of a structure: names and numbers. -/
def coords : List T → Option (List (ℕ × List ℕ))
  | [] => some []
  | .ini f e :: l => (words 2 e).bind fun a => (coords l).bind fun r => some ((f, a) :: r)
  | _ => none

/-- The numbers of a constant. -/
def constWords (text name : ℕ) : Option (List ℕ) := (constText text name).bind (words 2)

/-- The coordinates of a constant. -/
def constCoords (text name : ℕ) : Option (List (ℕ × List ℕ)) :=
  (constText text name).bind fun e => match e with
  | .struct _ l => coords l
  | _ => none

/-- The numbers that a function without parameters returns. -/
def fnWords (text : ℕ) (head : List ℕ) (name : ℕ) : Option (List ℕ) :=
  ((parseFile 20000 text).find? fun f => f.head == head && Nat.beq f.name name).bind fun f =>
    match f.params, f.body with
    | [], .blk [e] => words 2 e
    | _, _ => none

end Ed448.Text
