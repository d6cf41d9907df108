import Verif.Text.IntEval
import Verif.Text.Source

/-!
# What the integer functions in the text may use

The constants and functions for the interpreter of `Verif.Text.IntEval`. A function that calls another
one of the crate runs the text of that one.
-/

namespace Ed448.Text

variable {α : Type}

/-- A literal gets its type from a declaration. -/
def typed (d : Dom α) (t : Ty) : IV α → IV α
  | .lit z =>
    match d.lit t z with
    | some v => .int t v
    | none => .lit z
  | v => v

/-- An array of literals of the type `u32`. -/
def lits (d : Dom α) (l : List ℕ) : IV α := .arr (l.map fun x => typed d (.u 32) (.lit (x : ℤ)))

/-- Adds a function of a file. -/
def ICtx.addFn (cx : ICtx α) (file : List Fn) (head : List ℕ) (name : ℕ) : ICtx α :=
  { cx with fn := (name, icall file head name cx) :: cx.fn }

/-- Adds a function of a file that changes its first argument. -/
def ICtx.addMut (cx : ICtx α) (file : List Fn) (head : List ℕ) (name : ℕ) : ICtx α :=
  { cx with mfn := (name, icallMut file head name cx) :: cx.mfn }

/-- `Vec::with_capacity` and `push`. -/
def noCalls (d : Dom α) (const : List (ℕ × IV α)) : ICtx α where
  dom := d
  const := const
  fn := [(t! "with_capacity", fun _ => some (.arr []))]
  mfn := [(t! "push", fun a => match a with
    | [.arr l, v] => some (.arr (l ++ [v]))
    | _ => none)]

/-- /repo/src/field/scalar.rs:15-25 -/
def scalarConsts (d : Dom α) : List (ℕ × IV α) := [
    (t! "MODULUS", lits d [0xab5844f3, 0x2378c292, 0x8dc58f55, 0x216cc272, 0xaed63690, 0xc44edb49,
      0x7cca23e9, 0xffffffff, 0xffffffff, 0xffffffff, 0xffffffff, 0xffffffff, 0xffffffff, 0x3fffffff]),
    (t! "R2", lits d [0x049b9b60, 0xe3539257, 0xc1b195d9, 0x7af32c4b, 0x88ea1859, 0x0d66de23, 0x5ee4d838,
      0xae17cf72, 0xa3c47c44, 0x1a9cc14b, 0xe4d070af, 0x2052bcb7, 0xf823b729, 0x3402a939]),
    (t! "R", lits d [0x529eec34, 0x721cf5b5, 0xc8e9c2ab, 0x7a4cf635, 0x44a725bf, 0xeec492d9, 0xcd77058, 0x2,
      0, 0, 0, 0, 0, 0])]

/-- The functions of src/field/scalar.rs, from its text. The third parameter of `sub_extra` has the type `u32`
(/repo/src/field/scalar.rs:368). -/
def scalarCtx (file : List Fn) (d : Dom α) : ICtx α :=
  let cx := noCalls d (scalarConsts d)
  let cx := cx.addFn file [t! "Scalar"] (t! "zero")
  let cx := cx.addFn file [t! "Scalar"] (t! "one")
  let cx := { cx with fn := (t! "sub_extra", fun a =>
    icall file [] (t! "sub_extra") cx (a.map (typed d (.u 32)))) :: cx.fn }
  let cx := cx.addFn file [] (t! "montgomery_multiply")
  let cx := cx.addFn file [] (t! "add")
  let cx := cx.addFn file [t! "Scalar"] (t! "to_bytes")
  cx.addFn file [t! "Scalar"] (t! "from_bytes")

/-- The functions of src/field/u32/karatsuba.rs and src/field/u32/prime_field.rs, from their texts.
`MASK` is that of /repo/src/field/u32/karatsuba.rs:14. The second parameter of `bias` has the type `u32`
(/repo/src/field/u32/prime_field.rs:197). -/
def fieldCtx (file kfile : List Fn) (d : Dom α) : ICtx α :=
  let cx := noCalls d [(t! "MASK", .lit 0xfffffff)]
  let cx := { cx with fn := (t! "conditional_select", fun a => match a with
    | [.int t x, .int _ y, .bool c] => some (.int t (bif c then y else x))
    | _ => none) :: cx.fn }
  let cx := cx.addFn file [t! "FieldElement28"] (t! "zero")
  let cx := { cx with fn := (t! "bias", fun a =>
    icall file [t! "FieldElement28"] (t! "bias") cx (a.map (typed d (.u 32)))) :: cx.fn }
  let cx := cx.addFn file [t! "FieldElement28"] (t! "add_no_reduce")
  let cx := cx.addFn file [t! "FieldElement28"] (t! "sub_no_reduce")
  let cx := cx.addMut file [t! "FieldElement28"] (t! "weak_reduce")
  let cx := cx.addFn kfile [] (t! "mul")
  let cx := cx.addFn kfile [] (t! "square")
  let cx := cx.addMut file [t! "FieldElement28"] (t! "strong_reduce")
  let cx := cx.addFn file [t! "FieldElement28"] (t! "to_bytes")
  { cx with fn := (t! "op -", icall file [t! "Sub", t! "FieldElement28", t! "for", t! "FieldElement28"]
    (t! "sub") cx) :: cx.fn }

/-- Words of the type `t`. -/
def encW (t : Ty) (l : List ℕ) : IV Num := .arr (l.map fun x => .int t (.n x))

/-- A word. -/
def decNat : IV Num → Option ℕ
  | .int _ (.n x) => some x
  | .lit z => some z.toNat
  | _ => none

/-- Words. -/
def decW : IV Num → Option (List ℕ)
  | .arr l => mapO decNat l
  | .obj l => some l
  | _ => none

/-- A signed word. -/
def decInt : IV Num → Option ℤ
  | .int _ (.z x) => some x
  | .lit z => some z
  | _ => none

/-- Signed words. -/
def decZ : IV Num → Option (List ℤ)
  | .arr l => mapO decInt l
  | _ => none

/-- Truth values. -/
def decB : IV Num → Option (List Bool)
  | .arr l => mapO (fun v => match v with | .bool b => some b | _ => none) l
  | _ => none

/-- The first 16 words. -/
def ex16 (l : List ℕ) : List ℕ :=
  [l.getD 0 0, l.getD 1 0, l.getD 2 0, l.getD 3 0, l.getD 4 0, l.getD 5 0, l.getD 6 0, l.getD 7 0,
    l.getD 8 0, l.getD 9 0, l.getD 10 0, l.getD 11 0, l.getD 12 0, l.getD 13 0, l.getD 14 0, l.getD 15 0]

/-- The functions of src/field/u32/prime_field.rs, from its text, except that `strong_reduce` is `s`. -/
def fieldObjCtx (o : Ops) (s : List ℕ → List ℕ) : ICtx Num :=
  let cx := noCalls (conc o) []
  { cx with mfn := [(t! "strong_reduce", fun a => match a with
    | [x] => (decW x).bind fun l => some (encW (.u 32) (ex16 (s l)))
    | _ => none)] }

/-- A function of two scalars. -/
def extern (m : List ℕ → List ℕ → List ℕ) : List (IV Num) → Option (IV Num)
  | [x, y] => (decW x).bind fun a => (decW y).bind fun b => some (.obj (m a b))
  | _ => none

/-- The functions of src/field/scalar.rs in a release build, from its text, except that the result of
`montgomery_multiply` is `m` and that of `add` is `s`. -/
def scalarObjCtx (file : List Fn) (m s : List ℕ → List ℕ → List ℕ) : ICtx Num :=
  let cx := noCalls (conc Ops.release) (scalarConsts (conc Ops.release))
  let cx := cx.addFn file [t! "Scalar"] (t! "zero")
  let cx := cx.addFn file [t! "Scalar"] (t! "one")
  let cx := { cx with fn := (t! "montgomery_multiply", extern m) :: (t! "add", extern s) :: cx.fn }
  let cx := cx.addFn file [t! "Scalar"] (t! "from_bytes")
  cx.addFn file [t! "Scalar"] (t! "square")

/-- Runs a function in the text of src/field/scalar.rs. -/
def scalarText (o : Ops) (head : List ℕ) (name : ℕ) (args : List (IV Num)) : Option (IV Num) :=
  icall (parseFile 20000 Src.scalar) head name (scalarCtx (parseFile 20000 Src.scalar) (conc o)) args

/-- Runs such a function: the new value of its first argument. -/
def scalarTextMut (o : Ops) (head : List ℕ) (name : ℕ) (args : List (IV Num)) : Option (IV Num) :=
  icallMut (parseFile 20000 Src.scalar) head name (scalarCtx (parseFile 20000 Src.scalar) (conc o)) args

/-- Runs a function in the text of src/field/u32/prime_field.rs. -/
def fieldText (o : Ops) (head : List ℕ) (name : ℕ) (args : List (IV Num)) : Option (IV Num) :=
  icall (parseFile 20000 Src.u32Field) head name
    (fieldCtx (parseFile 20000 Src.u32Field) (parseFile 20000 Src.karatsuba) (conc o)) args

/-- Runs such a function: the new value of its first argument. -/
def fieldTextMut (o : Ops) (head : List ℕ) (name : ℕ) (args : List (IV Num)) : Option (IV Num) :=
  icallMut (parseFile 20000 Src.u32Field) head name
    (fieldCtx (parseFile 20000 Src.u32Field) (parseFile 20000 Src.karatsuba) (conc o)) args

/-- Runs a function in the text of src/field/u32/karatsuba.rs. -/
def karatsubaText (o : Ops) (head : List ℕ) (name : ℕ) (args : List (IV Num)) : Option (IV Num) :=
  icall (parseFile 20000 Src.karatsuba) head name
    (fieldCtx (parseFile 20000 Src.u32Field) (parseFile 20000 Src.karatsuba) (conc o)) args

/-- A function of two scalars in the text of src/field/scalar.rs, as a function of arrays; no array for a
panic. -/
def scalarFn (name : ℕ) (x y : List ℕ) : List ℕ :=
  ((scalarText Ops.release [] name [encW (.u 32) x, encW (.u 32) y]).bind decW).getD []

/-- Runs a function in the text of src/field/scalar.rs in a release build; the functions
`montgomery_multiply` and `add` that it calls are those in the text. -/
def scalarTextObj (head : List ℕ) (name : ℕ) (args : List (IV Num)) : Option (IV Num) :=
  icall (parseFile 20000 Src.scalar) head name (scalarObjCtx (parseFile 20000 Src.scalar)
    (scalarFn (t! "montgomery_multiply")) (scalarFn (t! "add"))) args

/-- Runs a function in the text of src/field/u32/prime_field.rs in a release build; the function
`strong_reduce` that it calls is that in the text. -/
def fieldTextObj (head : List ℕ) (name : ℕ) (args : List (IV Num)) : Option (IV Num) :=
  icall (parseFile 20000 Src.u32Field) head name (fieldObjCtx Ops.release fun x =>
    ((fieldTextMut Ops.release [t! "FieldElement28"] (t! "strong_reduce") [encW (.u 32) x]).bind
      decW).getD []) args

end Ed448.Text
