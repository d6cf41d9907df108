import Mathlib.Data.Nat.Notation
import Lean.Elab.Term

/-!
# A reader of Rust text

A lexer and a parser for the part of Rust in which the crate is written, as Lean functions which the kernel can evaluate. The text of a source file is kept as one number, its
bytes in base 256 with the first byte lowest, and so are the names in it.

Types are skipped, except in casts and for the length of an array in `let x: [t; n] = e`; so are
attributes and comments. `e[..]` is read as `e`, a literal with a type suffix as a cast, a function
inside a function as a closure and a constant there as `let`. A function whose body uses a construct not
covered (macros other than `assert!`, `while`, `match`) is dropped. The test module at the end of a file
is not read.
-/

namespace Ed448.Text
open Lean Elab Term

/-- The bytes of a string in base 256. -/
def pack (s : String) : ℕ := s.toUTF8.toList.foldr (fun c n => c.toNat + 256 * n) 0

/-- `t! "…"` is the number of a string. -/
elab "t!" s:str : term => return mkRawNatLit (pack s.getString)

/-- Tokens: names, numbers, and signs of one or two characters. -/
inductive Tok
  | id (n : ℕ)
  | num (n : ℕ)
  | sym (n : ℕ)

/-- States of the lexer. -/
inductive St
  | start
  | word (acc mul : ℕ)
  | num (acc base : ℕ)
  | suffix (acc ty mul : ℕ)
  | line
  | str

/-- A space, tab or end of line. -/
def isSpace (c : ℕ) : Bool := Nat.beq c 32 || Nat.beq c 10 || Nat.beq c 13 || Nat.beq c 9

/-- A digit. -/
def isDigit (c : ℕ) : Bool := Nat.ble 48 c && Nat.ble c 57

/-- A capital letter. -/
def isUpper (c : ℕ) : Bool := Nat.ble 65 c && Nat.ble c 90

/-- A letter or an underscore. -/
def isAlpha (c : ℕ) : Bool := isUpper c || (Nat.ble 97 c && Nat.ble c 122) || Nat.beq c 95

/-- The value of a digit in base 16, or 16. -/
def hexVal (c : ℕ) : ℕ :=
  bif isDigit c then c - 48 else bif Nat.ble 97 c && Nat.ble c 102 then c - 87 else
  bif Nat.ble 65 c && Nat.ble c 70 then c - 55 else 16

/-- Signs of two characters. -/
def isPair (s : ℕ) : Bool :=
  [t! "::", t! "->", t! "=>", t! "==", t! "!=", t! "&&", t! "||", t! "..", t! "+=", t! "-=", t! "*=",
    t! "<<", t! ">>", t! "<=", t! ">="].any (Nat.beq s)

/-- Signs of three characters. -/
def isTriple (s : ℕ) : Bool := Nat.beq s (t! ">>=") || Nat.beq s (t! "<<=") || Nat.beq s (t! "..=")

/-- The tokens of a text. The first argument bounds the number of steps. -/
def lex : ℕ → ℕ → St → List Tok
  | 0, _, _ => []
  | f + 1, n, .start =>
    bif Nat.beq n 0 then [] else
    bif isSpace (n % 256) then lex f (n / 256) .start else
    bif Nat.beq (n % 65536) (t! "//") then lex f (n / 256) .line else
    bif isAlpha (n % 256) then lex f (n / 256) (.word (n % 256) 256) else
    bif isDigit (n % 256) then lex f (n / 256) (.num (n % 256 - 48) 10) else
    bif Nat.beq (n % 256) 34 then lex f (n / 256) .str else
    bif isTriple (n % 16777216) then .sym (n % 16777216) :: lex f (n / 16777216) .start else
    bif isPair (n % 65536) then .sym (n % 65536) :: lex f (n / 65536) .start else
    .sym (n % 256) :: lex f (n / 256) .start
  | f + 1, n, .word acc mul =>
    bif isAlpha (n % 256) || isDigit (n % 256) then
      lex f (n / 256) (.word (acc + mul * (n % 256)) (256 * mul))
    else .id acc :: lex f n .start
  | f + 1, n, .num acc base =>
    bif Nat.beq (n % 256) 95 then lex f (n / 256) (.num acc base) else
    bif Nat.beq (n % 256) 120 then lex f (n / 256) (.num acc 16) else
    bif Nat.ble (hexVal (n % 256) + 1) base then
      lex f (n / 256) (.num (acc * base + hexVal (n % 256)) base)
    else lex f n (.suffix acc 0 1)
  | f + 1, n, .suffix acc ty mul =>
    bif isAlpha (n % 256) || isDigit (n % 256) then
      lex f (n / 256) (.suffix acc (ty + mul * (n % 256)) (256 * mul))
    else bif Nat.beq ty 0 then .num acc :: lex f n .start
    else .sym (t! "(") :: .num acc :: .id (t! "as") :: .id ty :: .sym (t! ")") :: lex f n .start
  | f + 1, n, .line =>
    bif Nat.beq n 0 then [] else
    bif Nat.beq (n % 256) 10 then lex f (n / 256) .start else lex f (n / 256) .line
  | f + 1, n, .str =>
    bif Nat.beq n 0 then [] else
    bif Nat.beq (n % 256) 34 then .sym 34 :: lex f (n / 256) .start else lex f (n / 256) .str

/-- Expressions and statements. -/
inductive T
  /-- a literal -/
  | num (n : ℕ)
  /-- a name, as a path -/
  | var (path : List ℕ)
  /-- a prefix operator -/
  | un (op : ℕ) (e : T)
  /-- a binary operator -/
  | bin (op : ℕ) (a b : T)
  /-- `e as ty` -/
  | cast (e : T) (ty : ℕ)
  /-- `e.f` -/
  | fld (e : T) (f : ℕ)
  /-- `e[i]` -/
  | idx (e i : T)
  /-- `path(args)` -/
  | call (path : List ℕ) (args : List T)
  /-- `e.m(args)` -/
  | meth (e : T) (m : ℕ) (args : List T)
  /-- `name { inits }` -/
  | struct (name : ℕ) (inits : List T)
  /-- `f: e` in a structure -/
  | ini (f : ℕ) (e : T)
  /-- `(es)` -/
  | tup (es : List T)
  /-- `|params| body` -/
  | clo (params : List ℕ) (body : T)
  /-- `[es]` -/
  | arr (es : List T)
  /-- `e; n` in an array -/
  | rep (e n : T)
  /-- `{ ss }` -/
  | blk (ss : List T)
  /-- `let xs = e;` -/
  | letv (xs : List ℕ) (e : T)
  /-- `lhs op rhs;` -/
  | asg (op : ℕ) (lhs rhs : T)
  /-- `e;` -/
  | semi (e : T)
  /-- `if c a else b` -/
  | ifte (c a b : T)
  /-- `for x in e body` -/
  | loop (x : ℕ) (e body : T)
  /-- `return e` -/
  | ret (e : T)

/-- What the parser reads. -/
inductive Mode
  /-- an expression with operators binding at least as strong as `p` -/
  | expr (p : ℕ)
  /-- the rest of such an expression -/
  | rest (e : T) (p : ℕ)
  /-- an operand -/
  | unary
  /-- an operand without prefix operators -/
  | prim
  /-- what follows an operand -/
  | post (e : T)
  /-- expressions separated by commas -/
  | list (close : ℕ)
  /-- the fields of a structure -/
  | fields
  /-- statements up to the closing brace -/
  | stmts
  /-- the same, the first one no declaration -/
  | stmt

/-- How strong a binary operator binds; 0 for other signs. -/
def prec (s : ℕ) : ℕ :=
  bif Nat.beq s (t! "*") || Nat.beq s (t! "/") || Nat.beq s (t! "%") then 10 else
  bif Nat.beq s (t! "+") || Nat.beq s (t! "-") then 9 else
  bif Nat.beq s (t! "<<") || Nat.beq s (t! ">>") then 8 else
  bif Nat.beq s (t! "&") then 7 else
  bif Nat.beq s (t! "^") then 6 else
  bif Nat.beq s (t! "|") then 5 else
  bif Nat.beq s (t! "==") || Nat.beq s (t! "!=") || Nat.beq s (t! "<") || Nat.beq s (t! ">") ||
    Nat.beq s (t! "<=") || Nat.beq s (t! ">=") then 4 else
  bif Nat.beq s (t! "&&") then 3 else
  bif Nat.beq s (t! "||") then 2 else
  bif Nat.beq s (t! "..") || Nat.beq s (t! "..=") then 1 else 0

/-- A name that starts with a capital letter. -/
def isType (n : ℕ) : Bool := isUpper (n % 256)

/-- The single element of a list. -/
def single : List T → Option T
  | [e] => some e
  | _ => none

/-- Removes a given sign. -/
def expect (s : ℕ) : List Tok → Option (List Tok)
  | .sym c :: ts => bif Nat.beq s c then some ts else none
  | _ => none

/-- Skips to a given sign, which is removed too. -/
def skipTo (s : ℕ) : List Tok → List Tok
  | [] => []
  | .sym c :: ts => bif Nat.beq s c then ts else skipTo s ts
  | _ :: ts => skipTo s ts

/-- The names of a path after its first one. -/
def pathTail : List Tok → List ℕ × List Tok
  | .sym c :: .id n :: ts =>
    bif Nat.beq c (t! "::") then (n :: (pathTail ts).1, (pathTail ts).2) else ([], .sym c :: .id n :: ts)
  | ts => ([], ts)

/-- The names of a tuple pattern, up to the closing parenthesis. -/
def patNames : List Tok → Option (List ℕ × List Tok)
  | .id n :: ts => (patNames ts).map fun r => (bif Nat.beq n (t! "mut") then r.1 else n :: r.1, r.2)
  | .sym c :: ts =>
    bif Nat.beq c (t! ",") then patNames ts else bif Nat.beq c (t! ")") then some ([], ts) else none
  | _ => none

/-- A pattern: a name or a tuple of names. -/
def pattern : List Tok → Option (List ℕ × List Tok)
  | .id n :: .id m :: ts => bif Nat.beq n (t! "mut") then some ([m], ts) else none
  | .id n :: ts => some ([n], ts)
  | .sym c :: ts => bif Nat.beq c (t! "(") then patNames ts else none
  | _ => none

/-- An assignment operator. -/
def isAssign (s : ℕ) : Bool :=
  Nat.beq s (t! "=") || Nat.beq s (t! "+=") || Nat.beq s (t! "-=") || Nat.beq s (t! "*=") ||
    Nat.beq s (t! ">>=") || Nat.beq s (t! "<<=")

/-- The parameters of a closure or function, up to the closing sign. The flag is set inside a type. -/
def paramNames (close : ℕ) : Bool → List Tok → List ℕ × List Tok
  | _, [] => ([], [])
  | true, .sym c :: ts =>
    bif Nat.beq c close then ([], ts) else paramNames close (!Nat.beq c (t! ",")) ts
  | true, _ :: ts => paramNames close true ts
  | false, .id n :: ts =>
    bif Nat.beq n (t! "mut") then paramNames close false ts else
    (n :: (paramNames close true ts).1, (paramNames close true ts).2)
  | false, .sym c :: ts => bif Nat.beq c close then ([], ts) else paramNames close false ts
  | false, .num _ :: ts => paramNames close false ts

/-- Skips a type, up to `=` or `;` outside brackets. -/
def skipType : ℕ → List Tok → List Tok
  | _, [] => []
  | d, .sym c :: ts =>
    bif Nat.beq c (t! "[") then skipType (d + 1) ts else
    bif Nat.beq c (t! "]") then skipType (d - 1) ts else
    bif Nat.beq d 0 && (Nat.beq c (t! "=") || Nat.beq c (t! ";")) then .sym c :: ts else skipType d ts
  | d, _ :: ts => skipType d ts

/-- An array whose length is given by its type. -/
def withType (ts : List Tok) (e : T) : T :=
  match ts with
  | .sym c :: .sym b :: .id _ :: .sym s :: .num n :: _ =>
    bif Nat.beq c (t! ":") && Nat.beq b (t! "[") && Nat.beq s (t! ";") then .rep e (.num n) else e
  | _ => e

/-- An expression after which a semicolon is not needed. -/
def isBlockLike : T → Bool
  | .ifte _ _ _ => true
  | .loop _ _ _ => true
  | .blk _ => true
  | _ => false

/-- The parser. The first argument bounds the depth. -/
def parse : ℕ → Mode → List Tok → Option (List T × List Tok)
  | 0, _, _ => none
  | f + 1, .expr p, ts =>
    (parse f .unary ts).bind fun r => (single r.1).bind fun e => parse f (.rest e p) r.2
  | f + 1, .rest e p, ts =>
    match ts with
    | .sym s :: us =>
      bif Nat.ble p 1 && Nat.beq s (t! "..") && (expect (t! "]") us).isSome then some ([.un s e], us) else
      bif Nat.ble 1 (prec s) && Nat.ble p (prec s) then
        (parse f (.expr (prec s + 1)) us).bind fun r => (single r.1).bind fun b =>
        parse f (.rest (.bin s e b) p) r.2
      else some ([e], ts)
    | .id a :: .id ty :: us =>
      bif Nat.beq a (t! "as") then parse f (.rest (.cast e ty) p) us else some ([e], ts)
    | _ => some ([e], ts)
  | f + 1, .unary, ts =>
    match ts with
    | .sym s :: us =>
      bif Nat.beq s (t! "&") || Nat.beq s (t! "*") || Nat.beq s (t! "-") || Nat.beq s (t! "!") then
        (parse f .unary (match us with
          | .id m :: vs => bif Nat.beq m (t! "mut") then vs else us
          | _ => us)).bind fun r => (single r.1).bind fun e => some ([.un s e], r.2)
      else parse f .prim ts
    | _ => parse f .prim ts
  | f + 1, .prim, ts =>
    match ts with
    | .num n :: us => parse f (.post (.num n)) us
    | .sym s :: us =>
      bif Nat.beq s (t! "(") then
        (parse f (.list (t! ")")) us).bind fun r =>
        match r.1 with
        | [e] => parse f (.post e) r.2
        | es => parse f (.post (.tup es)) r.2
      else bif Nat.beq s (t! "[") then
        (parse f (.list (t! "]")) us).bind fun r => parse f (.post (.arr r.1)) r.2
      else bif Nat.beq s (t! "{") then
        (parse f .stmts us).bind fun r => some ([.blk r.1], r.2)
      else bif Nat.beq s (t! "|") then
        match expect (t! "->") (paramNames (t! "|") false us).2 with
        | some vs =>
          (parse f .stmts (skipTo (t! "{") vs)).bind fun r =>
          some ([.clo (paramNames (t! "|") false us).1 (.blk r.1)], r.2)
        | none =>
          (parse f (.expr 0) (paramNames (t! "|") false us).2).bind fun r => (single r.1).bind fun e =>
          some ([.clo (paramNames (t! "|") false us).1 e], r.2)
      else none
    | .id n :: us =>
      bif Nat.beq n (t! "if") then
        (parse f (.expr 0) us).bind fun c => (single c.1).bind fun c' =>
        (expect (t! "{") c.2).bind fun vs => (parse f .stmts vs).bind fun a =>
        match a.2 with
        | .id e :: ws =>
          bif Nat.beq e (t! "else") then
            (parse f .prim ws).bind fun b => (single b.1).bind fun b' =>
            some ([.ifte c' (.blk a.1) b'], b.2)
          else some ([.ifte c' (.blk a.1) (.blk [])], a.2)
        | _ => some ([.ifte c' (.blk a.1) (.blk [])], a.2)
      else bif Nat.beq n (t! "for") then
        match us with
        | .id x :: .id _ :: vs =>
          (parse f (.expr 0) vs).bind fun c => (single c.1).bind fun c' =>
          (expect (t! "{") c.2).bind fun vs => (parse f .stmts vs).bind fun a =>
          some ([.loop x c' (.blk a.1)], a.2)
        | _ => none
      else bif Nat.beq n (t! "return") then
        (parse f (.expr 0) us).bind fun c => (single c.1).bind fun c' => some ([.ret c'], c.2)
      else
        match (pathTail us).2 with
        | .sym s :: vs =>
          bif Nat.beq s (t! "(") then
            (parse f (.list (t! ")")) vs).bind fun r =>
            parse f (.post (.call (n :: (pathTail us).1) r.1)) r.2
          else bif Nat.beq s (t! "{") && isType n then
            (parse f .fields vs).bind fun r => parse f (.post (.struct n r.1)) r.2
          else bif Nat.beq s (t! "!") then
            bif Nat.beq n (t! "assert") then
              (expect (t! "(") vs).bind fun vs => (parse f (.list (t! ")")) vs).bind fun r =>
              some ([.call [n] r.1], r.2)
            else none
          else parse f (.post (.var (n :: (pathTail us).1))) (.sym s :: vs)
        | vs => parse f (.post (.var (n :: (pathTail us).1))) vs
    | [] => none
  | f + 1, .post e, ts =>
    match ts with
    | .sym s :: us =>
      bif Nat.beq s (t! ".") then
        match us with
        | .num k :: vs => parse f (.post (.fld e (48 + k))) vs
        | .id m :: .sym c :: vs =>
          bif Nat.beq c (t! "(") then
            (parse f (.list (t! ")")) vs).bind fun r => parse f (.post (.meth e m r.1)) r.2
          else parse f (.post (.fld e m)) (.sym c :: vs)
        | .id m :: vs => parse f (.post (.fld e m)) vs
        | _ => none
      else bif Nat.beq s (t! "[") then
        match expect (t! "..") us with
        | some vs => (expect (t! "]") vs).bind fun ws => parse f (.post e) ws
        | none =>
          (parse f (.expr 0) us).bind fun r => (single r.1).bind fun i =>
          (expect (t! "]") r.2).bind fun vs => parse f (.post (.idx e i)) vs
      else some ([e], ts)
    | _ => some ([e], ts)
  | f + 1, .list close, ts =>
    match expect close ts with
    | some us => some ([], us)
    | none =>
      (parse f (.expr 0) ts).bind fun r => (single r.1).bind fun e =>
      match r.2 with
      | .sym s :: us =>
        bif Nat.beq s close then some ([e], us) else
        bif Nat.beq s (t! ",") then (parse f (.list close) us).bind fun q => some (e :: q.1, q.2) else
        bif Nat.beq s (t! ";") then
          (parse f (.expr 0) us).bind fun q => (single q.1).bind fun n =>
          (expect close q.2).bind fun vs => some ([.rep e n], vs)
        else none
      | _ => none
  | f + 1, .fields, ts =>
    match ts with
    | .id x :: .sym s :: us =>
      bif Nat.beq s (t! ":") then
        (parse f (.expr 0) us).bind fun r => (single r.1).bind fun e =>
        (parse f .fields r.2).bind fun q => some (.ini x e :: q.1, q.2)
      else (parse f .fields (.sym s :: us)).bind fun q => some (.ini x (.var [x]) :: q.1, q.2)
    | .sym s :: us =>
      bif Nat.beq s (t! ",") then parse f .fields us else
      bif Nat.beq s (t! "}") then some ([], us) else none
    | _ => none
  | f + 1, .stmts, ts =>
    match expect (t! "}") ts with
    | some us => some ([], us)
    | none =>
      match ts with
      | .sym c :: us =>
        bif Nat.beq c (t! "#") then parse f .stmts (skipTo (t! "]") us) else parse f .stmt ts
      | .id k :: us =>
        bif Nat.beq k (t! "let") || (Nat.beq k (t! "const")) then
          (pattern us).bind fun q =>
          match skipType 0 q.2 with
          | .sym c :: vs =>
            bif Nat.beq c (t! "=") then
              (parse f (.expr 0) vs).bind fun r => (single r.1).bind fun e =>
              (expect (t! ";") r.2).bind fun ws => (parse f .stmts ws).bind fun z =>
              some (.letv q.1 (withType q.2 e) :: z.1, z.2)
            else (parse f .stmts vs).bind fun z => some (.letv q.1 (.tup []) :: z.1, z.2)
          | _ => none
        else bif Nat.beq k (t! "fn") then
          match us with
          | .id g :: vs =>
            (parse f .stmts (skipTo (t! "{") (paramNames (t! ")") false (skipTo (t! "(") vs)).2)).bind
            fun r => (parse f .stmts r.2).bind fun z =>
            some (.letv [g] (.clo (paramNames (t! ")") false (skipTo (t! "(") vs)).1 (.blk r.1)) :: z.1,
              z.2)
          | _ => none
        else parse f .stmt ts
      | _ => parse f .stmt ts
  | f + 1, .stmt, ts =>
    (parse f (.expr 0) ts).bind fun r => (single r.1).bind fun e =>
    match r.2 with
    | .sym s :: us =>
      bif Nat.beq s (t! ";") then
        (parse f .stmts us).bind fun q => some (.semi e :: q.1, q.2)
      else bif Nat.beq s (t! "}") then some ([e], us)
      else bif isAssign s then
        (parse f (.expr 0) us).bind fun r => (single r.1).bind fun b =>
        (parse f .stmts (match expect (t! ";") r.2 with
          | some vs => vs
          | none => r.2)).bind fun q => some (.asg s e b :: q.1, q.2)
      else bif isBlockLike e then
        (parse f .stmts r.2).bind fun q => some (.semi e :: q.1, q.2)
      else none
    | _ => bif isBlockLike e then
        (parse f .stmts r.2).bind fun q => some (.semi e :: q.1, q.2)
      else none

/-- A function: the names in the head of its `impl` block (empty outside), its own name, the names of
its parameters and its body. -/
structure Fn where
  head : List ℕ
  name : ℕ
  params : List ℕ
  body : T

/-- The names up to an opening brace. -/
def headNames : List Tok → List ℕ × List Tok
  | [] => ([], [])
  | .id n :: ts => (n :: (headNames ts).1, (headNames ts).2)
  | .sym c :: ts => bif Nat.beq c (t! "{") then ([], ts) else headNames ts
  | .num _ :: ts => headNames ts

/-- Skips to the closing brace at the given depth. -/
def skipBody : ℕ → List Tok → List Tok
  | _, [] => []
  | d, .sym c :: ts =>
    bif Nat.beq c (t! "{") then skipBody (d + 1) ts else
    bif Nat.beq c (t! "}") then (bif Nat.beq d 0 then ts else skipBody (d - 1) ts) else skipBody d ts
  | d, _ :: ts => skipBody d ts

/-- The functions of a file that the parser can read, up to the test module. -/
def items : ℕ → List ℕ → List Tok → List Fn
  | 0, _, _ => []
  | _, _, [] => []
  | f + 1, head, .id k :: ts =>
    bif Nat.beq k (t! "impl") then items f (headNames ts).1 (headNames ts).2
    else bif Nat.beq k (t! "mod") then
      (match ts with
       | .id m :: us => bif Nat.beq m (t! "tests") || Nat.beq m (t! "test") then [] else items f head us
       | us => items f head us)
    else bif Nat.beq k (t! "fn") then
      (match ts with
       | .id name :: us =>
         match parse 1000 .stmts (skipTo (t! "{") (paramNames (t! ")") false (skipTo (t! "(") us)).2) with
         | some r =>
           ⟨head, name, (paramNames (t! ")") false (skipTo (t! "(") us)).1, .blk r.1⟩ :: items f head r.2
         | none =>
           items f head (skipBody 0 (skipTo (t! "{") (paramNames (t! ")") false (skipTo (t! "(") us)).2))
       | us => items f head us)
    else items f head ts
  | f + 1, head, .sym c :: ts => items f (bif Nat.beq c (t! "}") then [] else head) ts
  | f + 1, head, .num _ :: ts => items f head ts

/-- The functions of a text of at most `n` bytes. -/
def parseFile (n text : ℕ) : List Fn := items n [] (lex (2 * n) text .start)

end Ed448.Text
