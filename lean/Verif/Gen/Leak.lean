import Verif.Gen.Rt

/-!
# Leakage

The usual leakage model of constant-time code, at the level of the source: an observer sees the
outcome of every branch and of every short-circuit operator, the number of iterations of every loop,
the index of every array access whose index is not a literal, every shift amount that is not a
literal, and for a comparison of two arrays with `==` the length of their common prefix (such a
comparison may stop at the first difference). Arithmetic, casts, moves and the operations of the
`subtle` crate (`conditional_select`, `ct_eq`, `Choice`) show nothing.

tools/rust2lean.py writes a second translation of the source into the monad `Lk`, which records these
observations, in `Verif.Gen.LeakScalar`, `LeakU32`, `LeakFiat` and `LeakCurve`. `Lk.val` forgets them.
-/

namespace Ed448.Leak
open Ed448.Model

/-- The operations of a field backend. -/
inductive FieldOp where
  | mul | square | add | sub | negate | select | strongReduce | fromBytes | toBytes
deriving DecidableEq, Repr

/-- One observation. -/
inductive Ev where
  /-- The outcome of a branch or of a short-circuit operator. -/
  | branch (b : Bool)
  /-- The index of an array access or the start of a slice. -/
  | index (i : ℕ)
  /-- The amount of a shift. -/
  | shift (k : ℤ)
  /-- The number of iterations of a loop. -/
  | loop (n : ℕ)
  /-- The length of the common prefix of two compared arrays. -/
  | cmp (n : ℕ)
  /-- A call of an operation of the field backend. Neither backend shows it; it serves to count these
  calls, see `Verif.Proofs.Cost`. -/
  | op (o : FieldOp)
deriving DecidableEq, Repr

/-- A computation that may panic (`none`) and otherwise has a result and a list of observations. -/
def Lk (α : Type) : Type := Option (α × List Ev)

/-- The length of the common prefix. -/
def commonPrefix {α : Type} [DecidableEq α] : List α → List α → ℕ
  | a :: l, b :: m => if a = b then commonPrefix l m + 1 else 0
  | _, _ => 0

/-- Observations of the operations of a field backend. -/
class LeakBackend (F : Type) (L : outParam Type) [FieldBackend F L] where
  /-- Multiplication. -/
  mulTr (F) : L → L → List Ev
  /-- Squaring. -/
  squareTr (F) : L → List Ev
  /-- Addition. -/
  addTr : F → F → List Ev
  /-- Subtraction. -/
  subTr : F → F → List Ev
  /-- Negation. -/
  negateTr : F → List Ev
  /-- Selection. -/
  selectTr : F → F → Bool → List Ev
  /-- Strong reduction. -/
  strongReduceTr : F → List Ev
  /-- Decoding. -/
  fromBytesTr (F) : Bytes 56 → List Ev
  /-- Encoding. -/
  toBytesTr : F → List Ev

/-- Conditional negation negates and selects, fiat_u64/prime_field.rs:84-89, u32/prime_field.rs:60-65. -/
def LeakBackend.condNegateTr {F L : Type} [FieldBackend F L] [LeakBackend F L] (a : F) (c : Bool) :
    List Ev := negateTr a ++ selectTr a (FieldBackend.negate a) c

namespace Lk
variable {α β σ : Type}

/-- The result without the observations. -/
def val (m : Lk α) : Option α := Option.map Prod.fst m

/-- The observations; none are kept if the computation panics. -/
def tr (m : Lk α) : List Ev := (Option.map Prod.snd m).getD []

/-- A result without an observation. -/
def ret (a : α) : Lk α := some (a, [])

/-- Two computations in sequence. -/
def bind (m : Lk α) (f : α → Lk β) : Lk β :=
  Option.bind m fun p => Option.map (fun q => (q.1, p.2 ++ q.2)) (f p.1)

/-- A computation without an observation. -/
def lift (o : Option α) : Lk α := Option.map (fun a => (a, [])) o

/-- A result with given observations. -/
def tell (t : List Ev) (a : α) : Lk α := some (a, t)

/-- One observation. -/
def ev (e : Ev) : Lk Unit := some ((), [e])

/-- `if c { a } else { b }`. -/
def ite (c : Bool) (a b : Lk α) : Lk α := (ev (.branch c)).bind fun _ => if c then a else b

/-- `a && b`. -/
def and (a : Bool) (b : Lk Bool) : Lk Bool := (ev (.branch a)).bind fun _ => if a then b else ret false

/-- `a || b`. -/
def or (a : Bool) (b : Lk Bool) : Lk Bool := (ev (.branch a)).bind fun _ => if a then ret true else b

/-- `l[i]`. -/
def idx (l : List α) (i : ℕ) : Lk α := (ev (.index i)).bind fun _ => lift (Gen.Rt.idx l i)

/-- `l[i] = v`. -/
def put (l : List α) (i : ℕ) (v : α) : Lk (List α) :=
  (ev (.index i)).bind fun _ => lift (Gen.Rt.put l i v)

/-- `&l[i..]`. -/
def sliceFrom (l : List α) (i : ℕ) : Lk (List α) :=
  (ev (.index i)).bind fun _ => lift (Gen.Rt.sliceFrom l i)

/-- A shift amount. -/
def shiftAmount (w k : ℕ) : Lk ℕ := (ev (.shift k)).bind fun _ => lift (Gen.Rt.shiftAmount w k)

/-- A signed shift amount. -/
def shiftAmountZ (w : ℕ) (k : ℤ) : Lk ℕ := (ev (.shift k)).bind fun _ => lift (Gen.Rt.shiftAmountZ w k)

/-- `a == b` of arrays. -/
def cmp [DecidableEq α] (a b : List α) : Lk Bool :=
  (ev (.cmp (commonPrefix a b))).bind fun _ => ret (a == b)

/-- `FieldElement::from_bytes`. -/
def fieldFromBytes (F : Type) {L : Type} [FieldBackend F L] [LeakBackend F L] (l : List ℕ) : Lk F :=
  (lift (Arr.ofList? 56 256 l)).bind fun b => tell (LeakBackend.fromBytesTr F b) (FieldBackend.fromBytes b)

/-- The iterations of a loop. -/
def foldl (f : σ → α → Lk σ) : σ → List α → Lk σ
  | s, [] => ret s
  | s, a :: l => (f s a).bind fun s => foldl f s l

/-- A `for` loop. -/
def fold (f : σ → α → Lk σ) (s : σ) (l : List α) : Lk σ :=
  (ev (.loop l.length)).bind fun _ => foldl f s l

/-- The iterations of `array::from_fn`-like constructions. -/
def mapAux (f : α → Lk β) : List α → Lk (List β)
  | [] => ret []
  | a :: l => (f a).bind fun b => (mapAux f l).bind fun m => ret (b :: m)

/-- `array::from_fn`-like constructions. -/
def mapM (f : α → Lk β) (l : List α) : Lk (List β) :=
  (ev (.loop l.length)).bind fun _ => mapAux f l

end Lk
end Ed448.Leak
