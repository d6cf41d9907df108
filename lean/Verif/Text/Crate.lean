import Verif.Text.Interp
import Verif.Model.Edwards
import Verif.Model.Decaf
import Verif.Model.Montgomery

/-!
# What the functions in the text may use

The table of functions, types and constants for the interpreter. A function that calls another one of
the crate uses the model of that one; the operations of the field are those of the backend.
-/

set_option exponentiation.threshold 1000

namespace Ed448.Text
open Ed448.Model FieldBackend

variable {F L : Type} [FieldBackend F L]

/-- Values of the crate. -/
abbrev V (F L : Type) := Val F L (Bytes 56)

/-- Types with a meaning as values. -/
class Enc (F L α : Type) where
  enc : α → V F L
  dec : V F L → Option α

export Enc (enc dec)

/-- A field element. -/
def getFe : Option (V F L) → Option F
  | some (.fe x) => some x
  | _ => none

/-- The field element in a field of a structure of the given type. -/
def coord (ty f : ℕ) : V F L → Option F
  | .st t l => bif Nat.beq ty t then getFe (find f l) else none
  | _ => none

instance : Enc F L F := ⟨.fe, fun v => match v with | .fe x => some x | _ => none⟩
instance : Enc F L Bool := ⟨.bool, fun v => match v with | .bool x => some x | _ => none⟩
instance : Enc F L ℕ := ⟨.nat, fun v => match v with | .nat x => some x | _ => none⟩

/-- A loose element; a tight one is relaxed. -/
structure Loose (L : Type) where
  x : L

instance : Enc F L (Loose L) :=
  ⟨fun a => .lo a.x, fun v => match v with
    | .lo x => some ⟨x⟩
    | .fe x => some ⟨relax x⟩
    | _ => none⟩

/-- Bytes. -/
instance : Enc F L (Bytes 56) := ⟨.ext, fun v => match v with | .ext x => some x | _ => none⟩

/-- `(α, β)`. -/
instance {α β : Type} [Enc F L α] [Enc F L β] : Enc F L (α × β) :=
  ⟨fun p => .tup [enc p.1, enc p.2], fun v => match v with
    | .tup [a, b] => (dec a).bind fun a => (dec b).bind fun b => some (a, b)
    | _ => none⟩

/-- `Option<α>`. -/
instance {α : Type} [Enc F L α] : Enc F L (Option α) :=
  ⟨fun o => .opt (o.map enc), fun v => match v with
    | .opt none => some none
    | .opt (some a) => (dec a).bind fun a => some (some a)
    | _ => none⟩

/-- `edwards::ExtendedPoint`. -/
instance : Enc F L (EdPt F) :=
  ⟨fun P => .st (t! "EdwardsExtendedPoint")
      [(t! "X", .fe P.X), (t! "Y", .fe P.Y), (t! "Z", .fe P.Z), (t! "T", .fe P.T)],
   fun v => (coord (t! "EdwardsExtendedPoint") (t! "X") v).bind fun X =>
    (coord (t! "EdwardsExtendedPoint") (t! "Y") v).bind fun Y =>
    (coord (t! "EdwardsExtendedPoint") (t! "Z") v).bind fun Z =>
    (coord (t! "EdwardsExtendedPoint") (t! "T") v).bind fun T => some ⟨X, Y, Z, T⟩⟩

/-- `twedwards::extended::ExtendedPoint`. -/
instance : Enc F L (TwPt F) :=
  ⟨fun P => .st (t! "TwistedExtendedPoint")
      [(t! "X", .fe P.X), (t! "Y", .fe P.Y), (t! "Z", .fe P.Z), (t! "T", .fe P.T)],
   fun v => (coord (t! "TwistedExtendedPoint") (t! "X") v).bind fun X =>
    (coord (t! "TwistedExtendedPoint") (t! "Y") v).bind fun Y =>
    (coord (t! "TwistedExtendedPoint") (t! "Z") v).bind fun Z =>
    (coord (t! "TwistedExtendedPoint") (t! "T") v).bind fun T => some ⟨X, Y, Z, T⟩⟩

/-- `twedwards::extensible::ExtensiblePoint`. -/
instance : Enc F L (TwExt F) :=
  ⟨fun P => .st (t! "ExtensiblePoint") [(t! "X", .fe P.X), (t! "Y", .fe P.Y), (t! "Z", .fe P.Z),
      (t! "T1", .fe P.T1), (t! "T2", .fe P.T2)],
   fun v => (coord (t! "ExtensiblePoint") (t! "X") v).bind fun X =>
    (coord (t! "ExtensiblePoint") (t! "Y") v).bind fun Y =>
    (coord (t! "ExtensiblePoint") (t! "Z") v).bind fun Z =>
    (coord (t! "ExtensiblePoint") (t! "T1") v).bind fun T1 =>
    (coord (t! "ExtensiblePoint") (t! "T2") v).bind fun T2 => some ⟨X, Y, Z, T1, T2⟩⟩

/-- `twedwards::projective::ProjectiveNielsPoint`. -/
instance : Enc F L (PNiels F) :=
  ⟨fun P => .st (t! "ProjectiveNielsPoint") [(t! "Y_plus_X", .fe P.YpX), (t! "Y_minus_X", .fe P.YmX),
      (t! "Td", .fe P.Td), (t! "Z", .fe P.Z)],
   fun v => (coord (t! "ProjectiveNielsPoint") (t! "Y_plus_X") v).bind fun a =>
    (coord (t! "ProjectiveNielsPoint") (t! "Y_minus_X") v).bind fun b =>
    (coord (t! "ProjectiveNielsPoint") (t! "Td") v).bind fun c =>
    (coord (t! "ProjectiveNielsPoint") (t! "Z") v).bind fun d => some ⟨a, b, c, d⟩⟩

/-- `twedwards::affine::AffineNielsPoint`. -/
instance : Enc F L (ANiels F) :=
  ⟨fun P => .st (t! "AffineNielsPoint")
      [(t! "y_plus_x", .fe P.YpX), (t! "y_minus_x", .fe P.YmX), (t! "td", .fe P.td)],
   fun v => (coord (t! "AffineNielsPoint") (t! "y_plus_x") v).bind fun a =>
    (coord (t! "AffineNielsPoint") (t! "y_minus_x") v).bind fun b =>
    (coord (t! "AffineNielsPoint") (t! "td") v).bind fun c => some ⟨a, b, c⟩⟩

/-- `edwards::affine::AffinePoint`. -/
instance : Enc F L (EdAff F) :=
  ⟨fun P => .st (t! "EdwardsAffinePoint") [(t! "x", .fe P.x), (t! "y", .fe P.y)],
   fun v => (coord (t! "EdwardsAffinePoint") (t! "x") v).bind fun x =>
    (coord (t! "EdwardsAffinePoint") (t! "y") v).bind fun y => some ⟨x, y⟩⟩

/-- `twedwards::affine::AffinePoint`. -/
instance : Enc F L (TwAff F) :=
  ⟨fun P => .st (t! "TwistedAffinePoint") [(t! "x", .fe P.x), (t! "y", .fe P.y)],
   fun v => (coord (t! "TwistedAffinePoint") (t! "x") v).bind fun x =>
    (coord (t! "TwistedAffinePoint") (t! "y") v).bind fun y => some ⟨x, y⟩⟩

/-- `ProjectiveMontgomeryPoint`. -/
instance : Enc F L (ProjMont F) :=
  ⟨fun P => .st (t! "ProjectiveMontgomeryPoint") [(t! "U", .fe P.U), (t! "W", .fe P.W)],
   fun v => (coord (t! "ProjectiveMontgomeryPoint") (t! "U") v).bind fun x =>
    (coord (t! "ProjectiveMontgomeryPoint") (t! "W") v).bind fun y => some ⟨x, y⟩⟩

/-- The only field of a tuple structure of the given type. -/
def inner {α : Type} [Enc F L α] (ty : ℕ) : V F L → Option α
  | .st t [(k, v)] => bif Nat.beq ty t && Nat.beq k (t! "0") then dec v else none
  | _ => none

/-- `MontgomeryPoint`. -/
structure Mont where
  u : Bytes 56

instance : Enc F L Mont :=
  ⟨fun P => .st (t! "MontgomeryPoint") [(t! "0", .ext P.u)],
   fun v => (inner (t! "MontgomeryPoint") v).bind fun u => some ⟨u⟩⟩

/-- `CompressedDecaf`. -/
structure CDecaf where
  b : Bytes 56

instance : Enc F L CDecaf :=
  ⟨fun P => .st (t! "CompressedDecaf") [(t! "0", .ext P.b)],
   fun v => (inner (t! "CompressedDecaf") v).bind fun u => some ⟨u⟩⟩

/-- `CompressedRistretto`. -/
structure CRist where
  b : Bytes 56

instance : Enc F L CRist :=
  ⟨fun P => .st (t! "CompressedRistretto") [(t! "0", .ext P.b)],
   fun v => (inner (t! "CompressedRistretto") v).bind fun u => some ⟨u⟩⟩

/-- `DecafPoint`. -/
instance : Enc F L (DecafPt F) :=
  ⟨fun P => .st (t! "DecafPoint") [(t! "0", enc P.pt)],
   fun v => (inner (t! "DecafPoint") v).bind fun u => some ⟨u⟩⟩

/-- `RistrettoPoint`. -/
instance : Enc F L (RistPt F) :=
  ⟨fun P => .st (t! "RistrettoPoint") [(t! "0", enc P.pt)],
   fun v => (inner (t! "RistrettoPoint") v).bind fun u => some ⟨u⟩⟩

/-- A function as an entry of the table. -/
def c0 {α : Type} [Enc F L α] (v : α) : List (V F L) → Option (V F L)
  | [] => some (enc v)
  | _ => none

/-- See `c0`. -/
def c1 {α β : Type} [Enc F L α] [Enc F L β] (g : α → β) : List (V F L) → Option (V F L)
  | [a] => (dec a).bind fun a => some (enc (g a))
  | _ => none

/-- See `c0`. -/
def c2 {α β γ : Type} [Enc F L α] [Enc F L β] [Enc F L γ] (g : α → β → γ) :
    List (V F L) → Option (V F L)
  | [a, b] => (dec a).bind fun a => (dec b).bind fun b => some (enc (g a b))
  | _ => none

/-- See `c0`. -/
def c3 {α β γ δ : Type} [Enc F L α] [Enc F L β] [Enc F L γ] [Enc F L δ] (g : α → β → γ → δ) :
    List (V F L) → Option (V F L)
  | [a, b, c] =>
    (dec a).bind fun a => (dec b).bind fun b => (dec c).bind fun c => some (enc (g a b c))
  | _ => none

/-- `*` on field elements: constants are not relaxed. -/
def mulV : List (V F L) → Option (V F L)
  | [.fe a, .fe b] => some (.fe (mul a b))
  | [.lo a, .fe b] => some (.fe (mulC a b))
  | [.fe a, .lo b] => some (.fe (mulR a b))
  | _ => none

/-- `square_n`: a count of 0 underflows. -/
def squareNV : List (V F L) → Option (V F L)
  | [.fe a, .nat n] => bif Nat.ble 1 n then some (.fe (squareN a n)) else none
  | _ => none

/-- The constructor of a tuple structure. -/
def tupleSt (ty : ℕ) : List (V F L) → Option (V F L)
  | [v] => some (.st ty [(t! "0", v)])
  | _ => none

/-- `x.into()`, `x.clone()` and the like. -/
def sameV : List (V F L) → Option (V F L)
  | [v] => some v
  | _ => none

/-- The functions. -/
def fns : List (ℕ × ℕ × (List (V F L) → Option (V F L))) := [
  (t! "FieldElement", t! "add", c2 (add (F := F))),
  (t! "FieldElement", t! "sub", c2 (sub (F := F))),
  (t! "FieldElement", t! "mul", mulV),
  (t! "FieldElement", t! "square", c1 (square (F := F))),
  (t! "FieldElement", t! "negate", c1 (negate (F := F))),
  (t! "FieldElement", t! "zero", c0 (zero : F)),
  (t! "FieldElement", t! "one", c0 (one : F)),
  (t! "FieldElement", t! "minus_one", c0 (Loose.mk (minusOne F : L))),
  (t! "FieldElement", t! "conditional_select", c3 (select (F := F))),
  (t! "FieldElement", t! "eq", c2 (feq (F := F))),
  (t! "FieldElement", t! "ct_eq", c2 (feq (F := F))),
  (t! "FieldElement", t! "is_negative", c1 (isNegative (F := F))),
  (t! "FieldElement", t! "to_bytes", c1 (toBytes (F := F))),
  (t! "FieldElement", t! "from_bytes", c1 (fromBytes (F := F))),
  (t! "FieldElement", t! "square_n", squareNV),
  (t! "FieldElement", t! "invert", c1 (invert (F := F))),
  (t! "FieldElement", t! "inverse_square_root", c1 (inverseSquareRoot (F := F))),
  (t! "FieldElement", t! "sqrt_ratio", c2 (sqrtRatio (F := F))),
  (t! "ext", t! "ct_eq", c2 (fun a b : Bytes 56 => a == b)),
  (t! "Choice", t! "into", sameV),
  (t! "Choice", t! "unwrap_u8", c1 Bool.toNat),
  (t! "Some", t! "Some", fun l => match l with | [v] => some (.opt (some v)) | _ => none),
  (t! "EdwardsAffinePoint", t! "to_extended", c1 (EdAff.toExtended (F := F))),
  (t! "EdwardsExtendedPoint", t! "identity", c0 (EdPt.identity : EdPt F)),
  (t! "EdwardsExtendedPoint", t! "add", c2 (EdPt.add (F := F))),
  (t! "EdwardsExtendedPoint", t! "ct_eq", c2 (EdPt.eq (F := F))),
  (t! "EdwardsExtendedPoint", t! "negate", c1 (EdPt.negate (F := F))),
  (t! "EdwardsExtendedPoint", t! "to_affine", c1 (EdPt.toAffine (F := F))),
  (t! "EdwardsExtendedPoint", t! "edwards_isogeny", c2 fun (P : EdPt F) (a : Loose L) => P.edwardsIsogeny a.x),
  (t! "TwistedAffinePoint", t! "identity", c0 (TwAff.identity : TwAff F)),
  (t! "TwistedAffinePoint", t! "to_extensible", c1 (TwAff.toExtensible (F := F))),
  (t! "TwistedExtendedPoint", t! "identity", c0 (TwPt.identity : TwPt F)),
  (t! "TwistedExtendedPoint", t! "to_extensible", c1 (TwPt.toExtensible (F := F))),
  (t! "TwistedExtendedPoint", t! "ct_eq", c2 (TwPt.eq (F := F))),
  (t! "TwistedExtendedPoint", t! "eq", c2 (TwPt.eq (F := F))),
  (t! "TwistedExtendedPoint", t! "to_affine", c1 (TwPt.toAffine (F := F))),
  (t! "TwistedExtendedPoint", t! "edwards_isogeny", c2 fun (P : TwPt F) (a : Loose L) => P.edwardsIsogeny a.x),
  (t! "ExtensiblePoint", t! "identity", c0 (TwExt.identity : TwExt F)),
  (t! "ExtensiblePoint", t! "ct_eq", c2 (TwExt.eq (F := F))),
  (t! "ExtensiblePoint", t! "double", c1 (TwExt.double (F := F))),
  (t! "ExtensiblePoint", t! "add_extended", c2 (TwExt.addExtended (F := F))),
  (t! "ExtensiblePoint", t! "sub_extended", c2 (TwExt.subExtended (F := F))),
  (t! "ExtensiblePoint", t! "to_extended", c1 (TwExt.toExtended (F := F))),
  (t! "ExtensiblePoint", t! "to_projective_niels", c1 (TwExt.toProjectiveNiels (F := F))),
  (t! "ProjectiveNielsPoint", t! "identity", c0 (PNiels.identity : PNiels F)),
  (t! "ProjectiveNielsPoint", t! "to_extended", c1 (PNiels.toExtended (F := F))),
  (t! "MontgomeryPoint", t! "MontgomeryPoint", tupleSt (t! "MontgomeryPoint")),
  (t! "MontgomeryPoint", t! "ct_eq", c2 fun a b : Mont => a.u == b.u),
  (t! "CompressedDecaf", t! "CompressedDecaf", tupleSt (t! "CompressedDecaf")),
  (t! "CompressedDecaf", t! "as_bytes", c1 CDecaf.b),
  (t! "CompressedDecaf", t! "ct_eq", c2 fun a b : CDecaf => a.b == b.b),
  (t! "DecafPoint", t! "DecafPoint", tupleSt (t! "DecafPoint")),
  (t! "CompressedRistretto", t! "CompressedRistretto", tupleSt (t! "CompressedRistretto")),
  (t! "CompressedRistretto", t! "as_bytes", c1 CRist.b),
  (t! "CompressedRistretto", t! "ct_eq", c2 fun a b : CRist => a.b == b.b),
  (t! "RistrettoPoint", t! "RistrettoPoint", tupleSt (t! "RistrettoPoint"))]

/-- The functions with mutable arguments. `conditional_swap` is the one of `subtle`. -/
def mfns : List (ℕ × ℕ × (List (V F L) → Option (List (V F L)))) := [
  (t! "FieldElement", t! "strong_reduce", fun l => match l with
    | [.fe x] => some [.fe (strongReduce x)]
    | _ => none),
  (t! "FieldElement", t! "conditional_negate", fun l => match l with
    | [.fe x, .bool c] => some [.fe (condNegate x c), .bool c]
    | _ => none),
  (t! "FieldElement", t! "conditional_swap", fun l => match l with
    | [.fe x, .fe y, .bool c] => some [.fe (select x y c), .fe (select y x c), .bool c]
    | _ => none)]

/-- The constants. -/
def consts : List (ℕ × V F L) := [
  (t! "EDWARDS_D", .lo (EDWARDS_D F)),
  (t! "TWISTED_D", .lo (TWISTED_D F)),
  (t! "TWO_TIMES_TWISTED_D", .lo (TWO_TIMES_TWISTED_D F)),
  (t! "NEG_EDWARDS_D", .fe NEG_EDWARDS_D),
  (t! "NEG_FOUR_TIMES_TWISTED_D", .fe NEG_FOUR_TIMES_TWISTED_D),
  (t! "DECAF_FACTOR", .fe DECAF_FACTOR),
  (t! "A_PLUS_TWO_OVER_FOUR", .fe A_PLUS_TWO_OVER_FOUR),
  (t! "GOLDILOCKS_BASE_POINT", enc (EdPt.generator : EdPt F)),
  (t! "TWISTED_EDWARDS_BASE_POINT", enc (TwPt.generator : TwPt F)),
  (t! "DECAF_BASEPOINT", enc (DecafPt.generator : DecafPt F)),
  (t! "None", .opt none)]

/-- The names that the files of src/curve/edwards give to the point types. -/
def edNames : List (ℕ × ℕ) :=
  [(t! "ExtendedPoint", t! "EdwardsExtendedPoint"), (t! "AffinePoint", t! "EdwardsAffinePoint")]

/-- The names that the files of src/curve/twedwards, src/decaf and src/ristretto give to the point
types. -/
def twNames : List (ℕ × ℕ) :=
  [(t! "ExtendedPoint", t! "TwistedExtendedPoint"), (t! "AffinePoint", t! "TwistedAffinePoint")]

/-- The meaning of the names. -/
def crate (names : List (ℕ × ℕ)) : Ctx F L (Bytes 56) := ⟨names, consts, fns, mfns⟩

variable (F) in
/-- Running the function `name` of the `impl` block `head` of a file on the given arguments returns
the given value. -/
def Returns (text : ℕ) (names : List (ℕ × ℕ)) (head : List ℕ) (name : ℕ) (args : List (V F L))
    {α : Type} [Enc F L α] (r : α) : Prop :=
  (call (parseFile 20000 text) head name (crate names) args).bind dec = some r

variable (F) in
/-- Running such a function changes its arguments to the given values. -/
def Changes (text : ℕ) (names : List (ℕ × ℕ)) (head : List ℕ) (name : ℕ) (args r : List (V F L)) :
    Prop :=
  callMut (parseFile 20000 text) head name (crate names) args = some r

end Ed448.Text
