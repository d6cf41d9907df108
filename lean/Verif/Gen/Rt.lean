import Verif.Model.Decaf
import Verif.Model.Montgomery
import Verif.Model.Ops
import Verif.Model.Fiat

/-!
# Operations used by the translated code

The definitions in `Verif.Gen` are written by tools/rust2lean.py from the Rust text. They use the
operations below and the checked arithmetic of `Verif.Model.Machine`. `none` is a panic.
-/

namespace Ed448.Gen.Rt
open Ed448.Model

/-- Plain `usize` addition or multiplication. The bound is that of a 32-bit target, the smallest
supported one; a larger bound panics less often. -/
def ckUsize (x : ℕ) : Option ℕ := if x < 2 ^ 32 then some x else none

/-- Result of a plain `i32` operation whose exact value is `x`. -/
def ckI32 (x : ℤ) : Option ℤ := if -2 ^ 31 ≤ x ∧ x < 2 ^ 31 then some x else none

/-- `l[i]`. -/
def idx {α : Type} (l : List α) (i : ℕ) : Option α := l[i]?

/-- `l[i] = v`. -/
def put {α : Type} (l : List α) (i : ℕ) (v : α) : Option (List α) :=
  if i < l.length then some (l.set i v) else none

/-- `&l[i..]`. -/
def sliceFrom {α : Type} (l : List α) (i : ℕ) : Option (List α) :=
  if i ≤ l.length then some (l.drop i) else none

/-- `dst.copy_from_slice(src)`. -/
def copyFrom {α : Type} (dst src : List α) : Option (List α) :=
  if dst.length = src.length then some src else none

/-- `*l.last_mut().unwrap() = v`. -/
def putLast {α : Type} (l : List α) (v : α) : Option (List α) :=
  if 0 < l.length then some (l.set (l.length - 1) v) else none

/-- `l.split_last()`. -/
def splitLast {α : Type} (l : List α) : Option (α × List α) :=
  l.getLast?.map fun x => (x, l.dropLast)

/-- The index list of `a..b`. -/
def range (a b : ℕ) : List ℕ := List.range' a (b - a)

/-- The index list of `a..=b`. -/
def rangeIncl (a b : ℕ) : List ℕ := List.range' a (b + 1 - a)

/-- The index list of `a..b` for signed indices. -/
def rangeZ (a b : ℤ) : List ℤ := (List.range (b - a).toNat).map fun k => a + k

/-- The index list of `a..=b` for signed indices. -/
def rangeInclZ (a b : ℤ) : List ℤ := rangeZ a (b + 1)

/-- `x as uW` for a signed `x`. -/
def asU (w : ℕ) (x : ℤ) : ℕ := (x % 2 ^ w).toNat

/-- `a & b` on signed words. -/
def andZ (w : ℕ) (a b : ℤ) : ℤ := (BitVec.ofInt w a &&& BitVec.ofInt w b).toInt

/-- `a | b` on signed words. -/
def orZ (w : ℕ) (a b : ℤ) : ℤ := (BitVec.ofInt w a ||| BitVec.ofInt w b).toInt

/-- `a ^ b` on signed words. -/
def xorZ (w : ℕ) (a b : ℤ) : ℤ := (BitVec.ofInt w a ^^^ BitVec.ofInt w b).toInt

/-- `x << k` on unsigned words, after the check of `k`. -/
def shlU (w x k : ℕ) : ℕ := (x <<< k) % 2 ^ w

/-- `x << k` on signed words, after the check of `k`. -/
def shlZ (w : ℕ) (x : ℤ) (k : ℕ) : ℤ := Int.bmod (x * 2 ^ k) (2 ^ w)

/-- The check of a shift amount. -/
def shiftAmount (w k : ℕ) : Option ℕ := if k < w then some k else none

/-- The check of a signed shift amount. -/
def shiftAmountZ (w : ℕ) (k : ℤ) : Option ℕ := if 0 ≤ k ∧ k < w then some k.toNat else none

/-- `wrapping_add`. -/
def waddU (w x y : ℕ) : ℕ := (x + y) % 2 ^ w

/-- `wrapping_sub`. -/
def wsubU (w x y : ℕ) : ℕ := (x + (2 ^ w - y % 2 ^ w)) % 2 ^ w

/-- `wrapping_mul`. -/
def wmulU (w x y : ℕ) : ℕ := x * y % 2 ^ w

/-- `assert!(b)`. -/
def require (b : Bool) : Option Unit := if b then some () else none

/-- `subtle::Choice::from(x)`; the crate asserts that `x` is 0 or 1 in debug builds. -/
def choice (x : ℕ) : Option Bool := if x = 0 then some false else if x = 1 then some true else none

/-- `subtle`'s `conditional_select` of machine words. -/
def selectWord (a b : ℕ) (c : Bool) : ℕ := if c then b else a

/-- `FieldElement::from_bytes` of a `[u8; 56]` kept as a list. -/
def fieldFromBytes (F : Type) {L : Type} [FieldBackend F L] (l : List ℕ) : Option F :=
  (Arr.ofList? 56 256 l).map FieldBackend.fromBytes

/-- The coordinates of a constant point. -/
def ptEdPt {F : Type} (p : F × F × F × F) : EdPt F := ⟨p.1, p.2.1, p.2.2.1, p.2.2.2⟩

/-- The coordinates of a constant point. -/
def ptTwPt {F : Type} (p : F × F × F × F) : TwPt F := ⟨p.1, p.2.1, p.2.2.1, p.2.2.2⟩

/-! The external functions `fiat_p448_*` on lists. They overwrite their first argument completely, so
the translation passes the other arguments and returns the new content. The parameter `f` holds the
functions themselves. -/

/-- A function of one field element. -/
def fiat1 (g : Fiat.Limbs → Option Fiat.Limbs) (a : List ℕ) : Option (List ℕ) :=
  (Arr.ofList? 8 (2 ^ 64) a).bind fun a => (g a).map (·.l)

/-- A function of two field elements. -/
def fiat2 (g : Fiat.Limbs → Fiat.Limbs → Option Fiat.Limbs) (a b : List ℕ) : Option (List ℕ) :=
  (Arr.ofList? 8 (2 ^ 64) a).bind fun a => (Arr.ofList? 8 (2 ^ 64) b).bind fun b => (g a b).map (·.l)

def fiat_relax (f : Fiat.Fns) := fiat1 f.relax
def fiat_carry (f : Fiat.Fns) := fiat1 f.carry
def fiat_carry_mul (f : Fiat.Fns) := fiat2 f.carryMul
def fiat_carry_square (f : Fiat.Fns) := fiat1 f.carrySquare
def fiat_add (f : Fiat.Fns) := fiat2 f.add
def fiat_sub (f : Fiat.Fns) := fiat2 f.sub
def fiat_opp (f : Fiat.Fns) := fiat1 f.opp
def fiat_selectznz (f : Fiat.Fns) (c : ℕ) := fiat2 (f.selectznz c)
def fiat_to_bytes (f : Fiat.Fns) (a : List ℕ) : Option (List ℕ) :=
  (Arr.ofList? 8 (2 ^ 64) a).bind fun a => (f.toBytes a).map (·.l)
def fiat_from_bytes (f : Fiat.Fns) (a : List ℕ) : Option (List ℕ) :=
  (Arr.ofList? 56 256 a).bind fun a => (f.fromBytes a).map (·.l)

end Ed448.Gen.Rt
