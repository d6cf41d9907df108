import Verif.Model.Machine

/-!
# Model: the 64-bit backend, `/repo/src/field/fiat_u64`

The wrapper `FieldElement56` calls the functions of the external crate
`fiat_crypto::p448_solinas_64`, whose source is not part of the repository. They appear here as a
parameter `Fns`; `Contract` states what that crate documents about each of them (argument bounds,
result bounds and value). Nothing else is assumed about them.

In Rust a result is written to a `&mut` parameter; here it is returned. A function may do anything
outside its contract, including panic, so each returns an `Option`.
-/

namespace Ed448.Model.Fiat

/-- `[u64; 8]`, the contents of `FieldElement56`, `fiat_p448_tight_field_element` and
`fiat_p448_loose_field_element`. /repo/src/field/fiat_u64/prime_field.rs:13-14 -/
abbrev Limbs := Arr 8 (2 ^ 64)

/-- The number spelled by the limbs in radix `2^56`. /repo/src/field/fiat_u64/prime_field.rs:8-9 -/
def V (a : Limbs) : ℕ := Nat.ofDigits (2 ^ 56) a.l

/-- The documented bound of tight field elements. -/
def Tight (a : Limbs) : Prop := ∀ x ∈ a.l, x ≤ 2 ^ 56

/-- The documented bound of loose field elements. -/
def Loose (a : Limbs) : Prop := ∀ x ∈ a.l, x ≤ 3 * 2 ^ 56

instance (a : Limbs) : Decidable (Tight a) := by unfold Tight; infer_instance
instance (a : Limbs) : Decidable (Loose a) := by unfold Loose; infer_instance

/-- The functions imported by `use fiat_crypto::p448_solinas_64::*`, with the prefix `fiat_p448_`
dropped. /repo/src/field/fiat_u64/prime_field.rs:1 -/
structure Fns where
  relax : Limbs → Option Limbs
  carry : Limbs → Option Limbs
  carryMul : Limbs → Limbs → Option Limbs
  carrySquare : Limbs → Option Limbs
  add : Limbs → Limbs → Option Limbs
  sub : Limbs → Limbs → Option Limbs
  opp : Limbs → Option Limbs
  selectznz : ℕ → Limbs → Limbs → Option Limbs
  toBytes : Limbs → Option (Bytes 56)
  fromBytes : Bytes 56 → Option Limbs

/-! ## The wrapper, /repo/src/field/fiat_u64/prime_field.rs -/

/-- `Mul`. /repo/src/field/fiat_u64/prime_field.rs:38-61 -/
def mul (f : Fns) (a b : Limbs) : Option Limbs := do
  let selfLoose ← f.relax a
  let rhsLoose ← f.relax b
  f.carryMul selfLoose rhsLoose

/-- `Add`. /repo/src/field/fiat_u64/prime_field.rs:63-72 -/
def add (f : Fns) (a b : Limbs) : Option Limbs := do
  let resultLoose ← f.add a b
  f.carry resultLoose

/-- `Sub`. /repo/src/field/fiat_u64/prime_field.rs:73-82 -/
def sub (f : Fns) (a b : Limbs) : Option Limbs := do
  let resultLoose ← f.sub a b
  f.carry resultLoose

/-- `conditional_select`. /repo/src/field/fiat_u64/prime_field.rs:91-101 -/
def select (f : Fns) (a b : Limbs) (c : Bool) : Option Limbs :=
  f.selectznz (if c then 1 else 0) a b

/-- `from_bytes`. /repo/src/field/fiat_u64/prime_field.rs:156-160 -/
def fromBytes (f : Fns) (b : Bytes 56) : Option Limbs := f.fromBytes b

/-- `to_bytes`. /repo/src/field/fiat_u64/prime_field.rs:163-167 -/
def toBytes (f : Fns) (a : Limbs) : Option (Bytes 56) := f.toBytes a

/-- `square`. /repo/src/field/fiat_u64/prime_field.rs:172-178 -/
def square (f : Fns) (a : Limbs) : Option Limbs := do
  let selfLoose ← f.relax a
  f.carrySquare selfLoose

/-- `negate`. /repo/src/field/fiat_u64/prime_field.rs:180-186 -/
def negate (f : Fns) (a : Limbs) : Option Limbs := do
  let resultLoose ← f.opp a
  f.carry resultLoose

/-- `strong_reduce`. /repo/src/field/fiat_u64/prime_field.rs:191-195 -/
def strongReduce (f : Fns) (a : Limbs) : Option Limbs := do
  let selfLoose ← f.relax a
  f.carry selfLoose

/-! ## Constants -/

/-- A constant written as eight limbs. -/
def lit (l : List ℕ) (h : l.length = 8 := by rfl) (h' : ∀ x ∈ l, x < 2 ^ 64 := by decide) : Limbs :=
  ⟨l, h, h'⟩

/-- `zero`. /repo/src/field/fiat_u64/prime_field.rs:114-116 -/
def zero : Limbs := lit [
  0, 0, 0, 0,
  0, 0, 0, 0]

/-- `one`. /repo/src/field/fiat_u64/prime_field.rs:117-119 -/
def one : Limbs := lit [
  1, 0, 0, 0,
  0, 0, 0, 0]

/-- `minus_one`. /repo/src/field/fiat_u64/prime_field.rs:120-131 -/
def minusOne : Limbs := lit [
  144115188075855869, 144115188075855870, 144115188075855870, 144115188075855870,
  144115188075855868, 144115188075855870, 144115188075855870, 144115188075855870]

/-- `NEG_FOUR_TIMES_TWISTED_D`. /repo/src/field/fiat_u64/constants.rs:10-20 -/
def NEG_FOUR_TIMES_TWISTED_D : Limbs := lit [
  156327, 0, 0, 0,
  72057594037927935, 72057594037927935, 72057594037927935, 72057594037927935]

/-- `EDWARDS_D`. /repo/src/field/fiat_u64/constants.rs:23-32 -/
def EDWARDS_D : Limbs := lit [
  144115188075816789, 144115188075855870, 144115188075855870, 144115188075855870,
  144115188075855868, 144115188075855870, 144115188075855870, 144115188075855870]

/-- `NEG_EDWARDS_D`. /repo/src/field/fiat_u64/constants.rs:35-36 -/
def NEG_EDWARDS_D : Limbs := lit [
  39081, 0, 0, 0,
  0, 0, 0, 0]

/-- `TWISTED_D`. /repo/src/field/fiat_u64/constants.rs:39-48 -/
def TWISTED_D : Limbs := lit [
  144115188075816788, 144115188075855870, 144115188075855870, 144115188075855870,
  144115188075855868, 144115188075855870, 144115188075855870, 144115188075855870]

/-- `TWO_TIMES_TWISTED_D`. /repo/src/field/fiat_u64/constants.rs:51-60 -/
def TWO_TIMES_TWISTED_D : Limbs := lit [
  144115188075777706, 144115188075855870, 144115188075855870, 144115188075855870,
  144115188075855868, 144115188075855870, 144115188075855870, 144115188075855870]

/-- `DECAF_FACTOR`. /repo/src/field/fiat_u64/constants.rs:63-72 -/
def DECAF_FACTOR : Limbs := lit [
  18840197329790774, 34892632690676374, 68958546943959091, 42375267163019878,
  52025915502417792, 30012964935809189, 29339327698972578, 9809168364676343]

/-- `A_PLUS_TWO_OVER_FOUR`. /repo/src/field/fiat_u64/constants.rs:75-76 -/
def A_PLUS_TWO_OVER_FOUR : Limbs := lit [
  39082, 0, 0, 0,
  0, 0, 0, 0]

/-- Coordinate `X` of `GOLDILOCKS_BASE_POINT`. /repo/src/field/fiat_u64/constants.rs:80-89 -/
def G_X : Limbs := lit [
  10880955091566686, 36276784145337894, 69571282115576635, 46113124210880026,
  4247859732800292, 15440021224255559, 66747077793030847, 22264495316135181]

/-- Coordinate `Y` of `GOLDILOCKS_BASE_POINT`. /repo/src/field/fiat_u64/constants.rs:90-99 -/
def G_Y : Limbs := lit [
  2385235625966100, 5396741696826776, 8134720567442877, 1584133578609663,
  46047824121994270, 56121598560924524, 10283140089599689, 29624444337960636]

/-- Coordinate `Z` of `GOLDILOCKS_BASE_POINT`. /repo/src/field/fiat_u64/constants.rs:100-100 -/
def G_Z : Limbs := lit [
  1, 0, 0, 0,
  0, 0, 0, 0]

/-- Coordinate `T` of `GOLDILOCKS_BASE_POINT`. /repo/src/field/fiat_u64/constants.rs:101-110 -/
def G_T : Limbs := lit [
  1796939199780339, 45174008172060139, 40732174862907279, 63672088496536030,
  37244660935497319, 41035719659624511, 30626637035688077, 56117654178374172]

/-- Coordinate `X` of `TWISTED_EDWARDS_BASE_POINT`. /repo/src/field/fiat_u64/constants.rs:115-124 -/
def TG_X : Limbs := lit [
  0, 72057594037927936, 72057594037927935, 36028797018963967,
  72057594037927934, 72057594037927935, 72057594037927935, 36028797018963967]

/-- Coordinate `Y` of `TWISTED_EDWARDS_BASE_POINT`. /repo/src/field/fiat_u64/constants.rs:125-134 -/
def TG_Y : Limbs := lit [
  27155415521118820, 3410937204744648, 19376965222209947, 22594032279754776,
  21520481577673772, 10141917371396176, 59827755213158602, 37445921829569158]

/-- Coordinate `Z` of `TWISTED_EDWARDS_BASE_POINT`. /repo/src/field/fiat_u64/constants.rs:135-135 -/
def TG_Z : Limbs := lit [
  1, 0, 0, 0,
  0, 0, 0, 0]

/-- Coordinate `T` of `TWISTED_EDWARDS_BASE_POINT`. /repo/src/field/fiat_u64/constants.rs:136-145 -/
def TG_T : Limbs := lit [
  64114820220813573, 27592348249940115, 21918321435874307, 45908688348236165,
  34141937727972228, 63575698147485199, 22766751209138687, 30740600843388580]

end Ed448.Model.Fiat
