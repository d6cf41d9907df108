import Verif.Text.Const
import Verif.Text.IntCrate
import Verif.Text.Parsed
import Verif.Props.Backends

/-!
# C101: the constants in the text of the source files

The constants are read out of the bytes of the source files by the parser of `Verif.Text.Syntax`. They are
those of the model, and have the values that their comments and the standards give.
-/

set_option maxRecDepth 100000
set_option exponentiation.threshold 1000

namespace Ed448.Props
open Ed448.Model Ed448.Text

/-- src/field/u32/constants.rs, and `zero`, `one` and `minus_one` in src/field/u32/prime_field.rs. -/
theorem C101_u32 :
    constWords Src.u32Const (t! "NEG_FOUR_TIMES_TWISTED_D") = some U32.NEG_FOUR_TIMES_TWISTED_D.l ∧
    constWords Src.u32Const (t! "EDWARDS_D") = some U32.EDWARDS_D.l ∧
    constWords Src.u32Const (t! "NEG_EDWARDS_D") = some U32.NEG_EDWARDS_D.l ∧
    constWords Src.u32Const (t! "TWISTED_D") = some U32.TWISTED_D.l ∧
    constWords Src.u32Const (t! "TWO_TIMES_TWISTED_D") = some U32.TWO_TIMES_TWISTED_D.l ∧
    constWords Src.u32Const (t! "DECAF_FACTOR") = some U32.DECAF_FACTOR.l ∧
    constWords Src.u32Const (t! "A_PLUS_TWO_OVER_FOUR") = some U32.A_PLUS_TWO_OVER_FOUR.l ∧
    constCoords Src.u32Const (t! "GOLDILOCKS_BASE_POINT") = some [
      (t! "X", U32.G_X.l), (t! "Y", U32.G_Y.l), (t! "Z", U32.G_Z.l), (t! "T", U32.G_T.l)] ∧
    constCoords Src.u32Const (t! "TWISTED_EDWARDS_BASE_POINT") = some [
      (t! "X", U32.TG_X.l), (t! "Y", U32.TG_Y.l), (t! "Z", U32.TG_Z.l), (t! "T", U32.TG_T.l)] ∧
    fnWords Src.u32Field [t! "FieldElement28"] (t! "zero") = some U32.zero.l ∧
    fnWords Src.u32Field [t! "FieldElement28"] (t! "one") = some U32.one.l ∧
    fnWords Src.u32Field [t! "FieldElement28"] (t! "minus_one") = some U32.minusOne.l := by
  refine ⟨?_, ?_, ?_, ?_, ?_, ?_, ?_, ?_, ?_, ?_, ?_, ?_⟩ <;> krfl

/-- src/field/fiat_u64/constants.rs, and `zero`, `one` and `minus_one` in src/field/fiat_u64/prime_field.rs. -/
theorem C101_u64 :
    constWords Src.u64Const (t! "NEG_FOUR_TIMES_TWISTED_D") = some Fiat.NEG_FOUR_TIMES_TWISTED_D.l ∧
    constWords Src.u64Const (t! "EDWARDS_D") = some Fiat.EDWARDS_D.l ∧
    constWords Src.u64Const (t! "NEG_EDWARDS_D") = some Fiat.NEG_EDWARDS_D.l ∧
    constWords Src.u64Const (t! "TWISTED_D") = some Fiat.TWISTED_D.l ∧
    constWords Src.u64Const (t! "TWO_TIMES_TWISTED_D") = some Fiat.TWO_TIMES_TWISTED_D.l ∧
    constWords Src.u64Const (t! "DECAF_FACTOR") = some Fiat.DECAF_FACTOR.l ∧
    constWords Src.u64Const (t! "A_PLUS_TWO_OVER_FOUR") = some Fiat.A_PLUS_TWO_OVER_FOUR.l ∧
    constCoords Src.u64Const (t! "GOLDILOCKS_BASE_POINT") = some [
      (t! "X", Fiat.G_X.l), (t! "Y", Fiat.G_Y.l), (t! "Z", Fiat.G_Z.l), (t! "T", Fiat.G_T.l)] ∧
    constCoords Src.u64Const (t! "TWISTED_EDWARDS_BASE_POINT") = some [
      (t! "X", Fiat.TG_X.l), (t! "Y", Fiat.TG_Y.l), (t! "Z", Fiat.TG_Z.l), (t! "T", Fiat.TG_T.l)] ∧
    fnWords Src.u64Field [t! "FieldElement56"] (t! "zero") = some Fiat.zero.l ∧
    fnWords Src.u64Field [t! "FieldElement56"] (t! "one") = some Fiat.one.l ∧
    fnWords Src.u64Field [t! "FieldElement56"] (t! "minus_one") = some Fiat.minusOne.l := by
  refine ⟨?_, ?_, ?_, ?_, ?_, ?_, ?_, ?_, ?_, ?_, ?_, ?_⟩ <;> krfl

/-- The order, and `MODULUS`, `R` and `R2` in src/field/scalar.rs. -/
theorem C101_scalar :
    constWords Src.constants (t! "BASEPOINT_ORDER") = some MODULUS.l ∧
    constText Src.scalar (t! "MODULUS") = some (.var [t! "constants", t! "BASEPOINT_ORDER"]) ∧
    constWords Src.scalar (t! "R") = some Rconst.l ∧
    constWords Src.scalar (t! "R2") = some R2.l := by
  refine ⟨?_, ?_, ?_, ?_⟩ <;> krfl

/-- The three points of low order in src/curve/montgomery/montgomery.rs. -/
theorem C101_low_order :
    constWords Src.montgomery (t! "LOW_A") = some LOW_A ∧
    constWords Src.montgomery (t! "LOW_B") = some LOW_B ∧
    constWords Src.montgomery (t! "LOW_C") = some LOW_C := by
  refine ⟨?_, ?_, ?_⟩ <;> krfl

/-- The constants with which C100 runs the text of src/field/scalar.rs and src/field/u32/karatsuba.rs are those in the text. -/
theorem C101_context {α : Type} (d : Dom α) :
    some (scalarConsts d) = (constWords Src.constants (t! "BASEPOINT_ORDER")).bind fun m =>
      (constWords Src.scalar (t! "R2")).bind fun r2 => (constWords Src.scalar (t! "R")).bind fun r =>
      some [(t! "MODULUS", lits d m), (t! "R2", lits d r2), (t! "R", lits d r)] := by
  obtain ⟨h1, -, h2, h3⟩ := C101_scalar
  rw [h1, h2, h3]
  krfl

/-- The value of a constant with limbs to the base `B`. -/
def valText (B : ℕ) (text name : ℕ) : Option ℕ := (constWords text name).map (Nat.ofDigits B)

/-- The values of the coordinates of a constant. -/
def pointText (B : ℕ) (text name : ℕ) : Option (List (ℕ × ℕ)) :=
  (constCoords text name).map fun l => l.map fun c => (c.1, Nat.ofDigits B c.2)

/-- What the texts of the two backends say, modulo the prime: the constants of the curves. -/
theorem C101_values :
    [t! "EDWARDS_D", t! "NEG_EDWARDS_D", t! "TWISTED_D", t! "TWO_TIMES_TWISTED_D",
        t! "NEG_FOUR_TIMES_TWISTED_D", t! "A_PLUS_TWO_OVER_FOUR"].map
      (fun n => ((valText (2 ^ 28) Src.u32Const n).map (· % p), (valText (2 ^ 56) Src.u64Const n).map (· % p))) =
    [p - 39081, 39081, p - 39082, p - 78164, 4 * 39082, 39082].map (fun x => (some x, some x)) ∧
    (valText (2 ^ 28) Src.u32Const (t! "DECAF_FACTOR")).map (fun x => x * x % p) = some 39081 ∧
    valText (2 ^ 28) Src.u32Const (t! "DECAF_FACTOR") = valText (2 ^ 56) Src.u64Const (t! "DECAF_FACTOR") ∧
    (pointText (2 ^ 28) Src.u32Const (t! "GOLDILOCKS_BASE_POINT")) =
      some [(t! "X", Gx), (t! "Y", Gy), (t! "Z", 1), (t! "T", Gx * Gy % p)] ∧
    pointText (2 ^ 56) Src.u64Const (t! "GOLDILOCKS_BASE_POINT") =
      some [(t! "X", Gx), (t! "Y", Gy), (t! "Z", 1), (t! "T", Gx * Gy % p)] ∧
    valText (2 ^ 32) Src.constants (t! "BASEPOINT_ORDER") = some ell ∧
    valText (2 ^ 32) Src.scalar (t! "R") = some (2 ^ 448 % ell) ∧
    valText (2 ^ 32) Src.scalar (t! "R2") = some (2 ^ 896 % ell) ∧
    [t! "LOW_A", t! "LOW_B", t! "LOW_C"].map (valText 256 Src.montgomery) = [some 0, some 1, some (p - 1)] := by
  obtain ⟨a1, a2, a3, a4, a5, a6, a7, a8, -⟩ := C101_u32
  obtain ⟨b1, b2, b3, b4, b5, b6, b7, b8, -⟩ := C101_u64
  obtain ⟨s1, -, s2, s3⟩ := C101_scalar
  obtain ⟨l1, l2, l3⟩ := C101_low_order
  simp only [valText, pointText, List.map_cons, List.map_nil, a1, a2, a3, a4, a5, a6, a7, a8,
    b1, b2, b3, b4, b5, b6, b7, b8, s1, s2, s3, l1, l2, l3, Option.map_some]
  rw [p_lit, ell_lit]
  refine ⟨?_, ?_, ?_, ?_, ?_, ?_, ?_, ?_, ?_⟩ <;> decide +kernel

/-- A comment, another constant and a function before the constant are passed over. -/
example : constWords (t! "// const A: u8 = 1;
const B: F = F([1]); fn f() { 3 }
pub(crate) const A: F = F(g([0x10, 2_0, 7]));") (t! "A") = some [16, 20, 7] ∧
    constWords (t! "const B: F = F([1]);") (t! "A") = none := by
  refine ⟨?_, ?_⟩ <;> krfl

end Ed448.Props
