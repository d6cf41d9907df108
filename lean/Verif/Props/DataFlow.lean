import Verif.Proofs.Trace
import Verif.Proofs.ScalarMul

/-!
# Field operations do not depend on the scalar (C53)

The full claim, that running time and memory accesses of scalar multiplication do not depend on the
scalar, is about compiled code and is not expressible here. The part that is a statement about the
source: which field operations are applied to which operands does not depend on the scalar. It is
stated on `Sym.Field out`, whose elements are the expressions computed, with the choice bits of
`conditional_select` removed: both scalars must give the same expression, whatever a serialisation
`out` reveals about expressions. Not covered: the integer operations on scalars (recoding, bit
extraction), the masked implementation of `conditional_select`, memory accesses, the compiler.
-/

namespace Ed448.Props
open Ed448.Model Ed448.Proofs

variable (out : Sym.Expr → Bytes 56)

/-- C53 (partial). `scalar_mul` on Edwards points: for every pair of scalars the same operations in
the same order, and no panic. -/
theorem C53_scalar_mul_partial (P : EdPt (Sym.Field out)) (s s' : Scalar) :
    P.scalarMul s = P.scalarMul s' ∧ (P.scalarMul s).isSome := edScalarMul_blind P s s'

/-- C53 (partial). Windowed multiplication on the twisted curve, and the table lookup in it. -/
theorem C53_variable_base_partial (P : TwPt (Sym.Field out)) (s s' : Scalar) (t : List (PNiels (Sym.Field out)))
    (i j : ℕ) : variableBase P s = variableBase P s' ∧ (variableBase P s).isSome ∧
      tableSelect t i = tableSelect t j :=
  ⟨(variableBase_blind P s s').1, (variableBase_blind P s s').2, tableSelect_blind t i j⟩

/-- C53 (partial). Double-and-add, the double-base multiplication built on it, and the Decaf
multiplication. -/
theorem C53_double_and_add_partial (P : TwPt (Sym.Field out)) (s s' b b' : Scalar) :
    doubleAndAdd P s = doubleAndAdd P s' ∧
      doubleBaseScalarMul s P b = doubleBaseScalarMul s' P b' ∧
      (⟨P⟩ : DecafPt (Sym.Field out)).scalarMul s = (⟨P⟩ : DecafPt (Sym.Field out)).scalarMul s' :=
  ⟨doubleAndAdd_blind P s s', doubleBaseScalarMul_blind P s s' b b',
    congrArg DecafPt.mk (doubleAndAdd_blind P s s')⟩

/-- C53 (partial). The Montgomery ladder, including the final division: the serialised result is
the same function `out` of the same expression. -/
theorem C53_ladder_partial (u : Bytes 56) (s s' : Scalar) :
    montMulScalar (Sym.Field out) u s = montMulScalar (Sym.Field out) u s' :=
  montMulScalar_blind u s s'

/-- C53 (partial). The loop of the scalar inversion computes one fixed product expression: the
sequence of Montgomery multiplications is the same for every argument. -/
theorem C53_inversion_partial : ∃ t : Chain, ∀ (mm : Scalar → Scalar → Scalar),
    (∀ x y, montMul x y = some (mm x y)) → ∀ z a, invLoop montMul z a = some (t.eval mm z a) := by
  refine ⟨invChain, fun mm h z a => ?_⟩
  rw [show montMul = fun x y => some (mm x y) from funext₂ h]
  exact invLoop_chain mm z a

/-- The hypothesis of `C53_inversion_partial` is met: Montgomery multiplication never panics. -/
example : ∃ mm : Scalar → Scalar → Scalar, ∀ x y, montMul x y = some (mm x y) :=
  ⟨fun x y => (montMul_spec x y).choose, fun x y => (montMul_spec x y).choose_spec.1⟩

/-- The same loop with a branch on the bit is told apart. -/
example : [true].foldl (fun (r : TwPt (Sym.Field out)) b =>
      if b then r.double.add TwPt.generator else r.double) TwPt.identity ≠
    [false].foldl (fun (r : TwPt (Sym.Field out)) b =>
      if b then r.double.add TwPt.generator else r.double) TwPt.identity := by
  intro h
  have hX := congrArg TwPt.X h
  injection hX with h1 _
  injection h1 with h1 _
  injection h1 with h1 _
  cases h1

end Ed448.Props
