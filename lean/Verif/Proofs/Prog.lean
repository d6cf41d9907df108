import Verif.Model.Prog
import Verif.Proofs.Ideal

/-!
# Programs over the library do not depend on the backend

Running a program commutes with taking the values of field elements, so a result that holds no
field element does not depend on the backend.
-/

namespace Ed448.Model
open FieldBackend
open FieldVal (val)

set_option exponentiation.threshold 1000

section hom
variable {F L : Type} [FieldBackend F L] [Lawful F]

/-- The values of the field elements of a result. -/
def Sem.vals : (τ : Ty) → Sem F τ → Sem Fp τ
  | .host _, a => a
  | .fe, a => FieldVal.val (F := F) a
  | .ed, a => EdPt.vals a
  | .edAff, a => EdAff.vals a
  | .tw, a => TwPt.vals a
  | .ext, a => TwExt.vals a
  | .pn, a => PNiels.vals a
  | .tAff, a => TwAff.vals a
  | .an, a => ANiels.vals a
  | .pm, a => ProjMont.vals a
  | .decaf, a => DecafPt.vals a
  | .rist, a => RistPt.vals a

theorem isSome_map {α β : Type} (f : α → β) (o : Option α) : (o.map f).isSome = o.isSome := by
  cases o <;> rfl

theorem Op0.run_vals {τ : Ty} (o : Op0 τ) : (o.run F).map (Sem.vals τ) = o.run Fp := by
  cases o
  case edDecompress b => exact edDecompress_vals b
  case decafDecompress b => exact decafDecompress_vals b
  all_goals apply congrArg some
  · exact hom_zero
  · exact hom_one
  · exact hom_fromBytes _
  · exact EdPt.vals_identity
  · exact EdPt.vals_generator
  · exact (isSome_map _ _).symm.trans (congrArg Option.isSome (edDecompress_vals _))
  · exact EdAff.vals_identity
  · exact TwPt.vals_identity
  · exact TwPt.vals_generator
  · exact TwExt.vals_identity
  · exact PNiels.vals_identity
  · exact TwAff.vals_identity
  · exact ANiels.vals_identity
  · exact ProjMont.vals_identity
  · exact montToProjective_vals _
  · exact (montMulScalar_vals _ _).symm
  · exact DecafPt.vals_identity
  · exact DecafPt.vals_generator
  · exact (isSome_map _ _).symm.trans (congrArg Option.isSome (decafDecompress_vals _))
  · exact RistPt.vals_identity

theorem hom_isZero (a : F) : isZero (val a) = isZero a := by
  unfold isZero; rw [← hom_zero (F := F), hom_feq]

theorem Op1.run_vals {σ τ : Ty} (o : Op1 σ τ) (a : Sem F σ) :
    (o.run F a).map (Sem.vals τ) = o.run Fp (Sem.vals σ a) := by
  cases o
  case edScalarMul s => exact EdPt.vals_scalarMul a s
  case edIsTorsionFree =>
    have h (o : Option Bool) : o.map (Sem.vals (F := F) (.host Bool)) = o := by cases o <;> rfl
    exact (h _).trans (EdPt.vals_isTorsionFree (F := F) a).symm
  case variableBase s => exact variableBase_vals a s
  case ristEncode => rfl
  all_goals apply congrArg some
  · exact hom_negate (F := F) a
  · exact hom_square (F := F) a
  · exact hom_condNegate (F := F) a _
  · exact hom_invert (F := F) a
  · exact (hom_isr (F := F) a).symm
  · exact (hom_isr_ok (F := F) a).symm
  · exact hom_strongReduce (F := F) a
  · exact (hom_toBytes (F := F) a).symm
  · exact (hom_isNegative (F := F) a).symm
  · exact (hom_isZero (F := F) a).symm
  · exact EdPt.vals_negate a
  · exact EdPt.vals_double a
  · exact EdPt.vals_torque a
  · exact EdPt.vals_toAffine a
  · exact EdPt.vals_toTwisted a
  · rfl
  · rfl
  · rfl
  · rfl
  · rfl
  · exact (EdPt.vals_toMontgomery a).symm
  · exact (EdPt.vals_compress a).symm
  · exact (EdPt.vals_isOnCurve a).symm
  · exact EdAff.vals_toExtended a
  · rfl
  · rfl
  · exact TwPt.vals_negate a
  · exact TwPt.vals_double a
  · exact TwPt.vals_torque a
  · exact TwPt.vals_toExtensible a
  · exact TwPt.vals_toAffine a
  · exact TwPt.vals_toUntwisted a
  · rfl
  · rfl
  · rfl
  · rfl
  · rfl
  · exact (TwPt.vals_isOnCurve a).symm
  · exact (tableSelect_vals (F := F) _ _).trans (congrArg (tableSelect · _) (lookupTable_vals a))
  · exact doubleAndAdd_vals a _
  · exact doubleBaseScalarMul_vals _ a _
  · rfl
  · rfl
  · exact TwExt.vals_double a
  · exact TwExt.vals_toExtended a
  · exact TwExt.vals_toProjectiveNiels a
  · exact PNiels.vals_condNegate a _
  · exact PNiels.vals_toExtended a
  · rfl
  · rfl
  · exact TwAff.vals_negate a
  · exact (TwAff.vals_isOnCurve a).symm
  · exact TwAff.vals_toExtensible a
  · exact TwAff.vals_toExtended a
  · exact TwAff.vals_toAffineNiels a
  · exact ANiels.vals_toExtended a
  · exact (ProjMont.vals_toAffine a).symm
  · exact DecafPt.vals_neg a
  · exact DecafPt.vals_scalarMul a _
  · exact (DecafPt.vals_compress a).symm

theorem Op2.run_vals {ρ σ τ : Ty} (o : Op2 ρ σ τ) (a : Sem F ρ) (b : Sem F σ) :
    (o.run F a b).map (Sem.vals τ) = o.run Fp (Sem.vals ρ a) (Sem.vals σ b) := by
  cases o
  all_goals apply congrArg some
  · exact hom_mul (F := F) a b
  · exact hom_add (F := F) a b
  · exact hom_sub (F := F) a b
  · exact hom_select (F := F) a b _
  · exact (hom_feq (F := F) a b).symm
  · exact (hom_sqrtRatio (F := F) a b).symm
  · exact (hom_sqrtRatio_ok (F := F) a b).symm
  · rfl
  · exact EdPt.vals_add a b
  · exact EdPt.vals_sub a b
  · exact EdPt.vals_select a b _
  · exact (EdPt.vals_eq a b).symm
  · exact TwPt.vals_add a b
  · exact TwPt.vals_select a b _
  · exact (TwPt.vals_eq a b).symm
  · exact TwExt.vals_addExtended a b
  · exact TwExt.vals_subExtended a b
  · exact TwExt.vals_addExtensible a b
  · exact TwExt.vals_addProjectiveNiels a b
  · exact TwExt.vals_addAffineNiels a b
  · exact (TwExt.vals_eq a b).symm
  · exact PNiels.vals_select a b _
  · rfl
  · exact TwAff.vals_add a b
  · exact ANiels.vals_select a b _
  · exact (ANiels.vals_equals a b).symm
  · exact ProjMont.vals_select a b _
  · exact DecafPt.vals_add a b
  · exact DecafPt.vals_sub a b
  · exact (DecafPt.vals_equals a b).symm
  · exact (RistPt.vals_equals a b).symm

theorem Prog.run_vals {τ : Ty} (e : Prog τ) : (e.run F).map (Sem.vals τ) = e.run Fp := by
  induction e with
  | ret a => rfl
  | bind a f iha ihf =>
    simp only [Prog.run, ← iha]
    cases a.run F with
    | none => rfl
    | some x => exact ihf x
  | panic => rfl
  | op0 o => exact o.run_vals
  | op1 o a ih =>
    simp only [Prog.run, ← ih]
    cases a.run F with
    | none => rfl
    | some x => exact o.run_vals x
  | op2 o a b iha ihb =>
    simp only [Prog.run, ← iha, ← ihb]
    cases a.run F with
    | none => rfl
    | some x =>
      cases b.run F with
      | none => rfl
      | some y => exact o.run_vals x y

/-- A result without field elements is the same on the ideal backend. -/
theorem Prog.eval_ideal {α : Type} (e : Prog (.host α)) : e.eval F = e.eval Fp :=
  (congrFun Option.map_id _).symm.trans (Prog.run_vals (F := F) e)

end hom
end Ed448.Model
