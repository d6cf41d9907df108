import Verif.Gen.LeakCurve
import Verif.Proofs.LeakScalar

/-!
# Observations of the curve operations

For a field backend whose observations do not depend on the operands, the observations of each curve
operation do not depend on its operands either.
-/

namespace Ed448.Leak
open Ed448.Model

variable {F L : Type} [FieldBackend F L] [LeakBackend F L] [CTBackend F L]

instance {self₁ other₁ self₂ other₂ : F} :
    CTT (Field.ct_eq (F := F) self₁ other₁) (Field.ct_eq (F := F) self₂ other₂) := ⟨by
  unfold Field.ct_eq
  ct⟩

instance {self₁ other₁ self₂ other₂ : F} :
    CTT (Field.eq (F := F) self₁ other₁) (Field.eq (F := F) self₂ other₂) := ⟨by
  unfold Field.eq
  ct⟩

instance {self₁ self₂ : F} :
    CTT (Field.is_zero (F := F) self₁) (Field.is_zero (F := F) self₂) := ⟨by
  unfold Field.is_zero
  ct⟩

instance {self₁ self₂ : F} {n : ℕ} :
    CTT (Field.square_n (F := F) self₁ n) (Field.square_n (F := F) self₂ n) := ⟨by
  unfold Field.square_n
  ct⟩

instance {self₁ self₂ : F} :
    CTT (Field.invert (F := F) self₁) (Field.invert (F := F) self₂) := ⟨by
  unfold Field.invert
  ct⟩

instance {self₁ self₂ : F} :
    CTT (Field.inverse_square_root (F := F) self₁) (Field.inverse_square_root (F := F) self₂) := ⟨by
  unfold Field.inverse_square_root
  ct⟩

instance {u₁ v₁ u₂ v₂ : F} :
    CTT (Field.sqrt_ratio (F := F) u₁ v₁) (Field.sqrt_ratio (F := F) u₂ v₂) := ⟨by
  unfold Field.sqrt_ratio
  ct⟩

instance {self₁ self₂ : Model.EdAff F} :
    CTT (EdAff.to_extended (F := F) self₁) (EdAff.to_extended (F := F) self₂) := ⟨by
  unfold EdAff.to_extended
  ct⟩

instance {a₁ b₁ a₂ b₂ : Model.EdPt F} {choice₁ choice₂ : Bool} :
    CTT (EdPt.conditional_select (F := F) a₁ b₁ choice₁)
      (EdPt.conditional_select (F := F) a₂ b₂ choice₂) := ⟨by
  unfold EdPt.conditional_select
  ct⟩

/-- Accepted encodings are decoded with the same observations. -/
theorem decompress_accept {a b : List ℕ} :
    CTP (fun r => r.isSome) (fun r => r.isSome) (CompressedEdwardsY.decompress (F := F) a)
      (CompressedEdwardsY.decompress (F := F) b) := by
  unfold CompressedEdwardsY.decompress
  iterate 8 refine CTP.bind_call fun _ _ => ?_
  refine CTP.ite_else (Never.ret (by simp)) (Never.ret (by simp)) (CTP.of_ct (R := fun _ _ => True) ?_)
  ct

/-- Rejected encodings are rejected with the same observations. -/
theorem decompress_reject {a b : List ℕ} :
    CTP (fun r => r.isSome = false) (fun r => r.isSome = false)
      (CompressedEdwardsY.decompress (F := F) a) (CompressedEdwardsY.decompress (F := F) b) := by
  unfold CompressedEdwardsY.decompress
  iterate 8 refine CTP.bind_call fun _ _ => ?_
  refine CTP.ite_then ?_ ?_ (CTP.of_ct CT.ret_true)
  all_goals
    iterate 4 refine Never.bind fun _ => ?_
    exact Never.ret (by simp)

instance {self₁ other₁ self₂ other₂ : Model.EdPt F} :
    CTT (EdPt.ct_eq (F := F) self₁ other₁) (EdPt.ct_eq (F := F) self₂ other₂) := ⟨by
  unfold EdPt.ct_eq
  ct⟩

instance {self₁ other₁ self₂ other₂ : Model.EdPt F} :
    CTT (EdPt.eq (F := F) self₁ other₁) (EdPt.eq (F := F) self₂ other₂) := ⟨by
  unfold EdPt.eq
  ct⟩

instance {self₁ self₂ : Model.EdPt F} :
    CTT (EdPt.to_affine (F := F) self₁) (EdPt.to_affine (F := F) self₂) := ⟨by
  unfold EdPt.to_affine
  ct⟩

instance {self₁ self₂ : Model.EdPt F} :
    CTT (EdPt.to_montgomery (F := F) self₁) (EdPt.to_montgomery (F := F) self₂) := ⟨by
  unfold EdPt.to_montgomery
  ct⟩

instance {self₁ self₂ : Model.EdPt F} {a₁ a₂ : L} :
    CTT (EdPt.edwards_isogeny (F := F) self₁ a₁) (EdPt.edwards_isogeny (F := F) self₂ a₂) := ⟨by
  unfold EdPt.edwards_isogeny
  ct⟩

instance {self₁ self₂ : Model.EdPt F} :
    CTT (EdPt.to_twisted (F := F) self₁) (EdPt.to_twisted (F := F) self₂) := ⟨by
  unfold EdPt.to_twisted
  ct⟩

instance {self₁ self₂ : Model.TwPt F} :
    CTT (TwPt.to_extensible (F := F) self₁) (TwPt.to_extensible (F := F) self₂) := ⟨by
  unfold TwPt.to_extensible
  ct⟩

instance {self₁ self₂ : Model.TwExt F} :
    CTT (TwExt.to_projective_niels (F := F) self₁) (TwExt.to_projective_niels (F := F) self₂) := ⟨by
  unfold TwExt.to_projective_niels
  ct⟩

instance {self₁ self₂ : Model.TwExt F} {other₁ other₂ : Model.PNiels F} :
    CTT (TwExt.add_projective_niels (F := F) self₁ other₁)
      (TwExt.add_projective_niels (F := F) self₂ other₂) := ⟨by
  unfold TwExt.add_projective_niels
  ct⟩

instance {point₁ point₂ : Model.TwPt F} :
    CTT (LookupTable.from (F := F) point₁) (LookupTable.from (F := F) point₂) := ⟨by
  unfold LookupTable.from
  ct⟩

instance {self₁ self₂ : Model.TwExt F} :
    CTT (TwExt.double (F := F) self₁) (TwExt.double (F := F) self₂) := ⟨by
  unfold TwExt.double
  ct⟩

instance : CTT (PNiels.identity (F := F)) (PNiels.identity (F := F)) := ⟨by
  unfold PNiels.identity
  ct⟩

instance {a₁ b₁ a₂ b₂ : Model.PNiels F} {choice₁ choice₂ : Bool} :
    CTT (PNiels.conditional_select (F := F) a₁ b₁ choice₁)
      (PNiels.conditional_select (F := F) a₂ b₂ choice₂) := ⟨by
  unfold PNiels.conditional_select
  ct⟩

instance {self₁ self₂ : List (Model.PNiels F)} {index₁ index₂ : ℕ} :
    CTT (LookupTable.select (F := F) self₁ index₁) (LookupTable.select (F := F) self₂ index₂) := ⟨by
  unfold LookupTable.select
  ct⟩

instance {self₁ self₂ : Model.PNiels F} {choice₁ choice₂ : Bool} :
    CTT (PNiels.conditional_negate (F := F) self₁ choice₁)
      (PNiels.conditional_negate (F := F) self₂ choice₂) := ⟨by
  unfold PNiels.conditional_negate
  ct⟩

instance {self₁ self₂ : Model.TwExt F} :
    CTT (TwExt.to_extended (F := F) self₁) (TwExt.to_extended (F := F) self₂) := ⟨by
  unfold TwExt.to_extended
  ct⟩

instance {point₁ point₂ : Model.TwPt F} {s₁ s₂ : List ℕ} :
    CTT (variable_base.variable_base (F := F) point₁ s₁)
      (variable_base.variable_base (F := F) point₂ s₂) := ⟨by
  unfold variable_base.variable_base
  ct⟩

instance {self₁ self₂ : Model.TwPt F} :
    CTT (TwPt.to_affine (F := F) self₁) (TwPt.to_affine (F := F) self₂) := ⟨by
  unfold TwPt.to_affine
  ct⟩

instance {self₁ self₂ : Model.TwPt F} {a₁ a₂ : L} :
    CTT (TwPt.edwards_isogeny (F := F) self₁ a₁) (TwPt.edwards_isogeny (F := F) self₂ a₂) := ⟨by
  unfold TwPt.edwards_isogeny
  ct⟩

instance {self₁ self₂ : Model.TwPt F} :
    CTT (TwPt.to_untwisted (F := F) self₁) (TwPt.to_untwisted (F := F) self₂) := ⟨by
  unfold TwPt.to_untwisted
  ct⟩

instance {self₁ other₁ self₂ other₂ : Model.EdPt F} :
    CTT (EdPt.add (F := F) self₁ other₁) (EdPt.add (F := F) self₂ other₂) := ⟨by
  unfold EdPt.add
  ct⟩

instance {self₁ self₂ : Model.EdPt F} :
    CTT (EdPt.double (F := F) self₁) (EdPt.double (F := F) self₂) := ⟨by
  unfold EdPt.double
  ct⟩

instance {self₁ self₂ : Model.EdPt F} {scalar₁ scalar₂ : List ℕ} :
    CTT (EdPt.scalar_mod_four (F := F) self₁ scalar₁)
      (EdPt.scalar_mod_four (F := F) self₂ scalar₂) := ⟨by
  unfold EdPt.scalar_mod_four
  ct⟩

instance {self₁ self₂ : Model.EdPt F} {scalar₁ scalar₂ : List ℕ} :
    CTT (EdPt.scalar_mul (F := F) self₁ scalar₁) (EdPt.scalar_mul (F := F) self₂ scalar₂) := ⟨by
  unfold EdPt.scalar_mul
  ct⟩

instance {self₁ self₂ : Model.EdPt F} :
    CTT (EdPt.compress (F := F) self₁) (EdPt.compress (F := F) self₂) := ⟨by
  unfold EdPt.compress
  iterate 2 refine CT.bind_call fun _ _ => ?_
  refine CT.bind (R := fun x y => x.length = y.length) ?_ fun x y e => ?_
  · rw [CTBackend.toBytes]
    exact CT.tell ((FieldBackend.toBytes _).len.trans (FieldBackend.toBytes _).len.symm)
  · simp only [e]
    ct⟩

/-- Points on the curve are tested with the same observations. -/
theorem EdPt_is_on_curve_ct {P Q : Model.EdPt F} :
    CTP (fun r => r = true) (fun r => r = true) (EdPt.is_on_curve (F := F) P)
      (EdPt.is_on_curve (F := F) Q) := by
  unfold EdPt.is_on_curve
  iterate 10 refine CTP.bind_call fun _ _ => ?_
  rw [and_bind, and_bind]
  refine CTP.ite_then (Never.ret (by simp)) (Never.ret (by simp)) (CTP.of_ct (R := fun _ _ => True) ?_)
  ct

instance {self₁ self₂ : Model.EdPt F} :
    CTT (EdPt.negate (F := F) self₁) (EdPt.negate (F := F) self₂) := ⟨by
  unfold EdPt.negate
  ct⟩

instance {self₁ self₂ : Model.EdPt F} :
    CTT (EdPt.torque (F := F) self₁) (EdPt.torque (F := F) self₂) := ⟨by
  unfold EdPt.torque
  ct⟩

instance {self₁ self₂ : Model.EdPt F} {scalar₁ scalar₂ : List ℕ} :
    CTT (EdPt.op_mul_Scalar (F := F) self₁ scalar₁)
      (EdPt.op_mul_Scalar (F := F) self₂ scalar₂) := ⟨by
  unfold EdPt.op_mul_Scalar
  ct⟩

instance {self₁ self₂ : Model.EdPt F} :
    CTT (EdPt.is_torsion_free (F := F) self₁) (EdPt.is_torsion_free (F := F) self₂) := ⟨by
  unfold EdPt.is_torsion_free
  ct⟩

instance {self₁ other₁ self₂ other₂ : Model.EdPt F} :
    CTT (EdPt.op_add (F := F) self₁ other₁) (EdPt.op_add (F := F) self₂ other₂) := ⟨by
  unfold EdPt.op_add
  ct⟩

instance {self₁ _rhs₁ self₂ _rhs₂ : Model.EdPt F} :
    CTT (EdPt.op_add_assign (F := F) self₁ _rhs₁) (EdPt.op_add_assign (F := F) self₂ _rhs₂) := ⟨by
  unfold EdPt.op_add_assign
  ct⟩

instance {self₁ other₁ self₂ other₂ : Model.EdPt F} :
    CTT (EdPt.op_sub (F := F) self₁ other₁) (EdPt.op_sub (F := F) self₂ other₂) := ⟨by
  unfold EdPt.op_sub
  ct⟩

instance {self₁ _rhs₁ self₂ _rhs₂ : Model.EdPt F} :
    CTT (EdPt.op_sub_assign (F := F) self₁ _rhs₁) (EdPt.op_sub_assign (F := F) self₂ _rhs₂) := ⟨by
  unfold EdPt.op_sub_assign
  ct⟩

/-- Sums of equally many points. -/
theorem sum_ct {l m : List (Model.EdPt F)} (h : l.length = m.length) :
    CT (fun _ _ => True) (EdPt.sum (F := F) l) (EdPt.sum (F := F) m) := by
  unfold EdPt.sum
  refine CT.bind_true (CT.fold₂ h trivial fun i j s t _ => ?_) fun _ _ => CT.ret_true
  ct

instance {self₁ self₂ : Model.EdPt F} :
    CTT (EdPt.op_neg (F := F) self₁) (EdPt.op_neg (F := F) self₂) := ⟨by
  unfold EdPt.op_neg
  ct⟩

instance {self₁ self₂ : Model.EdPt F} :
    CTT (EdPt.op_neg2 (F := F) self₁) (EdPt.op_neg2 (F := F) self₂) := ⟨by
  unfold EdPt.op_neg2
  ct⟩

instance {self₁ self₂ : Model.EdPt F} {scalar₁ scalar₂ : List ℕ} :
    CTT (EdPt.op_mul_assign_Scalar (F := F) self₁ scalar₁)
      (EdPt.op_mul_assign_Scalar (F := F) self₂ scalar₂) := ⟨by
  unfold EdPt.op_mul_assign_Scalar
  ct⟩

instance {self₁ self₂ : List ℕ} {point₁ point₂ : Model.EdPt F} :
    CTT (Scalar.op_mul_EdPt (F := F) self₁ point₁) (Scalar.op_mul_EdPt (F := F) self₂ point₂) := ⟨by
  unfold Scalar.op_mul_EdPt
  ct⟩

instance {self₁ rhs₁ self₂ rhs₂ : Model.EdPt F} :
    CTT (EdPt.op_add2 (F := F) self₁ rhs₁) (EdPt.op_add2 (F := F) self₂ rhs₂) := ⟨by
  unfold EdPt.op_add2
  ct⟩

instance {self₁ rhs₁ self₂ rhs₂ : Model.EdPt F} :
    CTT (EdPt.op_add3 (F := F) self₁ rhs₁) (EdPt.op_add3 (F := F) self₂ rhs₂) := ⟨by
  unfold EdPt.op_add3
  ct⟩

instance {self₁ rhs₁ self₂ rhs₂ : Model.EdPt F} :
    CTT (EdPt.op_add4 (F := F) self₁ rhs₁) (EdPt.op_add4 (F := F) self₂ rhs₂) := ⟨by
  unfold EdPt.op_add4
  ct⟩

instance {self₁ rhs₁ self₂ rhs₂ : Model.EdPt F} :
    CTT (EdPt.op_add_assign2 (F := F) self₁ rhs₁) (EdPt.op_add_assign2 (F := F) self₂ rhs₂) := ⟨by
  unfold EdPt.op_add_assign2
  ct⟩

instance {self₁ rhs₁ self₂ rhs₂ : Model.EdPt F} :
    CTT (EdPt.op_sub2 (F := F) self₁ rhs₁) (EdPt.op_sub2 (F := F) self₂ rhs₂) := ⟨by
  unfold EdPt.op_sub2
  ct⟩

instance {self₁ rhs₁ self₂ rhs₂ : Model.EdPt F} :
    CTT (EdPt.op_sub3 (F := F) self₁ rhs₁) (EdPt.op_sub3 (F := F) self₂ rhs₂) := ⟨by
  unfold EdPt.op_sub3
  ct⟩

instance {self₁ rhs₁ self₂ rhs₂ : Model.EdPt F} :
    CTT (EdPt.op_sub4 (F := F) self₁ rhs₁) (EdPt.op_sub4 (F := F) self₂ rhs₂) := ⟨by
  unfold EdPt.op_sub4
  ct⟩

instance {self₁ rhs₁ self₂ rhs₂ : Model.EdPt F} :
    CTT (EdPt.op_sub_assign2 (F := F) self₁ rhs₁) (EdPt.op_sub_assign2 (F := F) self₂ rhs₂) := ⟨by
  unfold EdPt.op_sub_assign2
  ct⟩

instance {self₁ self₂ : Model.EdPt F} {rhs₁ rhs₂ : List ℕ} :
    CTT (EdPt.op_mul_assign_Scalar2 (F := F) self₁ rhs₁)
      (EdPt.op_mul_assign_Scalar2 (F := F) self₂ rhs₂) := ⟨by
  unfold EdPt.op_mul_assign_Scalar2
  ct⟩

instance {self₁ self₂ : Model.EdPt F} {rhs₁ rhs₂ : List ℕ} :
    CTT (EdPt.op_mul_Scalar2 (F := F) self₁ rhs₁) (EdPt.op_mul_Scalar2 (F := F) self₂ rhs₂) := ⟨by
  unfold EdPt.op_mul_Scalar2
  ct⟩

instance {self₁ self₂ : Model.EdPt F} {rhs₁ rhs₂ : List ℕ} :
    CTT (EdPt.op_mul_Scalar3 (F := F) self₁ rhs₁) (EdPt.op_mul_Scalar3 (F := F) self₂ rhs₂) := ⟨by
  unfold EdPt.op_mul_Scalar3
  ct⟩

instance {self₁ self₂ : Model.EdPt F} {rhs₁ rhs₂ : List ℕ} :
    CTT (EdPt.op_mul_Scalar4 (F := F) self₁ rhs₁) (EdPt.op_mul_Scalar4 (F := F) self₂ rhs₂) := ⟨by
  unfold EdPt.op_mul_Scalar4
  ct⟩

instance {self₁ self₂ : List ℕ} {rhs₁ rhs₂ : Model.EdPt F} :
    CTT (Scalar.op_mul_EdPt2 (F := F) self₁ rhs₁) (Scalar.op_mul_EdPt2 (F := F) self₂ rhs₂) := ⟨by
  unfold Scalar.op_mul_EdPt2
  ct⟩

instance {self₁ self₂ : List ℕ} {rhs₁ rhs₂ : Model.EdPt F} :
    CTT (Scalar.op_mul_EdPt3 (F := F) self₁ rhs₁) (Scalar.op_mul_EdPt3 (F := F) self₂ rhs₂) := ⟨by
  unfold Scalar.op_mul_EdPt3
  ct⟩

instance {self₁ self₂ : List ℕ} {rhs₁ rhs₂ : Model.EdPt F} :
    CTT (Scalar.op_mul_EdPt4 (F := F) self₁ rhs₁) (Scalar.op_mul_EdPt4 (F := F) self₂ rhs₂) := ⟨by
  unfold Scalar.op_mul_EdPt4
  ct⟩

instance {self₁ other₁ self₂ other₂ : Model.TwExt F} :
    CTT (TwExt.ct_eq (F := F) self₁ other₁) (TwExt.ct_eq (F := F) self₂ other₂) := ⟨by
  unfold TwExt.ct_eq
  ct⟩

instance {self₁ other₁ self₂ other₂ : Model.TwExt F} :
    CTT (TwExt.eq (F := F) self₁ other₁) (TwExt.eq (F := F) self₂ other₂) := ⟨by
  unfold TwExt.eq
  ct⟩

instance {self₁ self₂ : Model.TwExt F} {other₁ other₂ : Model.TwPt F} :
    CTT (TwExt.add_extended (F := F) self₁ other₁) (TwExt.add_extended (F := F) self₂ other₂) := ⟨by
  unfold TwExt.add_extended
  ct⟩

instance {self₁ other₁ self₂ other₂ : Model.TwExt F} :
    CTT (TwExt.add_extensible (F := F) self₁ other₁)
      (TwExt.add_extensible (F := F) self₂ other₂) := ⟨by
  unfold TwExt.add_extensible
  ct⟩

instance {self₁ self₂ : Model.TwExt F} {other₁ other₂ : Model.TwPt F} :
    CTT (TwExt.sub_extended (F := F) self₁ other₁) (TwExt.sub_extended (F := F) self₂ other₂) := ⟨by
  unfold TwExt.sub_extended
  ct⟩

instance {self₁ self₂ : Model.TwExt F} {other₁ other₂ : Model.ANiels F} :
    CTT (TwExt.add_affine_niels (F := F) self₁ other₁)
      (TwExt.add_affine_niels (F := F) self₂ other₂) := ⟨by
  unfold TwExt.add_affine_niels
  ct⟩

instance {self₁ other₁ self₂ other₂ : Model.TwPt F} :
    CTT (TwPt.ct_eq (F := F) self₁ other₁) (TwPt.ct_eq (F := F) self₂ other₂) := ⟨by
  unfold TwPt.ct_eq
  ct⟩

instance {a₁ b₁ a₂ b₂ : Model.TwPt F} {choice₁ choice₂ : Bool} :
    CTT (TwPt.conditional_select (F := F) a₁ b₁ choice₁)
      (TwPt.conditional_select (F := F) a₂ b₂ choice₂) := ⟨by
  unfold TwPt.conditional_select
  ct⟩

instance {self₁ other₁ self₂ other₂ : Model.TwPt F} :
    CTT (TwPt.eq (F := F) self₁ other₁) (TwPt.eq (F := F) self₂ other₂) := ⟨by
  unfold TwPt.eq
  ct⟩

instance {self₁ self₂ : Model.TwPt F} :
    CTT (TwPt.double (F := F) self₁) (TwPt.double (F := F) self₂) := ⟨by
  unfold TwPt.double
  ct⟩

instance {self₁ other₁ self₂ other₂ : Model.TwPt F} :
    CTT (TwPt.add (F := F) self₁ other₁) (TwPt.add (F := F) self₂ other₂) := ⟨by
  unfold TwPt.add
  ct⟩

/-- Points on the curve are tested with the same observations. -/
theorem TwPt_is_on_curve_ct {P Q : Model.TwPt F} :
    CTP (fun r => r = true) (fun r => r = true) (TwPt.is_on_curve (F := F) P)
      (TwPt.is_on_curve (F := F) Q) := by
  unfold TwPt.is_on_curve
  iterate 10 refine CTP.bind_call fun _ _ => ?_
  rw [and_bind, and_bind]
  refine CTP.ite_then (Never.ret (by simp)) (Never.ret (by simp)) (CTP.of_ct (R := fun _ _ => True) ?_)
  ct

instance {self₁ self₂ : Model.TwPt F} :
    CTT (TwPt.negate (F := F) self₁) (TwPt.negate (F := F) self₂) := ⟨by
  unfold TwPt.negate
  ct⟩

instance {self₁ self₂ : Model.TwPt F} :
    CTT (TwPt.torque (F := F) self₁) (TwPt.torque (F := F) self₂) := ⟨by
  unfold TwPt.torque
  ct⟩

instance : CTT (PNiels.default (F := F)) (PNiels.default (F := F)) := ⟨by
  unfold PNiels.default
  ct⟩

instance {self₁ self₂ : Model.PNiels F} :
    CTT (PNiels.to_extended (F := F) self₁) (PNiels.to_extended (F := F) self₂) := ⟨by
  unfold PNiels.to_extended
  ct⟩

instance {self₁ other₁ self₂ other₂ : Model.PNiels F} :
    CTT (PNiels.eq (F := F) self₁ other₁) (PNiels.eq (F := F) self₂ other₂) := ⟨by
  unfold PNiels.eq
  ct⟩

instance {self₁ self₂ : Model.TwAff F} :
    CTT (TwAff.is_on_curve (F := F) self₁) (TwAff.is_on_curve (F := F) self₂) := ⟨by
  unfold TwAff.is_on_curve
  ct⟩

instance {self₁ self₂ : Model.TwAff F} :
    CTT (TwAff.negate (F := F) self₁) (TwAff.negate (F := F) self₂) := ⟨by
  unfold TwAff.negate
  ct⟩

instance {self₁ other₁ self₂ other₂ : Model.TwAff F} :
    CTT (TwAff.add (F := F) self₁ other₁) (TwAff.add (F := F) self₂ other₂) := ⟨by
  unfold TwAff.add
  ct⟩

instance {self₁ self₂ : Model.TwAff F} :
    CTT (TwAff.to_extensible (F := F) self₁) (TwAff.to_extensible (F := F) self₂) := ⟨by
  unfold TwAff.to_extensible
  ct⟩

instance {self₁ self₂ : Model.TwAff F} :
    CTT (TwAff.to_affine_niels (F := F) self₁) (TwAff.to_affine_niels (F := F) self₂) := ⟨by
  unfold TwAff.to_affine_niels
  ct⟩

instance {self₁ self₂ : Model.TwAff F} :
    CTT (TwAff.to_extended (F := F) self₁) (TwAff.to_extended (F := F) self₂) := ⟨by
  unfold TwAff.to_extended
  ct⟩

instance {a₁ b₁ a₂ b₂ : Model.ANiels F} {choice₁ choice₂ : Bool} :
    CTT (ANiels.conditional_select (F := F) a₁ b₁ choice₁)
      (ANiels.conditional_select (F := F) a₂ b₂ choice₂) := ⟨by
  unfold ANiels.conditional_select
  ct⟩

instance {self₁ self₂ : Model.ANiels F} :
    CTT (ANiels.to_extended (F := F) self₁) (ANiels.to_extended (F := F) self₂) := ⟨by
  unfold ANiels.to_extended
  ct⟩

/-- The scalars have the same number of limbs. -/
theorem double_and_add_ct {P Q : Model.TwPt F} {a b : List ℕ} (h : a.length = b.length) :
    CT (fun _ _ => True) (double_and_add.double_and_add (F := F) P a)
      (double_and_add.double_and_add (F := F) Q b) := by
  unfold double_and_add.double_and_add
  refine CT.bind (bits_ct h) fun x y e => ?_
  refine CT.bind_true (CT.fold₂ (by simp [e]) trivial fun i j s t _ => ?_) fun _ _ => CT.ret_true
  ct

theorem double_base_ct {P Q : Model.TwPt F} {a b c d : List ℕ} (h : a.length = b.length)
    (h' : c.length = d.length) :
    CT (fun _ _ => True) (double_base.double_base_scalar_mul (F := F) a P c)
      (double_base.double_base_scalar_mul (F := F) b Q d) := by
  unfold double_base.double_base_scalar_mul
  refine CT.bind_true (double_and_add_ct h) fun _ _ => ?_
  refine CT.bind_true (double_and_add_ct h') fun _ _ => ?_
  ct

instance {self₁ other₁ self₂ other₂ : List ℕ} :
    CTT (MontgomeryPoint.ct_eq self₁ other₁) (MontgomeryPoint.ct_eq self₂ other₂) := ⟨by
  unfold MontgomeryPoint.ct_eq
  ct⟩

instance {self₁ other₁ self₂ other₂ : List ℕ} :
    CTT (MontgomeryPoint.eq self₁ other₁) (MontgomeryPoint.eq self₂ other₂) := ⟨by
  unfold MontgomeryPoint.eq
  ct⟩

instance {a₁ b₁ a₂ b₂ : Model.ProjMont F} {choice₁ choice₂ : Bool} :
    CTT (ProjMont.conditional_select (F := F) a₁ b₁ choice₁)
      (ProjMont.conditional_select (F := F) a₂ b₂ choice₂) := ⟨by
  unfold ProjMont.conditional_select
  ct⟩

instance {P₁ Q₁ P₂ Q₂ : Model.ProjMont F} {affine_PmQ₁ affine_PmQ₂ : F} :
    CTT (montgomery.differential_add_and_double (F := F) P₁ Q₁ affine_PmQ₁)
      (montgomery.differential_add_and_double (F := F) P₂ Q₂ affine_PmQ₂) := ⟨by
  unfold montgomery.differential_add_and_double
  ct⟩

instance {self₁ self₂ : Model.ProjMont F} :
    CTT (ProjMont.to_affine (F := F) self₁) (ProjMont.to_affine (F := F) self₂) := ⟨by
  unfold ProjMont.to_affine
  ct⟩

/-- The scalars have the same number of limbs. -/
theorem ladder_ct {P Q a b : List ℕ} (h : a.length = b.length) :
    CT (fun _ _ => True) (MontgomeryPoint.op_mul_Scalar (F := F) P a)
      (MontgomeryPoint.op_mul_Scalar (F := F) Q b) := by
  unfold MontgomeryPoint.op_mul_Scalar
  refine CT.bind_call fun _ _ => ?_
  refine CT.bind (bits_ct h) fun x y e => ?_
  ct

theorem ladder'_ct {P Q a b : List ℕ} (h : a.length = b.length) :
    CT (fun _ _ => True) (Scalar.op_mul_MontgomeryPoint (F := F) a P)
      (Scalar.op_mul_MontgomeryPoint (F := F) b Q) := by
  unfold Scalar.op_mul_MontgomeryPoint
  exact CT.bind_true (ladder_ct h) fun _ _ => CT.ret_true

instance {self₁ self₂ : List ℕ} {sign₁ sign₂ : ℕ} :
    CTT (MontgomeryPoint.to_edwards (F := F) self₁ sign₁)
      (MontgomeryPoint.to_edwards (F := F) self₂ sign₂) := ⟨by
  unfold MontgomeryPoint.to_edwards
  ct⟩

instance {self₁ self₂ : List ℕ} :
    CTT (MontgomeryPoint.as_bytes self₁) (MontgomeryPoint.as_bytes self₂) := ⟨by
  unfold MontgomeryPoint.as_bytes
  ct⟩

instance {self₁ self₂ : List ℕ} :
    CTT (MontgomeryPoint.to_projective (F := F) self₁)
      (MontgomeryPoint.to_projective (F := F) self₂) := ⟨by
  unfold MontgomeryPoint.to_projective
  ct⟩

instance {self₁ self₂ : List ℕ} :
    CTT (CompressedDecaf.as_bytes self₁) (CompressedDecaf.as_bytes self₂) := ⟨by
  unfold CompressedDecaf.as_bytes
  ct⟩

instance {self₁ other₁ self₂ other₂ : List ℕ} :
    CTT (CompressedDecaf.ct_eq self₁ other₁) (CompressedDecaf.ct_eq self₂ other₂) := ⟨by
  unfold CompressedDecaf.ct_eq
  ct⟩

instance {self₁ other₁ self₂ other₂ : List ℕ} :
    CTT (CompressedDecaf.eq self₁ other₁) (CompressedDecaf.eq self₂ other₂) := ⟨by
  unfold CompressedDecaf.eq
  ct⟩

instance {self₁ other₁ self₂ other₂ : Model.DecafPt F} :
    CTT (DecafPt.equals (F := F) self₁ other₁) (DecafPt.equals (F := F) self₂ other₂) := ⟨by
  unfold DecafPt.equals
  ct⟩

instance {self₁ other₁ self₂ other₂ : Model.DecafPt F} :
    CTT (DecafPt.sub (F := F) self₁ other₁) (DecafPt.sub (F := F) self₂ other₂) := ⟨by
  unfold DecafPt.sub
  ct⟩

instance {self₁ self₂ : Model.DecafPt F} :
    CTT (DecafPt.compress (F := F) self₁) (DecafPt.compress (F := F) self₂) := ⟨by
  unfold DecafPt.compress
  ct⟩

/-- Accepted encodings are decoded with the same observations. -/
theorem decaf_decompress_accept {a b : List ℕ} :
    CTP (fun r => r.isSome) (fun r => r.isSome) (CompressedDecaf.decompress (F := F) a)
      (CompressedDecaf.decompress (F := F) b) := by
  unfold CompressedDecaf.decompress
  have no : ∀ f : Lk (Option (Model.DecafPt F)),
      Never (fun r => r.isSome = true) (Lk.ite true (Lk.ret none) f) :=
    fun f => Never.bind fun _ => Never.ret (by simp)
  iterate 3 refine CTP.bind_call fun _ _ => ?_
  lift_lets
  intros
  rw [or_bind, or_bind]
  refine CTP.ite_else (no _) (no _) ?_
  refine CTP.bind_true (by ct) fun _ _ => ?_
  refine CTP.ite_else (Never.ret (by simp)) (Never.ret (by simp)) ?_
  iterate 8 refine CTP.bind_call fun _ _ => ?_
  refine CTP.ite_else (Never.ret (by simp)) (Never.ret (by simp)) (CTP.of_ct (R := fun _ _ => True) ?_)
  ct

theorem decaf_mul_ct {P Q : Model.DecafPt F} {a b : List ℕ} (h : a.length = b.length) :
    CT (fun _ _ => True) (DecafPt.op_mul_Scalar (F := F) P a) (DecafPt.op_mul_Scalar (F := F) Q b) := by
  unfold DecafPt.op_mul_Scalar
  exact CT.bind_true (double_and_add_ct h) fun _ _ => CT.ret_true

theorem decaf_mul₁_ct {P Q : Model.DecafPt F} {a b : List ℕ} (h : a.length = b.length) :
    CT (fun _ _ => True) (Scalar.op_mul_DecafPt (F := F) a P) (Scalar.op_mul_DecafPt (F := F) b Q) := by
  unfold Scalar.op_mul_DecafPt
  exact CT.bind_true (double_and_add_ct h) fun _ _ => CT.ret_true

theorem decaf_mul₂_ct {P Q : Model.DecafPt F} {a b : List ℕ} (h : a.length = b.length) :
    CT (fun _ _ => True) (Scalar.op_mul_DecafPt2 (F := F) a P) (Scalar.op_mul_DecafPt2 (F := F) b Q) := by
  unfold Scalar.op_mul_DecafPt2
  exact CT.bind_true (double_and_add_ct h) fun _ _ => CT.ret_true

theorem decaf_mul₃_ct {P Q : Model.DecafPt F} {a b : List ℕ} (h : a.length = b.length) :
    CT (fun _ _ => True) (DecafPt.op_mul_Scalar2 (F := F) P a) (DecafPt.op_mul_Scalar2 (F := F) Q b) := by
  unfold DecafPt.op_mul_Scalar2
  exact CT.bind_true (double_and_add_ct h) fun _ _ => CT.ret_true

instance {self₁ other₁ self₂ other₂ : Model.DecafPt F} :
    CTT (DecafPt.op_add (F := F) self₁ other₁) (DecafPt.op_add (F := F) self₂ other₂) := ⟨by
  unfold DecafPt.op_add
  ct⟩

instance {self₁ other₁ self₂ other₂ : Model.DecafPt F} :
    CTT (DecafPt.op_add2 (F := F) self₁ other₁) (DecafPt.op_add2 (F := F) self₂ other₂) := ⟨by
  unfold DecafPt.op_add2
  ct⟩

instance {self₁ other₁ self₂ other₂ : Model.DecafPt F} :
    CTT (DecafPt.op_sub (F := F) self₁ other₁) (DecafPt.op_sub (F := F) self₂ other₂) := ⟨by
  unfold DecafPt.op_sub
  ct⟩

instance {self₁ other₁ self₂ other₂ : Model.DecafPt F} :
    CTT (DecafPt.op_sub2 (F := F) self₁ other₁) (DecafPt.op_sub2 (F := F) self₂ other₂) := ⟨by
  unfold DecafPt.op_sub2
  ct⟩

instance {self₁ self₂ : Model.DecafPt F} :
    CTT (DecafPt.op_neg (F := F) self₁) (DecafPt.op_neg (F := F) self₂) := ⟨by
  unfold DecafPt.op_neg
  ct⟩

instance {self₁ self₂ : Model.DecafPt F} :
    CTT (DecafPt.op_neg2 (F := F) self₁) (DecafPt.op_neg2 (F := F) self₂) := ⟨by
  unfold DecafPt.op_neg2
  ct⟩

instance {self₁ self₂ : List ℕ} :
    CTT (CompressedRistretto.as_bytes self₁) (CompressedRistretto.as_bytes self₂) := ⟨by
  unfold CompressedRistretto.as_bytes
  ct⟩

instance {self₁ other₁ self₂ other₂ : List ℕ} :
    CTT (CompressedRistretto.ct_eq self₁ other₁) (CompressedRistretto.ct_eq self₂ other₂) := ⟨by
  unfold CompressedRistretto.ct_eq
  ct⟩

instance {self₁ other₁ self₂ other₂ : List ℕ} :
    CTT (CompressedRistretto.eq self₁ other₁) (CompressedRistretto.eq self₂ other₂) := ⟨by
  unfold CompressedRistretto.eq
  ct⟩

instance {self₁ other₁ self₂ other₂ : Model.RistPt F} :
    CTT (RistPt.equals (F := F) self₁ other₁) (RistPt.equals (F := F) self₂ other₂) := ⟨by
  unfold RistPt.equals
  ct⟩

instance {self₁ self₂ : Model.RistPt F} :
    CTT (RistPt.encode (F := F) self₁) (RistPt.encode (F := F) self₂) := ⟨by
  unfold RistPt.encode
  ct⟩

instance {self₁ self₂ : List ℕ} :
    CTT (CompressedRistretto.decode (F := F) self₁)
      (CompressedRistretto.decode (F := F) self₂) := ⟨by
  unfold CompressedRistretto.decode
  ct⟩

end Ed448.Leak
