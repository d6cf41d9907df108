import Verif.Props.Edwards

/-!
# C15, C20 and C21 for all projective representatives

`Rep P R`: the coordinates of `P` are a representative of the curve point `R`, whether or not operations
of the library produce it.
-/

namespace Ed448.Props
open Ed448.Model Ed448.Edw
open FieldVal (val)

set_option exponentiation.threshold 1000
set_option maxRecDepth 10000

section
variable {F L : Type} [FieldBackend F L] [Lawful F] {P P' Q Q' : EdPt F} {R R' S S' : E}

/-- `==` is an equivalence relation on representatives and a congruence for all operations. -/
theorem C15_congruence_all (h : Rep P R) (h' : Rep P' R') (k : Rep Q S) (k' : Rep Q' S') :
    P.eq P = true ∧ (P.eq Q = true → Q.eq P = true) ∧
    (P.eq P' = true → P'.eq Q = true → P.eq Q = true) ∧
    (P.eq P' = true → Q.eq Q' = true →
      (P.add Q).eq (P'.add Q') = true ∧ (P.sub Q).eq (P'.sub Q') = true ∧
      P.negate.eq P'.negate = true ∧ P.double.eq P'.double = true ∧
      P.torque.eq P'.torque = true ∧ P.compress = P'.compress ∧
      P.isTorsionFree = P'.isTorsionFree ∧
      ∀ s, ∃ r r', P.scalarMul s = some r ∧ P'.scalarMul s = some r' ∧ r.eq r' = true) := by
  refine ⟨(rep_eq h h).2 rfl, fun e => (rep_eq k h).2 ((rep_eq h k).1 e).symm, fun e e' =>
    (rep_eq h k).2 (((rep_eq h h').1 e).trans ((rep_eq h' k).1 e')), fun e e' => ?_⟩
  obtain rfl := (rep_eq h h').1 e
  obtain rfl := (rep_eq k k').1 e'
  refine ⟨(rep_eq (rep_add h k) (rep_add h' k')).2 rfl, (rep_eq (rep_sub h k) (rep_sub h' k')).2 rfl,
    (rep_eq (rep_negate h) (rep_negate h')).2 rfl, (rep_eq (rep_double h) (rep_double h')).2 rfl,
    (rep_eq (rep_torque h) (rep_torque h')).2 rfl, ?_, ?_, fun s => ?_⟩
  · exact Arr.val_inj (by norm_num) (by rw [compress_val h, compress_val h'])
  · obtain ⟨b, e1, h1, -⟩ := C18_torsion_free h
    obtain ⟨b', e2, h2, -⟩ := C18_torsion_free h'
    rw [e1, e2, Bool.eq_iff_iff.2 (h1.trans h2.symm)]
  · obtain ⟨r, e1, h1⟩ := rep_scalarMul h s
    obtain ⟨r', e2, h2⟩ := rep_scalarMul h' s
    exact ⟨r, r', e1, e2, (rep_eq h1 h2).2 rfl⟩

theorem C20_round_trip_all (h : Rep P R) :
    ∃ Q, edDecompress F P.compress = some Q ∧ Q.eq P = true ∧ Rep Q R := by
  obtain ⟨Q, e, hQ⟩ := edDecompress_of_encode (F := F) (compress_val h)
  exact ⟨Q, e, (rep_eq hQ h).2 rfl, hQ⟩

theorem C21_injective_all (h : Rep P R) (k : Rep Q S) :
    (P.compress = Q.compress ↔ P.eq Q = true) ∧ (P.compress = Q.compress ↔ R = S) := by
  rw [← Arr.val_inj_iff (by norm_num), compress_val h, compress_val k, encodeE_inj, rep_eq h k]
  exact ⟨Iff.rfl, Iff.rfl⟩

/-- Scaling all coordinates of a representative by `λ ≠ 0` does not change the encoding: here the base
point with `Z = 2` against the base point with `Z = 1`, which are different field elements. -/
example :
    let G₁ : EdPt U32.Fe := EdPt.generator
    let d : U32.Fe → U32.Fe := fun a => FieldBackend.add a a
    let G₂ : EdPt U32.Fe := ⟨d G₁.X, d G₁.Y, d G₁.Z, d G₁.T⟩
    FieldBackend.toBytes G₁.Z ≠ FieldBackend.toBytes G₂.Z ∧ G₁.eq G₂ = true ∧
      G₁.compress = G₂.compress := by
  decide +kernel

end

end Ed448.Props
