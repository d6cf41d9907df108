import Verif.Gen.Curve
import Verif.Proofs.SourceScalar
import Verif.Proofs.SourceU32Square
import Verif.Proofs.Trace

/-!
# The model of the curve code is the translated code

Each theorem states that the translation of a function of src/field/mod.rs, src/curve, src/decaf or
src/ristretto and the function of `Verif.Model` agree on all inputs and for every field backend,
panics included.
-/

namespace Ed448.Proofs.Source
open Ed448 Ed448.Model FieldBackend

variable {F L : Type} [FieldBackend F L]

/-! ## src/field/mod.rs -/

theorem arr_beq {n B : ℕ} (a b : Arr n B) : (a.l == b.l) = (a == b) := by
  by_cases h : a = b
  · subst h
    simp
  · have h' : ¬ a.l = b.l := fun e => h (Arr.ext e)
    rw [beq_eq_false_iff_ne.2 h', beq_eq_false_iff_ne.2 h]

theorem field_ct_eq (a b : F) : Gen.Field.ct_eq a b = feq a b := by
  unfold Gen.Field.ct_eq feq
  exact arr_beq _ _

theorem field_eq (a b : F) : Gen.Field.eq a b = feq a b := field_ct_eq a b

theorem field_is_zero (a : F) : Gen.Field.is_zero a = isZero a := field_ct_eq a _

theorem square_loop : ∀ (n k : ℕ) (x : F), (List.range' k n).foldl (fun τ (_ : ℕ) => square τ) x =
    squareLoop n x
  | 0, _, _ => rfl
  | n + 1, k, x => by
    rw [List.range'_succ, List.foldl_cons, squareLoop]
    exact square_loop n (k + 1) (square x)

/-- `square_n`; it panics for `n = 0`. -/
theorem square_n (x : F) {n : ℕ} (h : 1 ≤ n) : Gen.Field.square_n x n = some (squareN x n) := by
  unfold Gen.Field.square_n
  refine (bind_of_eq (ckSub_ok h) _).trans ?_
  exact congrArg some (square_loop _ _ _)

theorem square_n_zero (x : F) : Gen.Field.square_n x 0 = none := rfl

theorem field_invert (x : F) : Gen.Field.invert x = some (Model.invert x) := by
  unfold Gen.Field.invert
  refine (bind_of_eq (square_n _ (by decide)) _).trans ?_
  refine (bind_of_eq (square_n _ (by decide)) _).trans ?_
  refine (bind_of_eq (square_n _ (by decide)) _).trans ?_
  refine (bind_of_eq (square_n _ (by decide)) _).trans ?_
  refine (bind_of_eq (square_n _ (by decide)) _).trans ?_
  refine (bind_of_eq (square_n _ (by decide)) _).trans ?_
  refine (bind_of_eq (square_n _ (by decide)) _).trans ?_
  refine (bind_of_eq (square_n _ (by decide)) _).trans ?_
  refine (bind_of_eq (square_n _ (by decide)) _).trans ?_
  refine (bind_of_eq (square_n _ (by decide)) _).trans ?_
  rfl

theorem field_isr (x : F) : Gen.Field.inverse_square_root x = some (inverseSquareRoot x) := by
  unfold Gen.Field.inverse_square_root
  refine (bind_of_eq (square_n _ (by decide)) _).trans ?_
  refine (bind_of_eq (square_n _ (by decide)) _).trans ?_
  refine (bind_of_eq (square_n _ (by decide)) _).trans ?_
  refine (bind_of_eq (square_n _ (by decide)) _).trans ?_
  refine (bind_of_eq (square_n _ (by decide)) _).trans ?_
  refine (bind_of_eq (square_n _ (by decide)) _).trans ?_
  refine (bind_of_eq (square_n _ (by decide)) _).trans ?_
  refine (bind_of_eq (square_n _ (by decide)) _).trans ?_
  refine congrArg some (Prod.ext rfl ?_)
  exact field_ct_eq _ _

theorem field_sqrt_ratio (u v : F) : Gen.Field.sqrt_ratio u v = some (sqrtRatio u v) := by
  unfold Gen.Field.sqrt_ratio
  refine (bind_of_eq (field_isr _) _).trans ?_
  refine congrArg some (Prod.ext rfl ?_)
  exact congrArg (· || _) (field_ct_eq _ _)

/-! ## Point formulas -/

theorem EdAff_identity : (Gen.EdAff.identity : EdAff F) = EdAff.identity := rfl
theorem EdAff_to_extended (p : EdAff F) : Gen.EdAff.to_extended p = p.toExtended := rfl
theorem EdPt_conditional_select (a b : EdPt F) (c : Bool) :
    Gen.EdPt.conditional_select a b c = a.select b c := rfl
theorem EdPt_ct_eq (a b : EdPt F) : Gen.EdPt.ct_eq a b = a.eq b := by
  simp only [Gen.EdPt.ct_eq, EdPt.eq, field_ct_eq]
theorem EdPt_eq (a b : EdPt F) : Gen.EdPt.eq a b = a.eq b := EdPt_ct_eq a b
theorem EdPt_identity : (Gen.EdPt.identity : EdPt F) = EdPt.identity := rfl
theorem EdPt_default : (Gen.EdPt.default : EdPt F) = EdPt.default := rfl
theorem EdPt_generator : (Gen.EdPt.generator : EdPt F) = EdPt.generator := rfl
theorem EdPt_add (a b : EdPt F) : Gen.EdPt.add a b = a.add b := rfl
theorem EdPt_double (a : EdPt F) : Gen.EdPt.double a = a.double := rfl
theorem EdPt_is_on_curve (a : EdPt F) : Gen.EdPt.is_on_curve a = a.isOnCurve := by
  simp only [Gen.EdPt.is_on_curve, EdPt.isOnCurve, field_eq]
theorem EdPt_negate (a : EdPt F) : Gen.EdPt.negate a = a.negate := rfl
theorem EdPt_torque (a : EdPt F) : Gen.EdPt.torque a = a.torque := rfl
theorem EdPt_op_add (a b : EdPt F) : Gen.EdPt.op_add a b = a.opAdd b := rfl
theorem EdPt_op_add_assign (a b : EdPt F) : Gen.EdPt.op_add_assign a b = a.addAssign b := rfl
theorem EdPt_op_sub (a b : EdPt F) : Gen.EdPt.op_sub a b = a.sub b := rfl
theorem EdPt_op_sub_assign (a b : EdPt F) : Gen.EdPt.op_sub_assign a b = a.subAssign b := rfl
theorem EdPt_op_add2 (a b : EdPt F) : Gen.EdPt.op_add2 a b = a.opAdd b := rfl
theorem EdPt_op_add3 (a b : EdPt F) : Gen.EdPt.op_add3 a b = a.opAdd b := rfl
theorem EdPt_op_add4 (a b : EdPt F) : Gen.EdPt.op_add4 a b = a.opAdd b := rfl
theorem EdPt_op_add_assign2 (a b : EdPt F) : Gen.EdPt.op_add_assign2 a b = a.addAssign b := rfl
theorem EdPt_op_sub2 (a b : EdPt F) : Gen.EdPt.op_sub2 a b = a.sub b := rfl
theorem EdPt_op_sub3 (a b : EdPt F) : Gen.EdPt.op_sub3 a b = a.sub b := rfl
theorem EdPt_op_sub4 (a b : EdPt F) : Gen.EdPt.op_sub4 a b = a.sub b := rfl
theorem EdPt_op_sub_assign2 (a b : EdPt F) : Gen.EdPt.op_sub_assign2 a b = a.subAssign b := rfl
theorem EdPt_sum (l : List (EdPt F)) : Gen.EdPt.sum l = EdPt.sum l := rfl
theorem EdPt_op_neg (a : EdPt F) : Gen.EdPt.op_neg a = a.opNeg := rfl
theorem EdPt_op_neg2 (a : EdPt F) : Gen.EdPt.op_neg2 a = a.opNeg := rfl

theorem EdPt_to_affine (a : EdPt F) : Gen.EdPt.to_affine a = some a.toAffine := by
  unfold Gen.EdPt.to_affine
  exact (bind_of_eq (field_invert _) _).trans rfl

theorem EdPt_to_montgomery (a : EdPt F) : Gen.EdPt.to_montgomery a = some a.toMontgomery.l := by
  unfold Gen.EdPt.to_montgomery
  refine (bind_of_eq (EdPt_to_affine _) _).trans ?_
  exact (bind_of_eq (field_invert _) _).trans rfl

theorem EdPt_edwards_isogeny (p : EdPt F) (a : L) :
    Gen.EdPt.edwards_isogeny p a = some (p.edwardsIsogeny a) := by
  unfold Gen.EdPt.edwards_isogeny
  refine (bind_of_eq (EdPt_to_affine _) _).trans ?_
  refine (bind_of_eq (field_invert _) _).trans ?_
  exact (bind_of_eq (field_invert _) _).trans rfl

theorem EdPt_to_twisted (p : EdPt F) : Gen.EdPt.to_twisted p = some p.toTwisted := by
  unfold Gen.EdPt.to_twisted
  exact (bind_of_eq (EdPt_edwards_isogeny _ _) _).trans rfl

theorem TwExt_identity : (Gen.TwExt.identity : TwExt F) = TwExt.identity := rfl
theorem TwExt_to_projective_niels (a : TwExt F) :
    Gen.TwExt.to_projective_niels a = a.toProjectiveNiels := rfl
theorem TwExt_add_projective_niels (a : TwExt F) (b : PNiels F) :
    Gen.TwExt.add_projective_niels a b = a.addProjectiveNiels b := rfl
theorem TwExt_double (a : TwExt F) : Gen.TwExt.double a = a.double := rfl
theorem TwExt_to_extended (a : TwExt F) : Gen.TwExt.to_extended a = a.toExtended := rfl
theorem TwExt_ct_eq (a b : TwExt F) : Gen.TwExt.ct_eq a b = a.eq b := by
  simp only [Gen.TwExt.ct_eq, TwExt.eq, field_ct_eq]
theorem TwExt_eq (a b : TwExt F) : Gen.TwExt.eq a b = a.eq b := TwExt_ct_eq a b
theorem TwExt_add_extended (a : TwExt F) (b : TwPt F) :
    Gen.TwExt.add_extended a b = a.addExtended b := rfl
theorem TwExt_add_extensible (a b : TwExt F) : Gen.TwExt.add_extensible a b = a.addExtensible b := rfl
theorem TwExt_sub_extended (a : TwExt F) (b : TwPt F) :
    Gen.TwExt.sub_extended a b = a.subExtended b := rfl
theorem TwExt_add_affine_niels (a : TwExt F) (b : ANiels F) :
    Gen.TwExt.add_affine_niels a b = a.addAffineNiels b := rfl

theorem PNiels_identity : (Gen.PNiels.identity : PNiels F) = PNiels.identity := rfl
theorem PNiels_default : (Gen.PNiels.default : PNiels F) = PNiels.default := rfl
theorem PNiels_conditional_select (a b : PNiels F) (c : Bool) :
    Gen.PNiels.conditional_select a b c = a.select b c := rfl
theorem PNiels_conditional_negate (a : PNiels F) (c : Bool) :
    Gen.PNiels.conditional_negate a c = a.condNegate c := rfl
theorem PNiels_to_extended (a : PNiels F) : Gen.PNiels.to_extended a = a.toExtended := rfl

theorem TwPt_to_extensible (a : TwPt F) : Gen.TwPt.to_extensible a = a.toExtensible := rfl
theorem TwPt_ct_eq (a b : TwPt F) : Gen.TwPt.ct_eq a b = a.eq b := by
  simp only [Gen.TwPt.ct_eq, TwPt.eq, field_ct_eq]
theorem TwPt_eq (a b : TwPt F) : Gen.TwPt.eq a b = a.eq b := TwPt_ct_eq a b
theorem TwPt_conditional_select (a b : TwPt F) (c : Bool) :
    Gen.TwPt.conditional_select a b c = a.select b c := rfl
theorem TwPt_identity : (Gen.TwPt.identity : TwPt F) = TwPt.identity := rfl
theorem TwPt_default : (Gen.TwPt.default : TwPt F) = TwPt.default := rfl
theorem TwPt_generator : (Gen.TwPt.generator : TwPt F) = TwPt.generator := rfl
theorem TwPt_double (a : TwPt F) : Gen.TwPt.double a = a.double := rfl
theorem TwPt_add (a b : TwPt F) : Gen.TwPt.add a b = a.add b := rfl
theorem TwPt_is_on_curve (a : TwPt F) : Gen.TwPt.is_on_curve a = a.isOnCurve := by
  simp only [Gen.TwPt.is_on_curve, TwPt.isOnCurve, field_eq]
theorem TwPt_negate (a : TwPt F) : Gen.TwPt.negate a = a.negate := rfl
theorem TwPt_torque (a : TwPt F) : Gen.TwPt.torque a = a.torque := rfl
theorem PNiels_eq (a b : PNiels F) : Gen.PNiels.eq a b = a.eq b := TwPt_eq _ _

theorem TwPt_to_affine (a : TwPt F) : Gen.TwPt.to_affine a = some a.toAffine := by
  unfold Gen.TwPt.to_affine
  exact (bind_of_eq (field_invert _) _).trans rfl

theorem TwPt_edwards_isogeny (p : TwPt F) (a : L) :
    Gen.TwPt.edwards_isogeny p a = some (p.edwardsIsogeny a) := by
  unfold Gen.TwPt.edwards_isogeny
  refine (bind_of_eq (TwPt_to_affine _) _).trans ?_
  refine (bind_of_eq (field_invert _) _).trans ?_
  exact (bind_of_eq (field_invert _) _).trans rfl

theorem TwPt_to_untwisted (p : TwPt F) : Gen.TwPt.to_untwisted p = some p.toUntwisted := by
  unfold Gen.TwPt.to_untwisted
  exact (bind_of_eq (TwPt_edwards_isogeny _ _) _).trans rfl

theorem TwAff_identity : (Gen.TwAff.identity : TwAff F) = TwAff.identity := rfl
theorem TwAff_default : (Gen.TwAff.default : TwAff F) = TwAff.default := rfl
theorem TwAff_is_on_curve (a : TwAff F) : Gen.TwAff.is_on_curve a = a.isOnCurve := field_eq _ _
theorem TwAff_negate (a : TwAff F) : Gen.TwAff.negate a = a.negate := rfl
theorem TwAff_add (a b : TwAff F) : Gen.TwAff.add a b = some (a.add b) := by
  unfold Gen.TwAff.add
  refine (bind_of_eq (field_invert _) _).trans ?_
  exact (bind_of_eq (field_invert _) _).trans rfl
theorem TwAff_to_extensible (a : TwAff F) : Gen.TwAff.to_extensible a = a.toExtensible := rfl
theorem TwAff_to_affine_niels (a : TwAff F) : Gen.TwAff.to_affine_niels a = a.toAffineNiels := rfl
theorem TwAff_to_extended (a : TwAff F) : Gen.TwAff.to_extended a = a.toExtended := rfl
theorem ANiels_conditional_select (a b : ANiels F) (c : Bool) :
    Gen.ANiels.conditional_select a b c = a.select b c := rfl
theorem ANiels_equals (a b : ANiels F) : Gen.ANiels.equals a b = a.equals b := by
  simp only [Gen.ANiels.equals, ANiels.equals, field_eq]
theorem ANiels_identity : (Gen.ANiels.identity : ANiels F) = ANiels.identity := rfl
theorem ANiels_to_extended (a : ANiels F) : Gen.ANiels.to_extended a = a.toExtended := rfl

/-! ## Scalar multiplication -/

theorem table_loop (P : TwExt F) {G : List (PNiels F) → ℕ → Option (List (PNiels F))}
    (hG : ∀ l i x, 1 ≤ i → Gen.Rt.idx l (i - 1) = some x →
      G l i = Gen.Rt.put l i (P.addProjectiveNiels x).toProjectiveNiels) :
    ∀ (n k : ℕ) (zs : List (PNiels F)), zs.length = n →
      (List.range' (k + 1) n).foldlM G ((List.range (k + 1)).map (tableEntry P) ++ zs) =
        some ((List.range (k + 1 + n)).map (tableEntry P))
  | 0, k, [], _ => by simp
  | n + 1, k, z :: zs, h => by
    have e : ((List.range (k + 1)).map (tableEntry P) ++ z :: zs) =
        (List.range k).map (tableEntry P) ++ tableEntry P k :: (z :: zs) := by
      rw [List.range_succ, List.map_append, List.append_assoc]
      rfl
    rw [List.range'_succ, List.foldlM_cons, hG _ _ (tableEntry P k) (by omega)
      (idx_eq e (by simp)), put_eq (pre := (List.range (k + 1)).map (tableEntry P)) rfl (by simp)]
    have ih := table_loop P hG n (k + 1) zs (by simpa using h)
    rw [show k + 1 + (n + 1) = k + 1 + 1 + n by omega, ← ih, List.range_succ (n := k + 1),
      List.map_append, List.append_assoc]
    rfl
  | 0, _, _ :: _, h => by simp at h
  | _ + 1, _, [], h => by simp at h

theorem LookupTable_from (p : TwPt F) : Gen.LookupTable.from p = some (lookupTable p) := by
  unfold Gen.LookupTable.from
  dsimp only
  rw [bind_id]
  refine table_loop p.toExtensible ?_ 7 0 (List.replicate 7 _) (by simp)
  intro l i x hi hx
  refine (bind_of_eq (ckSub_ok hi) _).trans ?_
  refine (bind_of_eq hx _).trans ?_
  exact bind_id _

theorem LookupTable_select (t : List (PNiels F)) (ht : t.length = 8) (i : ℕ) :
    Gen.LookupTable.select t i = some (tableSelect t i) := by
  unfold Gen.LookupTable.select
  dsimp only
  rw [bind_id]
  have hr : Gen.Rt.range 1 9 = (List.range 8).map (· + 1) := rfl
  rw [hr, foldlM_map_list, foldlM_some (g := fun result j =>
    PNiels.select result (t.getD j PNiels.identity) (i == j + 1))]
  · rfl
  · intro r j hj
    have hj : j < 8 := List.mem_range.1 hj
    refine (bind_of_eq (v := j) (ckSub_ok (by omega)) _).trans ?_
    refine (bind_of_eq (v := t.getD j PNiels.identity) ?_ _).trans ?_
    · rw [Gen.Rt.idx, List.getD, List.getElem?_eq_getElem (by omega)]
      rfl
    · rw [Nat.mod_eq_of_lt (by omega)]
      rfl

/-- The digit arithmetic of `variable_base`, for all `i8` values. -/
theorem digit_eq : ∀ k : Fin 256,
    digitAbs ((k : ℤ) - 128) = (ckI8 (((k : ℤ) - 128) + sarZ ((k : ℤ) - 128) 7)).bind fun t =>
      (Gen.Rt.choice (Gen.Rt.asU 8 (Gen.Rt.andZ 8 (sarZ ((k : ℤ) - 128) 7) 1))).map fun c =>
        (c, Gen.Rt.asU 32 (Gen.Rt.xorZ 8 t (sarZ ((k : ℤ) - 128) 7))) := by
  decide +kernel

theorem digit_eq' {s : ℤ} (h1 : -8 ≤ s) (h2 : s ≤ 8) :
    digitAbs s = (ckI8 (s + sarZ s 7)).bind fun t =>
      (Gen.Rt.choice (Gen.Rt.asU 8 (Gen.Rt.andZ 8 (sarZ s 7) 1))).map fun c =>
        (c, Gen.Rt.asU 32 (Gen.Rt.xorZ 8 t (sarZ s 7))) := by
  have := digit_eq ⟨(s + 128).toNat, by omega⟩
  have e : (((s + 128).toNat : ℕ) : ℤ) - 128 = s := by omega
  simpa only [e] using this

theorem vb_loop {t : List (PNiels F)} {G : TwExt F → ℕ → Option (TwExt F)} {ds : List ℤ}
    (hG : ∀ r i x, Gen.Rt.idx ds i = some x → -8 ≤ x → x ≤ 8 →
      G r i = (digitAbs x).bind fun d => some (vbStep t r d.1 d.2))
    (hd : ∀ x ∈ ds, -8 ≤ x ∧ x ≤ 8) : ∀ (pre post : List ℤ) (r : TwExt F), ds = pre ++ post →
      (List.range pre.length).reverse.foldlM G r = vbLoop t pre.reverse r := by
  intro pre
  induction pre using List.reverseRecOn with
  | nil => intro _ _ _; rfl
  | append_singleton pre x ih =>
    intro post r h
    have h' : ds = pre ++ x :: post := by simp [h]
    have hx := hd x (by simp [h'])
    rw [List.length_append, List.length_singleton, List.range_succ, List.reverse_append,
      List.reverse_append, List.reverse_singleton, List.reverse_singleton, List.singleton_append,
      List.singleton_append, List.foldlM_cons, vbLoop, hG _ _ x (idx_eq h' rfl) hx.1 hx.2]
    cases digitAbs x with
    | none => rfl
    | some d => exact ih (x :: post) _ h'

theorem variable_base (p : TwPt F) (s : Scalar) :
    Gen.variable_base.variable_base p s.l = variableBase p s := by
  unfold Gen.variable_base.variable_base variableBase
  obtain ⟨ds, e, hlen, hd⟩ := radix_bounds s
  dsimp only
  rw [to_radix_16, e, bsome, bsome, LookupTable_from, bsome]
  have hr : Gen.Rt.range 0 113 = List.range ds.length := by
    rw [hlen, List.range_eq_range']
    rfl
  rw [hr]
  refine (congrArg (Option.bind · _) (vb_loop (t := lookupTable p) ?_ (fun x hx => hd x
    (List.mem_reverse.2 hx)) ds [] Gen.TwExt.identity (by simp))).trans ?_
  · intro r i x hx h1 h2
    refine (bind_of_eq hx _).trans ?_
    refine (bind_of_eq hx _).trans ?_
    rw [digit_eq' h1 h2]
    cases ckI8 (x + sarZ x 7) with
    | none => rfl
    | some t =>
      rw [bsome, bsome]
      refine (bind_of_eq (LookupTable_select _ (by simp [lookupTable]) _) _).trans ?_
      cases Gen.Rt.choice (Gen.Rt.asU 8 (Gen.Rt.andZ 8 (sarZ x 7) 1)) <;> rfl
  · exact Option.map_eq_bind.symm

theorem choice_toNat (b : Bool) : Gen.Rt.choice b.toNat = some b := by cases b <;> rfl

theorem double_and_add (p : TwPt F) (s : Scalar) :
    Gen.double_and_add.double_and_add p s.l = some (doubleAndAdd p s) := by
  unfold Gen.double_and_add.double_and_add doubleAndAdd
  dsimp only
  rw [bits, bsome, bind_id]
  refine foldlM_some (g := daStep p) ?_
  intro r b _
  exact (bind_of_eq (choice_toNat b) _).trans rfl

theorem double_base_scalar_mul (a : Scalar) (A : TwPt F) (b : Scalar) :
    Gen.double_base.double_base_scalar_mul a.l A b.l = some (doubleBaseScalarMul a A b) := by
  unfold Gen.double_base.double_base_scalar_mul
  refine (bind_of_eq (double_and_add _ _) _).trans ?_
  exact (bind_of_eq (double_and_add _ _) _).trans rfl

theorem EdPt_scalar_mod_four (p : EdPt F) (s : Scalar) :
    Gen.EdPt.scalar_mod_four p s.l = some (p.scalarModFour s) := by
  unfold Gen.EdPt.scalar_mod_four
  refine (bind_of_eq (choice_toNat _) _).trans ?_
  refine (bind_of_eq (choice_toNat _) _).trans ?_
  refine (bind_of_eq (choice_toNat _) _).trans ?_
  exact (bind_of_eq (choice_toNat _) _).trans rfl

theorem EdPt_scalar_mul (p : EdPt F) (s : Scalar) :
    Gen.EdPt.scalar_mul p s.l = p.scalarMul s := by
  unfold Gen.EdPt.scalar_mul EdPt.scalarMul
  dsimp only
  rw [div_by_four]
  cases s.divByFour with
  | none => rfl
  | some q =>
    rw [Option.map_some, bsome, bsome]
    refine (bind_of_eq (EdPt_to_twisted _) _).trans ?_
    rw [variable_base]
    cases variableBase p.toTwisted q with
    | none => rfl
    | some r =>
      rw [bsome]
      refine (bind_of_eq (TwPt_to_untwisted _) _).trans ?_
      exact (bind_of_eq (EdPt_scalar_mod_four _ _) _).trans rfl

theorem EdPt_op_mul (p : EdPt F) (s : Scalar) : Gen.EdPt.op_mul_Scalar p s.l = p.opMul s := by
  unfold Gen.EdPt.op_mul_Scalar
  rw [bind_id, EdPt_scalar_mul]
  rfl

theorem EdPt_op_mul_assign (p : EdPt F) (s : Scalar) :
    Gen.EdPt.op_mul_assign_Scalar p s.l = p.mulAssign s := by
  unfold Gen.EdPt.op_mul_assign_Scalar
  dsimp only
  rw [bind_id, EdPt_op_mul]
  rfl

theorem Scalar_op_mul_EdPt (p : EdPt F) (s : Scalar) : Gen.Scalar.op_mul_EdPt s.l p = s.mulEd p := by
  unfold Gen.Scalar.op_mul_EdPt
  rw [bind_id, EdPt_op_mul]
  rfl

/-! The variants made by the macros. -/

theorem EdPt_op_mul2 (p : EdPt F) (s : Scalar) : Gen.EdPt.op_mul_Scalar2 p s.l = p.opMul s := by
  rw [Gen.EdPt.op_mul_Scalar2, bind_id, EdPt_op_mul]
theorem EdPt_op_mul3 (p : EdPt F) (s : Scalar) : Gen.EdPt.op_mul_Scalar3 p s.l = p.opMul s := by
  rw [Gen.EdPt.op_mul_Scalar3, bind_id, EdPt_op_mul]
theorem EdPt_op_mul4 (p : EdPt F) (s : Scalar) : Gen.EdPt.op_mul_Scalar4 p s.l = p.opMul s := by
  rw [Gen.EdPt.op_mul_Scalar4, bind_id, EdPt_op_mul]
theorem EdPt_op_mul_assign2 (p : EdPt F) (s : Scalar) :
    Gen.EdPt.op_mul_assign_Scalar2 p s.l = p.mulAssign s := by
  show (Gen.EdPt.op_mul_assign_Scalar p s.l).bind some = _
  rw [bind_id, EdPt_op_mul_assign]
theorem Scalar_op_mul_EdPt2 (p : EdPt F) (s : Scalar) :
    Gen.Scalar.op_mul_EdPt2 s.l p = s.mulEd p := by
  rw [Gen.Scalar.op_mul_EdPt2, bind_id, Scalar_op_mul_EdPt]
theorem Scalar_op_mul_EdPt3 (p : EdPt F) (s : Scalar) :
    Gen.Scalar.op_mul_EdPt3 s.l p = s.mulEd p := by
  rw [Gen.Scalar.op_mul_EdPt3, bind_id, Scalar_op_mul_EdPt]
theorem Scalar_op_mul_EdPt4 (p : EdPt F) (s : Scalar) :
    Gen.Scalar.op_mul_EdPt4 s.l p = s.mulEd p := by
  rw [Gen.Scalar.op_mul_EdPt4, bind_id, Scalar_op_mul_EdPt]

theorem EdPt_is_torsion_free (p : EdPt F) : Gen.EdPt.is_torsion_free p = p.isTorsionFree := by
  unfold Gen.EdPt.is_torsion_free EdPt.isTorsionFree
  have e : Gen.C.BASEPOINT_ORDER = EdPt.BASEPOINT_ORDER.l := rfl
  rw [e, EdPt_op_mul, EdPt.opMul]
  cases p.scalarMul EdPt.BASEPOINT_ORDER with
  | none => rfl
  | some r => exact congrArg some (EdPt_eq _ _)

/-! ## Encodings -/

theorem copy_loop (l tail : List ℕ) : ∀ (zs pre : List ℕ) (post : List ℕ), l = pre ++ post →
    zs.length = post.length →
    (List.range' pre.length post.length).foldlM (fun (c : List ℕ) (i : ℕ) =>
      (Gen.Rt.idx l i).bind fun v => (Gen.Rt.put c i v).bind fun c' => some c') (pre ++ (zs ++ tail)) =
      some (l ++ tail)
  | [], pre, [], h, _ => by simp [h]
  | z :: zs, pre, x :: post, h, hz => by
    have ih := copy_loop l tail zs (pre ++ [x]) post (by simp [h]) (by simpa using hz)
    rw [List.length_cons, List.range'_succ, List.foldlM_cons, idx_eq h rfl, bsome, bind_id,
      put_eq (pre := pre) (x := z) (post := zs ++ tail) (by simp) rfl]
    simp only [List.length_append, List.length_singleton, List.append_assoc, List.cons_append,
      List.nil_append] at ih
    exact ih
  | [], _, _ :: _, _, h => by simp at h
  | _ :: _, _, [], _, h => by simp at h

theorem EdPt_compress (p : EdPt F) : Gen.EdPt.compress p = some p.compress.l := by
  unfold Gen.EdPt.compress
  refine (bind_of_eq (EdPt_to_affine _) _).trans ?_
  dsimp only
  have hlen : (toBytes p.toAffine.y).l.length = 56 := (toBytes p.toAffine.y).len
  have h : (Gen.Rt.range 0 56).foldlM (fun (c : List ℕ) (i : ℕ) =>
      (Gen.Rt.idx (toBytes p.toAffine.y).l i).bind fun v =>
      (Gen.Rt.put c i v).bind fun c' => some c') (List.replicate 57 0) =
      some ((toBytes p.toAffine.y).l ++ [0]) := by
    have := copy_loop (toBytes p.toAffine.y).l [0] (List.replicate 56 0) []
      (toBytes p.toAffine.y).l rfl (by simp [hlen])
    rw [hlen] at this
    exact this
  rw [hlen, h, bsome]
  rw [Gen.Rt.putLast, if_pos (by simp), List.length_append, List.length_singleton,
    Nat.add_sub_cancel, bsome, List.set_append_right _ _ le_rfl, Nat.sub_self]
  have e : Gen.Rt.shlU 8 (isNegative p.toAffine.x).toNat 7 =
      (if isNegative p.toAffine.x then 1 else 0) <<< 7 := by
    cases isNegative p.toAffine.x <;> rfl
  rw [e]
  rfl

theorem fieldFromBytes_eq (b : Bytes 56) : Gen.Rt.fieldFromBytes F b.l = some (fromBytes b : F) := by
  unfold Gen.Rt.fieldFromBytes
  have : Arr.ofList? 56 256 b.l = some b := by
    rw [Arr.ofList?, dif_pos ⟨b.len, b.lt⟩]
  rw [this]
  rfl

theorem Ed_decompress (b : Bytes 57) :
    Gen.CompressedEdwardsY.decompress b.l = some (edDecompress F b) := by
  unfold Gen.CompressedEdwardsY.decompress edDecompress
  have h1 : Gen.Rt.splitLast b.l = some (Arr.get b 56, (Bytes.slice b 0 56 (by norm_num)).l) := by
    obtain ⟨l, hl, -⟩ := b
    have h : l ≠ [] := by rintro rfl; simp at hl
    rw [Gen.Rt.splitLast, List.getLast?_eq_getLast_of_ne_nil h, Option.map_some]
    have e1 : l.getLast h = l.getD 56 0 := by
      rw [List.getLast_eq_getElem, List.getD_eq_getElem?_getD, List.getElem?_eq_getElem (by omega)]
      simp [hl]
    have e2 : l.dropLast = (l.drop 0).take 56 := by
      rw [List.dropLast_eq_take, hl]
      rfl
    rw [e1, e2]
    rfl
  refine (bind_of_eq h1 _).trans ?_
  refine (bind_of_eq (v := (Bytes.slice b 0 56 (by norm_num)).l) ?_ _).trans ?_
  · rw [Gen.Rt.copyFrom, if_pos (by rw [(Bytes.slice b 0 56 (by norm_num)).len]; simp)]
  refine (bind_of_eq (fieldFromBytes_eq _) _).trans ?_
  refine (bind_of_eq (field_sqrt_ratio _ _) _).trans ?_
  dsimp only
  generalize sqrtRatio (one -ᶠ square (fromBytes (Bytes.slice b 0 56 (by norm_num)) : F))
    (one -ᶠ EDWARDS_D F *ˡ square (fromBytes (Bytes.slice b 0 56 (by norm_num)) : F)) = r
  have hb : Arr.get b 56 < 256 := getD_lt_of b.lt (by norm_num) 56
  have hc : Gen.Rt.choice (Arr.get b 56 >>> 7) = some (Arr.get b 56 >>> 7 == 1) := by
    have : Arr.get b 56 >>> 7 = 0 ∨ Arr.get b 56 >>> 7 = 1 := by
      rw [Nat.shiftRight_eq_div_pow]
      omega
    rcases this with h | h <;> rw [h] <;> rfl
  obtain ⟨x, _ | _⟩ := r
  · rfl
  · exact (bind_of_eq hc _).trans rfl

/-! ## src/curve/montgomery/montgomery.rs -/

theorem Mont_ct_eq (a b : Bytes 56) : Gen.MontgomeryPoint.ct_eq a.l b.l = montEq a b := rfl
theorem Mont_eq (a b : Bytes 56) : Gen.MontgomeryPoint.eq a.l b.l = montEq a b := rfl
theorem ProjMont_identity : (Gen.ProjMont.identity : ProjMont F) = ProjMont.identity := rfl
theorem ProjMont_conditional_select (a b : ProjMont F) (c : Bool) :
    Gen.ProjMont.conditional_select a b c = a.select b c := rfl
theorem Mont_differential_add_and_double (P Q : ProjMont F) (u : F) :
    Gen.montgomery.differential_add_and_double P Q u = diffAddDouble P Q u := rfl

theorem ProjMont_to_affine (p : ProjMont F) : Gen.ProjMont.to_affine p = some p.toAffine.l := by
  unfold Gen.ProjMont.to_affine
  exact (bind_of_eq (field_invert _) _).trans rfl

theorem Mont_to_projective (u : Bytes 56) :
    Gen.MontgomeryPoint.to_projective u.l = some (montToProjective u : ProjMont F) := by
  unfold Gen.MontgomeryPoint.to_projective
  exact (bind_of_eq (fieldFromBytes_eq _) _).trans rfl

theorem xor_choice (a b : Bool) : Gen.Rt.choice (a.toNat ^^^ b.toNat) = some (xor a b) := by
  cases a <;> cases b <;> rfl

theorem foldlM_rev_idx {S α : Type} {f : S → ℕ → Option S} {g : S → α → Option S} {l : List α}
    (h : ∀ s i x, Gen.Rt.idx l i = some x → f s i = g s x) : ∀ (pre post : List α) (s : S),
      l = pre ++ post → (List.range pre.length).reverse.foldlM f s = pre.reverse.foldlM g s := by
  intro pre
  induction pre using List.reverseRecOn with
  | nil => intro _ _ _; rfl
  | append_singleton pre x ih =>
    intro post s hl
    have h' : l = pre ++ x :: post := by simp [hl]
    rw [List.length_append, List.length_singleton, List.range_succ, List.reverse_append,
      List.reverse_append, List.reverse_singleton, List.reverse_singleton, List.singleton_append,
      List.singleton_append, List.foldlM_cons, List.foldlM_cons, h _ _ x (idx_eq h' rfl)]
    congr 1
    funext s'
    exact ih (x :: post) s' h'

theorem Mont_mul (u : Bytes 56) (s : Scalar) :
    Gen.MontgomeryPoint.op_mul_Scalar (F := F) u.l s.l = some (montMulScalar F u s).l := by
  unfold Gen.MontgomeryPoint.op_mul_Scalar montMulScalar
  refine (bind_of_eq (fieldFromBytes_eq _) _).trans ?_
  dsimp only
  rw [bits, bsome]
  have hlen : s.bits.length = 448 := Scalar.bits_len s
  have hr : Gen.Rt.range 0 448 = List.range s.bits.length := by
    rw [hlen, List.range_eq_range']
    rfl
  let φ : ProjMont F × ProjMont F × Bool → ProjMont F × ProjMont F × ℕ :=
    fun t => (t.1, t.2.1, t.2.2.toNat)
  rw [hr]
  refine (congrArg (Option.bind · _) ((foldlM_rev_idx (l := s.bits) (fun _ _ _ h => bind_of_eq h _)
    s.bits [] _ (by simp)).trans (foldlM_rel φ (g := fun t b => some (ladderStep (fromBytes u) t b))
      (t := (ProjMont.identity, ⟨fromBytes u, one⟩, false)) ?_))).trans ?_
  · intro t b _
    exact (bind_of_eq (xor_choice _ _) _).trans rfl
  · rw [foldlM_some (g := ladderStep (fromBytes u)) (fun _ _ _ => rfl), Option.map_some, bsome,
      bind_id]
    exact ProjMont_to_affine _

theorem Scalar_mul_Mont (u : Bytes 56) (s : Scalar) :
    Gen.Scalar.op_mul_MontgomeryPoint (F := F) s.l u.l = some (s.mulMont F u).l := by
  unfold Gen.Scalar.op_mul_MontgomeryPoint
  rw [bind_id, Mont_mul]
  rfl

theorem Mont_to_edwards (u : Bytes 56) (sign : ℕ) :
    (Gen.MontgomeryPoint.to_edwards u.l sign : Option (Option (EdPt F))) = none ∧
      montToEdwards u sign = none := ⟨rfl, rfl⟩

theorem Mont_is_low_order (u : Bytes 56) : Gen.MontgomeryPoint.is_low_order u.l = isLowOrder u := rfl
theorem Mont_as_bytes (u : Bytes 56) : Gen.MontgomeryPoint.as_bytes u.l = u.l := rfl
theorem Mont_generator : Gen.MontgomeryPoint.generator = montGenerator.l := rfl

/-! ## src/decaf -/

theorem Decaf_as_bytes (b : Bytes 56) : Gen.CompressedDecaf.as_bytes b.l = b.l := rfl
theorem CompressedDecaf_ct_eq (a b : Bytes 56) :
    Gen.CompressedDecaf.ct_eq a.l b.l = compressedDecafEq a b := rfl
theorem CompressedDecaf_eq (a b : Bytes 56) :
    Gen.CompressedDecaf.eq a.l b.l = compressedDecafEq a b := rfl
theorem Decaf_identity : (Gen.DecafPt.identity : DecafPt F) = DecafPt.identity := rfl
theorem Decaf_generator : (Gen.DecafPt.generator : DecafPt F) = DecafPt.generator := rfl
theorem Decaf_equals (a b : DecafPt F) : Gen.DecafPt.equals a b = a.equals b := field_eq _ _
theorem Decaf_sub (a b : DecafPt F) : Gen.DecafPt.sub a b = a.sub b := rfl
theorem Decaf_op_add (a b : DecafPt F) : Gen.DecafPt.op_add a b = a.add b := rfl
theorem Decaf_op_add2 (a b : DecafPt F) : Gen.DecafPt.op_add2 a b = a.add b := rfl
theorem Decaf_op_sub (a b : DecafPt F) : Gen.DecafPt.op_sub a b = a.sub b := rfl
theorem Decaf_op_sub2 (a b : DecafPt F) : Gen.DecafPt.op_sub2 a b = a.sub b := rfl
theorem Decaf_op_neg (a : DecafPt F) : Gen.DecafPt.op_neg a = a.neg := rfl
theorem Decaf_op_neg2 (a : DecafPt F) : Gen.DecafPt.op_neg2 a = a.neg := rfl

theorem Decaf_op_mul (a : DecafPt F) (s : Scalar) :
    Gen.DecafPt.op_mul_Scalar a s.l = some (a.scalarMul s) := by
  unfold Gen.DecafPt.op_mul_Scalar
  exact (bind_of_eq (double_and_add _ _) _).trans rfl

theorem Decaf_op_mul2 (a : DecafPt F) (s : Scalar) :
    Gen.DecafPt.op_mul_Scalar2 a s.l = some (a.scalarMul s) := Decaf_op_mul a s

theorem Scalar_op_mul_Decaf (a : DecafPt F) (s : Scalar) :
    Gen.Scalar.op_mul_DecafPt s.l a = some (s.mulDecaf a) := Decaf_op_mul a s

theorem Scalar_op_mul_Decaf2 (a : DecafPt F) (s : Scalar) :
    Gen.Scalar.op_mul_DecafPt2 s.l a = some (s.mulDecaf a) := Decaf_op_mul a s

theorem Decaf_compress (a : DecafPt F) : Gen.DecafPt.compress a = some a.compress.l := by
  unfold Gen.DecafPt.compress
  exact (bind_of_eq (field_isr _) _).trans rfl

theorem CompressedDecaf_identity :
    Gen.CompressedDecaf.identity = compressedDecafIdentity.l := rfl

theorem Decaf_decompress (b : Bytes 56) :
    Gen.CompressedDecaf.decompress b.l = some (decafDecompress F b) := by
  unfold Gen.CompressedDecaf.decompress decafDecompress
  refine (bind_of_eq (fieldFromBytes_eq _) _).trans ?_
  dsimp only
  rw [arr_beq]
  generalize (fromBytes b : F) = s
  cases h1 : toBytes s == b
  · rfl
  · cases h2 : isNegative s
    · simp only [Bool.toNat_true, Bool.toNat_false]
      rw [if_neg (by decide), if_neg (by simp)]
      refine (bind_of_eq (field_isr _) _).trans ?_
      generalize inverseSquareRoot ((square s *ᶠ NEG_FOUR_TIMES_TWISTED_D +ᶠ square (one -ᶠ square s)) *ᶠ
        square (one -ᶠ square s)) = r
      obtain ⟨x, _ | _⟩ := r <;> rfl
    · rfl

/-! ## src/ristretto -/

theorem Rist_as_bytes (b : Bytes 56) : Gen.CompressedRistretto.as_bytes b.l = b.l := rfl
theorem CompressedRist_ct_eq (a b : Bytes 56) :
    Gen.CompressedRistretto.ct_eq a.l b.l = compressedRistEq a b := rfl
theorem CompressedRist_eq (a b : Bytes 56) :
    Gen.CompressedRistretto.eq a.l b.l = compressedRistEq a b := rfl
theorem Rist_identity : (Gen.RistPt.identity : RistPt F) = RistPt.identity := rfl
theorem Rist_equals (a b : RistPt F) : Gen.RistPt.equals a b = a.equals b := field_eq _ _
theorem Rist_encode (a : RistPt F) : Gen.RistPt.encode a = a.encode.map (·.l) := rfl
theorem CompressedRist_identity :
    Gen.CompressedRistretto.identity = compressedRistIdentity.l := rfl
theorem Rist_decode (b : Bytes 56) : Gen.CompressedRistretto.decode b.l = ristDecode F b := rfl

end Ed448.Proofs.Source
