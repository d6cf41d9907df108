import Verif.Proofs.TwAffine
import Verif.Props.Edwards

/-!
# Properties of twisted points, isogenies and scalar multiplication routines (C25, C26, C28, C54)

`RepT e Q R` says that `Q` represents `e · φ(R)`, where `φ` is the 4-isogeny and `e = ±1` scales both
affine coordinates. `TwRep Q x y` says that `Q` represents the affine point `(x, y)` of the twisted
curve `y² - x² = 1 - 39082 x² y²`.
-/

namespace Ed448.Props
open Ed448.Model Ed448.Edw Ed448.Iso
open FieldVal (val)

set_option exponentiation.threshold 1000
set_option maxRecDepth 10000

variable {F L : Type} [FieldBackend F L] [Lawful F]

/-! ## C25 -/

/-- There and back is multiplication by four; the image is on the twisted curve. -/
theorem C25_round_trip {P : EdPt F} {R : E} (h : Rep P R) :
    P.toTwisted.isOnCurve = true ∧ val P.toTwisted.Z ≠ 0 ∧
    Rep P.toTwisted.toUntwisted (4 • R) := by
  have ht := rep_toTwisted h
  obtain ⟨h1, h2, h3⟩ := (twRep_iff_valid P.toTwisted).1 ⟨_, _, ht.twRep⟩
  exact ⟨(tw_isOnCurve_iff _).2 ⟨h2, h3⟩, h1, ht.toUntwisted⟩

/-- No denominator of either map vanishes. -/
theorem C25_denominators {R : E} {x y : Fp} (h : y ^ 2 - x ^ 2 = 1 + (-39082) * x ^ 2 * y ^ 2) :
    R.y ^ 2 - R.x ^ 2 ≠ 0 ∧ 2 - R.y ^ 2 - R.x ^ 2 ≠ 0 ∧
    y ^ 2 + x ^ 2 ≠ 0 ∧ 2 - y ^ 2 + x ^ 2 ≠ 0 := by
  have h' : TwOn x y := by
    unfold TwOn; rw [h]; congr 1; unfold d; ring
  refine ⟨N_ne R, ?_, h'.N_ne, h'.dual_den⟩
  intro e; apply Iso.M_ne R; linear_combination e + sum_eq R

/-- The maps send sums to sums. -/
theorem C25_additive {P Q : EdPt F} {R S : E} (h : Rep P R) (k : Rep Q S) :
    (P.add Q).toTwisted.eq (P.toTwisted.add Q.toTwisted) = true := by
  rw [(rep_toTwisted (rep_add h k)).eq_iff ((rep_toTwisted h).add (rep_toTwisted k))]
  simp

/-- The dual map: on *every* affine twisted point (not only the image) it gives a curve point, it is
additive wherever the affine twisted law is defined, and it kills only `(0, ±1)`. -/
theorem C25_dual {Q Q' : TwPt F} {x y x' y' : Fp} (h : TwRep Q x y) (k : TwRep Q' x' y')
    (dp : 1 + (d - 1) * x * x' * y * y' ≠ 0) (dm : 1 - (d - 1) * x * x' * y * y' ≠ 0) :
    Q.toUntwisted.isOnCurve = true ∧
    (Q.add Q').toUntwisted.eq (Q.toUntwisted.add Q'.toUntwisted) = true ∧
    (Q.toUntwisted.eq EdPt.identity = true ↔ x = 0 ∧ (y = 1 ∨ y = -1)) := by
  have hu := h.toUntwisted
  have hadd := h.add k dp dm
  refine ⟨?_, ?_, ?_⟩
  · obtain ⟨-, h2, h3⟩ := (rep_iff_valid _).1 ⟨_, hu⟩
    exact (isOnCurve_iff _).2 ⟨h2, h3⟩
  · rw [rep_eq hadd.toUntwisted (rep_add hu k.toUntwisted)]
    refine psi_add h.on k.on hadd.on dp dm ?_ ?_
    · rw [div_mul_cancel₀ _ dp]
    · rw [div_mul_cancel₀ _ dm]
  · rw [rep_eq hu rep_identity, psi_eq_zero]
    exact and_congr_right fun _ => sq_eq_one_iff_of_side
where
  sq_eq_one_iff_of_side {y : Fp} : y ^ 2 = 1 ↔ y = 1 ∨ y = -1 := by
    rw [show (1 : Fp) = 1 ^ 2 by ring, sq_eq_sq_iff_eq_or_eq_neg]; simp

/-- The other composition is multiplication by four on the twisted curve. -/
theorem C25_round_trip' {Q : TwPt F} {x y : Fp} (h : TwRep Q x y) :
    Q.toUntwisted.toTwisted.eq Q.double.double = true := by
  rw [(rep_toTwisted h.toUntwisted).twRep.eq_iff h.double.double, one_mul, one_mul, phi_psi_x,
    phi_psi_y]
  exact ⟨rfl, rfl⟩

/-- The kernel of the isogeny is the 4-torsion. -/
theorem C25_kernel {P : EdPt F} {R : E} (h : Rep P R) :
    P.toTwisted.eq TwPt.identity = true ↔ 4 • R = 0 := by
  rw [(rep_toTwisted h).eq_iff repT_identity, four_iff]
  have := phi_eq_iff R 0
  rw [sub_zero] at this
  rw [← this, one_mul, one_mul, one_mul, one_mul]

/-- The kernel is non-trivial and not everything. -/
example : ∃ P Q : EdPt F, Rep P torsion4 ∧ P.toTwisted.eq TwPt.identity = true ∧
    Rep Q G ∧ Q.toTwisted.eq TwPt.identity = false := by
  obtain ⟨P, -, hP⟩ := C13_all_points_reachable (F := F) torsion4
  refine ⟨P, EdPt.generator, hP, (C25_kernel hP).2 four_torsion4, rep_generator, ?_⟩
  rw [Bool.eq_false_iff]
  intro h
  have h4 := (C25_kernel rep_generator).1 h
  have := addOrderOf_dvd_of_nsmul_eq_zero h4
  rw [addOrderOf_G] at this
  have := Nat.le_of_dvd (by norm_num) this
  rw [ell_lit] at this
  exact absurd this (by norm_num)

/-! ## C26 -/

/-- Both routines give equal points, for every scalar, on every point `±φ(R)`. -/
theorem C26_routines_agree {e : Fp} {Q : TwPt F} {R : E} (h : RepT e Q R) (s : Scalar) :
    ∃ r, variableBase Q s = some r ∧ r.eq (doubleAndAdd Q s) = true := by
  obtain ⟨r, e1, hr⟩ := variableBase_rep' h s
  exact ⟨r, e1, (hr.eq_iff (doubleAndAdd_rep h s)).2 ⟨rfl, rfl⟩⟩

/-- Both represent the `s`-fold sum. -/
theorem C26_multiple {Q : TwPt F} {R : E} (h : RepT 1 Q R) (s : Scalar) :
    ∃ r, variableBase Q s = some r ∧ RepT 1 r (s.val • R) ∧
      RepT 1 (doubleAndAdd Q s) (s.val • R) := by
  obtain ⟨r, e, hr⟩ := variableBase_rep h s
  have := doubleAndAdd_rep h s
  rw [one_pow] at this
  exact ⟨r, e, hr, this⟩

theorem C26_double_base {A : TwPt F} {R : E} (h : RepT 1 A R) (a b : Scalar) :
    RepT 1 (doubleBaseScalarMul a A b) (a.val • R + b.val • G) := by
  have h1 := doubleAndAdd_rep h a
  have h2 := doubleAndAdd_rep (repT_generator (F := F)) b
  rw [one_pow] at h1 h2
  have := h1.add h2
  rwa [one_mul] at this

/-- On the image, the isogeny turns `doubleBaseScalarMul` into the Edwards operations. -/
theorem C26_double_base_edwards {P : EdPt F} {R : E} (h : Rep P R) (a b : Scalar) :
    ∃ u v, P.scalarMul a = some u ∧ (EdPt.generator : EdPt F).scalarMul b = some v ∧
      (doubleBaseScalarMul a P.toTwisted b).eq (u.add v).toTwisted = true := by
  obtain ⟨u, e1, h1⟩ := rep_scalarMul h a
  obtain ⟨v, e2, h2⟩ := rep_scalarMul (rep_generator (F := F)) b
  refine ⟨u, v, e1, e2, ?_⟩
  rw [(C26_double_base (rep_toTwisted h) a b).eq_iff (rep_toTwisted (rep_add h1 h2))]
  simp

/-- A non-trivial instance: `l` times the base point is the identity, `l - 1` times is not. -/
example : (doubleAndAdd (TwPt.generator : TwPt F) EdPt.BASEPOINT_ORDER).eq TwPt.identity = true ∧
    (doubleAndAdd (TwPt.generator : TwPt F) lMinusOne).eq TwPt.generator.negate = true := by
  have h1 := doubleAndAdd_rep (repT_generator (F := F)) EdPt.BASEPOINT_ORDER
  have h2 := doubleAndAdd_rep (repT_generator (F := F)) lMinusOne
  have hv : EdPt.BASEPOINT_ORDER.val = ell := by rw [ell_lit]; decide +kernel
  rw [one_pow, hv, ell_G] at h1
  have hm : lMinusOne.val • G = -G := by
    rw [eq_neg_iff_add_eq_zero, ← succ_nsmul, ← ell_G]
    congr 1
    rw [lMinusOne_val]
    have := ell_pos; omega
  rw [one_pow, hm] at h2
  exact ⟨(h1.eq_iff repT_identity).2 ⟨rfl, rfl⟩, (h2.eq_iff repT_generator.negate).2 ⟨rfl, rfl⟩⟩

/-! ## C28 -/

/-- Table selection with conditional negation; any index above 8 gives the identity. -/
theorem C28_table {Q : TwPt F} {R : E} (h : RepT 1 Q R) (i : ℕ) (c : Bool) :
    (lookupTable Q).length = 8 ∧
    RepT 1 ((tableSelect (lookupTable Q) i).condNegate c).toExtended
      (if c then -((if i ≤ 8 then i else 0) • R) else (if i ≤ 8 then i else 0) • R) := by
  have := (tableSelect_rep h i).condNegate c
  rw [one_pow] at this
  exact ⟨by simp [lookupTable], this.toT⟩

/-- The entries are pairwise different for the base point: index 3 is not index 5. -/
example : (tableSelect (lookupTable (TwPt.generator : TwPt U32.Fe)) 3).toExtended.eq
      (TwPt.generator.double.add TwPt.generator) = true ∧
    (tableSelect (lookupTable (TwPt.generator : TwPt U32.Fe)) 3).toExtended.eq
      (tableSelect (lookupTable (TwPt.generator : TwPt U32.Fe)) 5).toExtended = false ∧
    ((tableSelect (lookupTable (TwPt.generator : TwPt U32.Fe)) 1).condNegate true).toExtended.eq
      TwPt.generator.negate = true := by decide +kernel

/-! ## C54: completeness of twisted addition -/

/-- The claim one would like: adding any two valid twisted points gives a valid point. -/
def TwistedAddComplete (F : Type) {L : Type} [FieldBackend F L] [Lawful F] : Prop :=
  ∀ (P Q : TwPt F) (x y x' y' : Fp), TwRep P x y → TwRep Q x' y' → val (P.add Q).Z ≠ 0

/-- It holds on the image of the isogeny (up to sign), which is all the crate ever uses. -/
theorem C54_complete_on_image {e f : Fp} {P Q : TwPt F} {R S : E} (h : RepT e P R)
    (k : RepT f Q S) : val (P.add Q).Z ≠ 0 ∧ RepT (e * f) (P.add Q) (R + S) :=
  ⟨(h.add k).z, h.add k⟩

/-- Exactly when addition of valid points fails. -/
theorem C54_exceptional_iff {P Q : TwPt F} {x y x' y' : Fp} (h : TwRep P x y)
    (k : TwRep Q x' y') :
    val (P.add Q).Z = 0 ↔ (39082 * x * x' * y * y') ^ 2 = 1 := by
  have hd : (39082 : Fp) = -(d - 1) := by unfold d; ring
  rw [h.add_Z k, hd]
  have hz := pow_ne_zero 2 (mul_ne_zero h.z k.z)
  constructor
  · intro e
    rw [mul_assoc, mul_eq_zero] at e
    have := e.resolve_left hz
    linear_combination -this
  · intro e
    rw [mul_assoc, mul_eq_zero]
    right
    linear_combination -e

theorem exists_val (a : Fp) : ∃ f : F, val f = a := by
  refine ⟨FieldBackend.fromBytes (Arr.ofVal 56 256 (by norm_num) a.val), ?_⟩
  have h : a.val < 256 ^ 56 := lt_of_lt_of_le (ZMod.val_lt a) (by rw [p_lit]; norm_num)
  rw [Lawful.val_fromBytes, Arr.ofVal_val _ _ h]
  exact ZMod.natCast_zmod_val a

/-- The claim is false on the whole curve: the base point plus `(1/(√c y), 1/(√c x))` is at
infinity, where `c = -39082` is a square. -/
theorem C54_twisted_add_complete_false : ¬ TwistedAddComplete F := by
  intro hc
  obtain ⟨r, hr⟩ : IsSquare (d - 1) := by
    have : d - 1 = -39082 := by unfold d; ring
    rw [this]
    exact (square_or_neg _).resolve_left n39082_nonsquare
  have hg := (repT_generator (F := F)).twRep
  have hx : phiX G ≠ 0 := by
    rw [phi_G.1]
    have := natCast_ne_of_mod (a := TGx) (b := 0) (by rw [p_lit]; decide +kernel)
    simpa using this
  have hy : phiY G ≠ 0 := phiY_ne G
  have hr0 : r ≠ 0 := by
    rintro rfl
    apply n39082_nonsquare
    have : (39082 : Fp) = -(d - 1) := by unfold d; ring
    rw [this, hr]; exact ⟨0, by ring⟩
  have hon : TwOn (1 / (r * phiY G)) (1 / (r * phiX G)) := by
    have := phi_on G
    unfold TwOn at *
    rw [hr] at *
    field_simp
    linear_combination this
  obtain ⟨a, ha⟩ := exists_val (F := F) (1 / (r * phiY G))
  obtain ⟨b, hb⟩ := exists_val (F := F) (1 / (r * phiX G))
  obtain ⟨c, hcv⟩ := exists_val (F := F) (1 / (r * phiY G) * (1 / (r * phiX G)))
  have hQ : TwRep (⟨a, b, FieldBackend.one, c⟩ : TwPt F) (1 / (r * phiY G)) (1 / (r * phiX G)) := by
    refine ⟨hon, ?_, ?_, ?_, ?_⟩
    · show val (FieldBackend.one : F) ≠ 0
      rw [Lawful.val_one]; exact one_ne_zero
    · show val a = _ * val (FieldBackend.one : F)
      rw [Lawful.val_one, ha, mul_one]
    · show val b = _ * val (FieldBackend.one : F)
      rw [Lawful.val_one, hb, mul_one]
    · show val c = _ * val (FieldBackend.one : F)
      rw [Lawful.val_one, hcv, mul_one]
  refine hc _ _ _ _ _ _ hg hQ ?_
  rw [C54_exceptional_iff hg hQ]
  have hd : (39082 : Fp) = -(r * r) := by rw [← hr]; unfold d; ring
  rw [hd]
  field_simp

end Ed448.Props
