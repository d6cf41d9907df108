import Verif.Props.Twisted

/-!
# Properties of the affine and cached twisted points (C52, C55, C56)
-/

namespace Ed448.Props
open Ed448.Model Ed448.Edw Ed448.Iso
open FieldVal (val)

set_option exponentiation.threshold 1000
set_option maxRecDepth 10000
set_option linter.unusedSimpArgs false

variable {F L : Type} [FieldBackend F L] [Lawful F]

/-- The affine point `Q` has coordinates `φ(R)`. -/
def AffRep (Q : TwAff F) (R : E) : Prop := val Q.x = phiX R ∧ val Q.y = phiY R

/-- The affine point as an extensible one. -/
theorem AffRep.toX {Q : TwAff F} {R : E} (h : AffRep Q R) : RepX 1 Q.toExtensible R := by
  obtain ⟨hx, hy⟩ := h
  refine ⟨one_pow 2, ?_, ?_, ?_, ?_⟩ <;>
    simp only [TwAff.toExtensible, Lawful.val_one, hx, hy, one_mul, mul_one]
  exact one_ne_zero

/-! ## C52 -/

/-- Claim: adding the cached form of an affine point gives the sum. -/
def CachedAddCorrect (F : Type) {L : Type} [FieldBackend F L] [Lawful F] : Prop :=
  ∀ (P : TwExt F) (Q : TwAff F) (R S : E), RepX 1 P R → AffRep Q S →
    RepX 1 (P.addAffineNiels Q.toAffineNiels) (R + S)

/-- Claim: converting to the cached form and back gives the point. -/
def CachedRoundTrip (F : Type) {L : Type} [FieldBackend F L] [Lawful F] : Prop :=
  ∀ (Q : TwAff F) (S : E), AffRep Q S → RepT 1 Q.toAffineNiels.toExtended S

/-- What the code computes: both affine coordinates of the sum come out doubled, and the auxiliary
product four times too large, because `to_affine_niels` leaves out the halving which the comment on
`AffineNielsPoint` documents. -/
theorem C52_cached_add_partial {P : TwExt F} {Q : TwAff F} {R S : E} (h : RepX 1 P R)
    (k : AffRep Q S) :
    val (P.addAffineNiels Q.toAffineNiels).Z ≠ 0 ∧
    val (P.addAffineNiels Q.toAffineNiels).X =
      2 * phiX (R + S) * val (P.addAffineNiels Q.toAffineNiels).Z ∧
    val (P.addAffineNiels Q.toAffineNiels).Y =
      2 * phiY (R + S) * val (P.addAffineNiels Q.toAffineNiels).Z ∧
    val (P.addAffineNiels Q.toAffineNiels).T1 * val (P.addAffineNiels Q.toAffineNiels).T2 =
      4 * (phiX (R + S) * phiY (R + S)) * val (P.addAffineNiels Q.toAffineNiels).Z := by
  obtain ⟨kx, ky⟩ := k
  have e := tw_core (R := R) (S := S) (e1 := 1) (e2 := 1) (by ring) (by ring) h.z rfl rfl rfl rfl
  have hC : (phiX S * phiY S * (d - 1)) * val P.T1 * val P.T2 =
      (d - 1) * (phiX R * phiX S * phiY R * phiY S) * val P.Z := by
    rw [mul_assoc, h.t]; ring
  obtain ⟨c1, c2, c3, c4⟩ := e
  simp only [TwExt.addAffineNiels, TwAff.toAffineNiels, val_mul, val_mulR, Lawful.val_add,
    Lawful.val_sub, Lawful.lval_TWISTED_D, h.x, h.y, kx, ky, hC]
  refine ⟨?_, ?_, ?_, ?_⟩
  · convert c1 using 1; ring
  · linear_combination 2 * c2
  · linear_combination 2 * c3
  · linear_combination 4 * c4

/-- The result is therefore never the sum: for no points of the image do the two additions agree. -/
theorem C52_cached_add_wrong {P : TwExt F} {Q : TwAff F} {R S : E} (h : RepX 1 P R)
    (k : AffRep Q S) :
    (P.addAffineNiels Q.toAffineNiels).eq (P.addExtended Q.toExtended) = false := by
  obtain ⟨c1, -, c3, -⟩ := C52_cached_add_partial h k
  have g := h.addExtended k.toX.toT
  rw [Bool.eq_false_iff]
  intro he
  unfold TwExt.eq at he
  rw [Bool.and_eq_true, feq_iff, feq_iff] at he
  obtain ⟨-, he⟩ := he
  have gy := g.y
  rw [one_mul, one_mul] at gy
  rw [val_mul, val_mul, c3] at he
  change _ * val (P.addExtended Q.toExtensible.toExtended).Z =
    _ * val (P.addExtended Q.toExtensible.toExtended).Y at he
  rw [gy] at he
  have hz := mul_ne_zero c1 g.z
  refine mul_ne_zero (phiY_ne (R + S)) hz ?_
  linear_combination he

theorem C52_cached_add_false : ¬ CachedAddCorrect F := by
  intro hc
  obtain ⟨x, hx⟩ := exists_val (F := F) (phiX 0)
  obtain ⟨y, hy⟩ := exists_val (F := F) (phiY 0)
  have hQ : AffRep (⟨x, y⟩ : TwAff F) 0 := ⟨hx, hy⟩
  obtain ⟨c1, -, c3, -⟩ := C52_cached_add_partial (repX_identity (F := F)) hQ
  have c3' := (hc _ _ _ _ (repX_identity (F := F)) hQ).y
  rw [c3] at c3'
  refine mul_ne_zero (phiY_ne (0 + 0)) c1 ?_
  linear_combination c3'

/-- What the round trip gives: the point with doubled coordinates, never the point itself, and never
a point with a consistent product coordinate unless `y² - x² = 4 x y`. -/
theorem C52_round_trip_partial {Q : TwAff F} {S : E} (k : AffRep Q S) :
    val Q.toAffineNiels.toExtended.X = 2 * phiX S ∧
    val Q.toAffineNiels.toExtended.Y = 2 * phiY S ∧
    val Q.toAffineNiels.toExtended.Z = 1 ∧
    val Q.toAffineNiels.toExtended.T = phiY S ^ 2 - phiX S ^ 2 ∧
    Q.toAffineNiels.toExtended.eq Q.toExtended = false := by
  obtain ⟨kx, ky⟩ := k
  have vx : val Q.toAffineNiels.toExtended.X = 2 * phiX S := by
    simp only [TwAff.toAffineNiels, ANiels.toExtended, Lawful.val_add, Lawful.val_sub, kx, ky]; ring
  have vy : val Q.toAffineNiels.toExtended.Y = 2 * phiY S := by
    simp only [TwAff.toAffineNiels, ANiels.toExtended, Lawful.val_add, Lawful.val_sub, kx, ky]; ring
  have vz : val Q.toAffineNiels.toExtended.Z = 1 := by
    simp only [ANiels.toExtended, Lawful.val_one]
  refine ⟨vx, vy, vz, ?_, ?_⟩
  · simp only [TwAff.toAffineNiels, ANiels.toExtended, Lawful.val_add, Lawful.val_sub, val_mul,
      kx, ky]
    ring
  · rw [Bool.eq_false_iff]
    intro he
    unfold TwPt.eq at he
    rw [Bool.and_eq_true, feq_iff, feq_iff] at he
    obtain ⟨-, he⟩ := he
    rw [val_mul, val_mul, vy, vz] at he
    simp only [TwAff.toExtended, TwAff.toExtensible, TwExt.toExtended, Lawful.val_one, ky] at he
    exact phiY_ne S (by linear_combination he)

theorem C52_round_trip_false : ¬ CachedRoundTrip F := by
  intro hc
  obtain ⟨x, hx⟩ := exists_val (F := F) (phiX 0)
  obtain ⟨y, hy⟩ := exists_val (F := F) (phiY 0)
  have hQ : AffRep (⟨x, y⟩ : TwAff F) 0 := ⟨hx, hy⟩
  obtain ⟨-, vy, vz, -, -⟩ := C52_round_trip_partial hQ
  have := (hc _ _ hQ).y
  rw [vy, vz] at this
  exact phiY_ne 0 (by linear_combination this)

/-- The addition formula itself is right: on the documented form `((y+x)/2, (y-x)/2, dxy)` it gives
the sum. -/
theorem C52_documented_form {e : Fp} {P : TwExt F} {N : ANiels F} {R S : E} (h : RepX e P R)
    (hp : 2 * val N.YpX = phiY S + phiX S) (hm : 2 * val N.YmX = phiY S - phiX S)
    (ht : val N.td = (-39082) * (phiX S * phiY S)) : RepX e (P.addAffineNiels N) (R + S) := by
  have hd : (-39082 : Fp) = d - 1 := by unfold d; ring
  rw [hd] at ht
  have hA : val N.YpX * (val P.X + val P.Y) - val N.YmX * (val P.Y - val P.X) =
      e * 1 * (phiX R * phiY S + phiY R * phiX S) * val P.Z := by
    apply mul_left_cancel₀ two_ne
    rw [h.x, h.y]
    linear_combination (e * phiY R * val P.Z + e * phiX R * val P.Z) * hp -
      (e * phiY R * val P.Z - e * phiX R * val P.Z) * hm
  have hB : val N.YpX * (val P.X + val P.Y) + val N.YmX * (val P.Y - val P.X) =
      e * 1 * (phiY R * phiY S + phiX R * phiX S) * val P.Z := by
    apply mul_left_cancel₀ two_ne
    rw [h.x, h.y]
    linear_combination (e * phiY R * val P.Z + e * phiX R * val P.Z) * hp +
      (e * phiY R * val P.Z - e * phiX R * val P.Z) * hm
  have hT : val N.td * val P.T1 * val P.T2 =
      (d - 1) * (phiX R * phiX S * phiY R * phiY S) * val P.Z := by
    rw [mul_assoc, h.t, ht]; ring
  have hC : val P.Z - val N.td * val P.T1 * val P.T2 =
      (1 - (d - 1) * (phiX R * phiX S * phiY R * phiY S)) * val P.Z := by rw [hT]; ring
  have hD : val P.Z + val N.td * val P.T1 * val P.T2 =
      (1 + (d - 1) * (phiX R * phiX S * phiY R * phiY S)) * val P.Z := by rw [hT]; ring
  obtain ⟨c1, c2, c3, c4⟩ := tw_core (R := R) (S := S) h.s (one_pow 2) h.z hA hB hC hD
  rw [mul_one] at c2 c3
  refine ⟨h.s, ?_, ?_, ?_, ?_⟩
  · simpa only [TwExt.addAffineNiels, Lawful.val_add, Lawful.val_sub, val_mul] using c1
  · simpa only [TwExt.addAffineNiels, Lawful.val_add, Lawful.val_sub, val_mul] using c2
  · simpa only [TwExt.addAffineNiels, Lawful.val_add, Lawful.val_sub, val_mul] using c3
  · simpa only [TwExt.addAffineNiels, Lawful.val_add, Lawful.val_sub, val_mul] using c4

/-- `identity` is not in the documented form either: it is the unhalved one, and both
`to_extended` and addition send it off the curve. -/
theorem C52_identity : (ANiels.identity : ANiels F).equals TwAff.identity.toAffineNiels = true ∧
    (ANiels.identity : ANiels F).toExtended.isOnCurve = false ∧
    ((TwExt.identity : TwExt F).addAffineNiels ANiels.identity).eq TwExt.identity = false := by
  have h2 : (2 : Fp) ≠ 1 := by
    intro h; exact one_ne_zero (α := Fp) (by linear_combination h)
  refine ⟨?_, ?_, ?_⟩
  · unfold ANiels.equals
    simp only [Bool.and_eq_true, feq_iff, ANiels.identity, TwAff.identity, TwAff.toAffineNiels,
      Lawful.val_add, Lawful.val_sub, val_mul, val_mulR, Lawful.val_one, Lawful.val_zero]
    refine ⟨⟨by ring, by ring⟩, by ring⟩
  · rw [Bool.eq_false_iff]
    intro h
    rw [tw_isOnCurve_iff] at h
    have := h.1
    simp only [ANiels.identity, ANiels.toExtended, Lawful.val_add, Lawful.val_sub, val_mul,
      Lawful.val_one] at this
    exact one_ne_zero (α := Fp) (by linear_combination -this)
  · rw [Bool.eq_false_iff]
    intro h
    unfold TwExt.eq at h
    rw [Bool.and_eq_true, feq_iff, feq_iff] at h
    have := h.2
    simp only [TwExt.identity, ANiels.identity, TwExt.addAffineNiels, Lawful.val_add,
      Lawful.val_sub, val_mul, Lawful.val_one, Lawful.val_zero] at this
    exact h2 (by linear_combination this)

/-- A run of the code: the base point plus its cached form is not twice the base point, although the
uncached addition is. -/
example : ((TwPt.generator : TwPt U32.Fe).toExtensible.addAffineNiels
      (TwAff.toAffineNiels ⟨(TwPt.generator : TwPt U32.Fe).X,
        (TwPt.generator : TwPt U32.Fe).Y⟩)).toExtended.eq TwPt.generator.double = false ∧
    ((TwPt.generator : TwPt U32.Fe).toExtensible.addExtended
      (TwAff.toExtended ⟨(TwPt.generator : TwPt U32.Fe).X,
        (TwPt.generator : TwPt U32.Fe).Y⟩)).toExtended.eq TwPt.generator.double = true := by
  decide +kernel

/-! ## C55: affine twisted points -/

theorem affine_isOnCurve_iff (Q : TwAff F) : Q.isOnCurve = true ↔ TwOn (val Q.x) (val Q.y) := by
  unfold TwAff.isOnCurve TwOn
  rw [feq_iff]
  simp only [val_mul, val_mulC, val_square, Lawful.val_add, Lawful.val_sub, Lawful.lval_TWISTED_D,
    Lawful.val_one]

/-- The membership test of the affine form is the curve equation. -/
theorem C55_on_curve (Q : TwAff F) : Q.isOnCurve = true ↔
    val Q.y ^ 2 - val Q.x ^ 2 = 1 - 39082 * val Q.x ^ 2 * val Q.y ^ 2 := by
  rw [affine_isOnCurve_iff]
  unfold TwOn d
  constructor
  · intro h; linear_combination h
  · intro h; linear_combination h

/-- Affine addition and negation are the group operations of the image, and agree with the projective
operations. -/
theorem C55_affine_law {P Q : TwAff F} {R S : E} (h : AffRep P R) (k : AffRep Q S) :
    AffRep (P.add Q) (R + S) ∧ AffRep P.negate (-R) ∧ AffRep (TwAff.identity : TwAff F) 0 ∧
    (P.add Q).isOnCurve = true ∧
    (P.add Q).toExtended.eq (P.toExtended.add Q.toExtended) = true ∧
    P.negate.toExtended.eq P.toExtended.negate = true := by
  have hadd : AffRep (P.add Q) (R + S) := by
    obtain ⟨hx, hy⟩ := h
    obtain ⟨kx, ky⟩ := k
    have ha := phi_den_add R S
    have hs := phi_den_sub R S
    constructor
    · simp only [TwAff.add, val_mul, val_mulC, val_invert, Lawful.val_add, Lawful.val_sub,
        Lawful.val_one, Lawful.lval_TWISTED_D, hx, hy, kx, ky]
      rw [phi_add_x, show 1 + (d - 1) * phiX R * phiX S * phiY R * phiY S =
        1 + (d - 1) * (phiX R * phiX S * phiY R * phiY S) by ring, mul_assoc,
        mul_inv_cancel₀ ha, mul_one]
    · simp only [TwAff.add, val_mul, val_mulC, val_invert, Lawful.val_add, Lawful.val_sub,
        Lawful.val_one, Lawful.lval_TWISTED_D, hx, hy, kx, ky]
      rw [phi_add_y, show 1 - (d - 1) * phiX R * phiX S * phiY R * phiY S =
        1 - (d - 1) * (phiX R * phiX S * phiY R * phiY S) by ring, mul_assoc,
        mul_inv_cancel₀ hs, mul_one]
  have hneg : AffRep P.negate (-R) := by
    constructor
    · simp only [TwAff.negate, Lawful.val_negate, phiX_neg, h.1]
    · simp only [TwAff.negate, phiY_neg, h.2]
  refine ⟨hadd, hneg, ?_, ?_, ?_, ?_⟩
  · constructor
    · simp only [TwAff.identity, Lawful.val_zero, phiX_zero]
    · simp only [TwAff.identity, Lawful.val_one, phiY_zero]
  · rw [affine_isOnCurve_iff, hadd.1, hadd.2]; exact phi_on _
  · have e := h.toX.toT.add k.toX.toT
    rw [one_mul] at e
    exact (hadd.toX.toT.eq_iff e).2 ⟨rfl, rfl⟩
  · exact (hneg.toX.toT.eq_iff h.toX.toT.negate).2 ⟨rfl, rfl⟩

/-- `to_affine` of a projective point and back. -/
theorem C55_to_affine {Q : TwPt F} {R : E} (h : RepT 1 Q R) :
    AffRep Q.toAffine R ∧ Q.toAffine.toExtended.eq Q = true := by
  obtain ⟨hx, hy⟩ := h.toAffine
  rw [one_mul] at hx hy
  have ha : AffRep Q.toAffine R := ⟨hx, hy⟩
  exact ⟨ha, (ha.toX.toT.eq_iff h).2 ⟨rfl, rfl⟩⟩

/-- The repository's test, for every point of the image: `-P + P` is the identity. -/
example {P : TwAff F} {R : E} (h : AffRep P R) :
    AffRep (P.negate.add P) 0 ∧ feq (P.negate.add P).x FieldBackend.zero = true ∧
    feq (P.negate.add P).y FieldBackend.one = true := by
  have h2 := (C55_affine_law (C55_affine_law h h).2.1 h).1
  rw [neg_add_cancel] at h2
  refine ⟨h2, ?_, ?_⟩
  · rw [feq_iff, h2.1, phiX_zero, Lawful.val_zero]
  · rw [feq_iff, h2.2, phiY_zero, Lawful.val_one]

/-! ## C56: the coordinate systems agree -/

/-- All addition and subtraction routines of the extensible form agree, whichever form the second
operand is given in. -/
theorem C56_addition_routines {e f : Fp} {P : TwExt F} {Q : TwExt F} {R S : E} (h : RepX e P R)
    (k : RepX f Q S) :
    RepX (e * f) (P.addExtensible Q) (R + S) ∧
    RepX (e * f) (P.addExtended Q.toExtended) (R + S) ∧
    RepX (e * f) (P.addProjectiveNiels Q.toProjectiveNiels) (R + S) ∧
    RepX (e * f) (P.subExtended Q.toExtended) (R - S) ∧
    RepX (e * f) (P.addProjectiveNiels (Q.toProjectiveNiels.condNegate true)) (R - S) ∧
    RepX 1 P.double (R + R) := by
  refine ⟨h.addExtended k.toT, h.addExtended k.toT, h.addProjectiveNiels k.toN,
    h.subExtended k.toT, ?_, h.double⟩
  have := h.addProjectiveNiels (k.toN.condNegate true)
  rwa [if_pos rfl, ← sub_eq_add_neg] at this

/-- Equality of extensible points is equality of the points represented. -/
theorem C56_ext_eq {e f : Fp} {P Q : TwExt F} {R S : E} (h : RepX e P R) (k : RepX f Q S) :
    P.eq Q = true ↔ e * phiX R = f * phiX S ∧ e * phiY R = f * phiY S := by
  rw [← h.toT.eq_iff k.toT]
  rfl

/-- Conversions between the coordinate systems keep the point. -/
theorem C56_conversions {e : Fp} {P : TwPt F} {R : E} (h : RepT e P R) :
    P.toExtensible.toExtended.eq P = true ∧
    P.toExtensible.toProjectiveNiels.toExtended.eq P = true ∧
    (P.toExtensible.toProjectiveNiels.condNegate true).toExtended.eq P.negate = true := by
  refine ⟨(h.toX.toT.eq_iff h).2 ⟨rfl, rfl⟩, (h.toX.toN.toT.eq_iff h).2 ⟨rfl, rfl⟩, ?_⟩
  exact ((h.toX.toN.condNegate true).toT.eq_iff h.negate).2 ⟨rfl, rfl⟩

example : (TwPt.generator : TwPt U32.Fe).toExtensible.double.eq
      ((TwPt.generator : TwPt U32.Fe).toExtensible.addExtensible TwPt.generator.toExtensible) = true ∧
    ((TwPt.generator : TwPt U32.Fe).toExtensible.double.subExtended TwPt.generator).eq
      TwPt.generator.toExtensible = true ∧
    (TwPt.generator : TwPt U32.Fe).toExtensible.double.eq TwPt.generator.toExtensible = false := by
  decide +kernel

end Ed448.Props
