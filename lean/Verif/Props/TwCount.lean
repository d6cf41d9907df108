import Verif.Proofs.TwCount
import Verif.Props.Decaf

/-!
# The points of the twisted curve (C93)

`/repo/src/curve/twedwards/extended.rs` works on the curve `y² - x² = 1 - 39082 x²y²`.  Here its
rational points are counted and sorted: `4ℓ - 2` affine ones, two at infinity, and every affine one
is up to sign the image of a point of the Edwards curve or such an image moved by a point at
infinity.  Decaf and Ristretto equality identify each point of the second kind with one of the
first.
-/

namespace Ed448.Props
open Ed448.Model Ed448.Edw Ed448.Iso
open FieldVal (val)

set_option exponentiation.threshold 1000
set_option maxRecDepth 10000

variable {F L : Type} [FieldBackend F L] [Lawful F]

theorem twd_eq : d - 1 = (-39082 : Fp) := by unfold d; ring

theorem twd_ne : d - 1 ≠ 0 := by
  rw [twd_eq, neg_ne_zero]
  exact_mod_cast smallNat_ne_zero 39082 (by norm_num) (by norm_num)

theorem twd_square : IsSquare (d - 1) := by
  obtain ⟨r, hr⟩ := C51_root
  exact ⟨r, by rw [twd_eq, ← hr, sq]⟩

theorem char_ne_two : ringChar Fp ≠ 2 := by
  rw [ZMod.ringChar_zmod_n, p_lit]
  norm_num

/-- **The twisted curve has `4ℓ - 2` affine points over the field**
(`twedwards/affine.rs`, `twedwards/extended.rs`). -/
theorem C93_count :
    Nat.card {v : Fp × Fp // v.2 ^ 2 - v.1 ^ 2 = 1 + (-39082) * v.1 ^ 2 * v.2 ^ 2} = 4 * ell - 2 := by
  have h := TwCount.card_twisted (d := d) char_ne_two neg_one_nonsquare d_nonsquare twd_square twd_ne
  have hE : Nat.card E =
      (Finset.univ.filter fun v : Fp × Fp => v.1 ^ 2 + v.2 ^ 2 = 1 + d * v.1 ^ 2 * v.2 ^ 2).card := by
    rw [← Fintype.card_subtype, ← Nat.card_eq_fintype_card]
    exact Nat.card_congr
      { toFun := fun R => ⟨(R.x, R.y), R.on⟩
        invFun := fun v => ⟨v.1.1, v.1.2, v.2⟩
        left_inv := fun _ => rfl
        right_inv := fun _ => rfl }
  rw [← hE, card_E, twd_eq] at h
  rw [Nat.card_eq_fintype_card, Fintype.card_subtype, h, Nat.add_sub_cancel]

/-- **The points at infinity.**  In the projective coordinates of `twedwards/extended.rs`, a
rational point with `Z = 0` is a multiple of `(0, r, 0, 1)` or of `(0, -r, 0, 1)`, where `r` is a
root of `-39082`; these are two different points. -/
theorem C93_infinity {r : Fp} (hr : r ^ 2 = -39082) (X Y T : Fp) :
    ((X * Y = 0 * T ∧ Y ^ 2 - X ^ 2 = 0 ^ 2 + (-39082) * T ^ 2 ∧ ¬ (X = 0 ∧ Y = 0 ∧ T = 0)) ↔
      X = 0 ∧ T ≠ 0 ∧ (Y = r * T ∨ Y = -r * T)) ∧ r ≠ -r := by
  have hr0 : r ≠ 0 := by
    rintro rfl
    exact twd_ne (by rw [twd_eq, ← hr]; ring)
  refine ⟨⟨?_, ?_⟩, ?_⟩
  · rintro ⟨h1, h2, h3⟩
    have hT : T ≠ 0 := by
      rintro rfl
      rw [zero_mul] at h1
      rcases mul_eq_zero.1 h1 with h | h
      · refine h3 ⟨h, ?_, rfl⟩
        rw [h] at h2
        exact pow_eq_zero_iff two_ne_zero |>.1 (by linear_combination h2)
      · refine h3 ⟨?_, h, rfl⟩
        rw [h] at h2
        exact pow_eq_zero_iff two_ne_zero |>.1 (by linear_combination -h2)
    have hX : X = 0 := by
      rw [zero_mul] at h1
      rcases mul_eq_zero.1 h1 with h | h
      · exact h
      · exfalso
        apply n39082_nonsquare
        rw [h] at h2
        exact ⟨X / T, by field_simp; linear_combination h2⟩
    refine ⟨hX, hT, ?_⟩
    rw [hX, ← hr] at h2
    have : Y ^ 2 = (r * T) ^ 2 := by linear_combination h2
    rcases sq_eq_sq_iff_eq_or_eq_neg.1 this with h | h
    · exact Or.inl h
    · exact Or.inr (by rw [h]; ring)
  · rintro ⟨rfl, hT, hY⟩
    refine ⟨by ring, ?_, fun h => hT h.2.2⟩
    rw [← hr]
    rcases hY with rfl | rfl <;> ring
  · intro h
    have : 2 * r = 0 := by linear_combination h
    exact (mul_ne_zero two_ne hr0) this

/-- `(a, b)` is up to sign the image of a point of the Edwards curve. -/
def TwImage (a b : Fp) : Prop :=
  ∃ (e : Fp) (R : E), e ^ 2 = 1 ∧ a = e * phiX R ∧ b = e * phiY R

theorem TwImage.on {a b : Fp} (h : TwImage a b) : TwOn a b := by
  obtain ⟨e, R, he, rfl, rfl⟩ := h
  have := phi_on R
  unfold TwOn at *
  linear_combination this + (phiY R ^ 2 - phiX R ^ 2 - (d - 1) * phiX R ^ 2 * phiY R ^ 2 * (e ^ 2 + 1)) * he

theorem phi_cross {R S : E} (h : phiX R * phiY S = phiY R * phiX S) : t (R - S) = 0 := by
  have ha := phi_add_x R (-S)
  rw [phiX_neg, phiY_neg, ← sub_eq_add_neg] at ha
  have hd := phi_den_add R (-S)
  rw [phiX_neg, phiY_neg] at hd
  have h1 : phiX R * phiY S + phiY R * -phiX S = 0 := by linear_combination h
  rw [h1] at ha
  have h2 : phiX (R - S) = 0 := (mul_eq_zero.1 ha.symm).resolve_right hd
  unfold phiX at h2
  rcases div_eq_zero_iff.1 h2 with h | h
  · exact (mul_eq_zero.1 h).resolve_left two_ne
  · exact absurd h (N_ne _)

/-- Two images with the same `x/y` are equal up to sign. -/
theorem TwImage.cross {a b a' b' : Fp} (h : TwImage a b) (k : TwImage a' b')
    (e : a * b' = b * a') : a = a' ∨ a = -a' := by
  obtain ⟨u, R, hu, rfl, rfl⟩ := h
  obtain ⟨v, S, hv, rfl, rfl⟩ := k
  have hu0 : u ≠ 0 := by rintro rfl; simp at hu
  have hv0 : v ≠ 0 := by rintro rfl; simp at hv
  have hc : phiX R * phiY S = phiY R * phiX S :=
    mul_left_cancel₀ (mul_ne_zero hu0 hv0) (by linear_combination e)
  obtain ⟨hx, -⟩ := (phi_eq_iff R S).2 (phi_cross hc)
  rw [hx]
  rcases sq_eq_sq_iff_eq_or_eq_neg.1 (hu.trans hv.symm) with h | h
  · exact Or.inl (by rw [h])
  · exact Or.inr (by rw [h]; ring)

/-- The sign `±1`. -/
def sgn (b : Bool) : Fp := if b then 1 else -1

theorem sgn_sq (b : Bool) : sgn b ^ 2 = 1 := by cases b <;> simp [sgn]

theorem sgn_inj {a b : Bool} (h : sgn a = sgn b) : a = b := by
  have h2 := two_ne
  cases a <;> cases b <;> simp only [sgn, if_true, Bool.false_eq_true, if_false] at h ⊢
  · exact absurd (by linear_combination -h : (2 : Fp) = 0) h2
  · exact absurd (by linear_combination h : (2 : Fp) = 0) h2

theorem phi_mul_inj {e f : Bool} {j k : Fin ell}
    (hx : sgn e * phiX ((j : ℕ) • G) = sgn f * phiX ((k : ℕ) • G))
    (hy : sgn e * phiY ((j : ℕ) • G) = sgn f * phiY ((k : ℕ) • G)) : e = f ∧ j = k := by
  have he : sgn e ≠ 0 := by intro h; have := sgn_sq e; rw [h] at this; simp at this
  have hf : sgn f ≠ 0 := by intro h; have := sgn_sq f; rw [h] at this; simp at this
  have hc : phiX ((j : ℕ) • G) * phiY ((k : ℕ) • G) = phiY ((j : ℕ) • G) * phiX ((k : ℕ) • G) :=
    mul_left_cancel₀ (mul_ne_zero he hf) (by
      linear_combination (sgn f * phiY ((k : ℕ) • G)) * hx - (sgn f * phiX ((k : ℕ) • G)) * hy)
  have ht := phi_cross hc
  obtain ⟨-, hY⟩ := (phi_eq_iff _ _).2 ht
  refine ⟨sgn_inj ?_, ?_⟩
  · rw [hY] at hy
    exact mul_right_cancel₀ (phi_on ((k : ℕ) • G)).y_ne hy
  · have h4 := four_of_t_zero ht
    rw [smul_sub, sub_eq_zero, ← mul_nsmul', ← mul_nsmul'] at h4
    have h5 := (nsmul_eq_nsmul_iff_modEq (x := G)).1 h4
    rw [addOrderOf_G] at h5
    have hcop : Nat.gcd ell 4 = 1 := by rw [ell_lit]; decide +kernel
    have h6 := Nat.ModEq.cancel_left_of_coprime hcop h5
    exact Fin.ext (Nat.ModEq.eq_of_lt_of_lt h6 j.2 k.2)

/-- **The two kinds of points.**  Every affine point of the twisted curve is up to sign the image
of a point of the Edwards curve, or else it has `x ≠ 0` and becomes one when it is moved by a point
at infinity; never both. -/
theorem C93_classes {r : Fp} (hr : r ^ 2 = -39082) {a b : Fp} (h : TwOn a b) :
    (TwImage a b ∨ (a ≠ 0 ∧ TwImage (1 / (r * b)) (1 / (r * a)))) ∧
    ¬ (TwImage a b ∧ a ≠ 0 ∧ TwImage (1 / (r * b)) (1 / (r * a))) := by
  have hr0 : r ≠ 0 := by
    rintro rfl
    exact twd_ne (by rw [twd_eq, ← hr]; ring)
  have excl : ∀ {a b : Fp}, TwImage a b → a ≠ 0 → ¬ TwImage (1 / (r * b)) (1 / (r * a)) := by
    intro a b h ha k
    obtain ⟨-, h1, -, h2, h3⟩ := C51_translate hr h.on ha
    rcases h.cross k h1 with e | e
    · exact h2 e
    · exact h3 e
  refine ⟨?_, fun ⟨h1, h2, h3⟩ => excl h1 h2 h3⟩
  -- all points at once
  have hpos : 0 < ell := ell_prime.pos
  have xne : ∀ (e : Bool) (k : Fin ell), (k : ℕ) ≠ 0 → sgn e * phiX ((k : ℕ) • G) ≠ 0 := by
    intro e k hk h0
    have he : sgn e ≠ 0 := by intro h; have := sgn_sq e; rw [h] at this; simp at this
    have h1 := (mul_eq_zero.1 h0).resolve_left he
    have hc : phiX ((k : ℕ) • G) * phiY (((⟨0, hpos⟩ : Fin ell) : ℕ) • G) =
        phiY ((k : ℕ) • G) * phiX (((⟨0, hpos⟩ : Fin ell) : ℕ) • G) := by
      rw [h1, zero_nsmul]
      have : phiX (0 : E) = 0 := by unfold phiX t; show 2 * (0 * 1) / _ = _; simp
      rw [this]; ring
    have ht := phi_cross hc
    obtain ⟨hX, hY⟩ := (phi_eq_iff _ _).2 ht
    exact hk (congrArg Fin.val (phi_mul_inj (e := true) (f := true) (j := k) (k := ⟨0, hpos⟩)
      (by rw [hX]) (by rw [hY])).2)
  let A : Bool × Fin ell → {v : Fp × Fp // TwOn v.1 v.2} := fun q =>
    ⟨(sgn q.1 * phiX ((q.2 : ℕ) • G), sgn q.1 * phiY ((q.2 : ℕ) • G)),
      TwImage.on ⟨sgn q.1, _, sgn_sq _, rfl, rfl⟩⟩
  let B : Bool × {k : Fin ell // (k : ℕ) ≠ 0} → {v : Fp × Fp // TwOn v.1 v.2} := fun q =>
    ⟨(1 / (r * (A (q.1, q.2.1)).1.2), 1 / (r * (A (q.1, q.2.1)).1.1)),
      (C51_translate hr (A (q.1, q.2.1)).2 (xne _ _ q.2.2)).1⟩
  have hA : Function.Injective A := by
    rintro ⟨e, j⟩ ⟨f, k⟩ h
    have hx := congrArg (fun v => v.1.1) h
    have hy := congrArg (fun v => v.1.2) h
    obtain ⟨h1, h2⟩ := phi_mul_inj hx hy
    exact Prod.ext h1 h2
  have inv : ∀ {u v : Fp}, 1 / (r * u) = 1 / (r * v) → u = v := by
    intro u v h
    rw [one_div, one_div, inv_inj] at h
    exact mul_left_cancel₀ hr0 h
  have hB : Function.Injective B := by
    rintro ⟨e, j⟩ ⟨f, k⟩ h
    have hx : 1 / (r * _) = 1 / (r * _) := congrArg (fun v => v.1.1) h
    have hy : 1 / (r * _) = 1 / (r * _) := congrArg (fun v => v.1.2) h
    obtain ⟨h1, h2⟩ := phi_mul_inj (inv hy) (inv hx)
    exact Prod.ext h1 (Subtype.ext h2)
  have hAB : Function.Injective (Sum.elim A B) := by
    refine Function.Injective.sumElim hA hB fun q q' h => ?_
    refine excl (a := (A (q'.1, q'.2.1)).1.1) (b := (A (q'.1, q'.2.1)).1.2)
      ⟨_, _, sgn_sq _, rfl, rfl⟩ (xne _ _ q'.2.2) ?_
    have h' : B q' = A q := h.symm
    have h1 : 1 / (r * (A (q'.1, q'.2.1)).1.2) = (A q).1.1 := congrArg (fun v => v.1.1) h'
    have h2 : 1 / (r * (A (q'.1, q'.2.1)).1.1) = (A q).1.2 := congrArg (fun v => v.1.2) h'
    rw [h1, h2]
    exact ⟨_, _, sgn_sq _, rfl, rfl⟩
  have hcard : Nat.card ((Bool × Fin ell) ⊕ (Bool × {k : Fin ell // (k : ℕ) ≠ 0})) =
      Nat.card {v : Fp × Fp // TwOn v.1 v.2} := by
    have e1 : Nat.card {k : Fin ell // (k : ℕ) ≠ 0} = ell - 1 := by
      have : Nat.card {k : Fin ell // (k : ℕ) ≠ 0} = Nat.card {k : Fin ell // k ≠ ⟨0, hpos⟩} :=
        Nat.card_congr (Equiv.subtypeEquivRight fun k => by rw [ne_eq, ne_eq, Fin.ext_iff])
      rw [this, Nat.card_eq_fintype_card, Fintype.card_subtype_compl, Fintype.card_fin,
        Fintype.card_subtype_eq]
    have e2 : Nat.card {v : Fp × Fp // TwOn v.1 v.2} = 4 * ell - 2 := by
      rw [← C93_count]
      unfold TwOn
      rw [twd_eq]
    rw [Nat.card_sum, Nat.card_prod, Nat.card_prod, e1, e2, Nat.card_eq_fintype_card (α := Bool),
      Fintype.card_bool, Nat.card_eq_fintype_card (α := Fin ell), Fintype.card_fin]
    omega
  have bij := (Nat.bijective_iff_injective_and_card _).2 ⟨hAB, hcard⟩
  obtain ⟨q, hq⟩ := bij.2 ⟨(a, b), h⟩
  have hb := h.y_ne
  rcases q with q | q
  · left
    have h1 : _ = a := congrArg (fun v => v.1.1) hq
    have h2 : _ = b := congrArg (fun v => v.1.2) hq
    exact ⟨sgn q.1, _, sgn_sq _, h1.symm, h2.symm⟩
  · right
    have h1 : 1 / (r * (A (q.1, q.2.1)).1.2) = a := congrArg (fun v => v.1.1) hq
    have h2 : 1 / (r * (A (q.1, q.2.1)).1.1) = b := congrArg (fun v => v.1.2) hq
    have hx := xne q.1 q.2.1 q.2.2
    have hy := (A (q.1, q.2.1)).2.y_ne
    refine ⟨?_, ?_⟩
    · rw [← h1]; exact one_div_ne_zero (mul_ne_zero hr0 hy)
    · have hx' : (A (q.1, q.2.1)).1.1 ≠ 0 := hx
      have e1 : 1 / (r * b) = (A (q.1, q.2.1)).1.1 := by rw [← h2]; field_simp
      have e2 : 1 / (r * a) = (A (q.1, q.2.1)).1.2 := by rw [← h1]; field_simp
      rw [e1, e2]
      exact ⟨_, _, sgn_sq _, rfl, rfl⟩

/-- The same for the points of the model: a valid extended point represents `±φ(R)`, or it has
`X ≠ 0` and moved by a point at infinity it does. -/
theorem C93_points {r : Fp} (hr : r ^ 2 = -39082) {P : TwPt F} {a b : Fp} (h : TwRep P a b) :
    (∃ e R, RepT e P R) ∨ (val P.X ≠ 0 ∧ TwImage (1 / (r * b)) (1 / (r * a)) ∧ ¬ ∃ e R, RepT e P R) := by
  have back : ∀ {e : Fp} {R : E}, RepT e P R → TwImage a b := by
    intro e R k
    refine ⟨e, R, k.s, ?_, ?_⟩
    · exact mul_right_cancel₀ h.z (h.x.symm.trans k.x)
    · exact mul_right_cancel₀ h.z (h.y.symm.trans k.y)
  obtain ⟨h1, h2⟩ := C93_classes hr h.on
  rcases h1 with ⟨e, R, he, rfl, rfl⟩ | ⟨ha, k⟩
  · left
    refine ⟨e, R, he, h.z, h.x, h.y, ?_⟩
    rw [h.t]
    linear_combination (phiX R * phiY R * val P.Z) * he
  · right
    refine ⟨?_, k, fun ⟨e, R, k'⟩ => h2 ⟨back k', ha, k⟩⟩
    rw [h.x]
    exact mul_ne_zero ha h.z

/-- **Ristretto equality forgets the difference**: every valid point of the twisted curve is equal
(in the sense of `RistrettoPoint::ct_eq`, the comparison of `DecafPoint` as well) to one that
represents the image of a point of the Edwards curve, and to exactly one class of those modulo
four-torsion. -/
theorem C93_equals {P : RistPt F} {a b : Fp} (h : TwRep P.pt a b) :
    ∃ R : E, ∀ (Q : RistPt F) (f : Fp) (S : E), RepT f Q.pt S →
      (P.equals Q = true ↔ (4 : ℕ) • (R - S) = 0) := by
  obtain ⟨r, hr⟩ := C51_root
  have key : ∀ {a' b' : Fp}, TwImage a' b' → a * b' = b * a' →
      ∃ R : E, ∀ (Q : RistPt F) (f : Fp) (S : E), RepT f Q.pt S →
        (P.equals Q = true ↔ (4 : ℕ) • (R - S) = 0) := by
    rintro a' b' ⟨e, R, he, rfl, rfl⟩ hc
    refine ⟨R, fun Q f S k => ?_⟩
    rw [four_iff]
    have he0 : e ≠ 0 := by rintro rfl; simp at he
    have hf0 : f ≠ 0 := by intro h0; have := k.s; rw [h0] at this; simp at this
    have hz := mul_ne_zero h.z k.z
    have hb := h.on.y_ne
    have hy := (phi_on R).y_ne
    have hc' : a * phiY R = b * phiX R := mul_left_cancel₀ he0 (by linear_combination hc)
    unfold RistPt.equals
    rw [feq_iff, val_mul, val_mul, h.x, h.y, k.x, k.y]
    constructor
    · intro h0
      apply phi_cross
      have h1 : a * phiY S = b * phiX S :=
        mul_left_cancel₀ (mul_ne_zero hf0 hz) (by linear_combination h0)
      apply mul_left_cancel₀ hb
      linear_combination phiY R * h1 - phiY S * hc'
    · intro h0
      obtain ⟨hx, hY⟩ := (phi_eq_iff R S).2 h0
      rw [hx, hY] at hc'
      linear_combination (f * (val P.pt.Z * val Q.pt.Z)) * hc'
  rcases (C93_classes hr h.on).1 with k | ⟨ha, k⟩
  · exact key k (mul_comm a b)
  · refine key k ?_
    exact (C51_translate hr h.on ha).2.1

/-- The generator is of the first kind; moved by a point at infinity it is of the second. -/
example {r : Fp} (hr : r ^ 2 = -39082) :
    TwImage (phiX G) (phiY G) ∧
      TwOn (1 / (r * phiY G)) (1 / (r * phiX G)) ∧ ¬ TwImage (1 / (r * phiY G)) (1 / (r * phiX G)) := by
  have h : TwImage (phiX G) (phiY G) := ⟨1, G, by ring, by ring, by ring⟩
  have hx : phiX G ≠ 0 := by
    intro h0
    unfold phiX at h0
    rcases div_eq_zero_iff.1 h0 with h | h
    · have ht := (mul_eq_zero.1 h).resolve_left two_ne
      have h4 := addOrderOf_dvd_of_nsmul_eq_zero (four_of_t_zero ht)
      rw [addOrderOf_G] at h4
      have := Nat.le_of_dvd (by norm_num) h4
      rw [ell_lit] at this
      norm_num at this
    · exact N_ne _ h
  exact ⟨h, (C51_translate hr h.on hx).1, fun k => (C93_classes hr h.on).2 ⟨h, hx, k⟩⟩

end Ed448.Props
