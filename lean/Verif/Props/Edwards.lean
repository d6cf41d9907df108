import Verif.Proofs.Compress
import Verif.Proofs.MulPoints
import Verif.Proofs.Order
import Verif.Proofs.Fast
import Verif.Proofs.U32Instance
import Verif.Props.Scalar

/-!
# Properties of Edwards points (C13–C24, C29)

The statements hold for every lawful field backend `F`; examples use the 32-bit backend
`U32.Fe`. `Rep P R` says that the four field elements `P` are a projective representative of the
affine point `R` of the specification group `E` (`Z ≠ 0`, `X = xZ`, `Y = yZ`, `T = xyZ`).
-/

namespace Ed448.Props
open Ed448.Model Ed448.Edw
open FieldVal (val)

set_option exponentiation.threshold 1000
set_option maxRecDepth 10000

variable {F L : Type} [FieldBackend F L] [Lawful F]

/-- A small scalar. -/
def smallScalar (n : ℕ) : Scalar := Arr.ofVal 14 (2 ^ 32) (by norm_num) n

theorem smallScalar_val (n : ℕ) (h : n < 2 ^ 448) : (smallScalar n).val = n :=
  Arr.ofVal_val _ _ (by rw [← pow_mul]; exact h)

/-- Points produced by the public API. -/
inductive EdReach : EdPt F → Prop
  | identity : EdReach EdPt.identity
  | generator : EdReach EdPt.generator
  | decompress {b P} : edDecompress F b = some P → EdReach P
  | add {P Q} : EdReach P → EdReach Q → EdReach (P.add Q)
  | sub {P Q} : EdReach P → EdReach Q → EdReach (P.sub Q)
  | negate {P} : EdReach P → EdReach P.negate
  | double {P} : EdReach P → EdReach P.double
  | torque {P} : EdReach P → EdReach P.torque
  | scalarMul {P s r} : EdReach P → P.scalarMul s = some r → EdReach r
  | sum {l : List (EdPt F)} : (∀ P ∈ l, EdReach P) → EdReach (EdPt.sum l)
  | select {P Q} (c : Bool) : EdReach P → EdReach Q → EdReach (P.select Q c)
  | viaAffine {P} : EdReach P → EdReach P.toAffine.toExtended
  | viaTwisted {P} : EdReach P → EdReach P.toTwisted.toUntwisted

/-! ## C13 -/

theorem forall_rep {l : List (EdPt F)} (h : ∀ P ∈ l, ∃ R, Rep P R) :
    ∃ m : List E, List.Forall₂ Rep l m := by
  induction l with
  | nil => exact ⟨[], .nil⟩
  | cons P l ih =>
    obtain ⟨R, hR⟩ := h P (by simp)
    obtain ⟨m, hm⟩ := ih fun Q hQ => h Q (by simp [hQ])
    exact ⟨R :: m, .cons hR hm⟩

theorem EdReach.rep {P : EdPt F} (h : EdReach P) : ∃ R, Rep P R := by
  induction h with
  | identity => exact ⟨_, rep_identity⟩
  | generator => exact ⟨_, rep_generator⟩
  | decompress h => obtain ⟨R, hR, -⟩ := edDecompress_some _ h; exact ⟨R, hR⟩
  | add _ _ h k => obtain ⟨R, h⟩ := h; obtain ⟨S, k⟩ := k; exact ⟨_, rep_add h k⟩
  | sub _ _ h k => obtain ⟨R, h⟩ := h; obtain ⟨S, k⟩ := k; exact ⟨_, rep_sub h k⟩
  | negate _ h => obtain ⟨R, h⟩ := h; exact ⟨_, rep_negate h⟩
  | double _ h => obtain ⟨R, h⟩ := h; exact ⟨_, rep_double h⟩
  | torque _ h => obtain ⟨R, h⟩ := h; exact ⟨_, rep_torque h⟩
  | scalarMul _ e h =>
    obtain ⟨R, h⟩ := h
    obtain ⟨r, e', hr⟩ := rep_scalarMul h ‹_›
    rw [e] at e'; cases e'; exact ⟨_, hr⟩
  | sum _ h => obtain ⟨m, hm⟩ := forall_rep h; exact ⟨_, rep_sum hm⟩
  | select c _ _ h k => obtain ⟨R, h⟩ := h; obtain ⟨S, k⟩ := k; exact ⟨_, rep_select h k c⟩
  | viaAffine _ h =>
    obtain ⟨R, h⟩ := h
    exact ⟨R, rep_ofAffine (rep_toAffine h).1 (rep_toAffine h).2⟩
  | viaTwisted _ h => obtain ⟨R, h⟩ := h; exact ⟨_, (rep_toTwisted h).toUntwisted⟩

/-- Every point any history of API calls can produce satisfies the projective curve equation with
`Z ≠ 0`, passes `is_on_curve`, and represents exactly one affine point. -/
theorem C13_points_valid {P : EdPt F} (h : EdReach P) :
    val P.Z ≠ 0 ∧ val P.X * val P.Y = val P.Z * val P.T ∧
      val P.X ^ 2 + val P.Y ^ 2 = val P.Z ^ 2 + (-39081) * val P.T ^ 2 ∧
      P.isOnCurve = true ∧ ∃! R : E, Rep P R := by
  obtain ⟨R, hR⟩ := h.rep
  obtain ⟨h1, h2, h3⟩ := (rep_iff_valid P).1 ⟨R, hR⟩
  exact ⟨h1, h2, h3, (isOnCurve_iff P).2 ⟨h2, h3⟩, R, hR, fun S hS => hS.unique hR⟩

/-- Conversely every point of the curve can be produced. -/
theorem C13_all_points_reachable (R : E) : ∃ P : EdPt F, EdReach P ∧ Rep P R := by
  have hlt : encodeE R < 256 ^ 57 := by
    have := y_val_lt R
    unfold encodeE
    cases negv R.x <;> simp <;> omega
  have e : (Arr.ofVal 57 256 (by norm_num) (encodeE R)).val = encodeE R := Arr.ofVal_val _ _ hlt
  obtain ⟨P, h1, h2⟩ := edDecompress_of_encode (F := F) e
  exact ⟨P, .decompress h1, h2⟩

/-- Non-vacuity: the doubled base point is not the identity, and the check is evaluated. -/
example : ∃ P : EdPt U32.Fe, EdReach P ∧ P.isOnCurve = true ∧ P.eq EdPt.identity = false :=
  ⟨EdPt.generator.double.torque, (EdReach.generator.double).torque, by decide +kernel,
    by decide +kernel⟩

/-- `is_on_curve` is not constantly true. -/
example : (⟨FieldBackend.one, FieldBackend.one, FieldBackend.one, FieldBackend.one⟩ :
    EdPt U32.Fe).isOnCurve = false := by decide +kernel

/-! ## C14 -/

/-- `P + Q` has the coordinates given by the complete Edwards addition law, whatever the
representatives, including `P = Q`, `P = -Q`, the identity and torsion points. -/
theorem C14_addition_law {P Q : EdPt F} {R S : E} (h : Rep P R) (k : Rep Q S) :
    val (P.add Q).toAffine.x =
      (R.x * S.y + R.y * S.x) / (1 + (-39081) * R.x * S.x * R.y * S.y) ∧
    val (P.add Q).toAffine.y =
      (R.y * S.y - R.x * S.x) / (1 - (-39081) * R.x * S.x * R.y * S.y) ∧
    1 + (-39081) * R.x * S.x * R.y * S.y ≠ 0 ∧ 1 - (-39081) * R.x * S.x * R.y * S.y ≠ 0 ∧
    Rep (P.add Q) (R + S) := by
  have hs := rep_add h k
  obtain ⟨e1, e2⟩ := rep_toAffine hs
  refine ⟨?_, ?_, den_add (d := d) R.on S.on, den_sub (d := d) R.on S.on, hs⟩
  · rw [e1, Pt.add_x]; rfl
  · rw [e2, Pt.add_y]; rfl

/-- The abelian group laws, observed through `==`. -/
theorem C14_group_laws {P Q T : EdPt F} (hP : EdReach P) (hQ : EdReach Q) (hT : EdReach T) :
    ((P.add Q).add T).eq (P.add (Q.add T)) = true ∧ (P.add Q).eq (Q.add P) = true ∧
    (P.add EdPt.identity).eq P = true ∧ (P.sub P).eq EdPt.identity = true ∧
    (P.add P.negate).eq EdPt.identity = true ∧ (P.sub Q).eq (P.add Q.negate) = true ∧
    P.double.eq (P.add P) = true := by
  obtain ⟨R, h⟩ := hP.rep
  obtain ⟨S, k⟩ := hQ.rep
  obtain ⟨U, m⟩ := hT.rep
  have i := rep_identity (F := F)
  refine ⟨?_, ?_, ?_, ?_, ?_, ?_, ?_⟩
  · rw [rep_eq (rep_add (rep_add h k) m) (rep_add h (rep_add k m)), add_assoc]
  · rw [rep_eq (rep_add h k) (rep_add k h), add_comm]
  · rw [rep_eq (rep_add h i) h, add_zero]
  · rw [rep_eq (rep_sub h h) i, sub_self]
  · rw [rep_eq (rep_add h (rep_negate h)) i, add_neg_cancel]
  · rw [rep_eq (rep_sub h k) (rep_add h (rep_negate k)), sub_eq_add_neg]
  · rw [rep_eq (rep_double h) (rep_add h h)]

example : ((EdPt.generator : EdPt U32.Fe).sub EdPt.generator).eq EdPt.identity = true ∧
    ((EdPt.generator : EdPt U32.Fe).add EdPt.generator).eq EdPt.generator = false := by
  decide +kernel

/-! ## C15 -/

/-- `==` holds iff both represent the same affine point. -/
theorem C15_eq_iff {P Q : EdPt F} {R S : E} (h : Rep P R) (k : Rep Q S) :
    P.eq Q = true ↔ R = S := rep_eq h k

/-- `==` is an equivalence relation on reachable points and a congruence for all operations. -/
theorem C15_eq_congruence {P P' Q Q' : EdPt F} (hP : EdReach P) (hP' : EdReach P')
    (hQ : EdReach Q) (hQ' : EdReach Q') :
    P.eq P = true ∧ (P.eq Q = true → Q.eq P = true) ∧
    (P.eq P' = true → P'.eq Q = true → P.eq Q = true) ∧
    (P.eq P' = true → Q.eq Q' = true →
      (P.add Q).eq (P'.add Q') = true ∧ (P.sub Q).eq (P'.sub Q') = true ∧
      P.negate.eq P'.negate = true ∧ P.double.eq P'.double = true ∧
      P.torque.eq P'.torque = true ∧ P.compress = P'.compress ∧
      P.isTorsionFree = P'.isTorsionFree ∧
      ∀ s r r', P.scalarMul s = some r → P'.scalarMul s = some r' → r.eq r' = true) := by
  obtain ⟨R, h⟩ := hP.rep
  obtain ⟨R', h'⟩ := hP'.rep
  obtain ⟨S, k⟩ := hQ.rep
  obtain ⟨S', k'⟩ := hQ'.rep
  refine ⟨(rep_eq h h).2 rfl, fun e => (rep_eq k h).2 ((rep_eq h k).1 e).symm, fun e e' =>
    (rep_eq h k).2 (((rep_eq h h').1 e).trans ((rep_eq h' k).1 e')), fun e e' => ?_⟩
  obtain rfl := (rep_eq h h').1 e
  obtain rfl := (rep_eq k k').1 e'
  refine ⟨(rep_eq (rep_add h k) (rep_add h' k')).2 rfl, (rep_eq (rep_sub h k) (rep_sub h' k')).2 rfl,
    (rep_eq (rep_negate h) (rep_negate h')).2 rfl, (rep_eq (rep_double h) (rep_double h')).2 rfl,
    (rep_eq (rep_torque h) (rep_torque h')).2 rfl, ?_, ?_, ?_⟩
  · exact Arr.val_inj (by norm_num) (by rw [compress_val h, compress_val h'])
  · obtain ⟨r, e1, h1⟩ := rep_scalarMul h EdPt.BASEPOINT_ORDER
    obtain ⟨r', e2, h2⟩ := rep_scalarMul h' EdPt.BASEPOINT_ORDER
    unfold EdPt.isTorsionFree
    rw [e1, e2]
    simp only [Option.map_some, Option.some_inj]
    rw [Bool.eq_iff_iff, rep_eq h1 rep_identity, rep_eq h2 rep_identity]
  · intro s r r' e1 e2
    obtain ⟨q, f1, h1⟩ := rep_scalarMul h s
    obtain ⟨q', f2, h2⟩ := rep_scalarMul h' s
    rw [e1] at f1; cases f1
    rw [e2] at f2; cases f2
    exact (rep_eq h1 h2).2 rfl

/-- Two different representatives of the same point (`Z = 1` and `Z ≠ 1`). -/
example : ((EdPt.generator : EdPt U32.Fe).add EdPt.identity).eq EdPt.generator = true ∧
    FieldBackend.toBytes ((EdPt.generator : EdPt U32.Fe).double.sub EdPt.generator).Z ≠
      FieldBackend.toBytes (EdPt.generator : EdPt U32.Fe).Z ∧
    ((EdPt.generator : EdPt U32.Fe).double.sub EdPt.generator).eq EdPt.generator = true := by
  decide +kernel

/-! ## C16, C17 -/

/-- Scalar multiplication never panics and represents the `s`-fold sum, for every point and every
448-bit scalar. -/
theorem C16_scalar_mul {P : EdPt F} {R : E} (h : Rep P R) (s : Scalar) :
    ∃ r, P.scalarMul s = some r ∧ Rep r (s.val • R) := rep_scalarMul h s

/-- On a torsion point with a non-canonical scalar: `(2^448 - 1) T = -T` for `T` of order 4. -/
example : ∃ P r : EdPt F, Rep P torsion4 ∧ P.scalarMul allOnes = some r ∧ Rep r (-torsion4) := by
  obtain ⟨P, -, hP⟩ := C13_all_points_reachable (F := F) torsion4
  obtain ⟨r, e, hr⟩ := C16_scalar_mul hP allOnes
  refine ⟨P, r, hP, e, ?_⟩
  have : allOnes.val • torsion4 = -torsion4 := by
    rw [allOnes_val]
    have e : (2 ^ 32) ^ 14 - 1 = 4 * (2 ^ 446 - 1) + 3 := by norm_num
    rw [e, add_nsmul, mul_comm, mul_nsmul', four_torsion4, smul_zero, zero_add, eq_neg_iff_add_eq_zero]
    rw [← four_torsion4]; abel
  rw [← this]; exact hr

theorem C17_linear {P Q : EdPt F} {R S : E} (h : Rep P R) (k : Rep Q S) (s : Scalar) :
    ∃ a b c, (P.add Q).scalarMul s = some a ∧ P.scalarMul s = some b ∧ Q.scalarMul s = some c ∧
      a.eq (b.add c) = true := by
  obtain ⟨a, e1, h1⟩ := rep_scalarMul (rep_add h k) s
  obtain ⟨b, e2, h2⟩ := rep_scalarMul h s
  obtain ⟨c, e3, h3⟩ := rep_scalarMul k s
  exact ⟨a, b, c, e1, e2, e3, (rep_eq h1 (rep_add h2 h3)).2 (nsmul_add _ _ _)⟩

theorem nsmul_mod {R : E} (hR : ell • R = 0) (n : ℕ) : (n % ell) • R = n • R := by
  conv_rhs => rw [← Nat.mod_add_div n ell, add_nsmul, mul_nsmul, hR, smul_zero, add_zero]

/-- For torsion-free points, canonical scalar arithmetic acts linearly. -/
theorem C17_scalar_arith {P : EdPt F} {R : E} (h : Rep P R)
    (hP : P.isTorsionFree = some true) (a b : Scalar) (ha : a.val < ell) (hb : b.val < ell) :
    ∃ ab amb u v w x y, Scalar.add a b = some ab ∧ Scalar.mul a b = some amb ∧
      P.scalarMul ab = some u ∧ P.scalarMul a = some v ∧ P.scalarMul b = some w ∧
      P.scalarMul amb = some x ∧ w.scalarMul a = some y ∧
      u.eq (v.add w) = true ∧ x.eq y = true := by
  have hR : ell • R = 0 := by
    obtain ⟨r, e, hr⟩ := rep_scalarMul h EdPt.BASEPOINT_ORDER
    unfold EdPt.isTorsionFree at hP
    rw [e, Option.map_some, Option.some_inj, rep_eq hr rep_identity] at hP
    rw [← hP]; congr 1; rw [ell_lit]; decide +kernel
  obtain ⟨ab, e1, v1, -⟩ := C01_scalar_add a b ha hb
  obtain ⟨amb, e2, v2, -⟩ := C03_scalar_mul a b
  obtain ⟨u, e3, h3⟩ := rep_scalarMul h ab
  obtain ⟨v, e4, h4⟩ := rep_scalarMul h a
  obtain ⟨w, e5, h5⟩ := rep_scalarMul h b
  obtain ⟨x, e6, h6⟩ := rep_scalarMul h amb
  obtain ⟨y, e7, h7⟩ := rep_scalarMul h5 a
  refine ⟨ab, amb, u, v, w, x, y, e1, e2, e3, e4, e5, e6, e7, ?_, ?_⟩
  · rw [rep_eq h3 (rep_add h4 h5), v1, nsmul_mod hR, add_nsmul]
  · rw [rep_eq h6 h7, v2, nsmul_mod hR, mul_nsmul']

/-! ## C18, C19 -/

/-- `is_torsion_free` never panics; it is true iff `l P = 0`, iff `P` is a multiple of the base
point. -/
theorem C18_torsion_free {P : EdPt F} {R : E} (h : Rep P R) :
    ∃ b, P.isTorsionFree = some b ∧ (b = true ↔ ell • R = 0) ∧ (b = true ↔ ∃ n : ℕ, R = n • G) := by
  obtain ⟨r, e, hr⟩ := rep_scalarMul h EdPt.BASEPOINT_ORDER
  have hv : EdPt.BASEPOINT_ORDER.val = ell := by rw [ell_lit]; decide +kernel
  rw [hv] at hr
  refine ⟨_, by unfold EdPt.isTorsionFree; rw [e, Option.map_some], rep_eq hr rep_identity, ?_⟩
  rw [rep_eq hr rep_identity, ell_nsmul_iff, AddSubgroup.mem_zmultiples_iff]
  constructor
  · rintro ⟨k, rfl⟩
    refine ⟨(k % ell).toNat, ?_⟩
    have h0 : (0 : ℤ) ≤ k % ell := Int.emod_nonneg _ (by exact_mod_cast ell_pos.ne')
    rw [← natCast_zsmul, Int.toNat_of_nonneg h0]
    conv_lhs => rw [← Int.emod_add_mul_ediv k ell, add_zsmul, mul_comm, mul_zsmul, natCast_zsmul,
      ell_G, smul_zero, add_zero]
  · rintro ⟨n, rfl⟩
    exact ⟨n, natCast_zsmul _ _⟩

theorem C18_generator : (EdPt.generator : EdPt F).isTorsionFree = some true := by
  obtain ⟨b, e, h, -⟩ := C18_torsion_free (rep_generator (F := F))
  rw [e, h.2 ell_G]

/-- The torqued base point is rejected. -/
example : (EdPt.generator : EdPt F).torque.isTorsionFree = some false := by
  obtain ⟨b, e, h, -⟩ := C18_torsion_free (rep_torque (rep_generator (F := F)))
  rw [e]
  congr 1
  rw [Bool.eq_false_iff]
  intro hb
  have := h.1 hb
  rw [nsmul_add, ell_G, zero_add] at this
  have h2 : (2 : ℕ) • torsion2 = 0 := by rw [two_nsmul, torsion2_two]
  have he : ell = 2 * (ell / 2) + 1 := by rw [ell_lit]
  rw [he, add_nsmul, mul_comm, mul_nsmul', h2, smul_zero, zero_add, one_nsmul] at this
  exact torsion2_ne this

theorem C19_orders :
    ell.Prime ∧ addOrderOf G = ell ∧ Nat.card E = 4 * ell ∧
    (∀ R : E, ∃ n : ℕ, 4 • R = n • G) ∧ ∀ R : E, (4 * ell) • R = 0 := by
  refine ⟨ell_prime, addOrderOf_G, card_E, fun R => ?_, four_ell⟩
  obtain ⟨k, hk⟩ := AddSubgroup.mem_zmultiples_iff.1 (four_mem R)
  refine ⟨(k % ell).toNat, ?_⟩
  have h0 : (0 : ℤ) ≤ k % ell := Int.emod_nonneg _ (by exact_mod_cast ell_pos.ne')
  rw [← hk, ← natCast_zsmul, Int.toNat_of_nonneg h0]
  conv_lhs => rw [← Int.emod_add_mul_ediv k ell, add_zsmul, mul_comm, mul_zsmul, natCast_zsmul,
    ell_G, smul_zero, add_zero]

/-- Through the API: `4 * P` is torsion-free for every point that can be produced, and the multiples
`0, 1, …, l-1` of the generator are pairwise different. -/
theorem C19_cofactor {P : EdPt F} (h : EdReach P) :
    ∃ r, P.scalarMul (smallScalar 4) = some r ∧ r.isTorsionFree = some true := by
  obtain ⟨R, h⟩ := h.rep
  obtain ⟨r, e, hr⟩ := rep_scalarMul h (smallScalar 4)
  obtain ⟨b, e', hb, -⟩ := C18_torsion_free hr
  refine ⟨r, e, ?_⟩
  rw [e', hb.2]
  rw [smallScalar_val 4 (by norm_num), ← mul_nsmul', mul_comm, four_ell]

theorem C19_generator_multiples (a b : Scalar) (ha : a.val < ell) (hb : b.val < ell) :
    ∃ r s, (EdPt.generator : EdPt F).scalarMul a = some r ∧
      (EdPt.generator : EdPt F).scalarMul b = some s ∧ (r.eq s = true ↔ a = b) := by
  obtain ⟨r, e, hr⟩ := rep_scalarMul (rep_generator (F := F)) a
  obtain ⟨s, e', hs⟩ := rep_scalarMul (rep_generator (F := F)) b
  refine ⟨r, s, e, e', ?_⟩
  rw [rep_eq hr hs]
  constructor
  · intro h
    refine Arr.val_inj (by norm_num) ?_
    rw [← addOrderOf_G] at ha hb
    exact nsmul_injOn_Iio_addOrderOf ha hb h
  · rintro rfl; rfl

/-! ## C20–C23: compression -/

theorem C20_round_trip {P : EdPt F} (h : EdReach P) :
    ∃ Q, edDecompress F P.compress = some Q ∧ Q.eq P = true := by
  obtain ⟨R, h⟩ := h.rep
  obtain ⟨Q, e, hQ⟩ := edDecompress_of_encode (F := F) (compress_val h)
  exact ⟨Q, e, (rep_eq hQ h).2 rfl⟩

theorem C21_compress_injective {P Q : EdPt F} (hP : EdReach P) (hQ : EdReach Q) :
    P.compress = Q.compress ↔ P.eq Q = true := by
  obtain ⟨R, h⟩ := hP.rep
  obtain ⟨S, k⟩ := hQ.rep
  rw [← Arr.val_inj_iff (by norm_num), compress_val h, compress_val k, encodeE_inj, rep_eq h k]

/-- What the 57 bytes spell: `y` in canonical form and the parity of `x` in the top bit. -/
theorem C21_compress_value {P : EdPt F} {R : E} (h : Rep P R) :
    P.compress.val = R.y.val + 2 ^ 455 * (R.x.val % 2) := by
  rw [compress_val h, encodeE]
  unfold negv
  rcases Nat.mod_two_eq_zero_or_one R.x.val with h | h <;> simp [h]

theorem C22_decompress_accepts (b : Bytes 57) :
    ((edDecompress F b).isSome = true ↔ ∃ R : E, R.y = ((b.val % 2 ^ 448 : ℕ) : Fp)) ∧
    ∀ P, edDecompress F b = some P → ∃ R : E, Rep P R ∧ R.y = ((b.val % 2 ^ 448 : ℕ) : Fp) ∧
      (R.x = 0 ∨ R.x.val % 2 = b.val / 2 ^ 455) := by
  refine ⟨edDecompress_isSome b, fun P h => ?_⟩
  obtain ⟨R, h1, h2, h3⟩ := edDecompress_some b h
  refine ⟨R, h1, h2, h3.imp id fun h => ?_⟩
  have hb : b.val < 256 ^ 57 := Arr.val_lt (by norm_num) b
  unfold negv at h
  rw [Bool.eq_iff_iff, beq_iff_eq, decide_eq_true_iff] at h
  omega

/-- Both outcomes occur: `y = 0` is accepted and `y = 2` is rejected. -/
example : (edDecompress Fast (Arr.ofVal 57 256 (by norm_num) 0)).isSome = true ∧
    (edDecompress Fast (Arr.ofVal 57 256 (by norm_num) 2)).isSome = false := by
  decide +kernel

/-- The claim of C23: accepted encodings re-encode to themselves. -/
def EncodingsUnique (F : Type) {L : Type} [FieldBackend F L] : Prop :=
  ∀ b P, edDecompress F b = some P → P.compress = b

/-- Exactly which accepted strings re-encode to themselves: `y` is below `p`, the seven unused bits
are zero, and the sign bit is clear when `x = 0`. -/
theorem C23_encodings_unique_partial (b : Bytes 57) (P : EdPt F) (h : edDecompress F b = some P) :
    P.compress = b ↔ b.val % 2 ^ 448 < p ∧ b.val / 2 ^ 448 % 2 ^ 7 = 0 ∧
      (b.val / 2 ^ 455 = 1 → (b.val % 2 ^ 448) ≠ 1 ∧ (b.val % 2 ^ 448) ≠ p - 1) := by
  obtain ⟨R, h1, h2, h3⟩ := edDecompress_some b h
  have hb : b.val < 256 ^ 57 := Arr.val_lt (by norm_num) b
  have hp1 : 1 < p := p_prime.one_lt
  rw [← Arr.val_inj_iff (by norm_num), C21_compress_value h1]
  have hy : R.y.val = b.val % 2 ^ 448 % p := by rw [h2]; exact ZMod.val_natCast _ _
  have hlt := y_val_lt R
  have hylt := ZMod.val_lt R.y
  have hx0 : R.x = 0 ↔ R.y.val = 1 ∨ R.y.val = p - 1 := by
    have hon := (on_iff _ _).1 R.on
    have e1 : R.y.val = 1 ↔ R.y = 1 := by
      rw [← ZMod.val_one'' (n := p) hp1.ne']
      exact ⟨fun h => ZMod.val_injective p h, fun h => by rw [h]⟩
    have e2 : R.y.val = p - 1 ↔ R.y = -1 := by
      have : ((-1 : Fp)).val = p - 1 := by
        have := neg_cast 1 hp1.le
        rw [Nat.cast_one] at this
        rw [← this, ZMod.val_natCast, Nat.mod_eq_of_lt (by omega)]
      rw [← this]
      exact ⟨fun h => ZMod.val_injective p h, fun h => by rw [h]⟩
    rw [e1, e2]
    constructor
    · intro h
      rw [h, eq_div_iff (one_sub_dy_ne _)] at hon
      have h1 : R.y ^ 2 = 1 := by linear_combination hon
      rcases sq_eq_sq_iff_eq_or_eq_neg.1 (h1.trans (one_pow 2).symm) with h | h
      · exact .inl h
      · exact .inr h
    · intro h
      have : R.y ^ 2 = 1 := by rcases h with h | h <;> rw [h] <;> ring
      rw [this, sub_self, zero_div] at hon
      exact pow_eq_zero_iff (two_ne_zero) |>.1 hon
  have h3' : R.x = 0 ∨ R.x.val % 2 = b.val / 2 ^ 455 := by
    refine h3.imp id fun h => ?_
    unfold negv at h
    rw [Bool.eq_iff_iff, beq_iff_eq, decide_eq_true_iff] at h
    omega
  constructor
  · intro e
    have hm : b.val % 2 ^ 448 = R.y.val := by rw [← e]; omega
    refine ⟨by omega, by omega, fun hs => ?_⟩
    rw [hm]
    have hx1 : R.x.val % 2 = 1 := by omega
    have hx : R.x ≠ 0 := by intro h; rw [h] at hx1; simp at hx1
    rw [Ne, Ne, ← not_or, ← hx0]
    exact hx
  · rintro ⟨c1, c2, c3⟩
    rw [Nat.mod_eq_of_lt c1] at hy
    rcases h3' with hx | hx
    · have hv : R.x.val = 0 := by rw [hx]; exact ZMod.val_zero
      have hs : b.val / 2 ^ 455 = 0 := by
        by_contra hc
        have hc1 : b.val / 2 ^ 455 = 1 := by omega
        have := c3 hc1
        rw [← hy] at this
        have := hx0.1 hx
        omega
      rw [hv, hy]; omega
    · rw [hx, hy]; omega

/-- The claim of C23 is false: `p + 1` is accepted as `y = 1`. -/
theorem C23_encodings_unique_false : ¬ EncodingsUnique F := by
  intro hc
  set b : Bytes 57 := Arr.ofVal 57 256 (by norm_num) (p + 1) with hb
  have hv : b.val = p + 1 := Arr.ofVal_val _ _ (by rw [p_lit]; norm_num)
  have hsome : (edDecompress F b).isSome = true := by
    rw [edDecompress_isSome]
    refine ⟨0, ?_⟩
    unfold yOf
    rw [hv, Nat.mod_eq_of_lt (by rw [p_lit]; norm_num)]
    simp [Pt.zero_y]
  obtain ⟨P, hP⟩ := Option.isSome_iff_exists.1 hsome
  have := ((C23_encodings_unique_partial b P hP).1 (hc b P hP)).1
  rw [hv, Nat.mod_eq_of_lt (by rw [p_lit]; norm_num)] at this
  omega

/-- Two further families of duplicates: unused bits of the last byte, and the sign bit with `x = 0`. -/
theorem C23_more_duplicates :
    (∃ P, edDecompress F (Arr.ofVal 57 256 (by norm_num) (1 + 2 ^ 448)) = some P ∧ Rep P 0) ∧
    (∃ P, edDecompress F (Arr.ofVal 57 256 (by norm_num) (1 + 2 ^ 455)) = some P ∧ Rep P 0) := by
  have key : ∀ n, n < 256 ^ 57 → n % 2 ^ 448 = 1 →
      ∃ P, edDecompress F (Arr.ofVal 57 256 (by norm_num) n) = some P ∧ Rep P 0 := by
    intro n hn h1
    set b : Bytes 57 := Arr.ofVal 57 256 (by norm_num) n with hb
    have hv : b.val = n := Arr.ofVal_val _ _ hn
    have hy : (0 : E).y = yOf b := by unfold yOf; rw [hv, h1]; simp [Pt.zero_y]
    obtain ⟨P, hP⟩ := Option.isSome_iff_exists.1 ((edDecompress_isSome (F := F) b).2 ⟨0, hy⟩)
    obtain ⟨R, h1, h2, -⟩ := edDecompress_some b hP
    have : R = 0 := by
      have e : R.y = 1 := by rw [h2, ← hy]; rfl
      have hon := (on_iff _ _).1 R.on
      rw [e] at hon
      ext
      · have : R.x ^ 2 = 0 := by rw [hon]; simp
        exact pow_eq_zero_iff two_ne_zero |>.1 this
      · exact e
    exact ⟨P, hP, this ▸ h1⟩
  exact ⟨key _ (by norm_num) (by norm_num), key _ (by norm_num) (by norm_num)⟩

/-! ## C24, C29 -/

theorem C24_torque {P : EdPt F} {R : E} (h : Rep P R) :
    Rep P.torque (R + torsion2) ∧ P.torque.torque.eq P = true ∧ P.torque.eq P = false ∧
      torsion2.x = 0 ∧ torsion2.y = -1 := by
  have h1 := rep_torque h
  refine ⟨h1, ?_, ?_, rfl, rfl⟩
  · rw [rep_eq (rep_torque h1) h, add_assoc, torsion2_two, add_zero]
  · rw [Bool.eq_false_iff]
    intro e
    exact torsion2_ne (by simpa using (rep_eq h1 h).1 e)

example : ((EdPt.identity : EdPt U32.Fe).torque).eq EdPt.identity = false ∧
    ((EdPt.identity : EdPt U32.Fe).torque.double).eq EdPt.identity = true := by decide +kernel

theorem C29_sum {l : List (EdPt F)} {m : List E} (h : List.Forall₂ Rep l m) :
    Rep (EdPt.sum l) m.sum := rep_sum h

theorem C29_sum_perm {l l' : List (EdPt F)} (hp : l.Perm l') (h : ∀ P ∈ l, EdReach P) :
    (EdPt.sum l).eq (EdPt.sum l') = true ∧ (EdPt.sum ([] : List (EdPt F))).eq EdPt.identity = true ∧
    ∀ P, EdReach P → (EdPt.sum (P :: l)).eq (P.add (EdPt.sum l)) = true := by
  refine ⟨?_, (rep_eq rep_identity rep_identity).2 rfl, fun P hP => ?_⟩
  · have : ∃ f : EdPt F → E, ∀ P ∈ l, Rep P (f P) := by
      classical
      refine ⟨fun P => if h : ∃ R, Rep P R then h.choose else 0, fun P hP => ?_⟩
      have hr := (h P hP).rep
      simp only [dif_pos hr]
      exact hr.choose_spec
    obtain ⟨f, hf⟩ := this
    have h1 : List.Forall₂ Rep l (l.map f) := by
      rw [List.forall₂_map_right_iff]
      exact List.forall₂_same.2 hf
    have h2 : List.Forall₂ Rep l' (l'.map f) := by
      rw [List.forall₂_map_right_iff]
      exact List.forall₂_same.2 fun P hP => hf P (hp.mem_iff.2 hP)
    rw [rep_eq (rep_sum h1) (rep_sum h2)]
    exact (hp.map f).sum_eq
  · obtain ⟨R, hR⟩ := hP.rep
    obtain ⟨m, hm⟩ := forall_rep fun Q hQ => (h Q hQ).rep
    rw [rep_eq (rep_sum (.cons hR hm)) (rep_add hR (rep_sum hm)), List.sum_cons]

example : (EdPt.sum [EdPt.generator, EdPt.generator.negate, (EdPt.generator : EdPt U32.Fe)]).eq
    EdPt.generator = true := by decide +kernel

end Ed448.Props
