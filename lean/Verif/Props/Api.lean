import Verif.Model.Ops
import Verif.Props.Cached
import Verif.Props.Decaf
import Verif.Props.Montgomery
import Verif.Props.Field

/-!
# Operators, comparison and limb access (C60, C61)
-/

namespace Ed448.Props
open Ed448.Model Ed448.Edw Ed448.Iso
open FieldVal (val)

set_option exponentiation.threshold 1000
set_option maxRecDepth 10000

/-! ## C60: operators -/

section
variable {F L : Type} [FieldBackend F L] [Lawful F]

/-- The operators on Edwards points are the group operations, in every variant. -/
theorem C60_edwards_operators {P Q : EdPt F} {R S : E} (h : Rep P R) (k : Rep Q S) (s : Scalar) :
    Rep (P.opAdd Q) (R + S) ∧ Rep (P.addAssign Q) (R + S) ∧
    Rep (P.sub Q) (R - S) ∧ Rep (P.subAssign Q) (R - S) ∧ Rep P.opNeg (-R) ∧
    (∃ r, P.opMul s = some r ∧ Rep r (s.val • R)) ∧
    (∃ r, s.mulEd P = some r ∧ Rep r (s.val • R)) ∧
    (∃ r, P.mulAssign s = some r ∧ Rep r (s.val • R)) ∧
    Rep (EdPt.default : EdPt F) 0 :=
  ⟨rep_add h k, rep_add h k, rep_sub h k, rep_sub h k, rep_negate h, rep_scalarMul h s,
    rep_scalarMul h s, rep_scalarMul h s, rep_identity⟩

/-- `P += P; P -= P'` with `P' = P` gives the base point back. -/
example : Rep (((EdPt.generator : EdPt F).addAssign EdPt.generator).subAssign EdPt.generator) G := by
  have h := rep_generator (F := F)
  obtain ⟨-, h2, -⟩ := C60_edwards_operators h h Scalar.zero
  obtain ⟨-, -, -, h4, -⟩ := C60_edwards_operators h2 h Scalar.zero
  rwa [add_sub_cancel_right] at h4

/-- Multiplication with the scalar on the left: Decaf and Montgomery. -/
theorem C60_scalar_on_the_left {P : DecafPt F} {R : E} (h : DRep P R) (s : Scalar) (u : Bytes 56) :
    DRep (s.mulDecaf P) (s.val • R) ∧ s.mulMont F u = montMulScalar F u s :=
  ⟨drep_mul h s, rfl⟩

/-- Equality of cached twisted points is equality of the points, equality of affine points is
equality of the coordinates, and the default values are the identity. -/
theorem C60_twisted_eq {e f : Fp} {P Q : PNiels F} {R S : E} (h : RepN e P R) (k : RepN f Q S)
    (A B : TwAff F) :
    (P.eq Q = true ↔ e * phiX R = f * phiX S ∧ e * phiY R = f * phiY S) ∧
    (A.eq B = true ↔ val A.x = val B.x ∧ val A.y = val B.y) ∧
    RepN 1 (PNiels.default : PNiels F) 0 ∧ RepT 1 (TwPt.default : TwPt F) 0 ∧
    AffRep (TwAff.default : TwAff F) 0 := by
  refine ⟨h.toT.eq_iff k.toT, ?_, repX_identity.toN, repT_identity, ?_⟩
  · rw [TwAff.eq, Bool.and_eq_true, feq_iff, feq_iff]
  · have hT := (repT_identity (F := F))
    have hx := hT.x
    have hy := hT.y
    simp only [TwPt.identity, Lawful.val_one, Lawful.val_zero, one_mul, mul_one] at hx hy
    exact ⟨by simp only [TwAff.default, TwAff.identity, Lawful.val_zero]; exact hx,
      by simp only [TwAff.default, TwAff.identity, Lawful.val_one]; exact hy⟩

/-- Equality of encodings is equality of the bytes. -/
theorem C60_encoding_eq (a b : Bytes 56) : (compressedDecafEq a b = true ↔ a = b) ∧
    (compressedRistEq a b = true ↔ a = b) ∧ (montEq a b = true ↔ a = b) ∧
    compressedRistIdentity = compressedDecafIdentity := by
  have : (a.l == b.l) = true ↔ a = b := by rw [beq_iff_eq]; exact ⟨fun h => Arr.ext h, fun h => h ▸ rfl⟩
  exact ⟨this, this, this, rfl⟩

/-- The zero test of field elements. -/
theorem C60_is_zero (a : F) : isZero a = true ↔ val a = 0 := by
  rw [isZero, feq_iff, Lawful.val_zero]

end

/-! ## C61: limbs of a scalar -/

theorem ofDigits_getElem? {B : ℕ} (hB : 1 < B) : ∀ (l : List ℕ) (i : ℕ), (∀ x ∈ l, x < B) →
    i < l.length → l[i]? = some (Nat.ofDigits B l / B ^ i % B)
  | x :: l, 0, h, _ => by
    rw [List.getElem?_cons_zero, Nat.ofDigits_cons, pow_zero, Nat.div_one, Nat.add_mul_mod_self_left,
      Nat.mod_eq_of_lt (h x (by simp))]
  | x :: l, i + 1, h, hi => by
    rw [List.getElem?_cons_succ, ofDigits_getElem? hB l i (fun y hy => h y (by simp [hy]))
      (by simpa using hi), Nat.ofDigits_cons, pow_succ', ← Nat.div_div_eq_div_mul]
    have hx : x < B := h x (by simp)
    rw [Nat.add_mul_div_left _ _ (by omega), Nat.div_eq_of_lt hx, zero_add]

theorem ofDigits_set {B : ℕ} : ∀ (l : List ℕ) (i v : ℕ), i < l.length →
    Nat.ofDigits B (l.set i v) + l.getD i 0 * B ^ i = Nat.ofDigits B l + v * B ^ i
  | x :: l, 0, v, _ => by
    simp only [List.set_cons_zero, Nat.ofDigits_cons, List.getD_cons_zero, pow_zero]
    omega
  | x :: l, i + 1, v, hi => by
    have := ofDigits_set (B := B) l i v (by simpa using hi)
    simp only [List.set_cons_succ, Nat.ofDigits_cons, List.getD_cons_succ, pow_succ']
    linear_combination B * this

/-- `scalar[i]` is the `i`-th digit of the value in base `2^32`; it panics exactly for `i ≥ 14`. -/
theorem C61_index (s : Scalar) (i : ℕ) :
    s.index i = if i < 14 then some (s.val / (2 ^ 32) ^ i % 2 ^ 32) else none := by
  unfold Scalar.index
  split
  · rename_i h
    exact ofDigits_getElem? (by norm_num) s.l i s.lt (by rw [s.len]; exact h)
  · rename_i h
    exact List.getElem?_eq_none (by rw [s.len]; omega)

/-- `scalar[i] = v` changes that digit only; it panics exactly for `i ≥ 14`. -/
theorem C61_index_mut (s : Scalar) (i v : ℕ) (hv : v < 2 ^ 32) :
    (s.indexMut i v = none ↔ 14 ≤ i) ∧
    ∀ t, s.indexMut i v = some t → t.index i = some v ∧ (∀ j, j ≠ i → t.index j = s.index j) ∧
      t.val + s.val / (2 ^ 32) ^ i % 2 ^ 32 * (2 ^ 32) ^ i = s.val + v * (2 ^ 32) ^ i := by
  by_cases h : i < 14
  · have hl : (s.l.set i v).length = 14 := by rw [List.length_set, s.len]
    have hb : ∀ x ∈ s.l.set i v, x < 2 ^ 32 := fun x hx =>
      (List.mem_or_eq_of_mem_set hx).elim (s.lt x) (fun e => e ▸ hv)
    have e : s.indexMut i v = some ⟨s.l.set i v, hl, hb⟩ := by
      rw [Scalar.indexMut, if_pos h, Arr.ofList?_eq _ hl hb]
    refine ⟨⟨fun h' => absurd (e.symm.trans h') (by simp), fun h' => by omega⟩, fun t ht => ?_⟩
    rw [e, Option.some.injEq] at ht
    subst ht
    refine ⟨?_, fun j hj => ?_, ?_⟩
    · show (s.l.set i v)[i]? = some v
      rw [List.getElem?_set_self (by rw [s.len]; exact h)]
    · show (s.l.set i v)[j]? = s.l[j]?
      rw [List.getElem?_set_ne hj.symm]
    · have h1 := ofDigits_set (B := 2 ^ 32) s.l i v (by rw [s.len]; exact h)
      have h2 := C61_index s i
      rw [if_pos h] at h2
      have h3 : s.l.getD i 0 = s.val / (2 ^ 32) ^ i % 2 ^ 32 := by
        rw [List.getD_eq_getElem?_getD, show s.l[i]? = _ from h2]; rfl
      rw [h3] at h1
      exact h1
  · have e : s.indexMut i v = none := if_neg h
    refine ⟨⟨fun _ => by omega, fun _ => e⟩, fun t ht => ?_⟩
    rw [e] at ht
    cases ht

/-- Values of `From<u32>`, `Default`, `zero` and `one`. -/
theorem C61_small_values (a : ℕ) (h : a < 2 ^ 32) : (Scalar.ofU32 a h).val = a ∧
    Scalar.default.val = 0 ∧ Scalar.zero.val = 0 ∧ Scalar.one.val = 1 := by
  refine ⟨?_, zero_val, zero_val, one_val⟩
  simp [Scalar.ofU32, Arr.val, Nat.ofDigits]

/-- Equality of scalars compares the represented integers, not the residues. -/
theorem C61_eq (a b : Scalar) : a.eq b = true ↔ a.val = b.val := by
  unfold Scalar.eq
  rw [decide_eq_true_iff, ← Arr.val_inj_iff (by norm_num), Scalar.toBytes_val, Scalar.toBytes_val]

/-- `square` stays in Montgomery form: it returns `a² / 2^448` modulo `l`, never panics, and the
result is canonical when `a` is. -/
theorem C61_square (a : Scalar) : ∃ r, a.square = some r ∧
    r.val * 2 ^ 448 % ell = a.val * a.val % ell ∧ (a.val < ell → r.val < ell) := by
  obtain ⟨r, h1, h2, h3⟩ := montMul_spec a a
  have hR : RR = 2 ^ 448 := by norm_num [RR]
  rw [hR] at h2
  exact ⟨r, h1, h2, h3⟩

/-- The test `test_sanity_check_index_mut`: writing limb 0 of `one`. -/
example : (Scalar.one.indexMut 0 2).map (fun t => (t.val, t.index 0, t.index 1, t.index 14)) =
    some (2, some 2, some 0, none) := by decide +kernel

end Ed448.Props
