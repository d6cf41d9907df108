import Verif.Props.Abstract

/-!
# What the original source computes, for every program (C91)

C90 follows the original source only within the calls that it gets right. Here are the four groups of calls
in which it departs, with what they compute, for all arguments: sums and differences of scalars, the
Edwards decoder, the Montgomery ladder, and the test for low order. With these in place of the ideal ones
the original source does, in every program, what the program does over mathematical objects.
-/

namespace Ed448.Props
open Ed448.Model Ed448.Edw Ed448.Proofs Ed448.Iso

set_option exponentiation.threshold 1000
set_option maxRecDepth 10000

/-- The sum of the source: one subtraction of `l`; if the sum exceeds 2^448 by `l` or more, the part above
2^448 is lost and the modulus, with all but the lowest bit of each word cleared, is added.
src/field/scalar.rs, `add` and `sub_extra`. -/
def addActual (n m : ℕ) : ℕ :=
  if n + m < ell then n + m
  else if n + m < 2 ^ 448 + ell then n + m - ell
  else n + m - 2 ^ 448 - ell + modulusAndOne

/-- The difference of the source: `l` is added once if it is negative, and then 2^448 if it still is.
src/field/scalar.rs, `sub_extra`. -/
def subActual (n m : ℕ) : ℕ :=
  if m ≤ n then n - m else if m ≤ n + ell then n + ell - m else n + ell + 2 ^ 448 - m

open Classical in
/-- The decoder of the source: it reduces `y`, ignores seven bits, and takes either sign for `x = 0`.
src/curve/edwards/extended.rs, `decompress`. -/
noncomputable def edDecActual (b : Bytes 57) : Option E :=
  if h : ∃ R : E, Loose b R then some h.choose else none

/-- The calls of the source that can be asked without an object. -/
noncomputable def Call0.actual : {τ : Obj} → Call0 τ → Option τ.Math
  | _, edDecompressOk b => some (edDecActual b).isSome
  | _, edDecompress b => edDecActual b
  | _, montLowOrder u => some (decide (u.val = 0 ∨ u.val = 1 ∨ u.val = p - 1))
  | _, o => o.ideal

/-- The calls of the source with one object: the ladder multiplies by twice the half, rounded up
(src/curve/montgomery/montgomery.rs, `mul`, leaves out the last swap). -/
noncomputable def Call1.actual : {σ τ : Obj} → Call1 σ τ → σ.Math → Option τ.Math
  | _, _, montMul u, (n : ℕ) => some (Rfc7748.encodeUCoordinate
      (Rfc7748.ladder 2 (Rfc7748.ladder ((n + 1) / 2) (Rfc7748.decodeUCoordinate u))))
  | _, _, o, x => o.ideal x

/-- The calls of the source with two objects. -/
noncomputable def Call2.actual : {ρ σ τ : Obj} → Call2 ρ σ τ → ρ.Math → σ.Math → Option τ.Math
  | _, _, _, scalarAdd, (n : ℕ), (m : ℕ) => some (addActual n m)
  | _, _, _, scalarSub, (n : ℕ), (m : ℕ) => some (subActual n m)
  | _, _, _, o, x, y => o.ideal x y

/-- Runs a program on mathematical objects with the calls of the original source. -/
noncomputable def Call.actual : {τ : Obj} → Call τ → Option τ.Math
  | _, ret a => some a
  | _, bind a f => a.actual.bind fun x => (f x).actual
  | _, panic => none
  | _, call0 o => o.actual
  | _, call1 o a => a.actual.bind o.actual
  | _, call2 o a b => a.actual.bind fun x => b.actual.bind (o.actual x)

section
variable {F L : Type} [FieldBackend F L] [Lawful F]

theorem RR_lit : (2 : ℕ) ^ 448 = RR := by norm_num [RR, W]

theorem add_actual (a b : Scalar) : ∃ r : Scalar, Scalar.add a b = some r ∧
    r.val = addActual a.val b.val := by
  unfold addActual
  rw [RR_lit]
  by_cases h : a.val + b.val < RR + ell
  · obtain ⟨r, e, hr⟩ := add_exact a b h
    refine ⟨r, e, hr.trans ?_⟩
    rw [if_pos h]
  · obtain ⟨r, g1, g2⟩ := Scalar.add_spec a b
    refine ⟨r, g1, ?_⟩
    have ha := a.val_lt
    have hb := b.val_lt
    have hm := modulusAndOne_lt
    have hl : ell < RR := by decide +kernel
    rw [if_neg (by omega), if_neg h]
    have e1 : (a.val + b.val) % RR = a.val + b.val - RR := by
      rw [Nat.mod_eq_sub_mod (by omega), Nat.mod_eq_of_lt (by omega)]
    rw [if_neg (by omega), if_neg (by omega)] at g2
    have e2 : (((a.val : ℤ) + b.val) % RR) = a.val + b.val - RR := by
      have := congrArg (fun n : ℕ => (n : ℤ)) e1
      simpa only [Nat.cast_sub (show RR ≤ a.val + b.val by omega), Int.natCast_mod, Nat.cast_add]
        using this
    rw [e2, Int.emod_eq_of_lt (by omega) (by omega)] at g2
    omega

theorem sub_actual (a b : Scalar) : ∃ r : Scalar, Scalar.sub a b = some r ∧
    r.val = subActual a.val b.val := by
  unfold subActual
  rw [RR_lit]
  obtain ⟨r, g1, g2⟩ := subExtra_spec a b 0 (by norm_num)
  refine ⟨r, g1, ?_⟩
  have ha := a.val_lt
  have hb := b.val_lt
  have hl : ell < RR := by decide +kernel
  by_cases h : b.val ≤ a.val
  · rw [if_neg (by omega), if_pos rfl, Int.emod_eq_of_lt (by omega) (by omega)] at g2
    rw [if_pos h]; omega
  · rw [if_pos (by omega), if_pos rfl] at g2
    rw [if_neg h]
    split
    · rw [Int.emod_eq_of_lt (by omega) (by omega)] at g2; omega
    · rw [← Int.add_emod_right, Int.emod_eq_of_lt (by omega) (by omega)] at g2; omega

theorem loose_unique {b : Bytes 57} {R S : E} (h : Loose b R) (k : Loose b S) : R = S := by
  obtain ⟨P, e, hP⟩ := (C71_encodings (F := Fast) b R).2 h
  obtain ⟨Q, e', hQ⟩ := (C71_encodings (F := Fast) b S).2 k
  rw [e] at e'
  cases e'
  exact hP.unique hQ

theorem ladder_actual (u : Bytes 56) (s : Scalar) : montMulScalar F u s =
    Rfc7748.encodeUCoordinate
      (Rfc7748.ladder 2 (Rfc7748.ladder ((s.val + 1) / 2) (Rfc7748.decodeUCoordinate u))) := by
  classical
  obtain ⟨P, -, hP⟩ := exists_point (u.val : Fp)
  have hs := s.val_lt
  have hl : (s.val + 1) / 2 < (2 ^ 32) ^ 14 := by
    have : s.val < (2 ^ 32) ^ 14 := hs
    omega
  set k : Scalar := Arr.ofVal 14 (2 ^ 32) (by norm_num) ((s.val + 1) / 2) with hk
  have kv : k.val = (s.val + 1) / 2 := Arr.ofVal_val _ _ hl
  set t : Scalar := Scalar.ofU32 2 (by norm_num) with ht
  have tv : t.val = 2 := by decide
  set w := montMulSwapped F u k with hw
  have h1 := C72_swapped (F := F) P u k hP.symm
  have h2 := C72_swapped (F := F) (k.val • P) w t h1
  have e : montMulSwapped F w t = montMulScalar F u s := by
    refine bytes_ext (montMulSwapped_lt _ _) (montMul_lt _ _) ?_
    apply (algebraMap Fp (AlgebraicClosure Fp)).injective
    have h2k : 2 * ((s.val + 1) / 2) = s.val + s.val % 2 := by omega
    rw [h2, C72_ladder P u s hP.symm, smul_smul, tv, kv, h2k]
  rw [← e, swapped_rfc, tv]
  have : (w.val : Fp) = Rfc7748.ladder k.val (u.val : Fp) := by
    rw [hw, swapped_rfc, Rfc7748.encodeUCoordinate, Arr.ofVal_val _ _
      (lt_trans (ZMod.val_lt _) (by rw [p_lit]; norm_num)), ZMod.natCast_zmod_val]
  rw [this, kv, Rfc7748.decodeUCoordinate]

theorem Call0.related_actual (v : Build) (hv : v.fixed = false) {τ : Obj} (o : Call0 τ) :
    Option.Rel (Obj.Rel (F := F) τ) (o.run F v) o.actual := by
  have dec : ∀ b : Bytes 57, ∃ o : Option (EdPt F), v.edDecompress b.l = some o ∧
      Option.Rel Rep o (edDecActual b) := by
    intro b
    have key : ∃ o : Option (EdPt F), v.edDecompress b.l = some o ∧
        (∀ P, o = some P → ∃ R, Rep P R) ∧ ∀ R, (∃ P, o = some P ∧ Rep P R) ↔ Loose b R := by
      cases v with
      | source => exact (source_ok (F := F)).edDecompress b
      | release => exact (release_ok (F := F)).edDecompress b
      | repaired => cases hv
      | repairedRelease => cases hv
    obtain ⟨o, e, h1, h2⟩ := key
    refine ⟨o, e, ?_⟩
    unfold edDecActual
    rcases o with _ | P
    · rw [dif_neg]
      · exact .none
      · rintro ⟨R, hR⟩
        obtain ⟨P, hP, -⟩ := (h2 R).2 hR
        cases hP
    · obtain ⟨R, hR⟩ := h1 P rfl
      have hx : ∃ R : E, Loose b R := ⟨R, (h2 R).1 ⟨P, rfl, hR⟩⟩
      rw [dif_pos hx]
      refine .some ?_
      obtain ⟨Q, hQ, hr⟩ := (h2 _).2 hx.choose_spec
      cases hQ
      exact hr
  cases o with
  | edDecompressOk b =>
    obtain ⟨o, e, k⟩ := dec b
    show Option.Rel _ ((v.edDecompress (F := F) b.l).map Option.isSome) _
    rw [e]
    exact .some (rel_isSome k)
  | edDecompress b =>
    obtain ⟨o, e, k⟩ := dec b
    show Option.Rel _ ((v.edDecompress (F := F) b.l).join) _
    rw [e]
    exact k
  | montLowOrder u =>
    have h : v.montLowOrder F u.l = some (decide (u.val = 0 ∨ u.val = 1 ∨ u.val = p - 1)) := by
      have : some (Gen.MontgomeryPoint.is_low_order u.l) =
          some (decide (u.val = 0 ∨ u.val = 1 ∨ u.val = p - 1)) := by
        rw [Source.Mont_is_low_order, Option.some.injEq, Bool.eq_iff_iff, decide_eq_true_iff,
          isLowOrder_iff]
      cases v with
      | source => exact this
      | release => exact this
      | repaired => cases hv
      | repairedRelease => cases hv
    exact rel_some h rfl rfl
  | _ => exact Call0.related v _ (.inr trivial)

theorem Call1.related_actual (v : Build) (hv : v.fixed = false) {σ τ : Obj} (o : Call1 σ τ)
    (x : σ.Src F) (x' : σ.Math) (h : Obj.Rel σ x x') :
    Option.Rel (Obj.Rel (F := F) τ) (o.run F v x) (o.actual x') := by
  cases o with
  | montMul u =>
    obtain ⟨s, rfl, rfl⟩ := h
    have k : Gen.MontgomeryPoint.op_mul_Scalar (F := F) u.l s.l = some (montMulScalar F u s).l :=
      Source.Mont_mul u s
    rw [ladder_actual] at k
    have k' : v.montMul F u.l s.l = some (Rfc7748.encodeUCoordinate
        (Rfc7748.ladder 2 (Rfc7748.ladder ((s.val + 1) / 2) (Rfc7748.decodeUCoordinate u)))).l := by
      cases v with
      | source => exact k
      | release =>
        exact rel_ref (a := Gen.MontgomeryPoint.op_mul_Scalar (F := F) u.l s.l)
          (b := Rel.MontgomeryPoint.op_mul_Scalar (F := F) u.l s.l) inferInstance k
      | repaired => cases hv
      | repairedRelease => cases hv
    exact rel_some (asBytes_eq k') rfl rfl
  | _ => exact Call1.related v _ x x' h (.inr trivial)

theorem Call2.related_actual (v : Build) (hv : v.fixed = false) {ρ σ τ : Obj} (o : Call2 ρ σ τ)
    (x : ρ.Src F) (x' : ρ.Math) (y : σ.Src F) (y' : σ.Math) (h : Obj.Rel ρ x x') (k : Obj.Rel σ y y') :
    Option.Rel (Obj.Rel (F := F) τ) (o.run F v x y) (o.actual x' y') := by
  cases o with
  | scalarAdd =>
    obtain ⟨s, rfl, rfl⟩ := h
    obtain ⟨t, rfl, rfl⟩ := k
    obtain ⟨r, e, hr⟩ := add_actual s t
    have g : Gen.Scalar.op_add s.l t.l = some r.l := (Source.op_add s t).trans (by rw [e]; rfl)
    have g' : v.scalarAdd s.l t.l = some r.l := by
      cases v with
      | source => exact g
      | release =>
        exact rel_ref (a := Gen.Scalar.op_add s.l t.l)
          (b := Rel.Scalar.op_add s.l t.l) inferInstance g
      | repaired => cases hv
      | repairedRelease => cases hv
    exact rel_some g' rfl ⟨r, rfl, hr⟩
  | scalarSub =>
    obtain ⟨s, rfl, rfl⟩ := h
    obtain ⟨t, rfl, rfl⟩ := k
    obtain ⟨r, e, hr⟩ := sub_actual s t
    have g : Gen.Scalar.op_sub s.l t.l = some r.l := (Source.op_sub s t).trans (by rw [e]; rfl)
    have g' : v.scalarSub s.l t.l = some r.l := by
      cases v with
      | source => exact g
      | release =>
        exact rel_ref (a := Gen.Scalar.op_sub s.l t.l)
          (b := Rel.Scalar.op_sub s.l t.l) inferInstance g
      | repaired => cases hv
      | repairedRelease => cases hv
    exact rel_some g' rfl ⟨r, rfl, hr⟩
  | _ => exact Call2.related v _ x x' y y' h k (.inr trivial)

/-- C91. Every program on the original source, with overflow checks or without, ends with the object that
the program over mathematical objects with the calls `actual` ends with, and panics where that does. -/
theorem C91_related (v : Build) (hv : v.fixed = false) : ∀ {τ : Obj} (e : Call τ),
    Option.Rel (Obj.Rel (F := F) τ) (e.run F v) e.actual
  | _, .ret a => .some rfl
  | _, .bind a f => rel_bind (C91_related v hv a) fun x y _ k => by
    obtain rfl : x = y := k
    exact C91_related v hv (f x)
  | _, .panic => .none
  | _, .call0 o => o.related_actual v hv
  | _, .call1 o a => rel_bind (C91_related v hv a) fun x y _ k => o.related_actual v hv x y k
  | _, .call2 o a b => rel_bind (C91_related v hv a) fun x y _ k =>
    rel_bind (C91_related v hv b) fun x' y' _ k' => o.related_actual v hv x y x' y' k k'

/-- C91. What a program returns. -/
theorem C91_original {α : Type} (v : Build) (hv : v.fixed = false) (e : Call (.host α)) :
    (show Option α from e.run F v) = (show Option α from e.actual) :=
  rel_eq (C91_related v hv e)

/-- C91. The original source gives the same results with overflow checks and without, on both backends:
no arithmetic of any program overflows. -/
theorem C91_same {α : Type} {F' L' : Type} [FieldBackend F' L'] [Lawful F'] (v v' : Build)
    (hv : v.fixed = false) (hv' : v'.fixed = false) (e : Call (.host α)) :
    (show Option α from e.run F v) = (show Option α from e.run F' v') :=
  (C91_original v hv e).trans (C91_original v' hv' e).symm

end

/-! ## Where the two differ -/

/-- C91. Sums and differences: exactly the sums below `2 l`, and the differences above `-l - 1` and below
`l`, are those of residues. -/
theorem C91_scalars (n m : ℕ) (hn : n < 2 ^ 448) (hm : m < 2 ^ 448) :
    (Call2.scalarAdd.actual n m = Call2.scalarAdd.ideal n m ↔ n + m < 2 * ell) ∧
    (Call2.scalarSub.actual n m = Call2.scalarSub.ideal n m ↔ n < m + ell ∧ m ≤ n + ell) := by
  have : NeZero ell := ⟨ell_prime.ne_zero⟩
  have hl : 2 * ell < 2 ^ 448 := by rw [ell_lit]; norm_num
  have hR : (2 : ℕ) ^ 448 = RR := RR_lit
  have hd := ell_not_dvd
  have h1 : Call2.scalarAdd.ideal n m = some ((n + m) % ell) := by
    show some _ = some _
    rw [← Nat.cast_add, ZMod.val_natCast]
  have h2 : ∀ r : ℕ, Call2.scalarSub.ideal n m = some r ↔ r < ell ∧ (ell : ℤ) ∣ (n : ℤ) - m - r := by
    intro r
    refine (Option.some_inj (α := ℕ)).trans ?_
    constructor
    · rintro rfl
      refine ⟨ZMod.val_lt _, (ZMod.intCast_zmod_eq_zero_iff_dvd _ ell).1 ?_⟩
      push_cast
      rw [ZMod.natCast_zmod_val, sub_self]
    · rintro ⟨h, k⟩
      have := (ZMod.intCast_zmod_eq_zero_iff_dvd _ ell).2 k
      push_cast at this
      rw [sub_eq_zero] at this
      rw [this, ZMod.val_natCast, Nat.mod_eq_of_lt h]
  constructor
  · rw [h1]
    refine (Option.some_inj (α := ℕ)).trans ?_
    unfold addActual
    rw [hR] at hn hm hl ⊢
    split
    · next h => rw [Nat.mod_eq_of_lt h]; exact ⟨fun _ => by omega, fun _ => rfl⟩
    · next h =>
      split
      · next k =>
        constructor
        · intro e
          have := Nat.mod_lt (n + m) ell_pos
          omega
        · intro e
          rw [Nat.mod_eq_sub_mod (by omega), Nat.mod_eq_of_lt (by omega)]
      · next k =>
        refine ⟨fun e => ?_, fun e => by omega⟩
        exfalso
        apply hd.2
        have e1 : (ell : ℤ) ∣ ((n + m : ℕ) : ℤ) - ((n + m) % ell : ℕ) := by
          rw [← Nat.cast_sub (Nat.mod_le _ _)]
          exact_mod_cast Nat.dvd_sub_mod (n + m)
        rw [← e] at e1
        have e2 : (RR : ℤ) - modulusAndOne =
            ((n + m : ℕ) : ℤ) - ((n + m - RR - ell + modulusAndOne : ℕ) : ℤ) - ell := by
          omega
        rw [e2]
        exact dvd_sub e1 dvd_rfl
  · rw [eq_comm, show Call2.scalarSub.actual n m = some (subActual n m) from rfl, h2]
    unfold subActual
    rw [hR] at hn hm hl ⊢
    split
    · next h =>
      rw [show ((n : ℤ) - m - (n - m : ℕ)) = 0 by omega]
      exact ⟨fun k => by omega, fun k => ⟨by omega, dvd_zero _⟩⟩
    · next h =>
      split
      · next k =>
        rw [show ((n : ℤ) - m - (n + ell - m : ℕ)) = -ell by omega]
        exact ⟨fun _ => by omega, fun _ => ⟨by omega, (dvd_neg).2 dvd_rfl⟩⟩
      · next k =>
        refine ⟨fun e => ?_, fun e => by omega⟩
        exfalso
        apply hd.1
        rw [show (RR : ℤ) = -((n : ℤ) - m - (n + ell + RR - m : ℕ)) - ell by omega]
        exact dvd_sub ((dvd_neg).2 e.2) dvd_rfl

/-- C91. The decoder of the source decodes every string that it should, to the right point, and departs
exactly at the strings that are a second encoding. -/
theorem C91_decoder (b : Bytes 57) :
    (∀ R, edDec b = some R → edDecActual b = some R) ∧
    (∀ R, edDecActual b = some R ↔ Loose b R) ∧
    (edDecActual b = edDec b ↔ ∀ R, Loose b R → Strict b R) := by
  have h2 : ∀ R, edDecActual b = some R ↔ Loose b R := by
    intro R
    unfold edDecActual
    constructor
    · intro h
      split at h
      · next hx => rw [← Option.some.inj h]; exact hx.choose_spec
      · cases h
    · intro h
      have hx : ∃ R, Loose b R := ⟨R, h⟩
      rw [dif_pos hx, loose_unique hx.choose_spec h]
  have h1 : ∀ R, edDec b = some R ↔ Strict b R := C90_spec.2.1 b
  refine ⟨fun R h => (h2 R).2 ((h1 R).1 h).loose, h2, fun h R hR => ?_, fun h => ?_⟩
  · rw [← h1, ← h, h2]; exact hR
  · refine Option.ext fun R => ?_
    exact (h2 R).trans (⟨h R, Strict.loose⟩ : Loose b R ↔ Strict b R) |>.trans (h1 R).symm

/-- C91. The test for low order misses exactly the strings of `p` and `p + 1`. -/
theorem C91_low_order (u : Bytes 56) :
    (Call0.montLowOrder u).actual = (Call0.montLowOrder u).ideal ↔ u.val ≠ p ∧ u.val ≠ p + 1 := by
  have hlt : u.val < 2 ^ 448 := lt_of_lt_of_eq (Arr.val_lt (by norm_num) u) (by norm_num)
  have hp : 2 ^ 448 < 2 * p - 1 := by rw [p_lit]; norm_num
  have h1 := p_prime.one_lt
  have h2 := p_prime.two_le
  have h3 : 2 < p := by rw [p_lit]; norm_num
  have key : ∀ v : ℕ, (((v : ℕ) : Fp) = 0 ∨ ((v : ℕ) : Fp) = 1 ∨ ((v : ℕ) : Fp) = -1) ↔
      v % p = 0 ∨ v % p = 1 ∨ v % p = p - 1 := by
    intro v
    have : Fact (1 < p) := ⟨h1⟩
    have hm : (-1 : Fp).val = p - 1 := by rw [ZMod.neg_val, if_neg one_ne_zero, ZMod.val_one]
    rw [← ZMod.val_natCast]
    refine or_congr (ZMod.val_eq_zero _).symm (or_congr ?_ ?_)
    · rw [← (ZMod.val_injective p).eq_iff (b := 1), ZMod.val_one]
    · rw [← (ZMod.val_injective p).eq_iff (b := -1), hm]
  show some (decide _) = some (decide _) ↔ _
  rw [Option.some.injEq, decide_eq_decide, key]
  by_cases h : u.val < p
  · rw [Nat.mod_eq_of_lt h]
    exact ⟨fun _ => by omega, fun _ => Iff.rfl⟩
  · rw [Nat.mod_eq_sub_mod (by omega), Nat.mod_eq_of_lt (by omega)]
    omega

section
variable {K : Type} [Field K] [DecidableEq K] [Algebra Fp K]

omit [DecidableEq K] [Algebra Fp K] in
theorem ucoord_neg (A : (curve448 K).Point) : ucoord (-A) = ucoord A := by
  cases A <;> rfl

omit [DecidableEq K] [Algebra Fp K] in
theorem ucoord_same {A B : (curve448 K).Point} (hA : A ≠ 0) (hB : B ≠ 0) (h : ucoord A = ucoord B) :
    A = B ∨ A = -B := by
  cases A with
  | zero => exact absurd rfl hA
  | some x y _ =>
    cases B with
    | zero => exact absurd rfl hB
    | some x' y' _ => exact WeierstrassCurve.Affine.Point.X_eq_iff.1 h

omit [Algebra Fp K] in
theorem ucoord_two {A : (curve448 K).Point} (h : ucoord A = 0) : 2 • A = 0 := by
  cases A with
  | zero => exact nsmul_zero 2
  | some x y hxy =>
    obtain rfl : x = 0 := h
    have e := (curve448_equation (0 : K) y).1 hxy.1
    have hy : y = 0 := by
      refine pow_eq_zero_iff two_ne_zero |>.1 (e.trans ?_); ring
    subst hy
    rw [two_nsmul, add_eq_zero_iff_eq_neg]
    show _ = WeierstrassCurve.Affine.Point.some _ _ _
    simp [WeierstrassCurve.Affine.negY, curve448]

/-- C91. The ladder: right for even scalars, and for an odd scalar `s` exactly if the coordinate is 0 or
`(2 s + 1) P = 0`, where `P` is a point with the given coordinate on the curve over any field. -/
theorem C91_ladder (P : (curve448 K).Point) (u : Bytes 56)
    (hu : algebraMap Fp K (u.val : Fp) = ucoord P) (n : ℕ) (hn : n < 2 ^ 448) :
    (Call1.montMul u).actual n = (Call1.montMul u).ideal n ↔
      n % 2 = 0 ∨ (u.val : Fp) = 0 ∨ (2 * n + 1) • P = 0 := by
  obtain ⟨s, rfl⟩ : ∃ s : Scalar, s.val = n :=
    ⟨Arr.ofVal 14 (2 ^ 32) (by norm_num) n, Arr.ofVal_val _ _ (lt_of_lt_of_eq hn (by norm_num))⟩
  have e : (Call1.montMul u).actual s.val = (Call1.montMul u).ideal s.val ↔
      ucoord ((s.val + s.val % 2) • P) = ucoord (s.val • P) := by
    refine (Option.some_inj (α := Bytes 56)).trans ?_
    rw [← ladder_actual (F := Fast), Rfc7748.decodeUCoordinate,
      ← swapped_rfc (F := Fast), ← C72_ladder (F := Fast) P u s hu, ← C72_swapped (F := Fast) P u s hu]
    refine ⟨fun h => by rw [h], fun h => ?_⟩
    exact bytes_ext (montMul_lt _ _) (montMulSwapped_lt _ _) ((algebraMap Fp K).injective h)
  rw [e]
  have hz : (u.val : Fp) = 0 ↔ ucoord P = 0 := by
    rw [← hu, map_eq_zero]
  rw [hz]
  rcases Nat.mod_two_eq_zero_or_one s.val with k | k
  · rw [k, add_zero]
    exact ⟨fun _ => .inl rfl, fun _ => rfl⟩
  rw [k]
  have hsplit : (s.val + 1) • P = s.val • P + P := by rw [add_nsmul, one_nsmul]
  have hsum : (2 * s.val + 1) • P = (s.val + 1) • P + s.val • P := by
    rw [← add_nsmul]; congr 1; omega
  constructor
  · intro h
    right
    by_cases hA : (s.val + 1) • P = 0
    · left
      rw [hsplit, add_eq_zero_iff_eq_neg] at hA
      rw [hsplit, hA, neg_add_cancel, ucoord_neg] at h
      exact h.symm
    by_cases hB : s.val • P = 0
    · left
      rw [hsplit, hB, zero_add] at h
      exact h
    rcases ucoord_same hA hB h with e | e
    · left
      rw [hsplit] at e
      rw [left_eq_add.1 e.symm]
      rfl
    · right
      rw [hsum, e, neg_add_cancel]
  · rintro (h | h | h)
    · omega
    · have h2 := ucoord_two h
      have hP : s.val • P = P := by
        obtain ⟨c, hc⟩ : ∃ c, s.val = 2 * c + 1 := ⟨s.val / 2, by omega⟩
        rw [hc, add_nsmul, mul_nsmul, one_nsmul, h2, nsmul_zero, zero_add]
      rw [hsplit, hP, ← two_nsmul, h2, h]
      rfl
    · rw [hsum, add_eq_zero_iff_eq_neg] at h
      rw [h, ucoord_neg]

end

/-! ## Examples -/

/-- A program outside `Within`: the sum of two unreduced scalars, as bytes. On the original source it is
`addActual`, which is not the sum of the residues. -/
def sumBytes (a b : Bytes 56) : Call (.host (Bytes 56)) :=
  .call1 .scalarToBytes (.call2 .scalarAdd (Call.sc a) (Call.sc b))

example (a b : Bytes 56) : (sumBytes a b).run U32.Fe .release =
    some (Arr.ofVal 56 256 (by norm_num) (addActual a.val b.val)) :=
  C91_original .release rfl (sumBytes a b)

/-- With all bits set in both, the sum is wrong. -/
example (a : Bytes 56) (h : a.val = 2 ^ 448 - 1) :
    Call2.scalarAdd.actual a.val a.val ≠ Call2.scalarAdd.ideal a.val a.val := by
  rw [Ne, (C91_scalars a.val a.val (by rw [h]; norm_num) (by rw [h]; norm_num)).1, h, ell_lit]
  norm_num

/-- The string of `p + 1` is a second encoding of the coordinate 1, and the original test misses it. -/
example : (Call0.montLowOrder (Arr.ofVal 56 256 (by norm_num) (p + 1))).actual ≠
    (Call0.montLowOrder (Arr.ofVal 56 256 (by norm_num) (p + 1))).ideal := by
  rw [Ne, C91_low_order, Arr.ofVal_val _ _ (by rw [p_lit]; norm_num)]
  exact fun h => h.2 rfl

end Ed448.Props
