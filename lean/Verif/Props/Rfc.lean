import Verif.Spec.Rfc8032
import Verif.Spec.Rfc7748
import Verif.Props.Repairs
import Verif.Props.Protocols
import Verif.Props.Vectors

/-!
# Conformance with RFC 8032 (point encoding) and RFC 7748 (X448) (C79, C80)
-/

namespace Ed448.Props
open Ed448.Model Ed448.Edw Ed448.Iso
open FieldBackend
open FieldVal (val)

set_option exponentiation.threshold 1000
set_option maxRecDepth 10000

variable {F L : Type} [FieldBackend F L] [Lawful F]

/-! ## C79: RFC 8032 -/

theorem rfc8032_root {u v : Fp} (hv : v ≠ 0) :
    v * (u ^ 3 * v * isr (u ^ 5 * v ^ 3)) ^ 2 = u ↔ IsSquare (u / v) := by
  constructor
  · intro h
    refine ⟨u ^ 3 * v * isr (u ^ 5 * v ^ 3), ?_⟩
    rw [div_eq_iff hv]
    linear_combination -h
  · rintro ⟨r, hr⟩
    by_cases hu : u = 0
    · rw [hu]; ring
    · have hw : u ^ 5 * v ^ 3 ≠ 0 := mul_ne_zero (pow_ne_zero 5 hu) (pow_ne_zero 3 hv)
      have hs : IsSquare (u ^ 5 * v ^ 3) := by
        refine ⟨r * (u ^ 2 * v ^ 2), ?_⟩
        rw [div_eq_iff hv] at hr
        linear_combination (u ^ 4 * v ^ 3) * hr
      have := isr_sq_mul hw hs
      linear_combination u * this

/-- Decoding of RFC 8032 accepts exactly the encodings of curve points, and returns the point. -/
theorem rfc8032_decode (b : Bytes 57) (x y : Fp) : Rfc8032.decode b = some (x, y) ↔
    OnCurve d x y ∧ b.val = y.val + 2 ^ 455 * (x.val % 2) := by
  have hb : b.val < 2 ^ 456 := lt_of_lt_of_eq (Arr.val_lt (by norm_num) b) (by norm_num)
  have hp : p < 2 ^ 448 := by rw [p_lit]; norm_num
  have hp2 : p % 2 = 1 := by rw [p_lit]
  have hodd : ∀ x : Fp, x ≠ 0 → (-x).val % 2 ≠ x.val % 2 := by
    intro x hx
    have e2 : (-x).val = p - x.val := by rw [ZMod.neg_val, if_neg hx]
    have e3 := ZMod.val_lt x
    omega
  unfold Rfc8032.decode
  dsimp only
  set y' := b.val % 2 ^ 455 with hy'
  set x0 := b.val / 2 ^ 455 with hx0
  have hbb : b.val = y' + 2 ^ 455 * x0 := (Nat.mod_add_div _ _).symm
  have hx01 : x0 < 2 := by omega
  have hyl : y' < 2 ^ 455 := Nat.mod_lt _ (by norm_num)
  clear_value y' x0
  have hv : (-39081 * (y' : Fp) ^ 2 - 1) ≠ 0 := by
    intro h
    apply one_sub_dy_ne (y' : Fp)
    unfold d
    linear_combination -h
  have hon : ∀ x : Fp, (-39081 * (y' : Fp) ^ 2 - 1) * x ^ 2 = (y' : Fp) ^ 2 - 1 ↔
      OnCurve d x (y' : Fp) := by
    intro x
    unfold OnCurve d
    constructor <;> intro h <;> linear_combination -h
  have hroot := rfc8032_root (u := (y' : Fp) ^ 2 - 1) hv
  unfold isr at hroot
  generalize (((y' : Fp) ^ 2 - 1) ^ 3 * (-39081 * (y' : Fp) ^ 2 - 1) *
    (((y' : Fp) ^ 2 - 1) ^ 5 * (-39081 * (y' : Fp) ^ 2 - 1) ^ 3) ^ ((p - 3) / 4)) = r at hroot ⊢
  by_cases h1 : y' ≥ p
  · rw [if_pos h1]
    constructor
    · intro h; cases h
    · rintro ⟨-, h⟩
      have := ZMod.val_lt y
      have : x.val % 2 < 2 := Nat.mod_lt _ (by norm_num)
      omega
  rw [if_neg h1]
  have hyv : ((y' : Fp)).val = y' := val_cast (by omega)
  by_cases h2 : (-39081 * (y' : Fp) ^ 2 - 1) * r ^ 2 ≠ (y' : Fp) ^ 2 - 1
  · rw [if_pos h2]
    constructor
    · intro h; cases h
    · rintro ⟨h, e⟩
      exfalso
      have := ZMod.val_lt y
      have : x.val % 2 < 2 := Nat.mod_lt _ (by norm_num)
      have hyy : y = (y' : Fp) := by
        rw [← ZMod.natCast_zmod_val y]; congr 1; omega
      rw [hyy] at h
      apply h2
      rw [hroot]
      refine ⟨x, ?_⟩
      rw [div_eq_iff hv]
      linear_combination -((hon x).2 h)
  rw [if_neg h2]
  rw [not_not] at h2
  have hr := (hon r).1 h2
  -- the point with the right sign
  have key : ∀ x : Fp, OnCurve d x y' → x ^ 2 = r ^ 2 := by
    intro x hx
    have e := (hon x).2 hx
    exact mul_left_cancel₀ hv (e.trans h2.symm)
  have fwd : ∀ z : Fp, OnCurve d z y' → z.val % 2 = x0 →
      ((z, (y' : Fp)) = (x, y) ↔ OnCurve d x y ∧ b.val = y.val + 2 ^ 455 * (x.val % 2)) := by
    intro z hz hz0
    constructor
    · intro h
      obtain ⟨rfl, rfl⟩ := Prod.mk.inj h
      exact ⟨hz, by rw [hyv, hz0, hbb]⟩
    · rintro ⟨h, e⟩
      have := ZMod.val_lt y
      have : x.val % 2 < 2 := Nat.mod_lt _ (by norm_num)
      have hyy : y = (y' : Fp) := by
        rw [← ZMod.natCast_zmod_val y]; congr 1; omega
      have hxx : x.val % 2 = x0 := by omega
      rw [hyy] at h ⊢
      have e2 := (key x h).trans (key z hz).symm
      rcases sq_eq_sq_iff_eq_or_eq_neg.1 e2 with k | k
      · rw [k]
      · by_cases h0 : z = 0
        · rw [k, h0, neg_zero]
        · exact absurd (by rw [← k, hxx, hz0]) (hodd z h0)
  by_cases h3 : r = 0 ∧ x0 = 1
  · rw [if_pos h3]
    constructor
    · intro h; cases h
    · rintro ⟨h, e⟩
      exfalso
      have := ZMod.val_lt y
      have : x.val % 2 < 2 := Nat.mod_lt _ (by norm_num)
      have hyy : y = (y' : Fp) := by
        rw [← ZMod.natCast_zmod_val y]; congr 1; omega
      rw [hyy] at h
      have e2 := key x h
      rw [h3.1] at e2
      have : x = 0 := by simpa using e2
      rw [this, ZMod.val_zero] at e
      omega
  rw [if_neg h3]
  by_cases h4 : x0 = r.val % 2
  · rw [if_pos h4, Option.some_inj]
    exact fwd r hr h4.symm
  · rw [if_neg h4, Option.some_inj]
    have hneg : OnCurve d (-r) y' := by
      unfold OnCurve at hr ⊢; linear_combination hr
    apply fwd (-r) hneg
    by_cases h0 : r = 0
    · rw [h0, ZMod.val_zero] at h4
      exact absurd ⟨h0, by omega⟩ h3
    · have := hodd r h0
      have : (-r).val % 2 < 2 := Nat.mod_lt _ (by norm_num)
      have : r.val % 2 < 2 := Nat.mod_lt _ (by norm_num)
      omega

/-- `compress` writes the encoding of RFC 8032. -/
theorem C79_compress {P : EdPt F} {R : E} (h : Rep P R) : P.compress = Rfc8032.encode R.x R.y := by
  apply Arr.val_inj (by norm_num)
  have := ZMod.val_lt R.y
  have hp : p < 2 ^ 448 := by rw [p_lit]; norm_num
  have : R.x.val % 2 < 2 := Nat.mod_lt _ (by norm_num)
  rw [C21_compress_value h, Rfc8032.encode, Arr.ofVal_val _ _ (by norm_num; omega)]

/-- Whatever the RFC decodes, `decompress` decodes, to the same point. (The converse fails: C23, C71.) -/
theorem C79_decompress {b : Bytes 57} {x y : Fp} (h : Rfc8032.decode b = some (x, y)) :
    ∃ P : EdPt F, edDecompress F b = some P ∧ ∃ R : E, Rep P R ∧ R.x = x ∧ R.y = y := by
  obtain ⟨h1, h2⟩ := (rfc8032_decode b x y).1 h
  obtain ⟨P, e, -, hR⟩ := (C71_strict (F := F) b ⟨x, y, h1⟩).2 h2
  exact ⟨P, e, _, hR, rfl, rfl⟩

/-- The strings that `decompress` accepts against the RFC: exactly those that are not canonical. -/
theorem C79_difference (b : Bytes 57) : (∃ P : EdPt F, edDecompress F b = some P) ∧
      Rfc8032.decode b = none ↔
    ∃ P : EdPt F, edDecompress F b = some P ∧ P.compress ≠ b := by
  constructor
  · rintro ⟨⟨P, e⟩, h⟩
    refine ⟨P, e, fun hc => ?_⟩
    obtain ⟨R, hR, -⟩ := edDecompress_some b e
    have := (rfc8032_decode b R.x R.y).2 ⟨R.on, (C71_strict (F := F) b R).1 ⟨P, e, hc, hR⟩⟩
    rw [h] at this
    cases this
  · rintro ⟨P, e, hc⟩
    refine ⟨⟨P, e⟩, ?_⟩
    rcases ho : Rfc8032.decode b with _ | ⟨x, y⟩
    · rfl
    · exfalso
      obtain ⟨h1, h2⟩ := (rfc8032_decode b x y).1 ho
      obtain ⟨P', e', hc', -⟩ := (C71_strict (F := F) b ⟨x, y, h1⟩).2 h2
      rw [e] at e'
      cases e'
      exact hc hc'

/-- The repaired `decompress` is the decoding of RFC 8032: it accepts the same strings and returns the
same points. -/
theorem C79_repaired (b : Bytes 57) : ∃ o : Option (EdPt F),
    Gen.Fix.CompressedEdwardsY.decompress b.l = some o ∧
    (o.isSome = (Rfc8032.decode b).isSome) ∧
    ∀ P, o = some P → ∃ R : E, Rep P R ∧ Rfc8032.decode b = some (R.x, R.y) := by
  obtain ⟨o, h1, -, h3, h4⟩ := C77_decompress (F := F) b
  have key : ∀ R : E, b.val = R.y.val + 2 ^ 455 * (R.x.val % 2) ↔
      Rfc8032.decode b = some (R.x, R.y) := fun R => by
    rw [rfc8032_decode]; exact ⟨fun h => ⟨R.on, h⟩, fun h => h.2⟩
  refine ⟨o, h1, ?_, ?_⟩
  · rw [Bool.eq_iff_iff, h4, Option.isSome_iff_exists]
    constructor
    · rintro ⟨R, hR⟩; exact ⟨_, (key R).1 hR⟩
    · rintro ⟨⟨x, y⟩, h⟩
      have hon := ((rfc8032_decode b x y).1 h).1
      exact ⟨⟨x, y, hon⟩, (key ⟨x, y, hon⟩).2 h⟩
  · intro P hP
    obtain ⟨R, hR⟩ := h4.1 (by rw [hP]; rfl)
    obtain ⟨P', e, r⟩ := (h3 R).2 hR
    rw [hP] at e
    cases e
    exact ⟨R, r, (key R).1 hR⟩

/-- The RFC rejects `p + 1`, which `decompress` reads as the identity; both accept `1`. -/
example : Rfc8032.decode (Arr.ofVal 57 256 (by norm_num) (p + 1)) = none ∧
    (edDecompress U32.Fe (Arr.ofVal 57 256 (by norm_num) (p + 1))).isSome = true ∧
    Rfc8032.decode (Arr.ofVal 57 256 (by norm_num) 1) = some (0, 1) := by
  refine ⟨?_, by decide +kernel, (rfc8032_decode _ 0 1).2 ⟨by unfold OnCurve; ring, ?_⟩⟩
  · have hp : p + 1 < 2 ^ 448 := by rw [p_lit]; norm_num
    unfold Rfc8032.decode
    dsimp only
    rw [Arr.ofVal_val _ _ (lt_of_lt_of_le hp (by norm_num)), if_pos]
    rw [Nat.mod_eq_of_lt (lt_of_lt_of_le hp (by norm_num))]
    omega
  · rw [Arr.ofVal_val _ _ (by norm_num), ZMod.val_zero, ZMod.val_one]; rfl

/-! ## C80: RFC 7748 -/

/-- The values of the loop variables. -/
structure LMatch (st : ProjMont F × ProjMont F × Bool) (s : Rfc7748.State) : Prop where
  x2 : val st.1.U = s.x_2
  z2 : val st.1.W = s.z_2
  x3 : val st.2.1.U = s.x_3
  z3 : val st.2.1.W = s.z_3
  sw : st.2.2 = s.swap

theorem LMatch.step {st : ProjMont F × ProjMont F × Bool} {s : Rfc7748.State} (h : LMatch st s)
    (u : F) (b : Bool) : LMatch (ladderStep u st b) (Rfc7748.step (val u) s b) := by
  obtain ⟨h1, h2, h3, h4, h5⟩ := h
  have e1 := select_proj st.1 st.2.1 (xor st.2.2 b)
  have e2 := select_proj st.2.1 st.1 (xor st.2.2 b)
  have e3 := diff_vals (ProjMont.select st.1 st.2.1 (xor st.2.2 b))
    (ProjMont.select st.2.1 st.1 (xor st.2.2 b)) u
  rw [e1.1, e1.2, e2.1, e2.2, h1, h2, h3, h4] at e3
  have k1 : val (ladderStep u st b).1.U = _ := e3.1
  have k2 : val (ladderStep u st b).1.W = _ := e3.2.1
  have k3 : val (ladderStep u st b).2.1.U = _ := e3.2.2.1
  have k4 : val (ladderStep u st b).2.1.W = _ := e3.2.2.2
  rw [h5] at k1 k2 k3 k4
  unfold Rfc7748.step Rfc7748.State.cswap
  cases hb : xor s.swap b <;> rw [hb] at k1 k2 k3 k4 <;>
    simp only [if_true, if_false, Bool.false_eq_true] at k1 k2 k3 k4 ⊢ <;>
    exact ⟨k1.trans (by ring), k2.trans (by ring), k3.trans (by ring), k4.trans (by ring), rfl⟩

theorem LMatch.fold (u : F) (l : List Bool) : ∀ {st : ProjMont F × ProjMont F × Bool}
    {s : Rfc7748.State}, LMatch st s →
    LMatch (l.foldl (ladderStep u) st) (l.foldl (Rfc7748.step (val u)) s) := by
  induction l with
  | nil => exact fun h => h
  | cons b l ih => exact fun h => ih (h.step u b)

theorem bits_testBit (s : Scalar) : s.bits = (List.range 448).map s.val.testBit := by
  obtain ⟨h1, -, h3⟩ := C10_scalar_bits s
  apply List.ext_getElem?
  intro i
  by_cases hi : i < 448
  · rw [h3 i hi, List.getElem?_map, List.getElem?_range hi]; rfl
  · rw [List.getElem?_eq_none (by omega), List.getElem?_eq_none (by simp; omega)]

theorem ladder_match (u : Bytes 56) (s : Scalar) :
    LMatch (s.bits.reverse.foldl (ladderStep (fromBytes u : F))
      (ProjMont.identity, ⟨fromBytes u, one⟩, false))
    (((List.range 448).reverse.map s.val.testBit).foldl (Rfc7748.step (u.val : Fp))
      ⟨1, 0, (u.val : Fp), 1, false⟩) := by
  have hv : val (fromBytes u : F) = (u.val : Fp) := Lawful.val_fromBytes u
  rw [bits_testBit, ← List.map_reverse, ← hv]
  apply LMatch.fold
  exact ⟨Lawful.val_one, Lawful.val_zero, rfl, Lawful.val_one, rfl⟩

/-- The ladder with the swap after the loop is the ladder of the RFC, for all scalars and strings. -/
theorem swapped_rfc (u : Bytes 56) (s : Scalar) :
    montMulSwapped F u s = Rfc7748.encodeUCoordinate (Rfc7748.ladder s.val (u.val : Fp)) := by
  have h := ladder_match (F := F) u s
  apply Arr.val_inj (by norm_num)
  have hp : ∀ x : Fp, x.val < 256 ^ 56 := fun x =>
    lt_trans (ZMod.val_lt x) (by rw [p_lit]; norm_num)
  rw [Rfc7748.encodeUCoordinate, Arr.ofVal_val _ _ (hp _)]
  unfold montMulSwapped Rfc7748.ladder ProjMont.toAffine
  dsimp only
  rw [Lawful.toBytes_val, val_mul, val_invert_pow, (select_proj _ _ _).1, (select_proj _ _ _).2,
    h.x2, h.z2, h.x3, h.z3, h.sw]
  congr 1
  unfold Rfc7748.State.cswap
  split <;> rfl

/-- The repaired source computes the ladder of RFC 7748 for every scalar and every string. -/
theorem C80_repaired (u : Bytes 56) (s : Scalar) :
    Gen.Fix.MontgomeryPoint.op_mul_Scalar (F := F) u.l s.l =
      some (Rfc7748.encodeUCoordinate
        (Rfc7748.ladder s.val (Rfc7748.decodeUCoordinate u))).l := by
  rw [fix_ladder, swapped_rfc]
  rfl

/-- The source computes it for every even scalar. -/
theorem C80_even (u : Bytes 56) (s : Scalar) (hs : s.val % 2 = 0) :
    montMulScalar F u s = Rfc7748.encodeUCoordinate
      (Rfc7748.ladder s.val (Rfc7748.decodeUCoordinate u)) := by
  rw [← C72_same_for_even u s hs, swapped_rfc]
  rfl

theorem and252 : ∀ x < 256, x &&& 252 = x / 4 * 4 := by decide +kernel
theorem or128 : ∀ x < 256, x ||| 128 = x % 128 + 128 := by decide +kernel

theorem modify_last (f : ℕ → ℕ) (m : List ℕ) (z : ℕ) :
    (m ++ [z]).modify m.length f = m ++ [f z] := by
  induction m with
  | nil => rfl
  | cons a m ih => rw [List.cons_append, List.length_cons, List.modify_succ_cons, ih]; rfl

/-- The two assignments of `decodeScalar448`, as arithmetic. -/
theorem decodeScalar_eq (k : Bytes 56) : Rfc7748.decodeScalar448 k = clamp448 k.val := by
  obtain ⟨l, hl, hb⟩ := k
  obtain ⟨a, l, rfl⟩ : ∃ a l', l = a :: l' := by
    cases l with
    | nil => simp at hl
    | cons a l => exact ⟨a, l, rfl⟩
  obtain ⟨m, z, rfl⟩ : ∃ m z, l = m ++ [z] := by
    rcases List.eq_nil_or_concat l with h | ⟨m, z, h⟩
    · rw [h] at hl; simp at hl
    · exact ⟨m, z, by rw [h, List.concat_eq_append]⟩
  have hm : m.length = 54 := by simpa using hl
  have ha : a < 256 := hb a (by simp)
  have hz : z < 256 := hb z (by simp)
  have hmv : Nat.ofDigits 256 m < 256 ^ 54 := by
    rw [← hm]
    exact Nat.ofDigits_lt_base_pow_length (by norm_num) fun x hx => hb x (by simp [hx])
  have e : (((a :: (m ++ [z])).modify 0 (· &&& 252)).modify 55 (· ||| 128)) =
      (a &&& 252) :: (m ++ [z ||| 128]) := by
    rw [List.modify_zero_cons, List.modify_succ_cons, ← hm, modify_last]
  unfold Rfc7748.decodeScalar448 clamp448 Arr.val
  dsimp only
  rw [e, and252 a ha, or128 z hz]
  simp only [Nat.ofDigits_cons, Nat.ofDigits_append, hm]
  generalize Nat.ofDigits 256 m = v at hmv
  norm_num at hmv ⊢
  omega

/-- `X448` on top of the library is `X448` of RFC 7748, for every key and every string. -/
theorem C80_x448 (k u : Bytes 56) : (x448 k u).eval F = some (Rfc7748.X448 k u) := by
  have hv : (Arr.ofVal 14 (2 ^ 32) (by norm_num) (clamp448 k.val)).val = clamp448 k.val :=
    Arr.ofVal_val _ _ (clamp448_lt _)
  rw [eval_x448, C80_even _ _ (by rw [hv]; unfold clamp448; omega), hv, ← decodeScalar_eq]
  rfl

/-- The vectors of RFC 7748, section 5.2, hold for the RFC's algorithm as written here. -/
example : ∀ v ∈ rfc7748, Rfc7748.X448 v.1 v.2.1 = v.2.2 := fun v hv =>
  Option.some.inj ((C80_x448 (F := Fast) v.1 v.2.1).symm.trans (C57_rfc7748 v hv))

end Ed448.Props
