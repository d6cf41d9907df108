import Verif.Props.Scalar
import Verif.Props.Montgomery
import Verif.Props.Cached

/-!
# Exact behaviour where the expected claim fails (C70–C74)

C11, C23, C31, C32, C35 and C52 state what a user might expect and are refuted. The theorems here say
what the code does on all inputs, and which change repairs it.
-/

namespace Ed448.Props
open Ed448.Model Ed448.Edw Ed448.Iso
open FieldBackend
open FieldVal (val)
open WeierstrassCurve

set_option exponentiation.threshold 1000
set_option maxRecDepth 10000

/-! ## C70: sums and differences of unreduced scalars -/

theorem modulusAndOne_lt : modulusAndOne < ell := by decide +kernel

theorem ell_not_dvd : ¬ (ell : ℤ) ∣ (RR : ℤ) ∧ ¬ (ell : ℤ) ∣ (RR : ℤ) - modulusAndOne := by
  decide +kernel

/-- `a + b` is right exactly if `a + b < 2^448 + l`. -/
theorem C70_add_iff (a b : Scalar) : ∃ r, Scalar.add a b = some r ∧
    (r.val ≡ a.val + b.val [MOD ell] ↔ a.val + b.val < 2 ^ 448 + ell) := by
  obtain ⟨⟨r, h1, h⟩, -⟩ := C11_unreduced_partial a b
  refine ⟨r, h1, fun e => ?_, fun e => h (e.trans_eq (by norm_num [RR, W]))⟩
  obtain ⟨r', g1, g2⟩ := Scalar.add_spec a b
  rw [h1] at g1
  obtain rfl := Option.some.inj g1
  by_contra hc
  rw [show (2 : ℕ) ^ 448 = RR from by norm_num [RR, W], not_lt] at hc
  have ha := a.val_lt
  have hb := b.val_lt
  have hm := modulusAndOne_lt
  have hl : ell < RR := by decide +kernel
  have e1 : (a.val + b.val) % RR = a.val + b.val - RR := by
    rw [Nat.mod_eq_sub_mod (by omega), Nat.mod_eq_of_lt (by omega)]
  rw [if_neg (by omega), if_neg (by omega)] at g2
  have e2 : (((a.val : ℤ) + b.val) % RR) = a.val + b.val - RR := by
    have := congrArg (fun n : ℕ => (n : ℤ)) e1
    simpa only [Nat.cast_sub (show RR ≤ a.val + b.val by omega), Int.natCast_mod, Nat.cast_add]
      using this
  rw [e2, Int.emod_eq_of_lt (by omega) (by omega)] at g2
  have e3 : (ell : ℤ) ∣ ((a.val + b.val : ℕ) : ℤ) - r.val := Nat.modEq_iff_dvd.1 e
  apply ell_not_dvd.2
  have e4 : (RR : ℤ) - modulusAndOne = ((a.val + b.val : ℕ) : ℤ) - r.val - ell := by
    rw [Nat.cast_add]; linarith [g2]
  rw [e4]
  exact dvd_sub e3 dvd_rfl

/-- `a - b` is right exactly if `b ≤ a + l`. -/
theorem C70_sub_iff (a b : Scalar) : ∃ r, Scalar.sub a b = some r ∧
    ((r.val : ℤ) ≡ (a.val : ℤ) - b.val [ZMOD ell] ↔ b.val ≤ a.val + ell) := by
  obtain ⟨-, r, h1, h⟩ := C11_unreduced_partial a b
  refine ⟨r, h1, fun e => ?_, h⟩
  obtain ⟨r', g1, g2⟩ := subExtra_spec a b 0 (by norm_num)
  rw [show Scalar.sub a b = subExtra a b 0 from rfl, g1] at h1
  obtain rfl := Option.some.inj h1
  by_contra hc
  have ha := a.val_lt
  have hb := b.val_lt
  have hl : ell < RR := by decide +kernel
  rw [if_pos (by omega), if_pos rfl] at g2
  rw [← Int.add_emod_right, Int.emod_eq_of_lt (by omega) (by omega)] at g2
  have e3 := Int.modEq_iff_dvd.1 e.symm
  apply ell_not_dvd.1
  have e4 : (RR : ℤ) = r'.val - ((a.val : ℤ) - b.val) - ell := by omega
  rw [e4]
  exact dvd_sub e3 dvd_rfl

/-- The wrong cases are reachable: both conditions fail for some scalars. -/
example : ¬ allOnes.val + allOnes.val < 2 ^ 448 + ell ∧ ¬ allOnes.val ≤ Scalar.zero.val + ell := by
  rw [allOnes_val, ell_lit, show Scalar.zero.val = 0 by decide]; norm_num

/-! ## C71: all encodings of an Edwards point -/

variable {F L : Type} [FieldBackend F L] [Lawful F]

/-- The strings that decode to a given point: `y` modulo `p`, any value in the seven unused bits, and
the parity of `x` in the top bit, which is free when `x = 0`. -/
theorem C71_encodings (b : Bytes 57) (R : E) :
    (∃ P, edDecompress F b = some P ∧ Rep P R) ↔
      ((b.val % 2 ^ 448 : ℕ) : Fp) = R.y ∧ (R.x = 0 ∨ b.val / 2 ^ 455 = R.x.val % 2) := by
  constructor
  · rintro ⟨P, e, hP⟩
    obtain ⟨S, hS, h1, h2⟩ := (C22_decompress_accepts (F := F) b).2 P e
    obtain rfl := hS.unique hP
    exact ⟨h1.symm, h2.imp id Eq.symm⟩
  · rintro ⟨h1, h2⟩
    obtain ⟨k1, k2⟩ := C22_decompress_accepts (F := F) b
    obtain ⟨P, e⟩ := Option.isSome_iff_exists.1 (k1.2 ⟨R, h1.symm⟩)
    obtain ⟨S, hS, g1, g2⟩ := k2 P e
    have hy : S.y = R.y := g1.trans h1
    have hx : S.x ^ 2 = R.x ^ 2 := by
      rw [(on_iff _ _).1 S.on, (on_iff _ _).1 R.on, hy]
    have : S = R := by
      rcases sq_eq_sq_iff_eq_or_eq_neg.1 hx with h | h
      · exact Pt.ext h hy
      · by_cases h0 : R.x = 0
        · exact Pt.ext (by rw [h, h0, neg_zero]) hy
        · have h0' : S.x ≠ 0 := by rw [h]; exact neg_ne_zero.2 h0
          have e1 := (g2.resolve_left h0').trans (h2.resolve_left h0)
          exfalso
          have e2 : S.x.val = p - R.x.val := by rw [h, ZMod.neg_val, if_neg h0]
          have e3 := ZMod.val_lt R.x
          have e4 : p % 2 = 1 := by rw [p_lit]
          omega
    exact ⟨P, e, this ▸ hS⟩

/-- Every point has at least 128 encodings: the seven unused bits are free. -/
theorem C71_unused_bits (b c : Bytes 57) (h : b.val % 2 ^ 448 = c.val % 2 ^ 448)
    (k : b.val / 2 ^ 455 = c.val / 2 ^ 455) (R : E) :
    (∃ P, edDecompress F b = some P ∧ Rep P R) ↔ ∃ P, edDecompress F c = some P ∧ Rep P R := by
  rw [C71_encodings, C71_encodings, h, k]

/-- The repair: a decoder that also compares with the re-encoding accepts exactly one string for each
point, the output of `compress`. -/
theorem C71_strict (b : Bytes 57) (R : E) :
    (∃ P, edDecompress F b = some P ∧ P.compress = b ∧ Rep P R) ↔
      b.val = R.y.val + 2 ^ 455 * (R.x.val % 2) := by
  constructor
  · rintro ⟨P, -, e, hP⟩
    rw [← e, C21_compress_value hP]
  · intro h
    obtain ⟨P, e, hP⟩ := (C71_encodings (F := F) b R).2 (by
      have := ZMod.val_lt R.y
      have hp : p < 2 ^ 448 := by rw [p_lit]; norm_num
      rw [h]
      constructor
      · rw [show R.y.val + 2 ^ 455 * (R.x.val % 2) = R.y.val + 2 ^ 448 * (2 ^ 7 * (R.x.val % 2)) by
          ring, Nat.add_mul_mod_self_left, Nat.mod_eq_of_lt (by omega), ZMod.natCast_zmod_val]
      · right; omega)
    exact ⟨P, e, Arr.val_inj (by norm_num) (by rw [C21_compress_value hP, h]), hP⟩

/-- The identity is decoded from `1`, and from `1` with all seven unused bits and the sign set. -/
example : (∃ P, edDecompress U32.Fe (Arr.ofVal 57 256 (by norm_num) 1) = some P ∧ Rep P 0) ∧
    (∃ P, edDecompress U32.Fe (Arr.ofVal 57 256 (by norm_num) (1 + 255 * 2 ^ 448)) = some P ∧
      Rep P 0) := by
  constructor <;> rw [C71_encodings, Arr.ofVal_val _ _ (by norm_num)] <;>
    exact ⟨by norm_num [Pt.zero_y], Or.inl rfl⟩

/-! ## C72: the Montgomery ladder, as it is and with the final swap -/

variable {K : Type} [Field K] [DecidableEq K] [Algebra Fp K]

/-- The ladder of the source followed by the swap that Algorithm 8 of Costello and Smith, cited in
the source, has after the loop. -/
def montMulSwapped (F : Type) {L : Type} [FieldBackend F L] (u : Bytes 56) (s : Scalar) : Bytes 56 :=
  let st := s.bits.reverse.foldl (ladderStep (fromBytes u : F))
    (ProjMont.identity, ⟨fromBytes u, one⟩, false)
  (ProjMont.select st.1 st.2.1 st.2.2).toAffine

/-- What the code computes for all scalars and all points of the curve and the twist. -/
theorem C72_ladder (P : (curve448 K).Point) (u : Bytes 56) (s : Scalar)
    (hu : algebraMap Fp K (u.val : Fp) = ucoord P) :
    algebraMap Fp K ((montMulScalar F u s).val : Fp) = ucoord ((s.val + s.val % 2) • P) :=
  C31_montgomery_mul_partial P u s hu

theorem ladder_zero_snd {u : F} (hu : val u = 0) (l : List Bool) (hl : l ≠ [])
    (st : ProjMont F × ProjMont F × Bool) : val (l.foldl (ladderStep u) st).2.1.W = 0 := by
  obtain ⟨l', b, rfl⟩ := (List.eq_nil_or_concat l).resolve_left hl
  rw [List.concat_eq_append, List.foldl_append]
  show val (diffAddDouble _ _ u).2.W = 0
  rw [(diff_vals _ _ u).2.2.2, hu, zero_mul]

theorem montMulSwapped_rep {G : Type} [AddCommGroup G] (M : XMap G K) (D : G) (u : Bytes 56)
    (hK : ∀ g h, M.W h = 0 → M.U g = 0 → M.U (g + h) = 0)
    (hu : algebraMap Fp K (u.val : Fp) = M.U D / M.W D) (s : Scalar) :
    algebraMap Fp K ((montMulSwapped F u s).val : Fp) = M.U (s.val • D) / M.W (s.val • D) := by
  unfold montMulSwapped
  rw [toAffine_val, (select_proj _ _ _).1, (select_proj _ _ _).2]
  have hv : val (fromBytes u : F) = (u.val : Fp) := Lawful.val_fromBytes u
  by_cases h0 : M.W D = 0 ∨ M.U D = 0
  · have hu0 : (u.val : Fp) = 0 := by
      have : algebraMap Fp K (u.val : Fp) = 0 := by
        rcases h0 with h | h <;> rw [hu, h] <;> simp
      exact (map_eq_zero _).1 this
    rw [ladder_zero (hv.trans hu0) _ _ (by simp [ProjMont.identity]) (by simp [hu0]),
      ladder_zero_snd (hv.trans hu0) _ (by
        intro h
        have := congrArg List.length h
        simp [Scalar.bits_len] at this), ite_self, inv_zero, mul_zero, map_zero]
    have hW2 : M.W (D + D) = 0 := by
      obtain ⟨c, -, -, e⟩ := M.dbl D
      rcases h0 with h | h <;> rw [e, h] <;> ring
    rcases Nat.even_or_odd' s.val with ⟨k, e | e⟩
    · rw [e, mul_comm, mul_smul, two_nsmul, ker_nsmul M hW2, div_zero]
    · have hk : M.W ((2 * k) • D) = 0 := by
        rw [mul_comm, mul_smul, two_nsmul]; exact ker_nsmul M hW2 k
      rw [e, add_nsmul, one_nsmul]
      rcases h0 with h | h
      · rw [M.ker _ _ hk h, div_zero]
      · rw [add_comm, hK _ _ hk h, zero_div]
  · push Not at h0
    have hu' : algebraMap Fp K (val (fromBytes u : F)) * M.W D = M.U D := by
      rw [hv, hu, div_mul_cancel₀ _ h0.1]
    have hU0 : M.U 0 ≠ 0 := fun e => M.ne 0 ⟨e, M.zero⟩
    have init : LadderInv M D ((ProjMont.identity : ProjMont F), ⟨fromBytes u, one⟩, false) 0 := by
      unfold LadderInv
      rw [if_neg Bool.false_ne_true]
      constructor
      · refine ⟨1 / M.U 0, div_ne_zero one_ne_zero hU0, ?_, ?_⟩
        · rw [zero_nsmul]; simp [ProjMont.identity]; rw [inv_mul_cancel₀ hU0]
        · rw [zero_nsmul, M.zero]; simp [ProjMont.identity]
      · refine ⟨1 / M.W D, div_ne_zero one_ne_zero h0.1, ?_, ?_⟩
        · rw [zero_add, one_nsmul, ← hu']
          have := h0.1
          field_simp
        · rw [zero_add, one_nsmul]
          have := h0.1
          simp [this]
    obtain ⟨h1, -⟩ := ladder_fold M hu' h0.2 s.bits.reverse _ 0 init (by simp)
    rw [foldl_bits, s.bits_val] at h1
    unfold LadderInv at h1
    split_ifs at h1 with hb
    · simp only [hb, if_true]
      obtain ⟨c, hc, e1, e2⟩ := h1.2
      rw [map_mul, map_inv₀, e1, e2, ← div_eq_mul_inv, mul_div_mul_left _ _ hc]
    · simp only [hb, if_false, Bool.false_eq_true]
      obtain ⟨c, hc, e1, e2⟩ := h1.1
      rw [map_mul, map_inv₀, e1, e2, ← div_eq_mul_inv, mul_div_mul_left _ _ hc]

/-- With the swap the ladder computes `[s] P` for all scalars. -/
theorem C72_swapped (P : (curve448 K).Point) (u : Bytes 56) (s : Scalar)
    (hu : algebraMap Fp K (u.val : Fp) = ucoord P) :
    algebraMap Fp K ((montMulSwapped F u s).val : Fp) = ucoord (s.val • P) := by
  rw [ucoord_eq]
  rw [ucoord_eq] at hu
  exact montMulSwapped_rep (cXMap K) P u
    (fun g h hh hg => by rw [(cW_eq_zero h).1 hh, add_zero]; exact hg) hu s

theorem montMulSwapped_lt (u : Bytes 56) (s : Scalar) : (montMulSwapped F u s).val < p :=
  toBytes_val_lt _

/-- With the swap Montgomery and Edwards multiplication commute with the map for all scalars. -/
theorem C72_swapped_commutes {P : EdPt F} {R : E} (h : Rep P R) (s : Scalar) :
    ∃ r, P.scalarMul s = some r ∧ r.toMontgomery = montMulSwapped F P.toMontgomery s := by
  obtain ⟨r, e, hr⟩ := rep_scalarMul h s
  refine ⟨r, e, bytes_ext (toBytes_val_lt _) (montMulSwapped_lt _ _) ?_⟩
  rw [toMontgomery_val hr]
  refine (montMulSwapped_rep (F := F) (K := Fp) edXMap R P.toMontgomery ?_ (toMontgomery_val h)
    s).symm
  intro g k hk hg
  have hx : k.x = 0 := pow_eq_zero_iff two_ne_zero |>.1 hk
  have hy : g.y = 0 := pow_eq_zero_iff two_ne_zero |>.1 hg
  show (g + k).y ^ 2 = 0
  rw [Pt.add_y, hx, hy]
  simp

/-- The swap changes nothing for even scalars, so X448 with its clamped keys is unaffected; for the
scalar 1 it repairs `1 * 5`. -/
theorem C72_same_for_even (u : Bytes 56) (s : Scalar) (hs : s.val % 2 = 0) :
    montMulSwapped F u s = montMulScalar F u s := by
  classical
  obtain ⟨P, -, hP⟩ := exists_point (u.val : Fp)
  refine bytes_ext (montMulSwapped_lt _ _) (montMul_lt _ _) ?_
  apply (algebraMap Fp (AlgebraicClosure Fp)).injective
  rw [C72_swapped P u s hP.symm, C31_even P u s hs hP.symm]

example : (montMulSwapped U32.Fe montGenerator (smallScalar 1)).val = 5 := by
  classical
  obtain ⟨P, -, hP⟩ := exists_point (montGenerator.val : Fp)
  have h := C72_swapped (F := U32.Fe) P montGenerator (smallScalar 1) hP.symm
  rw [smallScalar_val 1 (by norm_num), one_nsmul, hP] at h
  rw [bytes_ext (montMulSwapped_lt _ _) (by rw [montGenerator_val, p_lit]; norm_num)
    ((algebraMap Fp (AlgebraicClosure Fp)).injective h), montGenerator_val]

/-! ## C73: the low order check -/

/-- Which strings the check misses, and that it never gives a false alarm. -/
theorem C73_low_order (P : (curve448 K).Point) (u : Bytes 56)
    (hu : algebraMap Fp K (u.val : Fp) = ucoord P) :
    isLowOrder u = true ↔ 4 • P = 0 ∧ u.val < p := by
  obtain ⟨h1, h2, h3⟩ := C35_low_order_partial P u hu
  refine ⟨fun h => ⟨h2 h, ?_⟩, fun h => (h1 h.2).2 h.1⟩
  rw [isLowOrder_iff] at h
  have := p_prime.one_lt
  omega

/-- The repair: checking the canonical encoding is right for all strings. -/
theorem C73_reduced (P : (curve448 K).Point) (u : Bytes 56)
    (hu : algebraMap Fp K (u.val : Fp) = ucoord P) :
    isLowOrder (toBytes (fromBytes u : F)) = true ↔ 4 • P = 0 := by
  have hv : ((toBytes (fromBytes u : F)).val : Fp) = (u.val : Fp) := by
    rw [Lawful.toBytes_val, ZMod.natCast_zmod_val, Lawful.val_fromBytes]
  rw [C73_low_order P _ (by rw [hv, hu])]
  exact and_iff_left (toBytes_val_lt _)

/-- The encoding `p` of 0 is missed, 0 itself is not. -/
example : isLowOrder (Arr.ofVal 56 256 (by norm_num) p) = false ∧
    isLowOrder (Arr.ofVal 56 256 (by norm_num) 0) = true := by
  constructor <;> decide +kernel

/-! ## C74: cached affine points -/

/-- `to_affine_niels` with the halving that the comment on `AffineNielsPoint` documents; `half` is
the field element 1/2. -/
def toAffineNielsHalved (half : F) (Q : TwAff F) : ANiels F :=
  ⟨(Q.toAffineNiels.YpX) *ᶠ half, (Q.toAffineNiels.YmX) *ᶠ half, Q.toAffineNiels.td⟩

/-- What the code computes: an addition whose affine coordinates are both doubled. -/
theorem C74_cached_add {P : TwExt F} {Q : TwAff F} {R S : E} (h : RepX 1 P R) (k : AffRep Q S) :
    val (P.addAffineNiels Q.toAffineNiels).Z ≠ 0 ∧
    val (P.addAffineNiels Q.toAffineNiels).X / val (P.addAffineNiels Q.toAffineNiels).Z =
      2 * phiX (R + S) ∧
    val (P.addAffineNiels Q.toAffineNiels).Y / val (P.addAffineNiels Q.toAffineNiels).Z =
      2 * phiY (R + S) := by
  obtain ⟨h1, h2, h3, -⟩ := C52_cached_add_partial h k
  exact ⟨h1, by rw [h2, mul_div_cancel_right₀ _ h1], by rw [h3, mul_div_cancel_right₀ _ h1]⟩

/-- With the halving the sum is right, and converting back gives the point. -/
theorem C74_halved {half : F} (hh : 2 * val half = 1) {P : TwExt F} {Q : TwAff F} {R S : E}
    (h : RepX 1 P R) (k : AffRep Q S) :
    RepX 1 (P.addAffineNiels (toAffineNielsHalved half Q)) (R + S) ∧
    val (toAffineNielsHalved half Q).toExtended.X = phiX S ∧
    val (toAffineNielsHalved half Q).toExtended.Y = phiY S ∧
    val (toAffineNielsHalved half Q).toExtended.Z = 1 := by
  obtain ⟨kx, ky⟩ := k
  refine ⟨C52_documented_form h ?_ ?_ ?_, ?_, ?_, ?_⟩ <;>
    simp only [toAffineNielsHalved, TwAff.toAffineNiels, ANiels.toExtended, Lawful.val_add,
      Lawful.val_sub, val_mul, val_mulR, Lawful.val_one, Lawful.lval_TWISTED_D, kx, ky]
  · linear_combination (phiY S + phiX S) * hh
  · linear_combination (phiY S - phiX S) * hh
  · rw [show (-39082 : Fp) = d - 1 by unfold d; ring]; ring
  · linear_combination phiX S * hh
  · linear_combination phiY S * hh

/-- Such a field element exists in every backend. -/
example : ∃ half : F, 2 * val half = 1 := by
  obtain ⟨h, e⟩ := exists_val (F := F) (1 / 2)
  exact ⟨h, by rw [e]; exact mul_div_cancel₀ _ two_ne⟩

end Ed448.Props
