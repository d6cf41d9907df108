import Verif.Gen.Fix
import Verif.Proofs.FiatFixed
import Verif.Props.Exact
import Verif.Props.Backends
import Verif.Props.Source

/-!
# The repaired source (C77)

C11, C23, C31, C32, C35, C48 and C52 are false for the crate as it is. repairs/ holds one patch of
the Rust text for each (one patch repairs both C31 and C32), and `Ed448.Gen.Fix` is the mechanical
translation of the patched source. Here each claim is proved, in full, for the patched source.
-/

namespace Ed448.Props
open Ed448.Model Ed448.Edw Ed448.Iso Ed448.Proofs
open FieldBackend
open FieldVal (val)
open WeierstrassCurve

set_option exponentiation.threshold 1000
set_option maxRecDepth 10000

/-! ## C11: sums and differences of all scalars -/

/-- Montgomery multiplication by `R` reduces. -/
theorem montMul_R (a : Scalar) : ∃ r, montMul a Rconst = some r ∧ r.val = a.val % ell := by
  obtain ⟨r, h1, h2, h3⟩ := montMul_zmod a Rconst
  refine ⟨r, h1, eq_mod_of_cast (h3 Rconst_lt) ?_⟩
  rw [h2, Rconst_val, mul_div_assoc, div_self RR_ne_zero, mul_one]

theorem fix_add (a b : Scalar) : ∃ r : Scalar, Gen.Fix.scalar.add a.l b.l = some r.l ∧
    r.val = (a.val + b.val) % ell := by
  obtain ⟨a', h1, h2⟩ := montMul_R a
  obtain ⟨b', k1, k2⟩ := montMul_R b
  have hl := ell_pos
  obtain ⟨r, r1, r2, -⟩ := C01_scalar_add a' b' (by rw [h2]; exact Nat.mod_lt _ hl)
    (by rw [k2]; exact Nat.mod_lt _ hl)
  refine ⟨r, ?_, by rw [r2, h2, k2, ← Nat.add_mod]⟩
  have e : Gen.Fix.scalar.add a.l b.l = (Gen.scalar.montgomery_multiply a.l Gen.C.R).bind fun x =>
      (Gen.scalar.montgomery_multiply b.l Gen.C.R).bind fun y => Gen.scalar.add x y := rfl
  rw [e, Source.const_R, Source.montgomery_multiply, Source.montgomery_multiply, h1, k1,
    Option.map_some, Option.map_some, Option.bind_some, Option.bind_some, Source.scalar_add, r1,
    Option.map_some]

/-- `+` and `-` are right for all scalars, reduced or not, and their results are reduced; wide
reduction, which uses `+`, is still right. -/
theorem C77_scalars (a b : Scalar) (w : Bytes 114) :
    (∃ r : Scalar, Gen.Fix.Scalar.op_add a.l b.l = some r.l ∧ r.val = (a.val + b.val) % ell) ∧
    (∃ r : Scalar, Gen.Fix.Scalar.op_sub a.l b.l = some r.l ∧
      (r.val : ℤ) = ((a.val : ℤ) - b.val) % ell) ∧
    (∃ r : Scalar, Gen.Fix.Scalar.from_bytes_mod_order_wide w.l = some r.l ∧
      r.val = w.val % ell) := by
  have hl := ell_pos
  refine ⟨?_, ?_, ?_⟩
  · obtain ⟨r, h1, h2⟩ := fix_add a b
    exact ⟨r, by rw [Gen.Fix.Scalar.op_add, h1]; rfl, h2⟩
  · obtain ⟨a', h1, h2⟩ := montMul_R a
    obtain ⟨b', k1, k2⟩ := montMul_R b
    obtain ⟨r, r1, r2, -⟩ := C02_scalar_sub a' b' (by rw [h2]; exact Nat.mod_lt _ hl)
      (by rw [k2]; exact Nat.mod_lt _ hl)
    refine ⟨r, ?_, by rw [r2, h2, k2, Int.natCast_mod, Int.natCast_mod, ← Int.sub_emod]⟩
    have e : Gen.Fix.Scalar.op_sub a.l b.l =
        (Gen.scalar.montgomery_multiply a.l Gen.C.R).bind fun x =>
        (Gen.scalar.montgomery_multiply b.l Gen.C.R).bind fun y => Gen.Scalar.op_sub x y := rfl
    rw [e, Source.const_R, Source.montgomery_multiply, Source.montgomery_multiply, h1, k1,
      Option.map_some, Option.map_some, Option.bind_some, Option.bind_some, Source.op_sub, r1,
      Option.map_some]
  · obtain ⟨r, h1, h2, -⟩ := C08_wide_reduction w
    refine ⟨r, ?_, h2⟩
    have hR := RR_ne_zero
    obtain ⟨lo, a1, -, a3⟩ :=
      montMul_zmod (Scalar.fromBytes (Bytes.slice w 0 56 (by norm_num))) Rconst
    obtain ⟨hi, b1, -, b3⟩ := montMul_zmod (Scalar.fromBytes (Bytes.slice w 56 56 (by norm_num))) R2
    obtain ⟨t1, c1, -, c3⟩ := montMul_zmod (Scalar.fromBytes (wideTop w)) R2
    obtain ⟨t2, d1, -, d3⟩ := montMul_zmod t1 R2
    obtain ⟨s, e1, e2, e3⟩ := C01_scalar_add lo hi (a3 Rconst_lt) (b3 R2_lt)
    obtain ⟨r', f1, f2, f3⟩ := C01_scalar_add s t2 e3 (d3 R2_lt)
    have hr : r' = r := by
      unfold Scalar.fromBytesModOrderWide at h1
      rw [a1, Option.bind_eq_bind, Option.bind_some, b1, Option.bind_some, c1, Option.bind_some, d1,
        Option.bind_some, e1, Option.bind_some, f1] at h1
      exact Option.some.inj h1
    obtain ⟨s', g1, g2⟩ := fix_add lo hi
    have hs : s' = s := Arr.val_inj (by norm_num) (by rw [g2, e2])
    obtain ⟨r'', k1, k2⟩ := fix_add s t2
    have hr' : r'' = r' := Arr.val_inj (by norm_num) (by rw [k2, f2])
    unfold Gen.Fix.Scalar.from_bytes_mod_order_wide
    dsimp only
    have hb := w.len
    rw [Source.wide_top, Source.mapM_idx (by omega), Source.mapM_idx_off (by omega) (by omega)]
    have e1 := Source.from_bytes (Bytes.slice w 0 56 (by norm_num))
    have e1' : (Bytes.slice w 0 56 (by norm_num)).l = w.l.take 56 := rfl
    have e2 := Source.from_bytes (Bytes.slice w 56 56 (by norm_num))
    have e2' : (Bytes.slice w 56 56 (by norm_num)).l = (w.l.drop 56).take 56 := rfl
    rw [e1'] at e1
    rw [e2'] at e2
    simp only [Source.bsome, e1, e2, Source.const_R, Source.const_R2, Source.montgomery_multiply,
      Source.bind_id, a1, b1, c1, d1, Option.map_some, Source.from_bytes, g1, hs,
      Gen.Fix.Scalar.op_add, k1, hr', hr]

/-- The claim of C11, for the repaired source. -/
theorem C77_claim_C11 (a b : Scalar) :
    (∃ r : Scalar, Gen.Fix.Scalar.op_add a.l b.l = some r.l ∧ r.val ≡ a.val + b.val [MOD ell]) ∧
    (∃ r : Scalar, Gen.Fix.Scalar.op_sub a.l b.l = some r.l ∧
      (r.val : ℤ) ≡ (a.val : ℤ) - b.val [ZMOD ell]) := by
  obtain ⟨⟨r, h1, h2⟩, ⟨s, k1, k2⟩, -⟩ := C77_scalars a b (Arr.ofVal 114 256 (by norm_num) 0)
  exact ⟨⟨r, h1, by rw [h2]; exact Nat.mod_modEq _ _⟩, s, k1, by rw [k2]; exact Int.mod_modEq _ _⟩

/-- On reduced operands the repair changes nothing. -/
theorem C77_scalars_same (a b : Scalar) (ha : a.val < ell) (hb : b.val < ell) :
    Gen.Fix.Scalar.op_add a.l b.l = Gen.Scalar.op_add a.l b.l ∧
    Gen.Fix.Scalar.op_sub a.l b.l = Gen.Scalar.op_sub a.l b.l := by
  obtain ⟨⟨r, h1, h2⟩, ⟨s, k1, k2⟩, -⟩ := C77_scalars a b (Arr.ofVal 114 256 (by norm_num) 0)
  obtain ⟨r', g1, g2, -⟩ := C01_scalar_add a b ha hb
  obtain ⟨s', l1, l2, -⟩ := C02_scalar_sub a b ha hb
  rw [h1, k1, Source.op_add, Source.op_sub, g1, l1, Option.map_some, Option.map_some,
    Arr.val_inj (by norm_num) (h2.trans g2.symm),
    Arr.val_inj (by norm_num) (Nat.cast_injective (R := ℤ) (k2.trans l2.symm))]
  exact ⟨rfl, rfl⟩

/-- The sum `(2^448-1) + (2^448-1)`, wrong before the repair. -/
example : ∃ r : Scalar, Gen.Fix.Scalar.op_add allOnes.l allOnes.l = some r.l ∧
    r.val = (2 ^ 449 - 2) % ell := by
  obtain ⟨⟨r, h1, h2⟩, -⟩ := C77_scalars allOnes allOnes (Arr.ofVal 114 256 (by norm_num) 0)
  refine ⟨r, h1, ?_⟩
  rw [h2, allOnes_val]
  congr 1

/-! ## C23: one encoding for each point -/

variable {F L : Type} [FieldBackend F L] [Lawful F]

omit [Lawful F] in
/-- The repaired decoder is the old one followed by a comparison with the encoding of the result. -/
theorem fix_decompress (b : Bytes 57) : Gen.Fix.CompressedEdwardsY.decompress b.l =
    some ((edDecompress F b).bind fun P => if P.compress = b then some P else none) := by
  have h0 := Source.Ed_decompress (F := F) b
  have key : ∀ r : Option (EdPt F), Gen.CompressedEdwardsY.decompress b.l = some r →
      Gen.Fix.CompressedEdwardsY.decompress b.l =
        some (r.bind fun P => if P.compress = b then some P else none) := by
    intro r hr
    unfold Gen.CompressedEdwardsY.decompress at hr
    unfold Gen.Fix.CompressedEdwardsY.decompress
    simp only [Option.bind_eq_some_iff] at hr
    obtain ⟨t1, e1, t3, e3, t4, e4, t5, e5, h⟩ := hr
    rw [Source.bind_of_eq e1]
    refine (Source.bind_of_eq e3 _).trans ?_
    refine (Source.bind_of_eq e4 _).trans ?_
    refine (Source.bind_of_eq e5 _).trans ?_
    split at h
    · next hc =>
      rw [if_pos hc, ← Option.some.inj h]
      rfl
    · next hc =>
      rw [if_neg hc]
      obtain ⟨t7, e7, h⟩ := Option.bind_eq_some_iff.1 h
      refine (Source.bind_of_eq e7 _).trans ?_
      rw [← Option.some.inj h]
      refine (Source.bind_of_eq (Source.EdPt_compress _) _).trans ?_
      rw [Option.bind_some]
      generalize Gen.EdAff.to_extended (F := F) _ = P
      by_cases hb : P.compress = b
      · rw [if_pos hb, hb]; simp
      · have : (P.compress.l == b.l) = false := by
          rw [beq_eq_false_iff_ne]
          intro e
          exact hb (Arr.ext e)
        rw [if_neg hb, this]
        rfl
  exact key _ h0

/-- The claim of C23, for the repaired source: `decompress` accepts exactly one string for each point,
the one that `compress` gives, and decodes it to that point. -/
theorem C77_decompress (b : Bytes 57) : ∃ o : Option (EdPt F),
    Gen.Fix.CompressedEdwardsY.decompress b.l = some o ∧
    (∀ P, o = some P → Gen.EdPt.compress P = some b.l) ∧
    (∀ R : E, (∃ P, o = some P ∧ Rep P R) ↔ b.val = R.y.val + 2 ^ 455 * (R.x.val % 2)) ∧
    (o.isSome ↔ ∃ R : E, b.val = R.y.val + 2 ^ 455 * (R.x.val % 2)) := by
  have hP : ∀ P, ((edDecompress F b).bind fun P => if P.compress = b then some P else none) = some P ↔
      edDecompress F b = some P ∧ P.compress = b := by
    intro P
    rw [Option.bind_eq_some_iff]
    constructor
    · rintro ⟨Q, e, h⟩
      split at h
      · next hc => obtain rfl := Option.some.inj h; exact ⟨e, hc⟩
      · cases h
    · rintro ⟨e, h⟩
      exact ⟨P, e, if_pos h⟩
  have h2 : ∀ R : E, (∃ P, ((edDecompress F b).bind fun P => if P.compress = b then some P else none) =
      some P ∧ Rep P R) ↔ b.val = R.y.val + 2 ^ 455 * (R.x.val % 2) := by
    intro R
    rw [← C71_strict (F := F)]
    simp only [hP, and_assoc]
  refine ⟨_, fix_decompress b, fun P h => ?_, h2, ?_⟩
  · rw [Source.EdPt_compress, ((hP P).1 h).2]
  · rw [Option.isSome_iff_exists]
    constructor
    · rintro ⟨P, h⟩
      obtain ⟨R, hR, -, -⟩ := edDecompress_some b ((hP P).1 h).1
      exact ⟨R, (h2 R).1 ⟨P, h, hR⟩⟩
    · rintro ⟨R, h⟩
      obtain ⟨P, e, -⟩ := (h2 R).2 h
      exact ⟨P, e⟩

/-- Two accepted strings that decode to equal points are equal. -/
theorem C77_decompress_unique (b c : Bytes 57) (P Q : EdPt F)
    (hb : Gen.Fix.CompressedEdwardsY.decompress b.l = some (some P))
    (hc : Gen.Fix.CompressedEdwardsY.decompress c.l = some (some Q))
    (h : Gen.EdPt.eq P Q = true) : b = c := by
  obtain ⟨o, e, h1, h2, h3⟩ := C77_decompress (F := F) b
  obtain ⟨o', e', h1', h2', h3'⟩ := C77_decompress (F := F) c
  obtain rfl := Option.some.inj (e.symm.trans hb)
  obtain rfl := Option.some.inj (e'.symm.trans hc)
  obtain ⟨R, hR⟩ := h3.1 rfl
  obtain ⟨S, hS⟩ := h3'.1 rfl
  obtain ⟨P', eP, rP⟩ := (h2 R).2 hR
  obtain ⟨Q', eQ, rQ⟩ := (h2' S).2 hS
  obtain rfl := Option.some.inj eP
  obtain rfl := Option.some.inj eQ
  have : R = S := (rep_eq rP rQ).1 (by rw [← Source.EdPt_eq]; exact h)
  exact Arr.val_inj (by norm_num) (by rw [hR, hS, this])

/-- `p + 1` is no longer read as the identity, and `1` still is. -/
example : Gen.Fix.CompressedEdwardsY.decompress (F := U32.Fe)
      (Arr.ofVal 57 256 (by norm_num) (p + 1)).l = some none ∧
    ∃ P : EdPt U32.Fe, Gen.Fix.CompressedEdwardsY.decompress
      (Arr.ofVal 57 256 (by norm_num) 1).l = some (some P) ∧ Rep P 0 := by
  have hp : p + 1 < 2 ^ 448 := by rw [p_lit]; norm_num
  constructor
  · obtain ⟨o, e, -, -, h⟩ := C77_decompress (F := U32.Fe) (Arr.ofVal 57 256 (by norm_num) (p + 1))
    rw [e]
    cases o with
    | none => rfl
    | some P =>
      exfalso
      obtain ⟨R, hR⟩ := h.1 rfl
      rw [Arr.ofVal_val _ _ (by omega)] at hR
      have := ZMod.val_lt R.y
      rcases Nat.mod_two_eq_zero_or_one R.x.val with h0 | h0 <;> rw [h0] at hR <;> omega
  · obtain ⟨o, e, -, h, -⟩ := C77_decompress (F := U32.Fe) (Arr.ofVal 57 256 (by norm_num) 1)
    obtain ⟨P, rfl, hP⟩ := (h 0).2 (by
      rw [Arr.ofVal_val _ _ (by norm_num), show (0 : E).x = 0 from rfl, show (0 : E).y = 1 from rfl,
        ZMod.val_zero, ZMod.val_one]
      rfl)
    exact ⟨P, e, hP⟩

/-! ## C31, C32: the Montgomery ladder -/

omit [Lawful F] in
theorem fix_ladder (u : Bytes 56) (s : Scalar) :
    Gen.Fix.MontgomeryPoint.op_mul_Scalar (F := F) u.l s.l = some (montMulSwapped F u s).l := by
  unfold Gen.Fix.MontgomeryPoint.op_mul_Scalar montMulSwapped
  refine (Source.bind_of_eq (Source.fieldFromBytes_eq _) _).trans ?_
  dsimp only
  rw [Source.bits, Source.bsome]
  have hlen : s.bits.length = 448 := Scalar.bits_len s
  have hr : Gen.Rt.range 0 448 = List.range s.bits.length := by
    rw [hlen, List.range_eq_range']
    rfl
  let φ : ProjMont F × ProjMont F × Bool → ProjMont F × ProjMont F × ℕ :=
    fun t => (t.1, t.2.1, t.2.2.toNat)
  rw [hr]
  refine (congrArg (Option.bind · _) ((Source.foldlM_rev_idx (l := s.bits)
    (fun _ _ _ h => Source.bind_of_eq h _) s.bits [] _ (by simp)).trans (Source.foldlM_rel φ
      (g := fun t b => some (ladderStep (fromBytes u) t b))
      (t := (ProjMont.identity, ⟨fromBytes u, one⟩, false)) ?_))).trans ?_
  · intro t b _
    exact (Source.bind_of_eq (Source.xor_choice _ _) _).trans rfl
  · rw [Source.foldlM_some (g := ladderStep (fromBytes u)) (fun _ _ _ => rfl), Option.map_some,
      Source.bsome]
    generalize List.foldl (ladderStep (fromBytes u : F)) _ _ = st
    obtain ⟨x0, x1, c⟩ := st
    have hc : Gen.Rt.choice c.toNat = some c := by cases c <;> rfl
    refine (Source.bind_of_eq hc _).trans ?_
    rw [Source.bind_id]
    exact Source.ProjMont_to_affine _

/-- The claim of C31, for the repaired source: for every scalar and every point of the curve and of
its twist, `s * u` is the `u`-coordinate of `[s] P`, in canonical form. -/
theorem C77_ladder {K : Type} [Field K] [DecidableEq K] [Algebra Fp K] (P : (curve448 K).Point)
    (u : Bytes 56) (s : Scalar) (hu : algebraMap Fp K (u.val : Fp) = ucoord P) :
    ∃ r : Bytes 56, Gen.Fix.MontgomeryPoint.op_mul_Scalar (F := F) u.l s.l = some r.l ∧
      Gen.Fix.Scalar.op_mul_MontgomeryPoint (F := F) s.l u.l = some r.l ∧
      algebraMap Fp K (r.val : Fp) = ucoord (s.val • P) ∧ r.val < p := by
  refine ⟨montMulSwapped F u s, fix_ladder u s, ?_, C72_swapped P u s hu, montMulSwapped_lt _ _⟩
  rw [Gen.Fix.Scalar.op_mul_MontgomeryPoint, fix_ladder]
  rfl

/-- The claim of C32, for the repaired source: the map to the Montgomery curve commutes with
multiplication by every scalar. -/
theorem C77_commutes {P : EdPt F} {R : E} (h : Rep P R) (s : Scalar) :
    ∃ (r : EdPt F) (u v : Bytes 56), Gen.EdPt.scalar_mul P s.l = some r ∧
      Gen.EdPt.to_montgomery P = some u.l ∧ Gen.EdPt.to_montgomery r = some v.l ∧
      Gen.Fix.MontgomeryPoint.op_mul_Scalar (F := F) u.l s.l = some v.l := by
  obtain ⟨r, e, hr⟩ := C72_swapped_commutes h s
  refine ⟨r, P.toMontgomery, r.toMontgomery, ?_, Source.EdPt_to_montgomery _,
    Source.EdPt_to_montgomery _, ?_⟩
  · rw [Source.EdPt_scalar_mul, e]
  · rw [fix_ladder, hr]

/-- `1 * 5 = 5`, wrong before the repair. -/
example : Gen.Fix.MontgomeryPoint.op_mul_Scalar (F := U32.Fe) montGenerator.l (smallScalar 1).l =
    some montGenerator.l := by
  classical
  obtain ⟨P, -, hP⟩ := exists_point (montGenerator.val : Fp)
  obtain ⟨r, h1, -, h2, h3⟩ := C77_ladder (F := U32.Fe) P montGenerator (smallScalar 1) hP.symm
  rw [smallScalar_val 1 (by norm_num), one_nsmul, hP] at h2
  rw [h1, bytes_ext h3 (by rw [montGenerator_val, p_lit]; norm_num)
    ((algebraMap Fp (AlgebraicClosure Fp)).injective h2)]

/-! ## C35: the low order check -/

/-- The claim of C35, for the repaired source. -/
theorem C77_low_order {K : Type} [Field K] [DecidableEq K] [Algebra Fp K] (P : (curve448 K).Point)
    (u : Bytes 56) (hu : algebraMap Fp K (u.val : Fp) = ucoord P) :
    ∃ b, Gen.Fix.MontgomeryPoint.is_low_order (F := F) u.l = some b ∧ (b = true ↔ 4 • P = 0) := by
  refine ⟨isLowOrder (toBytes (fromBytes u : F)), ?_, C73_reduced P u hu⟩
  unfold Gen.Fix.MontgomeryPoint.is_low_order
  exact (Source.bind_of_eq (Source.fieldFromBytes_eq _) _).trans rfl

/-- The encoding `p` of zero is recognised, that of the generator is not. -/
example : Gen.Fix.MontgomeryPoint.is_low_order (F := U32.Fe)
      (Arr.ofVal 56 256 (by norm_num) p).l = some true ∧
    Gen.Fix.MontgomeryPoint.is_low_order (F := U32.Fe) montGenerator.l = some false := by
  have key : ∀ u : Bytes 56, Gen.Fix.MontgomeryPoint.is_low_order (F := U32.Fe) u.l =
      some (isLowOrder (Arr.ofVal 56 256 (by norm_num) (u.val % p))) := by
    intro u
    have e : toBytes (fromBytes u : U32.Fe) = Arr.ofVal 56 256 (by norm_num) (u.val % p) := by
      refine Arr.val_inj (by norm_num) ?_
      rw [Lawful.toBytes_val, Lawful.val_fromBytes, ZMod.val_natCast, Arr.ofVal_val _ _
        (lt_trans (Nat.mod_lt _ p_prime.pos) (by rw [p_lit]; norm_num))]
    rw [← e]
    unfold Gen.Fix.MontgomeryPoint.is_low_order
    exact (Source.bind_of_eq (Source.fieldFromBytes_eq _) _).trans rfl
  rw [key, key, montGenerator_val, Arr.ofVal_val _ _ (by rw [p_lit]; norm_num), p_lit]
  constructor <;> decide +kernel

/-- Where the source as it is was right, the repair changes nothing: the repaired decoder returns
the same point on all strings it accepts, the ladder the same on even scalars, and the low order
check the same on canonical encodings. -/
theorem C77_conservative (b : Bytes 57) (u : Bytes 56) (s : Scalar) :
    (∀ P : EdPt F, Gen.Fix.CompressedEdwardsY.decompress b.l = some (some P) →
      Gen.CompressedEdwardsY.decompress b.l = some (some P)) ∧
    (∀ P : EdPt F, Gen.CompressedEdwardsY.decompress b.l = some (some P) →
      Gen.EdPt.compress P = some b.l →
      Gen.Fix.CompressedEdwardsY.decompress b.l = some (some P)) ∧
    (s.val % 2 = 0 → Gen.Fix.MontgomeryPoint.op_mul_Scalar (F := F) u.l s.l =
      Gen.MontgomeryPoint.op_mul_Scalar (F := F) u.l s.l) ∧
    (u.val < p → Gen.Fix.MontgomeryPoint.is_low_order (F := F) u.l =
      some (Gen.MontgomeryPoint.is_low_order u.l)) := by
  refine ⟨fun P h => ?_, fun P h k => ?_, fun h => ?_, fun h => ?_⟩
  · rw [fix_decompress, Option.some.injEq, Option.bind_eq_some_iff] at h
    obtain ⟨Q, e, h⟩ := h
    split at h
    · rw [Source.Ed_decompress, e, h]
    · cases h
  · rw [Source.Ed_decompress, Option.some.injEq] at h
    rw [Source.EdPt_compress, Option.some.injEq] at k
    rw [fix_decompress, h, Option.bind_some, if_pos (Arr.ext k)]
  · rw [fix_ladder, Source.Mont_mul, C72_same_for_even u s h]
  · have e : toBytes (fromBytes u : F) = u := by
      refine Arr.val_inj (by norm_num) ?_
      rw [Lawful.toBytes_val, Lawful.val_fromBytes, ZMod.val_natCast, Nat.mod_eq_of_lt h]
    unfold Gen.Fix.MontgomeryPoint.is_low_order
    refine (Source.bind_of_eq (Source.fieldFromBytes_eq _) _).trans ?_
    rw [e]
    rfl

/-! ## C52: cached affine points -/

/-- The repaired form `(y+x, y-x, 2dxy)` adds correctly. -/
theorem fix_add_affine_niels {e : Fp} {P : TwExt F} {N : ANiels F} {R S : E} (h : RepX e P R)
    (hp : val N.YpX = phiY S + phiX S) (hm : val N.YmX = phiY S - phiX S)
    (ht : val N.td = 2 * (d - 1) * (phiX S * phiY S)) :
    RepX e (Gen.Fix.TwExt.add_affine_niels P N) (R + S) := by
  have hz : (2 : Fp) * val P.Z ≠ 0 := mul_ne_zero two_ne h.z
  obtain ⟨c1, c2, c3, c4⟩ := tw_core (R := R) (S := S) (e1 := e) (e2 := 1) h.s (by ring) hz
    rfl rfl rfl rfl
  have hC : val N.td * val P.T1 * val P.T2 =
      (d - 1) * (phiX R * phiX S * phiY R * phiY S) * (2 * val P.Z) := by
    rw [mul_assoc, h.t, ht]; ring
  refine ⟨h.s, ?_, ?_, ?_, ?_⟩ <;>
    simp only [Gen.Fix.TwExt.add_affine_niels, Lawful.val_add, Lawful.val_sub, val_mul, hC, hp, hm,
      h.x, h.y]
  · convert c1 using 1; ring
  · linear_combination c2
  · linear_combination c3
  · linear_combination c4

/-- The claim of C52, for the repaired source: adding the cached form of an affine point gives the
sum, converting to the cached form and back gives the point, and the cached identity is the
identity. -/
theorem C77_cached {e : Fp} {P : TwExt F} {Q : TwAff F} {R S : E} (h : RepX e P R)
    (k : AffRep Q S) :
    RepX e (Gen.Fix.TwExt.add_affine_niels P (Gen.Fix.TwAff.to_affine_niels Q)) (R + S) ∧
    RepT 1 (Gen.Fix.ANiels.to_extended (Gen.Fix.TwAff.to_affine_niels Q)) S ∧
    RepX e (Gen.Fix.TwExt.add_affine_niels P Gen.ANiels.identity) R ∧
    RepT 1 (Gen.Fix.ANiels.to_extended (Gen.ANiels.identity : ANiels F)) 0 := by
  obtain ⟨kx, ky⟩ := k
  have h4 : (2 : Fp) * 2 ≠ 0 := mul_ne_zero two_ne two_ne
  refine ⟨fix_add_affine_niels h ?_ ?_ ?_, ?_, ?_, ?_⟩
  · simp only [Gen.Fix.TwAff.to_affine_niels, Lawful.val_add, kx, ky]
  · simp only [Gen.Fix.TwAff.to_affine_niels, Lawful.val_sub, kx, ky]
  · simp only [Gen.Fix.TwAff.to_affine_niels, val_mul, val_mulR, Lawful.lval_TWO_TIMES_TWISTED_D,
      kx, ky]
    ring
  · refine ⟨one_pow 2, ?_, ?_, ?_, ?_⟩ <;> simp only [Gen.Fix.ANiels.to_extended, Gen.Fix.TwAff.to_affine_niels,
      Lawful.val_add, Lawful.val_sub, val_mul, Lawful.val_one, kx, ky]
    · intro e; exact h4 (by linear_combination e)
    · ring
    · ring
    · ring
  · have := fix_add_affine_niels (N := Gen.ANiels.identity) (S := 0) h
      (by simp [Gen.ANiels.identity, phiX_zero, phiY_zero])
      (by simp [Gen.ANiels.identity, phiX_zero, phiY_zero])
      (by simp [Gen.ANiels.identity, phiX_zero, phiY_zero])
    rwa [add_zero] at this
  · refine ⟨one_pow 2, ?_, ?_, ?_, ?_⟩ <;> simp only [Gen.Fix.ANiels.to_extended, Gen.ANiels.identity,
      Lawful.val_add, Lawful.val_sub, val_mul, Lawful.val_one, phiX_zero, phiY_zero]
    · intro e; exact h4 (by linear_combination e)
    · ring
    · ring
    · ring

/-- The hypotheses hold for the identity. -/
example : RepX 1 (TwExt.identity : TwExt F) 0 ∧ AffRep (TwAff.identity : TwAff F) 0 :=
  ⟨repX_identity, by simp [TwAff.identity, phiX_zero],
    by simp [TwAff.identity, phiY_zero]⟩

/-! ## C48: bounds of the 64-bit backend -/

open Fiat Ed448.Model.Fiat

/-- The claim of C48, for the repaired source: with functions that check each argument against its
documented bound, every program over the library gives what it gives on the 32-bit backend, so no
check is ever tripped. Only the documented contract is used: nothing is assumed about `relax` outside
its bound. -/
theorem C77_bounds (f : Fns) (h : Contract f) :
    (∀ c ∈ [fixMinusOne, fixEDWARDS_D, fixTWISTED_D, fixTWO_TIMES_TWISTED_D], Tight c ∧
      ∀ a, Tight a → (∃ r, Fiat.mul (checked f) c a = some r ∧ Tight r ∧ (V r : Fp) = V c * V a) ∧
        (∃ r, Fiat.mul (checked f) a c = some r ∧ Tight r ∧ (V r : Fp) = V a * V c)) ∧
    [(V fixMinusOne : Fp), V fixEDWARDS_D, V fixTWISTED_D, V fixTWO_TIMES_TWISTED_D] =
      [-1, -39081, -39082, -78164] ∧
    (∀ {α : Type} (e : Prog (.host α)),
      e.eval (TFe ⟨checked f, checked_contract h⟩) = e.eval U32.Fe) := by
  refine ⟨fun c hc => ?_, ?_, fun e => (C47_programs e e).1⟩
  · have ht : Tight c := by
      simp only [List.mem_cons, List.not_mem_nil, or_false] at hc
      rcases hc with rfl | rfl | rfl | rfl <;> decide
    exact ⟨ht, fun a ha => ⟨mul_tight (checked_contract h) ht ha,
      mul_tight (checked_contract h) ha ht⟩⟩
  · have e1 := Lawful.lval_minusOne (F := TFe ⟨f, h⟩)
    have e2 := Lawful.lval_EDWARDS_D (F := TFe ⟨f, h⟩)
    have e3 := Lawful.lval_TWISTED_D (F := TFe ⟨f, h⟩)
    have e4 := Lawful.lval_TWO_TIMES_TWISTED_D (F := TFe ⟨f, h⟩)
    have e1 : (V fixMinusOne : Fp) = _ := e1
    have e2 : (V fixEDWARDS_D : Fp) = _ := e2
    have e3 : (V fixTWISTED_D : Fp) = _ := e3
    have e4 : (V fixTWO_TIMES_TWISTED_D : Fp) = _ := e4
    rw [e1, e2, e3, e4, d]
    norm_num

/-- Functions meeting the contract exist. -/
example : Contract refFns := refImpl.contract

end Ed448.Props
