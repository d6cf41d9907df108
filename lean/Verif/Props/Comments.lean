import Verif.Props.Cost
import Verif.Props.Parameters
import Verif.Props.ModelIsSource

/-!
# What the comments and the read-me of the source say (C97)

The comments of the Rust files and readme.md make claims about the code. Where such a claim has a precise
meaning that no other property states, it is proved here on the translated source, or refuted: then the
theorem says what holds instead.
-/

namespace Ed448.Props

section
open Ed448.Model Ed448.Leak Ed448.Proofs
variable {F L : Type} [FieldBackend F L]
attribute [local instance] counting

/-- src/curve/edwards/extended.rs:145-148, on `scalar_mod_four`: "This should be cheaper than calling
double_and_add or a scalar mul operation […]. XXX: This claim has not been tested". It takes less than a
hundredth of the products of either, and fewer of all other operations. -/
theorem C97_costs : ∃ m v da : Ops,
    Performs (fun x : EdPt F × List ℕ => W14 x.2) (fun x => Gen.EdPt.scalar_mod_four x.1 x.2)
      (fun x => Leak.EdPt.scalar_mod_four x.1 x.2) m ∧
    Performs (fun x : TwPt F × List ℕ => W14 x.2) (fun x => Gen.variable_base.variable_base x.1 x.2)
      (fun x => Leak.variable_base.variable_base x.1 x.2) v ∧
    Performs (fun x : TwPt F × List ℕ => W14 x.2) (fun x => Gen.double_and_add.double_and_add x.1 x.2)
      (fun x => Leak.double_and_add.double_and_add x.1 x.2) da ∧
    ∀ n ∈ [v, da], 100 * (m.mul + m.square) < n.mul + n.square ∧ m.mul < n.mul ∧ m.square < n.square ∧
      m.add < n.add ∧ m.sub < n.sub ∧ m.negate < n.negate ∧ m.select < n.select ∧
      m.strongReduce = 0 ∧ m.fromBytes = 0 ∧ m.toBytes = 0 := by
  obtain ⟨-, h2, h3, -⟩ := C92_scalar_mul (F := F)
  refine ⟨{ mul := 26, add := 8, sub := 8, select := 16 }, _, _, fun x hx => ?_, h2, h3, by decide⟩
  have er : Er (Leak.EdPt.scalar_mod_four x.1 x.2) (Gen.EdPt.scalar_mod_four x.1 x.2) := inferInstance
  have hg := Source.EdPt_scalar_mod_four x.1 ⟨x.2, hx.1, hx.2⟩
  obtain ⟨⟨r, T⟩, e, e'⟩ := Option.map_eq_some_iff.mp (er.er.trans hg)
  obtain rfl := e'
  have c : Cost (Leak.EdPt.scalar_mod_four x.1 x.2) { mul := 26, add := 8, sub := 8, select := 16 } :=
    inferInstance
  exact ⟨_, T, hg, e, c.cost _ _ e⟩

end

open Ed448.Model Ed448.Edw Ed448.Proofs Ed448.Iso FieldBackend
open FieldVal (val)

set_option exponentiation.threshold 1000
set_option maxRecDepth 10000

/-- The offset in the comments of src/field/scalar.rs:10 and src/constants.rs:13. -/
def orderOffset : ℕ := 0x8335dc163bb124b65129c96fde933d8d723a70aadc873d6d54a7bb0d

/-- src/field/scalar.rs:10 says "size = 4q = 2^446 - 0x8335…": the number is right, but it is the prime q
itself, not four times anything; 4q is the number of points. src/constants.rs:13 says the order of the base
point is "2^446 + 0x8335…": the sign is wrong, and that multiple of the base point is not the identity. -/
theorem C97_order :
    wval (2 ^ 32) Gen.C.MODULUS = 2 ^ 446 - orderOffset ∧ (wval (2 ^ 32) Gen.C.MODULUS).Prime ∧
    (¬ ∃ q, wval (2 ^ 32) Gen.C.MODULUS = 4 * q) ∧ Nat.card E = 4 * wval (2 ^ 32) Gen.C.MODULUS ∧
    wval (2 ^ 32) Gen.C.BASEPOINT_ORDER • G = 0 ∧
    wval (2 ^ 32) Gen.C.BASEPOINT_ORDER ≠ 2 ^ 446 + orderOffset ∧ (2 ^ 446 + orderOffset) • G ≠ 0 := by
  have e : wval (2 ^ 32) Gen.C.MODULUS = ell := by rw [ell_lit]; decide +kernel
  have e' : wval (2 ^ 32) Gen.C.BASEPOINT_ORDER = ell := e
  have hp := ell_prime
  rw [e, e']
  refine ⟨by rw [ell_lit]; decide +kernel, hp, ?_, card_E, ?_, by rw [ell_lit]; decide +kernel, ?_⟩
  · rintro ⟨q, hq⟩
    have h2 : ell % 2 = 1 := by rw [ell_lit]
    omega
  · exact addOrderOf_dvd_iff_nsmul_eq_zero.1 (addOrderOf_G ▸ dvd_rfl)
  · rw [Ne, ← addOrderOf_dvd_iff_nsmul_eq_zero, addOrderOf_G, Nat.dvd_iff_mod_eq_zero, ell_lit]
    decide +kernel

theorem two_d_ne : (2 * 39081 : Fp) ≠ 0 := by
  have := natCast_ne_of_mod (a := 2 * 39081) (b := 0) (by rw [p_lit]; decide +kernel)
  exact_mod_cast this

theorem two_d1_ne : (2 * 39082 : Fp) ≠ 0 := by
  have := natCast_ne_of_mod (a := 2 * 39082) (b := 0) (by rw [p_lit]; decide +kernel)
  exact_mod_cast this

section
variable {F L : Type} [FieldBackend F L] [Lawful F]

/-- src/curve/edwards/extended.rs:218 gives the equation of the curve as "Y^2 + X^2 == Z^2 - T^2 * D",
src/curve/twedwards/affine.rs:12 as "y^2 - x^2 = 1 - (TWISTED_D) * x^2 * y^2". Both have the wrong sign:
among the points that the code accepts these equations hold only for those with `T = 0`. The equation of
src/curve/twedwards/extended.rs:141 and those of readme.md are right. -/
theorem C97_equations :
    (∀ P : EdPt F, Gen.EdPt.is_on_curve P = true →
      val P.Y ^ 2 + val P.X ^ 2 = val P.Z ^ 2 + val P.T ^ 2 * (-39081) ∧
      (val P.Y ^ 2 + val P.X ^ 2 = val P.Z ^ 2 - val P.T ^ 2 * (-39081) ↔ val P.T = 0)) ∧
    (∀ P : TwPt F, Gen.TwPt.is_on_curve P = true →
      val P.Y ^ 2 - val P.X ^ 2 = val P.Z ^ 2 + val P.T ^ 2 * (-39082)) ∧
    (∀ P : TwAff F, Gen.TwAff.is_on_curve P = true →
      val P.y ^ 2 - val P.x ^ 2 = 1 - 39082 * val P.x ^ 2 * val P.y ^ 2 ∧
      (val P.y ^ 2 - val P.x ^ 2 = 1 - (-39082) * val P.x ^ 2 * val P.y ^ 2 ↔
        val P.x * val P.y = 0)) := by
  refine ⟨fun P h => ?_, fun P h => ?_, fun P h => ?_⟩
  · rw [Source.EdPt_is_on_curve, isOnCurve_iff] at h
    have e : val P.Y ^ 2 + val P.X ^ 2 = val P.Z ^ 2 + val P.T ^ 2 * (-39081) := by
      have := h.2
      unfold d at this
      linear_combination this
    refine ⟨e, ⟨fun h' => ?_, fun h' => by rw [e, h']; ring⟩⟩
    refine pow_eq_zero_iff (two_ne_zero) |>.1 (mul_left_cancel₀ two_d_ne ?_)
    linear_combination e - h'
  · rw [Source.TwPt_is_on_curve, tw_isOnCurve_iff] at h
    have := h.2
    unfold d at this
    linear_combination this
  · rw [Source.TwAff_is_on_curve, C55_on_curve] at h
    refine ⟨h, ⟨fun h' => ?_, fun h' => ?_⟩⟩
    · refine pow_eq_zero_iff (two_ne_zero) |>.1 (mul_left_cancel₀ two_d1_ne ?_)
      linear_combination h - h'
    · linear_combination h - 2 * 39082 * val P.x * val P.y * h'

/-- readme.md and src/curve/edwards/mod.rs call the map to the twisted curve a 2-isogeny and say that going
there and back picks up a factor of 4. The factor is right; so is the consequence that the map is not of
degree 2: exactly the four points of order dividing 4 go to the identity. -/
theorem C97_isogeny :
    (∀ (P : EdPt F) (R : E), Rep P R → ∃ Q P', Gen.EdPt.to_twisted P = some Q ∧
      Gen.TwPt.to_untwisted Q = some P' ∧ Rep P' (4 • R) ∧
      (Gen.TwPt.eq Q Gen.TwPt.identity = true ↔ 4 • R = 0)) ∧
    Nat.card {R : E // 4 • R = 0} = 4 := by
  refine ⟨fun P R h => ⟨_, _, Source.EdPt_to_twisted P, Source.TwPt_to_untwisted _,
    (rep_toTwisted h).toUntwisted, ?_⟩, ?_⟩
  · rw [Source.TwPt_eq]
    exact C25_kernel h
  · have e : {R : E | 4 • R = 0} = (AddSubgroup.zmultiples torsion4 : Set E) := by
      ext R
      refine ⟨fun h => ?_, fun h => ?_⟩
      · rcases four_tors h with h | h | h | h
        · exact h ▸ zero_mem _
        · rw [h, ← torsion4_two]
          exact add_mem (AddSubgroup.mem_zmultiples _) (AddSubgroup.mem_zmultiples _)
        · exact h ▸ AddSubgroup.mem_zmultiples _
        · exact h ▸ neg_mem (AddSubgroup.mem_zmultiples _)
      · obtain ⟨n, rfl⟩ := AddSubgroup.mem_zmultiples_iff.1 h
        show 4 • n • torsion4 = 0
        rw [smul_comm, four_torsion4, smul_zero]
    show Nat.card {R : E | 4 • R = 0} = 4
    rw [e]
    exact (Nat.card_zmultiples torsion4).trans addOrderOf_torsion4

/-- src/curve/edwards/mod.rs:8-10: multiplication "does not clear the cofactor on the Goldilocks curve unless
the Scalar is a multiple of 4 or the point is known to be in the q-torsion subgroup". -/
theorem C97_cofactor :
    (∀ s, Words 14 (2 ^ 32) s →
      ((∀ (P : EdPt F) (R : E), Rep P R → ∃ Q, Gen.EdPt.op_mul_Scalar P s = some Q ∧
        Gen.EdPt.is_torsion_free Q = some true) ↔ 4 ∣ wval (2 ^ 32) s)) ∧
    (∀ s, Words 14 (2 ^ 32) s → ∀ (P : EdPt F) (R : E), Rep P R →
      Gen.EdPt.is_torsion_free P = some true → ∃ Q, Gen.EdPt.op_mul_Scalar P s = some Q ∧
        Gen.EdPt.is_torsion_free Q = some true) := by
  have free (P : EdPt F) (R : E) (h : Rep P R) :
      Gen.EdPt.is_torsion_free P = some true ↔ ∃ n : ℕ, R = n • G := by
    obtain ⟨b, hb, e⟩ := (C67_source_edwards_group h h).2.2.2.2.2.2.2.2
    rw [hb, ← e, Option.some_inj]
  have mul (P : EdPt F) (R : E) (h : Rep P R) (s : List ℕ) (hs : Words 14 (2 ^ 32) s) :
      ∃ r, Gen.EdPt.op_mul_Scalar P s = some r ∧ Rep r (wval (2 ^ 32) s • R) :=
    (C67_source_edwards_group h h).2.2.2.2.2.2.2.1 s hs
  refine ⟨fun s hs => ⟨fun H => ?_, ?_⟩, fun s hs P R h hf => ?_⟩
  · obtain ⟨P, -, hP⟩ := C13_all_points_reachable (F := F) torsion4
    obtain ⟨Q, hQ, hf⟩ := H P _ hP
    obtain ⟨r, hr, hrep⟩ := mul P _ hP s hs
    rw [hr, Option.some_inj] at hQ
    subst hQ
    obtain ⟨n, hn⟩ := (free _ _ hrep).1 hf
    rw [← addOrderOf_torsion4]
    refine addOrderOf_dvd_of_nsmul_eq_zero ?_
    have h0 : ell • (wval (2 ^ 32) s • torsion4) = 0 := by
      rw [hn, smul_comm, ell_G, smul_zero]
    have hd := addOrderOf_dvd_of_nsmul_eq_zero ((mul_smul ell _ torsion4).trans h0)
    rw [addOrderOf_torsion4] at hd
    refine addOrderOf_dvd_iff_nsmul_eq_zero.1 ?_
    rw [addOrderOf_torsion4]
    exact coprime4.dvd_of_dvd_mul_left hd
  · rintro ⟨k, hk⟩ P R h
    obtain ⟨r, hr, hrep⟩ := mul P R h s hs
    refine ⟨r, hr, (free _ _ hrep).2 ?_⟩
    obtain ⟨n, hn⟩ := C19_orders.2.2.2.1 R
    exact ⟨k * n, by rw [hk, mul_comm, mul_smul, hn, mul_smul]⟩
  · obtain ⟨r, hr, hrep⟩ := mul P R h s hs
    obtain ⟨n, rfl⟩ := (free P R h).1 hf
    exact ⟨r, hr, (free _ _ hrep).2 ⟨_, (mul_smul _ _ _).symm⟩⟩

/-- The comments beside the steps of the Montgomery ladder, src/curve/montgomery/montgomery.rs:163-188: the
results are as commented, with `A + 2 = 156328` and `W_D = 1`. (The comment on `t13` should read
`(A + 2) U_P W_P`; with `U_P U_Q` the result would be another one.) -/
theorem C97_ladder_step (P Q : ProjMont F) (D : F) :
    let r := Gen.montgomery.differential_add_and_double P Q D
    val r.1.U = (val P.U + val P.W) ^ 2 * (val P.U - val P.W) ^ 2 ∧
    val r.1.W = 4 * val P.U * val P.W *
      ((val P.U - val P.W) ^ 2 + (156326 + 2) / 4 * (4 * val P.U * val P.W)) ∧
    val r.2.U = 4 * (val P.U * val Q.U - val P.W * val Q.W) ^ 2 ∧
    val r.2.W = val D * 4 * (val P.W * val Q.U - val P.U * val Q.W) ^ 2 := by
  obtain ⟨h1, h2, h3, h4⟩ := diff_vals P Q D
  have e : ((156326 + 2) / 4 : Fp) = 39082 := by
    have h4 : (4 : Fp) ≠ 0 := by
      have := natCast_ne_of_mod (a := 4) (b := 0) (by rw [p_lit]; decide +kernel)
      simpa using this
    rw [div_eq_iff h4]; norm_num
  refine ⟨h1.trans (by ring), h2.trans ?_, h3, h4.trans (by ring)⟩
  rw [e]; ring

/-- src/curve/twedwards/extended.rs:91: "All points where Z=0, translate to (0,0)"; the same holds for
Edwards points, and the result of the Montgomery ladder at infinity is the string of zeros. -/
theorem C97_zero_denominator :
    (∀ P : TwPt F, val P.Z = 0 → ∃ a, Gen.TwPt.to_affine P = some a ∧ val a.x = 0 ∧ val a.y = 0) ∧
    (∀ P : EdPt F, val P.Z = 0 → ∃ a, Gen.EdPt.to_affine P = some a ∧ val a.x = 0 ∧ val a.y = 0) ∧
    (∀ P : ProjMont F, val P.W = 0 → Gen.ProjMont.to_affine P = some (List.replicate 56 0)) := by
  refine ⟨fun P h => ⟨_, Source.TwPt_to_affine P, ?_, ?_⟩, fun P h => ⟨_, Source.EdPt_to_affine P, ?_, ?_⟩,
    fun P h => ?_⟩
  · simp [TwPt.toAffine, Lawful.val_strongReduce, val_invert, h]
  · simp [TwPt.toAffine, Lawful.val_strongReduce, val_invert, h]
  · simp [EdPt.toAffine, Lawful.val_strongReduce, val_invert, h]
  · simp [EdPt.toAffine, Lawful.val_strongReduce, val_invert, h]
  · rw [Source.ProjMont_to_affine]
    have e : P.toAffine = ⟨List.replicate 56 0, by simp, by simp⟩ := by
      refine Arr.val_inj (by norm_num) ?_
      unfold ProjMont.toAffine
      rw [Lawful.toBytes_val]
      simp [val_invert, h]
      decide
    rw [e]

/-- src/curve/scalar_mul/window/wnaf/mod.rs:9 says the table holds the odd multiples of the point. It holds
all multiples from 1 to 8, the even ones too. -/
theorem C97_table {P : EdPt F} {R : E} (h : Rep P R) :
    ∃ Q t, Gen.EdPt.to_twisted P = some Q ∧ Gen.LookupTable.from Q = some t ∧ t.length = 8 ∧
      ∀ (i : ℕ) (hi : i < t.length), ∃ P' : EdPt F, ∃ Q' : TwPt F, Rep P' ((i + 1) • R) ∧
        Gen.EdPt.to_twisted P' = some Q' ∧ Gen.TwPt.eq (Gen.PNiels.to_extended t[i]) Q' = true := by
  refine ⟨_, _, Source.EdPt_to_twisted P, Source.LookupTable_from _, by simp [lookupTable], fun i hi => ?_⟩
  obtain ⟨P', -, hP⟩ := C13_all_points_reachable (F := F) ((i + 1) • R)
  refine ⟨P', _, hP, Source.EdPt_to_twisted P', ?_⟩
  rw [Source.TwPt_eq]
  have := (tableEntry_rep (rep_toTwisted h) i).toT
  rw [one_pow] at this
  simp only [lookupTable, List.getElem_map, List.getElem_range]
  exact (this.eq_iff (rep_toTwisted hP)).2 ⟨rfl, rfl⟩

/-- src/field/u32/constants.rs:37 and src/field/fiat_u64/constants.rs:62: DECAF_FACTOR is
"INVSQRT(a*d_2-1) where d_2 = 39082/39081" (with `a = 1`), the non-negative root. -/
theorem C97_decaf_factor :
    val (DECAF_FACTOR : F) ^ 2 * (1 * (39082 / 39081) - 1) = 1 ∧
    isNegative (DECAF_FACTOR : F) = false := by
  rw [isNegative_eq, Lawful.val_DECAF_FACTOR]
  refine ⟨?_, ?_⟩
  · have h1 : ((39081 : ℕ) : Fp) ≠ 0 := by
      have := natCast_ne_of_mod (a := 39081) (b := 0) (by rw [p_lit]; decide +kernel)
      simpa using this
    have h2 : (decafFactor : Fp) ^ 2 = (39081 : ℕ) := by
      rw [← Nat.cast_pow]
      exact natCast_eq_of_mod (by rw [p_lit]; decide +kernel)
    rw [h2]
    push_cast at h1 ⊢
    field_simp
    norm_num
  · unfold negv
    rw [ZMod.val_natCast]
    rw [p_lit]
    decide +kernel

/-- src/curve/twedwards/affine.rs:84 says that the cached form of an affine point is
"((y+x)/2, (y-x)/2, dxy)". Nothing is halved. The same comment at src/curve/twedwards/projective.rs:14 is
right, relative to the stored `Z`, which is doubled. -/
theorem C97_niels :
    (∀ P : TwAff F, val (Gen.TwAff.to_affine_niels P).YpX = val P.y + val P.x ∧
      val (Gen.TwAff.to_affine_niels P).YmX = val P.y - val P.x ∧
      val (Gen.TwAff.to_affine_niels P).td = -39082 * val P.x * val P.y) ∧
    (∀ P : TwPt F, val P.Z ≠ 0 → val P.X * val P.Y = val P.Z * val P.T →
      let n := Gen.TwExt.to_projective_niels (Gen.TwPt.to_extensible P)
      let x := val P.X / val P.Z
      let y := val P.Y / val P.Z
      val n.YpX / val n.Z = (y + x) / 2 ∧ val n.YmX / val n.Z = (y - x) / 2 ∧
      val n.Td / val n.Z = -39082 * x * y) := by
  have h2 : (2 : Fp) ≠ 0 := two_ne
  refine ⟨fun P => ?_, fun P hz ht => ?_⟩
  · rw [Source.TwAff_to_affine_niels]
    simp only [TwAff.toAffineNiels, Lawful.val_add, Lawful.val_sub, val_mulR, val_mul, Lawful.lval_TWISTED_D]
    unfold d
    exact ⟨trivial, trivial, by ring⟩
  · intro n x y
    have hT : val P.T = val P.X * val P.Y / val P.Z := by rw [ht]; field_simp
    simp only [n, x, y, Gen.TwExt.to_projective_niels, Gen.TwPt.to_extensible, Lawful.val_add,
      Lawful.val_sub, val_mulR, val_mul, Lawful.lval_TWO_TIMES_TWISTED_D, Lawful.val_one, hT, ← two_mul]
    unfold d
    refine ⟨?_, ?_, ?_⟩ <;> field_simp <;> ring

/-- src/curve/twedwards/extensible.rs:94 says that `sub_extended` subtracts an extensible point (the
receiver) from an extended one (the argument). It is the other way round. -/
theorem C97_sub_extended {P Q : EdPt F} {R S : E} (h : Rep P R) (k : Rep Q S) :
    ∃ A B : TwPt F, Gen.EdPt.to_twisted P = some A ∧ Gen.EdPt.to_twisted Q = some B ∧
      ∀ (P' : EdPt F) (R' : E), Rep P' R' → ∃ A' : TwPt F, Gen.EdPt.to_twisted P' = some A' ∧
        (Gen.TwPt.eq (Gen.TwExt.to_extended (Gen.TwExt.sub_extended (Gen.TwPt.to_extensible A) B)) A'
          = true ↔ 4 • (R - S) = 4 • R') := by
  refine ⟨_, _, Source.EdPt_to_twisted P, Source.EdPt_to_twisted Q, fun P' R' h' =>
    ⟨_, Source.EdPt_to_twisted P', ?_⟩⟩
  have hr := ((rep_toTwisted h).toX.subExtended (rep_toTwisted k)).toT
  rw [Source.TwPt_eq, Source.TwExt_to_extended, Source.TwExt_sub_extended, Source.TwPt_to_extensible,
    hr.eq_iff (rep_toTwisted h'), one_mul, one_mul, one_mul, one_mul, one_mul, phi_eq_iff, ← four_iff,
    smul_sub, sub_eq_zero]

end

/-- src/field/u32/prime_field.rs:257: "After weak reducing, we can make the guarantee that 0 < self < 2p".
The upper bound holds, for all limbs up to 2^32 - 17; the lower one does not: zero stays zero, and `p` stays
`p`. -/
theorem C97_weak_reduce :
    (∀ a, Words 16 (2 ^ 32) a → (∀ x ∈ a, x + 16 < 2 ^ 32) →
      ∃ r, Gen.FieldElement28.weak_reduce a = some r ∧ wval (2 ^ 28) r < 2 * p ∧
        wval (2 ^ 28) r % p = wval (2 ^ 28) a % p) ∧
    Gen.FieldElement28.weak_reduce (List.replicate 16 0) = some (List.replicate 16 0) ∧
    (∃ a, wval (2 ^ 28) a = p ∧ Gen.FieldElement28.weak_reduce a = some a) ∧
    (∃ a, Words 16 (2 ^ 32) a ∧ Gen.FieldElement28.weak_reduce a = none) := by
  refine ⟨fun a ha hb => ?_, by decide +kernel, ⟨U32.pLimbs, ?_, by decide +kernel⟩,
    ⟨List.replicate 16 (2 ^ 32 - 1), ⟨by decide, by decide⟩, by decide +kernel⟩⟩
  · have hk : ∀ i, (⟨a, ha.1, ha.2⟩ : U32.Raw).get i ≤ 2 ^ 32 - 17 := by
      intro i
      rcases U32.get_mem_or ⟨a, ha.1, ha.2⟩ i with hm | h0
      · have := hb _ hm
        omega
      · rw [h0]; exact Nat.zero_le _
    obtain ⟨r, h1, h2, h3⟩ := U32.weakReduce_spec ⟨a, ha.1, ha.2⟩ (2 ^ 32 - 17) hk (by norm_num)
    refine ⟨r.l, ?_, ?_, ?_⟩
    · exact (Source.weak_reduce ⟨a, ha.1, ha.2⟩).trans (by rw [h1]; rfl)
    · refine (U32.V_le r _ h3).trans_lt ?_
      rw [p_lit]; decide +kernel
    · show U32.V r % p = U32.V ⟨a, ha.1, ha.2⟩ % p
      rw [← h2, Nat.add_mul_mod_self_right]
  · exact U32.pLimbs_val

/-- src/field/u32/prime_field.rs:196: "Bias adds 'b' multiples of `p` to self", as long as no limb overflows. -/
theorem C97_bias (a : List ℕ) (b : ℕ) (ha : a.length = 16) (hb : b ≤ 16)
    (h : ∀ x ∈ a, x + b * (2 ^ 28 - 1) < 2 ^ 32) :
    ∃ r, Gen.FieldElement28.bias a b = some r ∧ wval (2 ^ 28) r = wval (2 ^ 28) a + b * p := by
  have hc : (2 ^ 28 - 1 : ℕ) = 268435455 := by norm_num
  rw [hc] at h
  obtain ⟨a0, a1, a2, a3, a4, a5, a6, a7, a8, a9, a10, a11, a12, a13, a14, a15, rfl⟩ := Source.list16 a ha
  have e1 : ckU32 (b * 268435455) = some (b * 268435455) := by
    unfold ckU32
    rw [if_pos (by omega)]
  have e2 : ckSub (b * 268435455) b = some (b * 268435454) := by
    unfold ckSub
    rw [if_pos (by omega)]
    exact congrArg some (by omega)
  have w : ∀ x ∈ [a0, a1, a2, a3, a4, a5, a6, a7, a8, a9, a10, a11, a12, a13, a14, a15],
      Gen.Rt.waddU 32 x (b * 268435455) = x + b * 268435455 ∧
      Gen.Rt.waddU 32 x (b * 268435454) = x + b * 268435454 := by
    intro x hx
    have h1 : x + b * 268435455 < 2 ^ 32 := h x hx
    have h2 : x + b * 268435454 < 2 ^ 32 :=
      lt_of_le_of_lt (Nat.add_le_add_left (Nat.mul_le_mul_left _ (by norm_num)) _) h1
    unfold Gen.Rt.waddU
    exact ⟨Nat.mod_eq_of_lt h1, Nat.mod_eq_of_lt h2⟩
  simp only [List.forall_mem_cons] at w
  obtain ⟨w0, w1, w2, w3, w4, w5, w6, w7, w8, w9, w10, w11, w12, w13, w14, w15, -⟩ := w
  refine ⟨[a0 + b * 268435455, a1 + b * 268435455, a2 + b * 268435455, a3 + b * 268435455, a4 + b * 268435455,
      a5 + b * 268435455, a6 + b * 268435455, a7 + b * 268435455, a8 + b * 268435454, a9 + b * 268435455, a10
      + b * 268435455, a11 + b * 268435455, a12 + b * 268435455, a13 + b * 268435455, a14 + b * 268435455, a15
      + b * 268435455], ?_, ?_⟩
  · unfold Gen.FieldElement28.bias
    dsimp only
    rw [e1, Option.bind_some, e2, Option.bind_some]
    refine congrArg some ?_
    show [Gen.Rt.waddU 32 a0 (b * 268435455), Gen.Rt.waddU 32 a1 (b * 268435455), Gen.Rt.waddU 32 a2 (b *
        268435455), Gen.Rt.waddU 32 a3 (b * 268435455), Gen.Rt.waddU 32 a4 (b * 268435455), Gen.Rt.waddU 32 a5
        (b * 268435455), Gen.Rt.waddU 32 a6 (b * 268435455), Gen.Rt.waddU 32 a7 (b * 268435455), Gen.Rt.waddU
        32 a8 (b * 268435454), Gen.Rt.waddU 32 a9 (b * 268435455), Gen.Rt.waddU 32 a10 (b * 268435455),
        Gen.Rt.waddU 32 a11 (b * 268435455), Gen.Rt.waddU 32 a12 (b * 268435455), Gen.Rt.waddU 32 a13 (b *
        268435455), Gen.Rt.waddU 32 a14 (b * 268435455), Gen.Rt.waddU 32 a15 (b * 268435455)] = _
    rw [w0.1, w1.1, w2.1, w3.1, w4.1, w5.1, w6.1, w7.1, w8.2, w9.1, w10.1, w11.1, w12.1, w13.1, w14.1, w15.1]
  · have key : ∀ B P : ℕ, Nat.ofDigits B U32.pLimbs = P → ∀ c : ℕ, U32.pLimbs = [c + 1, c + 1, c + 1, c + 1,
        c + 1, c + 1, c + 1, c + 1, c, c + 1, c + 1, c + 1, c + 1, c + 1, c + 1, c + 1] →
      Nat.ofDigits B [a0 + b * (c + 1), a1 + b * (c + 1), a2 + b * (c + 1), a3 + b * (c + 1),
        a4 + b * (c + 1), a5 + b * (c + 1), a6 + b * (c + 1), a7 + b * (c + 1), a8 + b * c,
        a9 + b * (c + 1), a10 + b * (c + 1), a11 + b * (c + 1), a12 + b * (c + 1), a13 + b * (c + 1),
        a14 + b * (c + 1), a15 + b * (c + 1)] =
      Nat.ofDigits B [a0, a1, a2, a3, a4, a5, a6, a7, a8, a9, a10, a11, a12, a13, a14, a15] + b * P := by
      rintro B P rfl c hc
      rw [hc]
      simp only [Nat.ofDigits_cons, Nat.ofDigits_nil]
      ring
    exact key _ _ U32.pLimbs_val 268435454 rfl

/-! Examples: the hypotheses hold, and the refuted comments are false of actual points. -/

/-- For the base point the commented equation of the curve is false. -/
example : ∃ P : EdPt U32.Fe, Gen.EdPt.is_on_curve P = true ∧
    val P.Y ^ 2 + val P.X ^ 2 ≠ val P.Z ^ 2 - val P.T ^ 2 * (-39081) := by
  have h : Gen.EdPt.is_on_curve (Gen.EdPt.generator : EdPt U32.Fe) = true := by
    rw [Source.EdPt_is_on_curve, isOnCurve_iff]
    exact (rep_iff_valid _).1 ⟨_, rep_generator⟩ |>.2
  refine ⟨Gen.EdPt.generator, h, fun e => ?_⟩
  have ht := (C97_equations.1 _ h).2.1 e
  have hv : val (Gen.EdPt.generator : EdPt U32.Fe).T = (Gx : Fp) * (Gy : Fp) := Lawful.val_GT
  rw [hv, ← Nat.cast_mul] at ht
  have := natCast_ne_of_mod (a := Gx * Gy) (b := 0) (by rw [p_lit]; decide +kernel)
  exact this (by simpa using ht)

/-- Multiplication by 2 leaves a point outside the subgroup, multiplication by 4 does not. -/
example : (¬ ∀ (P : EdPt U32.Fe) (R : E), Rep P R → ∃ Q, Gen.EdPt.op_mul_Scalar P (2 :: List.replicate 13 0) =
      some Q ∧ Gen.EdPt.is_torsion_free Q = some true) ∧
    ∀ (P : EdPt U32.Fe) (R : E), Rep P R → ∃ Q, Gen.EdPt.op_mul_Scalar P (4 :: List.replicate 13 0) =
      some Q ∧ Gen.EdPt.is_torsion_free Q = some true := by
  rw [C97_cofactor.1 _ ⟨by decide, by decide⟩, C97_cofactor.1 _ ⟨by decide, by decide⟩]
  decide +kernel

/-- A bias by 2 of a number that is not zero. -/
example : ∃ r, Gen.FieldElement28.bias (5 :: List.replicate 15 0) 2 = some r ∧ wval (2 ^ 28) r = 5 + 2 * p := by
  obtain ⟨r, h, e⟩ := C97_bias (5 :: List.replicate 15 0) 2 (by decide) (by decide) (by decide +kernel)
  exact ⟨r, h, e.trans (congrArg (· + 2 * p) (by decide +kernel))⟩

end Ed448.Props
