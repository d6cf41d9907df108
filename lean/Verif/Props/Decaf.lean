import Verif.Proofs.DecafDecode
import Verif.Props.Twisted
import Verif.Props.Montgomery

/-!
# Properties of Decaf and Ristretto points (C36–C43, C50, C51)
-/

namespace Ed448.Props
open Ed448.Model Ed448.Edw Ed448.Iso
open FieldVal (val)

set_option exponentiation.threshold 1000
set_option maxRecDepth 10000

variable {F L : Type} [FieldBackend F L] [Lawful F]

/-- Decaf points produced by the public API. -/
inductive DecafReach : DecafPt F → Prop
  | identity : DecafReach DecafPt.identity
  | generator : DecafReach DecafPt.generator
  | decompress {b P} : decafDecompress F b = some P → DecafReach P
  | add {P Q} : DecafReach P → DecafReach Q → DecafReach (P.add Q)
  | sub {P Q} : DecafReach P → DecafReach Q → DecafReach (P.sub Q)
  | neg {P} : DecafReach P → DecafReach P.neg
  | scalarMul {P} (s : Scalar) : DecafReach P → DecafReach (P.scalarMul s)

/-- `P` represents the class of `R` modulo 4-torsion. -/
def DRep (P : DecafPt F) (R : E) : Prop := ∃ e, RepT e P.pt R

theorem drep_add {P Q : DecafPt F} {R S : E} (h : DRep P R) (k : DRep Q S) :
    DRep (P.add Q) (R + S) := by
  obtain ⟨e, h⟩ := h; obtain ⟨f, k⟩ := k; exact ⟨e * f, (h.toX.addExtended k).toT⟩

theorem drep_sub {P Q : DecafPt F} {R S : E} (h : DRep P R) (k : DRep Q S) :
    DRep (P.sub Q) (R - S) := by
  obtain ⟨e, h⟩ := h; obtain ⟨f, k⟩ := k; exact ⟨e * f, (h.toX.subExtended k).toT⟩

theorem drep_neg {P : DecafPt F} {R : E} (h : DRep P R) : DRep P.neg (-R) := by
  obtain ⟨e, h⟩ := h; exact ⟨e, h.negate⟩

theorem drep_mul {P : DecafPt F} {R : E} (h : DRep P R) (s : Scalar) :
    DRep (P.scalarMul s) (s.val • R) := by
  obtain ⟨e, h⟩ := h; exact ⟨_, doubleAndAdd_rep h s⟩

theorem drep_identity : DRep (DecafPt.identity : DecafPt F) 0 := ⟨1, repT_identity⟩
theorem drep_generator : DRep (DecafPt.generator : DecafPt F) G := ⟨1, repT_generator⟩

theorem DecafReach.rep {P : DecafPt F} (h : DecafReach P) : ∃ R, DRep P R := by
  induction h with
  | identity => exact ⟨_, drep_identity⟩
  | generator => exact ⟨_, drep_generator⟩
  | decompress h => obtain ⟨e, R, h, -⟩ := decaf_some _ h; exact ⟨R, e, h⟩
  | add _ _ ih ik => obtain ⟨R, h⟩ := ih; obtain ⟨S, k⟩ := ik; exact ⟨_, drep_add h k⟩
  | sub _ _ ih ik => obtain ⟨R, h⟩ := ih; obtain ⟨S, k⟩ := ik; exact ⟨_, drep_sub h k⟩
  | neg _ ih => obtain ⟨R, h⟩ := ih; exact ⟨_, drep_neg h⟩
  | scalarMul s _ ih => obtain ⟨R, h⟩ := ih; exact ⟨_, drep_mul h s⟩

theorem drep_equals {P Q : DecafPt F} {R S : E} (h : DRep P R) (k : DRep Q S) :
    P.equals Q = true ↔ t (R - S) = 0 := by
  obtain ⟨e, h⟩ := h; obtain ⟨f, k⟩ := k; exact decaf_equals_iff h k

theorem drep_compress {P : DecafPt F} {R : E} (h : DRep P R) : P.compress.val = (encS R).val := by
  obtain ⟨e, h⟩ := h; exact compress_decaf h

theorem drep_compress_eq {P Q : DecafPt F} {R S : E} (h : DRep P R) (k : DRep Q S) :
    P.compress = Q.compress ↔ t (R - S) = 0 := by
  rw [← Arr.val_inj_iff (by norm_num), drep_compress h, drep_compress k, ← encS_eq_iff]
  exact ⟨fun h => ZMod.val_injective p h, fun h => by rw [h]⟩

/-! ## C36 -/

/-- Every reachable Decaf point is on the twisted curve, with a non-zero denominator. -/
theorem C36_decaf_valid {P : DecafPt F} (h : DecafReach P) :
    val P.pt.Z ≠ 0 ∧ val P.pt.X * val P.pt.Y = val P.pt.Z * val P.pt.T ∧
      val P.pt.Y ^ 2 - val P.pt.X ^ 2 = val P.pt.Z ^ 2 + (-39082) * val P.pt.T ^ 2 ∧
      P.pt.isOnCurve = true := by
  obtain ⟨R, e, h⟩ := h.rep
  obtain ⟨h1, h2, h3⟩ := (twRep_iff_valid P.pt).1 ⟨_, _, h.twRep⟩
  refine ⟨h1, h2, ?_, (tw_isOnCurve_iff P.pt).2 ⟨h2, h3⟩⟩
  rw [h3]; unfold d; ring

/-! ## C37, C38, C39: the codec -/

theorem C37_round_trip {P : DecafPt F} (h : DecafReach P) :
    ∃ Q, decafDecompress F P.compress = some Q ∧ Q.equals P = true := by
  obtain ⟨R, hR⟩ := h.rep
  have hv := drep_compress hR
  have hlt : P.compress.val < p := by rw [hv]; exact ZMod.val_lt _
  have hc : (P.compress.val : Fp) = encS R := by rw [hv, ZMod.natCast_zmod_val]
  obtain ⟨a1, a2⟩ := encS_accept R
  have hs : (decafDecompress F P.compress).isSome = true := by
    rw [decaf_isSome, hc, hv]
    exact ⟨ZMod.val_lt _, a1, a2⟩
  obtain ⟨Q, hQ⟩ := Option.isSome_iff_exists.1 hs
  refine ⟨Q, hQ, ?_⟩
  obtain ⟨e, S, hS, henc⟩ := decaf_some _ hQ
  rw [drep_equals ⟨e, hS⟩ hR, ← encS_eq_iff, henc, hc]

theorem C38_unique (b : Bytes 56) {P : DecafPt F} (h : decafDecompress F b = some P) :
    P.compress = b := by
  obtain ⟨e, R, hR, henc⟩ := decaf_some _ h
  have hlt := ((decaf_isSome (F := F) b).1 (by rw [h]; rfl)).1
  apply Arr.val_inj (by norm_num)
  rw [drep_compress ⟨e, hR⟩, henc, val_cast hlt]

/-- Acceptance criterion. -/
theorem C39_accepts (b : Bytes 56) : (decafDecompress F b).isSome = true ↔
    b.val < p ∧ b.val % 2 = 0 ∧ (1 - (b.val : Fp) ^ 2) ^ 2 + 4 * 39082 * (b.val : Fp) ^ 2 ≠ 0 ∧
      IsSquare ((1 - (b.val : Fp) ^ 2) ^ 2 + 4 * 39082 * (b.val : Fp) ^ 2) := by
  have hn := decV_ne (b.val : Fp)
  rw [decaf_isSome]
  unfold decV at *
  tauto

/-! ## C40 -/

theorem C40_equals_iff_compress {P Q : DecafPt F} (hP : DecafReach P) (hQ : DecafReach Q) :
    P.equals Q = true ↔ P.compress = Q.compress := by
  obtain ⟨R, h⟩ := hP.rep
  obtain ⟨S, k⟩ := hQ.rep
  rw [drep_equals h k, drep_compress_eq h k]

/-- Operations respect equality. -/
theorem C40_congr {P P' Q Q' : DecafPt F} (hP : DecafReach P) (hP' : DecafReach P')
    (hQ : DecafReach Q) (hQ' : DecafReach Q') (h : P.equals P' = true) (k : Q.equals Q' = true) :
    (P.add Q).equals (P'.add Q') = true ∧ (P.sub Q).equals (P'.sub Q') = true ∧
    P.neg.equals P'.neg = true ∧ ∀ s, (P.scalarMul s).equals (P'.scalarMul s) = true := by
  obtain ⟨R, r⟩ := hP.rep
  obtain ⟨R', r'⟩ := hP'.rep
  obtain ⟨S, s⟩ := hQ.rep
  obtain ⟨S', s'⟩ := hQ'.rep
  rw [drep_equals r r', ← four_iff] at h
  rw [drep_equals s s', ← four_iff] at k
  refine ⟨?_, ?_, ?_, fun n => ?_⟩
  · rw [drep_equals (drep_add r s) (drep_add r' s'), ← four_iff,
      show R + S - (R' + S') = (R - R') + (S - S') by abel, nsmul_add, h, k, add_zero]
  · rw [drep_equals (drep_sub r s) (drep_sub r' s'), ← four_iff,
      show R - S - (R' - S') = (R - R') - (S - S') by abel, nsmul_sub, h, k, sub_zero]
  · rw [drep_equals (drep_neg r) (drep_neg r'), ← four_iff,
      show -R - -R' = -(R - R') by abel, smul_neg, h, neg_zero]
  · rw [drep_equals (drep_mul r n) (drep_mul r' n), ← four_iff, ← nsmul_sub, smul_smul, mul_comm,
      ← smul_smul, h, nsmul_zero]

theorem C40_equivalence {P Q S : DecafPt F} (hP : DecafReach P) (hQ : DecafReach Q)
    (hS : DecafReach S) : P.equals P = true ∧ P.equals Q = Q.equals P ∧
    (P.equals Q = true → Q.equals S = true → P.equals S = true) := by
  refine ⟨(C40_equals_iff_compress hP hP).2 rfl, ?_, fun h k => ?_⟩
  · rw [Bool.eq_iff_iff, C40_equals_iff_compress hP hQ, C40_equals_iff_compress hQ hP, eq_comm]
  · rw [C40_equals_iff_compress hP hQ] at h
    rw [C40_equals_iff_compress hQ hS] at k
    rw [C40_equals_iff_compress hP hS, h, k]

/-! ## C41: a group of prime order -/

theorem nsmul_G_eq {a b : ℕ} : a • G = b • G ↔ a ≡ b [MOD ell] := by
  rw [nsmul_eq_nsmul_iff_modEq, addOrderOf_G]

theorem coprime4 : Nat.Coprime 4 ell := by rw [ell_lit]; decide +kernel

theorem dlog_exists (R : E) : ∃ n : ZMod ell, (4 * n.val) • G = 4 • R := by
  obtain ⟨m, hm⟩ := (four_mem R)
  have hm : m • G = 4 • R := hm
  have : NeZero ell := ⟨ell_prime.ne_zero⟩
  set k := (m % ell).toNat with hk
  have hkm : k • G = 4 • R := by
    rw [← hm, ← natCast_zsmul]
    have h1 : ((k : ℕ) : ℤ) = m % ell := by
      rw [hk]; exact Int.toNat_of_nonneg (Int.emod_nonneg _ (by exact_mod_cast ell_prime.ne_zero))
    rw [h1, ← addOrderOf_G, mod_addOrderOf_zsmul]
  have hu : IsUnit ((4 : ℕ) : ZMod ell) := (ZMod.isUnit_iff_coprime 4 ell).2 coprime4
  obtain ⟨u, hu⟩ := hu
  refine ⟨(k : ZMod ell) * ↑u⁻¹, ?_⟩
  rw [← hkm, nsmul_G_eq, ← ZMod.natCast_eq_natCast_iff]
  rw [Nat.cast_mul, ZMod.natCast_zmod_val, ← hu, mul_comm (k : ZMod ell),
    Units.mul_inv_cancel_left]

theorem dlog_unique {a b : ZMod ell} (h : (4 * a.val) • G = (4 * b.val) • G) : a = b := by
  have : NeZero ell := ⟨ell_prime.ne_zero⟩
  rw [nsmul_G_eq] at h
  have h2 := Nat.ModEq.cancel_left_of_coprime (by rw [Nat.gcd_comm]; exact coprime4) h
  rw [← ZMod.natCast_eq_natCast_iff] at h2
  simpa using h2

/-- Discrete logarithm modulo 4-torsion. -/
noncomputable def dlog (R : E) : ZMod ell := (dlog_exists R).choose

theorem dlog_spec (R : E) : (4 * (dlog R).val) • G = 4 • R := (dlog_exists R).choose_spec

theorem dlog_eq {R : E} {n : ZMod ell} (h : (4 * n.val) • G = 4 • R) : dlog R = n :=
  dlog_unique ((dlog_spec R).trans h.symm)

theorem dlog_add (R S : E) : dlog (R + S) = dlog R + dlog S := by
  have : NeZero ell := ⟨ell_prime.ne_zero⟩
  apply dlog_eq
  rw [nsmul_add, ← dlog_spec R, ← dlog_spec S, ← add_nsmul, nsmul_G_eq, ← mul_add]
  apply Nat.ModEq.mul_left
  rw [ZMod.val_add]
  exact Nat.mod_modEq _ _

/-- As a homomorphism. -/
noncomputable def dlogHom : E →+ ZMod ell := AddMonoidHom.mk' dlog dlog_add

theorem dlog_iff (R S : E) : dlog R = dlog S ↔ t (R - S) = 0 := by
  rw [← four_iff, nsmul_sub, sub_eq_zero, ← dlog_spec R, ← dlog_spec S]
  exact ⟨fun h => by rw [h], dlog_unique⟩

theorem dlog_G : dlog G = 1 := by
  have : Fact (1 < ell) := ⟨ell_prime.one_lt⟩
  apply dlog_eq
  rw [ZMod.val_one]

open Classical in
/-- Discrete logarithm of a Decaf point. -/
noncomputable def decafLog (P : DecafPt F) : ZMod ell :=
  if h : ∃ R, DRep P R then dlog h.choose else 0

theorem decafLog_eq {P : DecafPt F} {R : E} (h : DRep P R) : decafLog P = dlog R := by
  have hex : ∃ R, DRep P R := ⟨R, h⟩
  unfold decafLog
  rw [dif_pos hex, dlog_iff, ← drep_equals hex.choose_spec h, drep_equals h h, sub_self, t_zero]

/-- Reachable Decaf points up to `equals` are the group of order `l`: a discrete logarithm maps them
onto `ZMod l`, with `equals` becoming equality, `add`, `sub`, `neg` and scalar multiplication the
operations of `ZMod l`, and the generator going to 1. -/
theorem C41_prime_order_group : ∃ f : DecafPt F → ZMod ell,
    (∀ P Q, DecafReach P → DecafReach Q → (P.equals Q = true ↔ f P = f Q) ∧
      f (P.add Q) = f P + f Q ∧ f (P.sub Q) = f P - f Q) ∧
    (∀ P, DecafReach P → f P.neg = -f P ∧ ∀ s : Scalar, f (P.scalarMul s) = s.val * f P) ∧
    f DecafPt.identity = 0 ∧ f DecafPt.generator = 1 ∧
    (∀ n, ∃ P, DecafReach P ∧ f P = n) := by
  have hmul : ∀ (n : ℕ) R, dlog (n • R) = n * dlog R := fun n R => by
    rw [← nsmul_eq_mul]; exact map_nsmul dlogHom n R
  have hsmul : ∀ (P : DecafPt F), DecafReach P → ∀ s : Scalar,
      decafLog (P.scalarMul s) = s.val * decafLog P := by
    intro P hP s
    obtain ⟨R, h⟩ := hP.rep
    rw [decafLog_eq (drep_mul h s), decafLog_eq h, hmul]
  have hgen : decafLog (DecafPt.generator : DecafPt F) = 1 := by
    rw [decafLog_eq drep_generator, dlog_G]
  refine ⟨decafLog, fun P Q hP hQ => ?_, fun P hP => ?_, ?_, hgen, fun n => ?_⟩
  · obtain ⟨R, h⟩ := hP.rep
    obtain ⟨S, k⟩ := hQ.rep
    refine ⟨?_, ?_, ?_⟩
    · rw [decafLog_eq h, decafLog_eq k, dlog_iff, drep_equals h k]
    · rw [decafLog_eq h, decafLog_eq k, decafLog_eq (drep_add h k)]; exact map_add dlogHom R S
    · rw [decafLog_eq h, decafLog_eq k, decafLog_eq (drep_sub h k)]; exact map_sub dlogHom R S
  · obtain ⟨R, h⟩ := hP.rep
    refine ⟨?_, hsmul P hP⟩
    rw [decafLog_eq h, decafLog_eq (drep_neg h)]; exact map_neg dlogHom R
  · rw [decafLog_eq drep_identity]; exact map_zero dlogHom
  · have : NeZero ell := ⟨ell_prime.ne_zero⟩
    refine ⟨DecafPt.generator.scalarMul (smallScalar n.val), .scalarMul _ .generator, ?_⟩
    have hlt : n.val < 2 ^ 448 := lt_trans (ZMod.val_lt n) (by rw [ell_lit]; norm_num)
    rw [hsmul _ .generator, hgen, smallScalar_val _ hlt, mul_one, ZMod.natCast_zmod_val]

/-- Exactly `l` of the `2^448` byte strings are accepted. -/
theorem C41_count : Nat.card {b : Bytes 56 // (decafDecompress F b).isSome = true} = ell := by
  have : NeZero ell := ⟨ell_prime.ne_zero⟩
  obtain ⟨f, h1, -, -, -, h5⟩ := C41_prime_order_group (F := F)
  have hb : Function.Bijective
      (fun b : {b : Bytes 56 // (decafDecompress F b).isSome = true} =>
        f ((decafDecompress F b.1).get b.2)) := by
    constructor
    · rintro ⟨a, ha⟩ ⟨b, hb⟩ h
      obtain ⟨P, hP⟩ := Option.isSome_iff_exists.1 ha
      obtain ⟨Q, hQ⟩ := Option.isSome_iff_exists.1 hb
      simp only [hP, hQ, Option.get_some] at h
      have e := (h1 P Q (.decompress hP) (.decompress hQ)).1.2 h
      rw [C40_equals_iff_compress (.decompress hP) (.decompress hQ), C38_unique a hP,
        C38_unique b hQ] at e
      exact Subtype.ext e
    · intro n
      obtain ⟨P, hP, hf⟩ := h5 n
      obtain ⟨Q, hQ, e⟩ := C37_round_trip hP
      refine ⟨⟨P.compress, by rw [hQ]; rfl⟩, ?_⟩
      simp only [hQ, Option.get_some]
      rw [← hf]
      exact (h1 Q P (.decompress hQ) hP).1.1 e
  rw [Nat.card_congr (Equiv.ofBijective _ hb), Nat.card_zmod]

/-! ## C42 -/

/-- `s * P` is the `s`-fold sum of `P`. -/
theorem C42_scalar_mul {P : DecafPt F} (h : DecafReach P) (s : Scalar) :
    (P.scalarMul s).equals ((fun Q => Q.add P)^[s.val] DecafPt.identity) = true := by
  obtain ⟨R, hR⟩ := h.rep
  have key : ∀ n : ℕ, DRep ((fun Q : DecafPt F => Q.add P)^[n] DecafPt.identity) (n • R) := by
    intro n
    induction n with
    | zero => rw [zero_nsmul]; exact drep_identity
    | succ n ih =>
      rw [Function.iterate_succ_apply', add_nsmul, one_nsmul]
      exact drep_add ih hR
  rw [drep_equals (drep_mul hR s) (key _), sub_self, t_zero]

theorem t_mod {R : E} {a b : ℕ} (h : a ≡ b [MOD ell]) : t (a • R - b • R) = 0 := by
  rw [← dlog_iff]
  have hmul : ∀ (n : ℕ) R, dlog (n • R) = n * dlog R := fun n R => by
    rw [← nsmul_eq_mul]; exact map_nsmul dlogHom n R
  rw [hmul, hmul, (ZMod.natCast_eq_natCast_iff a b ell).2 h]

/-- Compatibility with the arithmetic of `Scalar`. -/
theorem C42_distributes {P : DecafPt F} (h : DecafReach P) (a b : Scalar) :
    (a.val < ell → b.val < ell → ∃ c, Scalar.add a b = some c ∧
      (P.scalarMul c).equals ((P.scalarMul a).add (P.scalarMul b)) = true) ∧
    (∃ c, Scalar.mul a b = some c ∧
      (P.scalarMul c).equals ((P.scalarMul b).scalarMul a) = true) := by
  obtain ⟨R, hR⟩ := h.rep
  constructor
  · intro ha hb
    obtain ⟨c, e, hc, -⟩ := C01_scalar_add a b ha hb
    refine ⟨c, e, ?_⟩
    rw [drep_equals (drep_mul hR c) (drep_add (drep_mul hR a) (drep_mul hR b)), ← add_nsmul, hc]
    exact t_mod (Nat.mod_modEq _ _)
  · obtain ⟨c, e, hc, -⟩ := C03_scalar_mul a b
    refine ⟨c, e, ?_⟩
    rw [drep_equals (drep_mul hR c) (drep_mul (drep_mul hR b) a), smul_smul, hc]
    exact t_mod (Nat.mod_modEq _ _)

/-! ## C43 -/

theorem C43_identity_encoding {P : DecafPt F} (h : DecafReach P) :
    P.compress = compressedDecafIdentity ↔ P.equals DecafPt.identity = true := by
  obtain ⟨R, hR⟩ := h.rep
  have hz : compressedDecafIdentity.val = 0 := by decide +kernel
  have e0 : encS 0 = 0 := encS_zero_of_t t_zero
  rw [← Arr.val_inj_iff (by norm_num), drep_compress hR, hz, drep_equals hR drep_identity,
    ← encS_eq_iff, e0, ZMod.val_eq_zero]

/-! ## Examples; see also `Props/DecafVectors` -/

/-- The odd string 1 is not accepted, 0 is. -/
example : (decafDecompress U32.Fe (Arr.ofVal 56 256 (by norm_num) 1)).isSome = false ∧
    (decafDecompress U32.Fe compressedDecafIdentity).isSome = true := by decide +kernel
example : DecafReach ((DecafPt.generator : DecafPt U32.Fe).neg.sub DecafPt.generator) :=
  .sub (.neg .generator) .generator
example : (DecafPt.generator : DecafPt F).equals DecafPt.identity = false := by
  rw [Bool.eq_false_iff]
  intro h
  rw [drep_equals drep_generator drep_identity, sub_zero, ← four_iff] at h
  have h4 : addOrderOf G ∣ 4 := addOrderOf_dvd_of_nsmul_eq_zero h
  rw [addOrderOf_G] at h4
  have := Nat.le_of_dvd (by norm_num) h4
  rw [ell_lit] at this
  norm_num at this

/-! ## C50, C51: Ristretto -/

/-- The unfinished functions panic on every input. -/
theorem C50_unfinished_panics : (∀ P : RistPt F, P.encode = none) ∧
    (∀ b : Bytes 56, ristDecode F b = none) ∧
    (∀ (u : Bytes 56) (sign : ℕ), montToEdwards u sign = none) :=
  ⟨fun _ => rfl, fun _ => rfl, fun _ _ => rfl⟩

/-- On all points of the twisted curve, `equals` compares `x/y`: besides `Q = ±P` it identifies `P`
with its translates by the points of order 4 at infinity, `(x, y) ↦ ±(1/(√d' y), 1/(√d' x))`. -/
theorem C51_equals_iff {P Q : RistPt F} {a b a' b' : Fp} (h : TwRep P.pt a b)
    (k : TwRep Q.pt a' b') : P.equals Q = true ↔
      ((a = a' ∧ b = b') ∨ (a = -a' ∧ b = -b')) ∨
        (a * b' = b * a' ∧ (-39082) * (a * b') ^ 2 = 1) := by
  have hz := mul_ne_zero h.z k.z
  have hy := h.on.y_ne
  have hy' := k.on.y_ne
  have e1 : P.equals Q = true ↔ a * b' = b * a' := by
    unfold RistPt.equals
    rw [feq_iff, val_mul, val_mul, h.x, h.y, k.x, k.y]
    constructor
    · intro h0; apply mul_right_cancel₀ hz; linear_combination h0
    · intro h0; linear_combination (val P.pt.Z * val Q.pt.Z) * h0
  rw [e1]
  have hd : (-39082 : Fp) = d - 1 := by unfold d; ring
  rw [hd]
  constructor
  · intro h0
    by_cases h2 : (d - 1) * (a * b') ^ 2 = 1
    · exact Or.inr ⟨h0, h2⟩
    · left
      have o1 := h.on
      have o2 := k.on
      unfold TwOn at o1 o2
      have hbb : b ^ 2 = b' ^ 2 := by
        have h3 : ((d - 1) * (a * b') ^ 2 - 1) * (b ^ 2 - b' ^ 2) = 0 := by
          grind
        rcases mul_eq_zero.1 h3 with h | h
        · exact absurd (sub_eq_zero.1 h) h2
        · exact sub_eq_zero.1 h
      rcases sq_eq_sq_iff_eq_or_eq_neg.1 hbb with hb | hb
      · left
        refine ⟨mul_right_cancel₀ hy' ?_, hb⟩
        rw [h0, hb]; ring
      · right
        refine ⟨mul_right_cancel₀ hy' ?_, hb⟩
        rw [h0, hb]; ring
  · rintro ((⟨h1, h2⟩ | ⟨h1, h2⟩) | ⟨h1, -⟩)
    · rw [h1, h2]; ring
    · rw [h1, h2]; ring
    · exact h1

/-- On the points `± φ(R)` the library works with, `equals` holds iff the points are equal up to
sign, i.e. differ by the identity or the point `(0, -1)` of order two. -/
theorem C51_image {P Q : RistPt F} {e f : Fp} {R S : E} (h : RepT e P.pt R) (k : RepT f Q.pt S) :
    P.equals Q = true ↔ (P.pt.eq Q.pt = true ∨ P.pt.eq Q.pt.torque = true) := by
  have he := sq_eq_one' h.s
  have hf := sq_eq_one' k.s
  rw [h.eq_iff k, h.eq_iff k.torque]
  constructor
  · intro h0
    rw [RistPt.equals, decaf_equals_iff h k, ← phi_eq_iff] at h0
    rw [h0.1, h0.2]
    rcases he with rfl | rfl <;> rcases hf with rfl | rfl <;> simp
  · intro h0
    rw [RistPt.equals, feq_iff, val_mul, val_mul, h.x, h.y, k.x, k.y]
    rcases h0 with ⟨h1, h2⟩ | ⟨h1, h2⟩
    · rw [h1, h2]; ring
    · rw [h1, h2]; ring

/-- The translation in `C51_equals_iff` does occur: from every point with `x ≠ 0` one gets a
different, not opposite, point of the twisted curve with the same `x/y`. -/
theorem C51_translate {r a b : Fp} (hr : r ^ 2 = -39082) (h : TwOn a b) (ha : a ≠ 0) :
    TwOn (1 / (r * b)) (1 / (r * a)) ∧ a * (1 / (r * a)) = b * (1 / (r * b)) ∧
    (-39082) * (a * (1 / (r * a))) ^ 2 = 1 ∧ a ≠ 1 / (r * b) ∧ a ≠ -(1 / (r * b)) := by
  have hb := h.y_ne
  have hM := h.M_ne
  have hr0 : r ≠ 0 := by
    rintro rfl
    apply smallNat_ne_zero 39082 (by norm_num) (by norm_num)
    push_cast; linear_combination hr
  have hd : (-39082 : Fp) = d - 1 := by unfold d; ring
  rw [hd] at hr ⊢
  unfold TwOn at *
  rw [← hr] at hM h ⊢
  have hrb : r * b ≠ 0 := mul_ne_zero hr0 hb
  refine ⟨?_, ?_, ?_, ?_, ?_⟩
  · field_simp
    linear_combination h
  · field_simp
  · field_simp
  · intro e
    apply hM
    rw [eq_div_iff hrb] at e
    linear_combination (-(a * (r * b)) - 1) * e
  · intro e
    apply hM
    rw [← neg_div, eq_div_iff hrb] at e
    linear_combination (-(a * (r * b)) + 1) * e

/-- The square root in `C51_translate` exists. -/
theorem C51_root : ∃ r : Fp, r ^ 2 = -39082 := by
  obtain ⟨r, hr⟩ := not_square_mul neg_one_nonsquare n39082_nonsquare
  exact ⟨r, by linear_combination -hr⟩

theorem C51_equivalence {P Q S : RistPt F} {a b a' b' x y : Fp} (h : TwRep P.pt a b)
    (k : TwRep Q.pt a' b') (m : TwRep S.pt x y) : P.equals P = true ∧ P.equals Q = Q.equals P ∧
    (P.equals Q = true → Q.equals S = true → P.equals S = true) := by
  have key : ∀ {P Q : RistPt F} {a b a' b' : Fp}, TwRep P.pt a b → TwRep Q.pt a' b' →
      (P.equals Q = true ↔ a / b = a' / b') := by
    intro P Q a b a' b' h k
    have hz := mul_ne_zero h.z k.z
    rw [div_eq_div_iff h.on.y_ne k.on.y_ne]
    unfold RistPt.equals
    rw [feq_iff, val_mul, val_mul, h.x, h.y, k.x, k.y]
    constructor
    · intro h0; apply mul_right_cancel₀ hz; linear_combination h0
    · intro h0; linear_combination (val P.pt.Z * val Q.pt.Z) * h0
  refine ⟨(key h h).2 rfl, ?_, ?_⟩
  · rw [Bool.eq_iff_iff, key h k, key k h, eq_comm]
  · rw [key h k, key k m, key h m]
    exact fun h k => h.trans k

example : (⟨TwPt.generator⟩ : RistPt U32.Fe).equals ⟨TwPt.generator.torque⟩ = true ∧
    (⟨TwPt.generator⟩ : RistPt U32.Fe).equals ⟨TwPt.generator.negate⟩ = false ∧
    (⟨TwPt.generator⟩ : RistPt U32.Fe).equals RistPt.identity = false := by decide +kernel

end Ed448.Props
