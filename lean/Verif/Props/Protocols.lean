import Verif.Model.Prog
import Verif.Props.Edwards
import Verif.Props.Montgomery

/-!
# Protocols on top of the library (C58, C59)

Ed448 signing and verification (RFC 8032) and X448 (RFC 7748), written as programs over the library.
SHAKE256 is not part of the crate; its outputs are inputs of the programs.
-/

namespace Ed448.Props
open Ed448.Model Ed448.Edw Ed448.Iso WeierstrassCurve
open FieldVal (val)

set_option exponentiation.threshold 1000
set_option maxRecDepth 10000

/-! ## The programs -/

/-- Panics on `none`. -/
def unwrap {α : Type} : Option α → Prog (.host α)
  | none => .panic
  | some a => .ret a

/-- Key generation and signing (RFC 8032, 5.2.5 and 5.2.6) on the library, from the three SHAKE256
outputs: the pruned secret scalar (with zeros appended), the nonce and the challenge. Returns the
public key and the two halves of the signature. -/
def sign448 (secret nonce challenge : Bytes 114) :
    Prog (.host (Bytes 57 × Bytes 57 × Bytes 57)) :=
  .bind (unwrap (Scalar.fromBytesModOrderWide secret)) fun s =>
  .bind (unwrap (Scalar.fromBytesModOrderWide nonce)) fun r =>
  .bind (unwrap (Scalar.fromBytesModOrderWide challenge)) fun k =>
  .bind (.op1 .edCompress (.op1 (.edScalarMul s) (.op0 .edGenerator))) fun A =>
  .bind (.op1 .edCompress (.op1 (.edScalarMul r) (.op0 .edGenerator))) fun R =>
  .bind (unwrap (k.mul s)) fun ks =>
  .bind (unwrap (r.add ks)) fun S =>
  .ret (A, R, S.toBytesRfc8032)

/-- Verification (RFC 8032, 5.2.7, without the cofactor): `S B = R + k A`. Panics if a half of the
signature or the key does not decode. -/
def verify448 (A R S : Bytes 57) (challenge : Bytes 114) : Prog (.host Bool) :=
  .bind (unwrap (Scalar.fromCanonicalBytes S).join) fun S =>
  .bind (unwrap (Scalar.fromBytesModOrderWide challenge)) fun k =>
  .op2 .edEq (.op1 (.edScalarMul S) (.op0 .edGenerator))
    (.op2 .edAdd (.op0 (.edDecompress R)) (.op1 (.edScalarMul k) (.op0 (.edDecompress A))))

/-- `decodeScalar448`: clears the two low bits and sets the top bit (RFC 7748, section 5). -/
def clamp448 (k : ℕ) : ℕ := (k % 2 ^ 447) / 4 * 4 + 2 ^ 447

/-- `X448` on the library: the scalar is clamped and passed to the ladder. -/
def x448 (k u : Bytes 56) : Prog (.host (Bytes 56)) :=
  .op0 (.montMul u (Arr.ofVal 14 (2 ^ 32) (by norm_num) (clamp448 k.val)))

section
variable {F L : Type} [FieldBackend F L] [Lawful F]

omit [Lawful F] in
theorem eval_unwrap {α β : Type} (o : Option α) (f : α → Prog (.host β)) :
    (Prog.bind (unwrap o) f).eval F = o.bind fun x => (f x).eval F := by
  cases o <;> rfl

omit [Lawful F] in
theorem eval_verify (S k : Scalar) (A R : Bytes 57) :
    (Prog.op2 .edEq (.op1 (.edScalarMul S) (.op0 .edGenerator))
      (.op2 .edAdd (.op0 (.edDecompress R)) (.op1 (.edScalarMul k) (.op0 (.edDecompress A))))).eval F =
    ((EdPt.generator : EdPt F).scalarMul S).bind fun x =>
      (edDecompress F R).bind fun r => (edDecompress F A).bind fun a =>
        (a.scalarMul k).map fun ka => x.eq (r.add ka) := by
  have h1 : (Prog.op1 (.edScalarMul S) (.op0 .edGenerator)).run F =
      (EdPt.generator : EdPt F).scalarMul S := rfl
  unfold Prog.eval
  show ((Prog.op1 (.edScalarMul S) (.op0 .edGenerator)).run F).bind _ = _
  rw [h1]
  cases (EdPt.generator : EdPt F).scalarMul S with
  | none => rfl
  | some x =>
    show (((edDecompress F R).bind fun r => ((edDecompress F A).bind fun a =>
      a.scalarMul k).bind fun ka => some (r.add ka)).bind fun y => some (x.eq y)) = _
    rw [Option.bind_some]
    cases edDecompress F R with
    | none => rfl
    | some r =>
      cases edDecompress F A with
      | none => rfl
      | some a =>
        show ((a.scalarMul k).bind fun ka => some (r.add ka)).bind (fun y => some (x.eq y)) =
          (a.scalarMul k).map fun ka => x.eq (r.add ka)
        cases a.scalarMul k <;> rfl

/-! ## C58 -/

/-- Verification accepts iff `S` is canonical, the key and `R` decode, and `S B = R + k A` on the
curve, `k` being the challenge modulo the order. -/
theorem C58_verify_iff (A R S : Bytes 57) (c : Bytes 114) :
    (verify448 A R S c).eval F = some true ↔
    S.val < ell ∧ ∃ a r : EdPt F, ∃ RA RR : E, edDecompress F A = some a ∧ Rep a RA ∧
      edDecompress F R = some r ∧ Rep r RR ∧ S.val • G = RR + (c.val % ell) • RA := by
  obtain ⟨o, hS, h1, h2⟩ := C07_from_canonical_bytes S
  obtain ⟨k, hk, hkv, -⟩ := C08_wide_reduction c
  unfold verify448
  rw [eval_unwrap, hS, hk, Option.join_some]
  rcases lt_or_ge S.val ell with hlt | hge
  · obtain ⟨s, rfl, hsv, -⟩ := h1 hlt
    rw [Option.bind_some, eval_unwrap, Option.bind_some, eval_verify]
    obtain ⟨x, ex, hx⟩ := rep_scalarMul (rep_generator (F := F)) s
    rw [ex, Option.bind_some, hsv] at *
    constructor
    · intro h
      obtain ⟨r, er, h⟩ := Option.bind_eq_some_iff.1 h
      obtain ⟨a, ea, h⟩ := Option.bind_eq_some_iff.1 h
      obtain ⟨ka, eka, h⟩ := Option.map_eq_some_iff.1 h
      obtain ⟨RA, hA, -⟩ := edDecompress_some A ea
      obtain ⟨RR, hR, -⟩ := edDecompress_some R er
      obtain ⟨ka', eka', hka⟩ := rep_scalarMul hA k
      rw [eka] at eka'
      cases eka'
      refine ⟨hlt, a, r, RA, RR, ea, hA, er, hR, ?_⟩
      rw [rep_eq hx (rep_add hR hka), hkv] at h
      exact h
    · rintro ⟨-, a, r, RA, RR, ea, hA, er, hR, h⟩
      obtain ⟨ka, eka, hka⟩ := rep_scalarMul hA k
      rw [er, Option.bind_some, ea, Option.bind_some, eka, Option.map_some, Option.some_inj,
        rep_eq hx (rep_add hR hka), hkv]
      exact h
  · rw [h2 hge]
    exact ⟨fun h => by simp at h, fun h => absurd h.1 (not_lt.2 hge)⟩

/-- Signing never panics, and its output always verifies. -/
theorem C58_sign_verifies (secret nonce c : Bytes 114) :
    ∃ A R S, (sign448 secret nonce c).eval F = some (A, R, S) ∧
      (verify448 A R S c).eval F = some true ∧
      S.val = (nonce.val + c.val * secret.val) % ell := by
  obtain ⟨s, e1, v1, -⟩ := C08_wide_reduction secret
  obtain ⟨r, e2, v2, l2⟩ := C08_wide_reduction nonce
  obtain ⟨k, e3, v3, -⟩ := C08_wide_reduction c
  obtain ⟨ks, e4, v4, l4⟩ := C03_scalar_mul k s
  obtain ⟨S, e5, v5, l5⟩ := C01_scalar_add r ks l2 l4
  obtain ⟨a, ea, ha⟩ := rep_scalarMul (rep_generator (F := F)) s
  obtain ⟨b, eb, hb⟩ := rep_scalarMul (rep_generator (F := F)) r
  have hS := (C07_rfc8032_roundtrip S l5).2
  have hSv : S.val = (nonce.val + c.val * secret.val) % ell := by
    rw [v5, v4, v2, v1, v3]
    simp [Nat.add_mod, Nat.mul_mod]
  refine ⟨a.compress, b.compress, S.toBytesRfc8032, ?_, ?_, hS.trans hSv⟩
  · unfold sign448
    rw [eval_unwrap, e1, Option.bind_some, eval_unwrap, e2, Option.bind_some, eval_unwrap, e3,
      Option.bind_some]
    have ca : ∀ t (x : EdPt F), (EdPt.generator : EdPt F).scalarMul t = some x → ∀ {β : Type}
        (f : Bytes 57 → Prog (.host β)), (Prog.bind (.op1 .edCompress
          (.op1 (.edScalarMul t) (.op0 .edGenerator))) f).eval F = (f x.compress).eval F := by
      intro t x hx β f
      have h1 : (Prog.op1 (.edScalarMul t) (.op0 .edGenerator)).run F =
        (EdPt.generator : EdPt F).scalarMul t := rfl
      show ((((Prog.op1 (.edScalarMul t) (.op0 .edGenerator)).run F).bind
        (Op1.edCompress.run F)).bind fun x => (f x).run F) = _
      rw [h1, hx]
      rfl
    rw [ca s a ea, ca r b eb, eval_unwrap, e4, Option.bind_some, eval_unwrap, e5, Option.bind_some]
    rfl
  · rw [C58_verify_iff]
    obtain ⟨a', ea', ha'⟩ := edDecompress_of_encode (F := F) (compress_val ha)
    obtain ⟨b', eb', hb'⟩ := edDecompress_of_encode (F := F) (compress_val hb)
    refine ⟨hS ▸ l5, a', b', s.val • G, r.val • G, ea', ha', eb', hb', ?_⟩
    rw [hS, hSv, ← mul_nsmul', ← add_nsmul, nsmul_mod ell_G, v2, v1,
      ← nsmul_mod ell_G (nonce.val % ell + _), ← nsmul_mod ell_G (nonce.val + _)]
    simp [Nat.add_mod, Nat.mul_mod, Nat.mul_comm]

/-- For a given key, `R` and challenge at most one `S` verifies. -/
theorem C58_unique_S (A R S S' : Bytes 57) (c : Bytes 114)
    (h : (verify448 A R S c).eval F = some true) (h' : (verify448 A R S' c).eval F = some true) :
    S = S' := by
  rw [C58_verify_iff] at h h'
  obtain ⟨hS, a, r, RA, RR, ea, hA, er, hR, e⟩ := h
  obtain ⟨hS', a', r', RA', RR', ea', hA', er', hR', e'⟩ := h'
  rw [ea] at ea'; cases ea'
  rw [er] at er'; cases er'
  rw [hA'.unique hA, hR'.unique hR, ← e] at e'
  rw [← addOrderOf_G] at hS hS'
  exact Arr.val_inj (by norm_num) (nsmul_injOn_Iio_addOrderOf hS hS' e'.symm)

/-! ## C59 -/

theorem clamp448_lt (k : ℕ) : clamp448 k < (2 ^ 32) ^ 14 := by
  unfold clamp448
  have := Nat.mod_lt k (show 0 < 2 ^ 447 by norm_num)
  have : (2 ^ 32) ^ 14 = 2 ^ 447 + 2 ^ 447 := by norm_num
  omega

omit [Lawful F] in
theorem eval_x448 (k u : Bytes 56) : (x448 k u).eval F =
    some (montMulScalar F u (Arr.ofVal 14 (2 ^ 32) (by norm_num) (clamp448 k.val))) := rfl

/-- `X448` computes the `u`-coordinate of the multiple by the clamped scalar, for every `u` (a point of
the curve or of its twist, over any field containing the coordinates). -/
theorem C59_x448 {K : Type} [Field K] [Algebra Fp K] [DecidableEq K]
    (P : (curve448 K).Point) (k u : Bytes 56) (hu : algebraMap Fp K (u.val : Fp) = ucoord P) :
    ∃ r : Bytes 56, (x448 k u).eval F = some r ∧ r.val < p ∧
      algebraMap Fp K (r.val : Fp) = ucoord (clamp448 k.val • P) := by
  have hv : (Arr.ofVal 14 (2 ^ 32) (by norm_num) (clamp448 k.val)).val = clamp448 k.val :=
    Arr.ofVal_val _ _ (clamp448_lt _)
  refine ⟨_, eval_x448 k u, (C34_reads_mod_p u u _).2, ?_⟩
  rw [C31_even P u _ (by rw [hv]; unfold clamp448; omega) hu, hv]

/-- Both parties of a Diffie-Hellman exchange get the same bytes, from any base. -/
theorem C59_dh (a b u : Bytes 56) :
    (Prog.bind (x448 b u) fun B => x448 a B).eval F =
      (Prog.bind (x448 a u) fun A => x448 b A).eval F :=
  congrArg some (C33_dh_agreement u _ _)

/-- The public key of `k` is the Montgomery form of the Edwards multiple of the base point. -/
theorem C59_public_key (k : Bytes 56) :
    ∃ P : EdPt F, (EdPt.generator : EdPt F).scalarMul
        (Arr.ofVal 14 (2 ^ 32) (by norm_num) (clamp448 k.val)) = some P ∧
      Rep P (clamp448 k.val • G) ∧ (x448 k montGenerator).eval F = some P.toMontgomery := by
  have hv : (Arr.ofVal 14 (2 ^ 32) (by norm_num) (clamp448 k.val)).val = clamp448 k.val :=
    Arr.ofVal_val _ _ (clamp448_lt _)
  obtain ⟨P, e, hP⟩ := (C32_commutes_partial (rep_generator (F := F))
    (Arr.ofVal 14 (2 ^ 32) (by norm_num) (clamp448 k.val))).1
      (by rw [hv]; unfold clamp448; omega)
  obtain ⟨P', e', hP'⟩ := rep_scalarMul (rep_generator (F := F))
    (Arr.ofVal 14 (2 ^ 32) (by norm_num) (clamp448 k.val))
  rw [e] at e'
  cases e'
  rw [hv] at hP'
  refine ⟨P, e, hP', ?_⟩
  rw [eval_x448, hP, C30_generator]

end

example : clamp448 5 = 2 ^ 447 + 4 := by decide +kernel

end Ed448.Props
