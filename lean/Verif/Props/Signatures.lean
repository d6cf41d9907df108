import Verif.Props.Protocols
import Verif.Props.Decaf
import Verif.Props.Exact

/-!
# What a verified signature means (C81)

Properties of the Schnorr equation as the library computes it: extraction of the secret from two
signatures with one nonce, simulation, keys of small order, verification with the cofactor, and
verification in batches. The programs are written over the library; the outputs of SHAKE256 are inputs.
-/

namespace Ed448.Props
open Ed448.Model Ed448.Edw Ed448.Iso
open FieldVal (val)

set_option exponentiation.threshold 1000
set_option maxRecDepth 10000

/-! ## The programs -/

/-- `S B - R - k A`. -/
def defect448 (A R S : Bytes 57) (challenge : Bytes 114) : Prog .ed :=
  .bind (unwrap (Scalar.fromCanonicalBytes S).join) fun S =>
  .bind (unwrap (Scalar.fromBytesModOrderWide challenge)) fun k =>
  .op2 .edSub
    (.op2 .edSub (.op1 (.edScalarMul S) (.op0 .edGenerator)) (.op0 (.edDecompress R)))
    (.op1 (.edScalarMul k) (.op0 (.edDecompress A)))

/-- Verification with the cofactor (RFC 8032, 5.2.7): `4 (S B - R - k A) = 0`. -/
def verifyCofactored448 (A R S : Bytes 57) (challenge : Bytes 114) : Prog (.host Bool) :=
  .op2 .edEq (.op1 .edDouble (.op1 .edDouble (defect448 A R S challenge))) (.op0 .edIdentity)

/-- A signature to be verified. -/
structure Sig where
  A : Bytes 57
  R : Bytes 57
  S : Bytes 57
  c : Bytes 114

/-- The sum of the `z (S B - R - k A)`. -/
def batchSum448 : List (Scalar × Sig) → Prog .ed
  | [] => .op0 .edIdentity
  | (z, s) :: l => .op2 .edAdd (.op1 (.edScalarMul z) (defect448 s.A s.R s.S s.c)) (batchSum448 l)

/-- Verification of a batch, with a coefficient for each signature. -/
def batch448 (l : List (Scalar × Sig)) : Prog (.host Bool) :=
  .op2 .edEq (.op1 .edDouble (.op1 .edDouble (batchSum448 l))) (.op0 .edIdentity)

section
variable {F L : Type} [FieldBackend F L] [Lawful F]

omit [Lawful F] in
theorem run_unwrap {α : Type} {τ : Ty} (o : Option α) (f : α → Prog τ) :
    (Prog.bind (unwrap o) f).run F = o.bind fun x => (f x).run F := by
  cases o <;> rfl

variable (F) in
/-- The strings of a signature and a key decode, to these points. -/
def Decodes (A R S : Bytes 57) (RA RR : E) : Prop :=
  S.val < ell ∧ ∃ a r : EdPt F, edDecompress F A = some a ∧ Rep a RA ∧
    edDecompress F R = some r ∧ Rep r RR

theorem Decodes.unique {A R S S' : Bytes 57} {RA RR RA' RR' : E} (h : Decodes F A R S RA RR)
    (h' : Decodes F A R S' RA' RR') : RA = RA' ∧ RR = RR' := by
  obtain ⟨-, a, r, ea, hA, er, hR⟩ := h
  obtain ⟨-, a', r', ea', hA', er', hR'⟩ := h'
  rw [ea] at ea'; cases ea'
  rw [er] at er'; cases er'
  exact ⟨hA.unique hA', hR.unique hR'⟩

theorem verify_decodes (A R S : Bytes 57) (c : Bytes 114) :
    (verify448 A R S c).eval F = some true ↔
      ∃ RA RR, Decodes F A R S RA RR ∧ S.val • G = RR + (c.val % ell) • RA := by
  rw [C58_verify_iff]
  constructor
  · rintro ⟨h, a, r, RA, RR, ea, hA, er, hR, e⟩
    exact ⟨RA, RR, ⟨h, a, r, ea, hA, er, hR⟩, e⟩
  · rintro ⟨RA, RR, ⟨h, a, r, ea, hA, er, hR⟩, e⟩
    exact ⟨h, a, r, RA, RR, ea, hA, er, hR, e⟩

theorem dlog_nsmul (n : ℕ) (R : E) : dlog (n • R) = n * dlog R := by
  rw [← nsmul_eq_mul]; exact map_nsmul dlogHom n R

theorem dlog_nsmul_G (n : ℕ) : dlog (n • G) = n := by rw [dlog_nsmul, dlog_G, mul_one]

/-- The equation, in logarithms. -/
theorem verify_log {RA RR : E} {S k : ℕ} (e : S • G = RR + (k % ell) • RA) :
    (S : ZMod ell) = dlog RR + k * dlog RA := by
  have h := congrArg dlog e
  rw [dlog_nsmul_G, dlog_add, dlog_nsmul] at h
  rw [h, ZMod.natCast_mod]

theorem four_dlog (R : E) : 4 • R = 4 • ((dlog R).val • G) := by
  rw [← dlog_spec R, mul_nsmul']

/-- A point of the prime order subgroup is the multiple by its logarithm. -/
theorem torsion_free_dlog {R : E} (h : ell • R = 0) : R = (dlog R).val • G := by
  have h4 : 4 • (R - (dlog R).val • G) = 0 := by rw [nsmul_sub, ← four_dlog, sub_self]
  have hl : ell • (R - (dlog R).val • G) = 0 := by
    rw [nsmul_sub, h, ← mul_nsmul', mul_comm, mul_nsmul', ell_G, smul_zero, sub_zero]
  have h1 : addOrderOf (R - (dlog R).val • G) ∣ Nat.gcd 4 ell :=
    Nat.dvd_gcd (addOrderOf_dvd_of_nsmul_eq_zero h4) (addOrderOf_dvd_of_nsmul_eq_zero hl)
  rw [show Nat.gcd 4 ell = 1 from coprime4, Nat.dvd_one, AddMonoid.addOrderOf_eq_one_iff] at h1
  exact sub_eq_zero.1 h1

/-! ## Two signatures with one nonce -/

/-- From two accepted signatures with the same `R` under one key for different challenges, the secret
logarithm of the key (up to points of order 4) is computed by one division modulo the order; for a key
in the prime order subgroup it is the logarithm. -/
theorem C81_special_soundness {A R S S' : Bytes 57} {c c' : Bytes 114}
    (h : (verify448 A R S c).eval F = some true) (h' : (verify448 A R S' c').eval F = some true)
    (hc : c.val % ell ≠ c'.val % ell) :
    ∃ (a : EdPt F) (RA : E) (x : ZMod ell), edDecompress F A = some a ∧ Rep a RA ∧
      (∀ y : ZMod ell, y * (c.val - c'.val) = S.val - S'.val ↔ y = x) ∧
      4 • RA = 4 • (x.val • G) ∧ (a.isTorsionFree = some true → RA = x.val • G) := by
  have : Fact ell.Prime := ⟨ell_prime⟩
  obtain ⟨RA, RR, hd, e⟩ := (verify_decodes A R S c).1 h
  obtain ⟨RA', RR', hd', e'⟩ := (verify_decodes A R S' c').1 h'
  obtain ⟨rfl, rfl⟩ := hd.unique hd'
  obtain ⟨-, a, r, ea, hA, er, hR⟩ := hd
  have l := verify_log e
  have l' := verify_log e'
  have hne : (c.val : ZMod ell) - c'.val ≠ 0 := by
    intro h0
    exact hc ((ZMod.natCast_eq_natCast_iff _ _ _).1 (sub_eq_zero.1 h0))
  refine ⟨a, RA, dlog RA, ea, hA, fun y => ⟨fun hy => ?_, ?_⟩, four_dlog RA, fun ht => ?_⟩
  · apply mul_right_cancel₀ hne
    rw [hy, l, l']; ring
  · rintro rfl
    rw [l, l']; ring
  · obtain ⟨b, eb, hb, -⟩ := C18_torsion_free hA
    rw [ht] at eb
    cases eb
    exact torsion_free_dlog (hb.1 rfl)

/-- The key and `R` in the signer's output. -/
theorem sign_shape {secret nonce c : Bytes 114} {A R S : Bytes 57}
    (h : (sign448 secret nonce c).eval F = some (A, R, S)) : ∃ s r a b,
      Scalar.fromBytesModOrderWide secret = some s ∧
      Scalar.fromBytesModOrderWide nonce = some r ∧
      (EdPt.generator : EdPt F).scalarMul s = some a ∧
      (EdPt.generator : EdPt F).scalarMul r = some b ∧ A = a.compress ∧ R = b.compress := by
  obtain ⟨s, e1, -, -⟩ := C08_wide_reduction secret
  obtain ⟨r, e2, -, -⟩ := C08_wide_reduction nonce
  obtain ⟨k, e3, -, -⟩ := C08_wide_reduction c
  obtain ⟨a, ea, -⟩ := rep_scalarMul (rep_generator (F := F)) s
  obtain ⟨b, eb, -⟩ := rep_scalarMul (rep_generator (F := F)) r
  obtain ⟨ks, e4, -, -⟩ := C03_scalar_mul k s
  unfold sign448 at h
  rw [eval_unwrap, e1, Option.bind_some, eval_unwrap, e2, Option.bind_some, eval_unwrap, e3,
    Option.bind_some] at h
  have ca : ∀ t (x : EdPt F), (EdPt.generator : EdPt F).scalarMul t = some x → ∀ {β : Type}
      (f : Bytes 57 → Prog (.host β)), (Prog.bind (.op1 .edCompress
        (.op1 (.edScalarMul t) (.op0 .edGenerator))) f).eval F = (f x.compress).eval F := by
    intro t x hx β f
    have h1 : (Prog.op1 (.edScalarMul t) (.op0 .edGenerator)).run F =
      (EdPt.generator : EdPt F).scalarMul t := rfl
    show ((((Prog.op1 (.edScalarMul t) (.op0 .edGenerator)).run F).bind
      (Op1.edCompress.run F)).bind fun x => (f x).run F) = _
    rw [h1, hx]
    rfl
  rw [ca s a ea, ca r b eb, eval_unwrap, e4, Option.bind_some, eval_unwrap] at h
  obtain ⟨S', -, h⟩ := Option.bind_eq_some_iff.1 h
  have h : some (a.compress, b.compress, S'.toBytesRfc8032) = some (A, R, S) := h
  cases h
  exact ⟨s, r, a, b, e1, e2, ea, eb, rfl, rfl⟩

/-- A signer who uses a nonce twice gives the secret away. -/
theorem C81_nonce_reuse (secret nonce c c' : Bytes 114)
    (hc : c.val % ell ≠ c'.val % ell) :
    ∃ A R S S', (sign448 secret nonce c).eval F = some (A, R, S) ∧
      (sign448 secret nonce c').eval F = some (A, R, S') ∧
      ∀ y : ZMod ell, y * (c.val - c'.val) = S.val - S'.val ↔ y = secret.val := by
  have : Fact ell.Prime := ⟨ell_prime⟩
  obtain ⟨A, R, S, e, -, v⟩ := C58_sign_verifies (F := F) secret nonce c
  obtain ⟨A', R', S', e', -, v'⟩ := C58_sign_verifies (F := F) secret nonce c'
  obtain ⟨s, r, a, b, h1, h2, h3, h4, rfl, rfl⟩ := sign_shape e
  obtain ⟨s', r', a', b', h1', h2', h3', h4', rfl, rfl⟩ := sign_shape e'
  rw [h1] at h1'; cases h1'
  rw [h2] at h2'; cases h2'
  rw [h3] at h3'; cases h3'
  rw [h4] at h4'; cases h4'
  have hne : (c.val : ZMod ell) - c'.val ≠ 0 := by
    intro h0
    exact hc ((ZMod.natCast_eq_natCast_iff _ _ _).1 (sub_eq_zero.1 h0))
  have w : (S.val : ZMod ell) - S'.val = secret.val * (c.val - c'.val) := by
    rw [v, v', ZMod.natCast_mod, ZMod.natCast_mod]; push_cast; ring
  refine ⟨_, _, S, S', e, e', fun y => ⟨fun hy => ?_, ?_⟩⟩
  · apply mul_right_cancel₀ hne
    rw [hy, w]
  · rintro rfl
    exact w.symm

/-! ## Simulation -/

/-- For every key that decodes, every challenge and every `S` below the order there is exactly one
canonical `R` with which the signature is accepted: transcripts are made without the secret. -/
theorem C81_simulate {A : Bytes 57} {a : EdPt F} (hA : edDecompress F A = some a) (S : Bytes 57)
    (hS : S.val < ell) (c : Bytes 114) :
    ∃! R : Bytes 57, (∃ r : EdPt F, edDecompress F R = some r ∧ r.compress = R) ∧
      (verify448 A R S c).eval F = some true := by
  obtain ⟨RA, hRA, -⟩ := edDecompress_some A hA
  set D : E := S.val • G - (c.val % ell) • RA with hD
  have hlt : D.y.val + 2 ^ 455 * (D.x.val % 2) < 256 ^ 57 := by
    have := ZMod.val_lt D.y
    have hp : p < 2 ^ 448 := by rw [p_lit]; norm_num
    have : D.x.val % 2 < 2 := Nat.mod_lt _ (by norm_num)
    norm_num; omega
  set R : Bytes 57 := Arr.ofVal 57 256 (by norm_num) (D.y.val + 2 ^ 455 * (D.x.val % 2)) with hR
  have hRv : R.val = D.y.val + 2 ^ 455 * (D.x.val % 2) := Arr.ofVal_val _ _ hlt
  obtain ⟨r, er, cr, hr⟩ := (C71_strict (F := F) R D).2 hRv
  refine ⟨R, ⟨⟨r, er, cr⟩, ?_⟩, ?_⟩
  · rw [verify_decodes]
    exact ⟨RA, D, ⟨hS, a, r, hA, hRA, er, hr⟩, by rw [hD]; abel⟩
  · rintro R' ⟨⟨r', er', cr'⟩, h'⟩
    obtain ⟨RA', RR', ⟨-, a', r'', ea', hA', er'', hR'⟩, e⟩ := (verify_decodes A R' S c).1 h'
    rw [hA] at ea'; cases ea'
    rw [er'] at er''; cases er''
    obtain rfl := hA'.unique hRA
    have : RR' = D := by rw [hD, e]; abel
    subst this
    exact Arr.val_inj (by norm_num) (((C71_strict (F := F) R' _).1 ⟨r', er', cr', hR'⟩).trans hRv.symm)

/-- The signer's `R` is canonical, so it is the simulated one; and the signer outputs a given `S` for
exactly one nonce modulo the order. So a signature with a uniform nonce and a simulated one with a
uniform `S` have the same distribution. -/
theorem C81_same_distribution (secret nonce c : Bytes 114) (T : ℕ) (hT : T < ell) :
    ∃ A R S, (sign448 secret nonce c).eval F = some (A, R, S) ∧
      (∃ r : EdPt F, edDecompress F R = some r ∧ r.compress = R) ∧
      (S.val = T ↔ (nonce.val : ZMod ell) = T - c.val * secret.val) := by
  obtain ⟨A, R, S, e, hv, v⟩ := C58_sign_verifies (F := F) secret nonce c
  refine ⟨A, R, S, e, ?_, ?_⟩
  · obtain ⟨-, r, -, b, -, -, -, eb, -, rfl⟩ := sign_shape e
    obtain ⟨b', eb', hb⟩ := rep_scalarMul (rep_generator (F := F)) r
    rw [eb] at eb'
    cases eb'
    obtain ⟨P, eP, cP, -⟩ := (C71_strict (F := F) b.compress _).2 (C21_compress_value hb)
    exact ⟨P, eP, cP⟩
  · rw [v, eq_sub_iff_add_eq, ← Nat.cast_mul, ← Nat.cast_add, ZMod.natCast_eq_natCast_iff,
      Nat.ModEq, Nat.mod_eq_of_lt hT]

/-! ## Keys of small order -/

/-- Under a key of order dividing 4 the equation says nothing about a secret: with `R` the encoding of
`S B` the signature is accepted for every challenge that kills the key; under the key of the identity
for every challenge at all. -/
theorem C81_small_order_key {A : Bytes 57} {a : EdPt F} {RA : E} (hA : edDecompress F A = some a)
    (hRA : Rep a RA) (h4 : 4 • RA = 0) (S : Bytes 57) (hS : S.val < ell) :
    ∃ R : Bytes 57, ∀ c : Bytes 114, (verify448 A R S c).eval F = some true ↔
      (c.val % ell % 4) • RA = 0 := by
  obtain ⟨P, hP⟩ : ∃ P : EdPt F, Rep P (S.val • G) := by
    obtain ⟨s, -, h1, -⟩ := C07_from_canonical_bytes S
    obtain ⟨s, -, hsv, -⟩ := h1 hS
    obtain ⟨x, -, hx⟩ := rep_scalarMul (rep_generator (F := F)) s
    rw [hsv] at hx
    exact ⟨x, hx⟩
  obtain ⟨r, er, -, hr⟩ := (C71_strict (F := F) P.compress _).2 (C21_compress_value hP)
  refine ⟨P.compress, fun c => ?_⟩
  rw [verify_decodes]
  have hm : (c.val % ell) • RA = (c.val % ell % 4) • RA := by
    conv_lhs => rw [← Nat.mod_add_div (c.val % ell) 4, add_nsmul, mul_comm, mul_nsmul', h4, smul_zero,
      add_zero]
  constructor
  · rintro ⟨RA', RR', hd, e⟩
    obtain ⟨rfl, rfl⟩ := hd.unique (⟨hS, a, r, hA, hRA, er, hr⟩ : Decodes F A P.compress S RA _)
    rw [hm] at e
    exact left_eq_add.1 e
  · intro h
    exact ⟨RA, _, ⟨hS, a, r, hA, hRA, er, hr⟩, by rw [hm, h, add_zero]⟩

/-! ## Verification with the cofactor -/

variable (F) in
/-- The strings decode and this is the value of `S B - R - k A`. -/
def Defect (s : Sig) (D : E) : Prop :=
  ∃ RA RR, Decodes F s.A s.R s.S RA RR ∧ D = s.S.val • G - RR - (s.c.val % ell) • RA

theorem Defect.unique {s : Sig} {D D' : E} (h : Defect F s D) (h' : Defect F s D') : D = D' := by
  obtain ⟨RA, RR, hd, rfl⟩ := h
  obtain ⟨RA', RR', hd', rfl⟩ := h'
  obtain ⟨rfl, rfl⟩ := hd.unique hd'
  rfl

omit [Lawful F] in
theorem run_defect (S k : Scalar) (A R : Bytes 57) :
    (Prog.op2 .edSub
      (.op2 .edSub (.op1 (.edScalarMul S) (.op0 .edGenerator)) (.op0 (.edDecompress R)))
      (.op1 (.edScalarMul k) (.op0 (.edDecompress A)))).run F =
    ((EdPt.generator : EdPt F).scalarMul S).bind fun x =>
      (edDecompress F R).bind fun r => (edDecompress F A).bind fun a =>
        (a.scalarMul k).map fun ka => (x.sub r).sub ka := by
  have h1 : (Prog.op1 (.edScalarMul S) (.op0 .edGenerator)).run F =
      (EdPt.generator : EdPt F).scalarMul S := rfl
  show (((Prog.op1 (.edScalarMul S) (.op0 .edGenerator)).run F).bind fun x =>
    (edDecompress F R).bind fun r => some (x.sub r)).bind (fun y =>
      ((edDecompress F A).bind fun a => a.scalarMul k).bind fun ka => some (y.sub ka)) = _
  rw [h1]
  cases (EdPt.generator : EdPt F).scalarMul S with
  | none => rfl
  | some x =>
    show (((edDecompress F R).bind fun r => some (x.sub r)).bind fun y =>
      ((edDecompress F A).bind fun a => a.scalarMul k).bind fun ka => some (y.sub ka)) = _
    cases edDecompress F R with
    | none => rfl
    | some r =>
      show (((edDecompress F A).bind fun a => a.scalarMul k).bind fun ka =>
        some ((x.sub r).sub ka)) = _
      cases edDecompress F A with
      | none => rfl
      | some a =>
        show ((a.scalarMul k).bind fun ka => some ((x.sub r).sub ka)) =
          (a.scalarMul k).map fun ka => (x.sub r).sub ka
        cases a.scalarMul k <;> rfl

/-- `defect448` returns iff the strings decode, and computes the difference. -/
theorem defect_run (s : Sig) :
    (∀ x, (defect448 s.A s.R s.S s.c).run F = some x → ∃ D, Defect F s D ∧ Rep x D) ∧
    (∀ D, Defect F s D → ∃ x, (defect448 s.A s.R s.S s.c).run F = some x ∧ Rep x D) := by
  obtain ⟨A, R, S, c⟩ := s
  obtain ⟨o, hS, h1, h2⟩ := C07_from_canonical_bytes S
  obtain ⟨k, hk, hkv, -⟩ := C08_wide_reduction c
  unfold defect448
  dsimp only
  rw [run_unwrap, hS, hk, Option.join_some]
  rcases lt_or_ge S.val ell with hlt | hge
  · obtain ⟨s, rfl, hsv, -⟩ := h1 hlt
    rw [Option.bind_some, run_unwrap, Option.bind_some, run_defect]
    obtain ⟨x, ex, hx⟩ := rep_scalarMul (rep_generator (F := F)) s
    rw [ex, Option.bind_some, hsv] at *
    constructor
    · intro y h
      obtain ⟨r, er, h⟩ := Option.bind_eq_some_iff.1 h
      obtain ⟨a, ea, h⟩ := Option.bind_eq_some_iff.1 h
      obtain ⟨ka, eka, h⟩ := Option.map_eq_some_iff.1 h
      obtain ⟨RA, hA, -⟩ := edDecompress_some A ea
      obtain ⟨RR, hR, -⟩ := edDecompress_some R er
      obtain ⟨ka', eka', hka⟩ := rep_scalarMul hA k
      rw [eka] at eka'
      cases eka'
      subst h
      rw [hkv] at hka
      exact ⟨_, ⟨RA, RR, ⟨hlt, a, r, ea, hA, er, hR⟩, rfl⟩, rep_sub (rep_sub hx hR) hka⟩
    · rintro D ⟨RA, RR, ⟨-, a, r, ea, hA, er, hR⟩, rfl⟩
      obtain ⟨ka, eka, hka⟩ := rep_scalarMul hA k
      rw [hkv] at hka
      dsimp only at er ea
      rw [er, Option.bind_some, ea, Option.bind_some, eka, Option.map_some]
      exact ⟨_, rfl, rep_sub (rep_sub hx hR) hka⟩
  · rw [h2 hge]
    refine ⟨fun x h => by simp at h, ?_⟩
    rintro D ⟨RA, RR, ⟨h, -⟩, -⟩
    exact absurd h (not_lt.2 hge)

/-- Doubling twice and comparing with the identity. -/
theorem eval_four_zero {e : Prog .ed} {x : EdPt F} {D : E} (h : e.run F = some x) (hD : Rep x D) :
    ∃ b, (Prog.op2 .edEq (.op1 .edDouble (.op1 .edDouble e)) (.op0 .edIdentity)).eval F = some b ∧
      (b = true ↔ 4 • D = 0) := by
  refine ⟨x.double.double.eq EdPt.identity, ?_, ?_⟩
  · show (((e.run F).bind (Op1.edDouble.run F)).bind (Op1.edDouble.run F)).bind (fun y =>
      (Prog.run F (.op0 .edIdentity)).bind (Op2.edEq.run F y)) = _
    rw [h]
    rfl
  · rw [rep_eq (rep_double (rep_double hD)) rep_identity,
      show D + D + (D + D) = 4 • D by rw [show 4 = 1 + 1 + 1 + 1 from rfl]; simp only [add_nsmul, one_nsmul]; abel]

omit [Lawful F] in
theorem eval_four_none {e : Prog .ed} (h : e.run F = none) :
    (Prog.op2 .edEq (.op1 .edDouble (.op1 .edDouble e)) (.op0 .edIdentity)).eval F = none := by
  show (((e.run F).bind (Op1.edDouble.run F)).bind (Op1.edDouble.run F)).bind (fun y =>
      (Prog.run F (.op0 .edIdentity)).bind (Op2.edEq.run F y)) = _
  rw [h]
  rfl

theorem cofactored_iff (s : Sig) : (verifyCofactored448 s.A s.R s.S s.c).eval F = some true ↔
    ∃ D, Defect F s D ∧ 4 • D = 0 := by
  obtain ⟨h1, h2⟩ := defect_run (F := F) s
  unfold verifyCofactored448
  constructor
  · intro h
    rcases ho : (defect448 s.A s.R s.S s.c).run F with _ | x
    · rw [eval_four_none ho] at h; cases h
    · obtain ⟨D, hD, hx⟩ := h1 x ho
      obtain ⟨b, eb, hb⟩ := eval_four_zero ho hx
      rw [h] at eb
      cases eb
      exact ⟨D, hD, hb.1 rfl⟩
  · rintro ⟨D, hD, h4⟩
    obtain ⟨x, ex, hx⟩ := h2 D hD
    obtain ⟨b, eb, hb⟩ := eval_four_zero ex hx
    rw [eb, hb.2 h4]

/-- Verification with the cofactor: accepts iff the strings decode and the equation holds after
multiplication by 4. -/
theorem C81_cofactored_iff (A R S : Bytes 57) (c : Bytes 114) :
    (verifyCofactored448 A R S c).eval F = some true ↔
    S.val < ell ∧ ∃ a r : EdPt F, ∃ RA RR : E, edDecompress F A = some a ∧ Rep a RA ∧
      edDecompress F R = some r ∧ Rep r RR ∧ 4 • (S.val • G) = 4 • (RR + (c.val % ell) • RA) := by
  rw [cofactored_iff ⟨A, R, S, c⟩]
  have hz : ∀ RA RR : E, 4 • (S.val • G - RR - (c.val % ell) • RA) = 0 ↔
      4 • (S.val • G) = 4 • (RR + (c.val % ell) • RA) := fun RA RR => by
    rw [sub_sub, nsmul_sub, sub_eq_zero]
  constructor
  · rintro ⟨_, ⟨RA, RR, ⟨h, a, r, ea, hA, er, hR⟩, rfl⟩, e⟩
    exact ⟨h, a, r, RA, RR, ea, hA, er, hR, (hz RA RR).1 e⟩
  · rintro ⟨h, a, r, RA, RR, ea, hA, er, hR, e⟩
    exact ⟨_, ⟨RA, RR, ⟨h, a, r, ea, hA, er, hR⟩, rfl⟩, (hz RA RR).2 e⟩

/-- What is accepted without the cofactor is accepted with it, and for keys and nonces in the prime
order subgroup (the library can check) the two agree. -/
theorem C81_cofactor (A R S : Bytes 57) (c : Bytes 114) :
    ((verify448 A R S c).eval F = some true → (verifyCofactored448 A R S c).eval F = some true) ∧
    (∀ a r : EdPt F, edDecompress F A = some a → a.isTorsionFree = some true →
      edDecompress F R = some r → r.isTorsionFree = some true →
      (verifyCofactored448 A R S c).eval F = some true → (verify448 A R S c).eval F = some true) := by
  constructor
  · intro h
    obtain ⟨h, a, r, RA, RR, ea, hA, er, hR, e⟩ := (C58_verify_iff A R S c).1 h
    exact (C81_cofactored_iff A R S c).2 ⟨h, a, r, RA, RR, ea, hA, er, hR, by rw [e]⟩
  · intro a r ea ta er tr h
    obtain ⟨h, a', r', RA, RR, ea', hA, er', hR, e⟩ := (C81_cofactored_iff A R S c).1 h
    rw [ea] at ea'; cases ea'
    rw [er] at er'; cases er'
    refine (C58_verify_iff A R S c).2 ⟨h, a, r, RA, RR, ea, hA, er, hR, ?_⟩
    obtain ⟨b, eb, hb, -⟩ := C18_torsion_free hA
    rw [ta] at eb; cases eb
    obtain ⟨b, eb, hb', -⟩ := C18_torsion_free hR
    rw [tr] at eb; cases eb
    have l1 := hb.1 rfl
    have l2 := hb'.1 rfl
    have l3 : ell • (RR + (c.val % ell) • RA) = 0 := by
      rw [nsmul_add, l2, ← mul_nsmul', mul_comm, mul_nsmul', l1, smul_zero, add_zero]
    have l4 : ell • (S.val • G) = 0 := by rw [← mul_nsmul', mul_comm, mul_nsmul', ell_G, smul_zero]
    rw [torsion_free_dlog l3, torsion_free_dlog l4]
    congr 2
    apply dlog_eq
    rw [dlog_spec, e]

/-- The two differ: adding the point of order 2 to the signer's `R` gives a signature that is accepted
with the cofactor and rejected without, for every secret, nonce and challenge. -/
theorem C81_cofactor_differs (secret nonce c : Bytes 114) :
    ∃ A R S R', (sign448 secret nonce c).eval F = some (A, R, S) ∧
      (verify448 A R' S c).eval F = some false ∧
      (verifyCofactored448 A R' S c).eval F = some true := by
  obtain ⟨A, R, S, e, hv, -⟩ := C58_sign_verifies (F := F) secret nonce c
  obtain ⟨RA, RR, ⟨hS, a, r, ea, hA, er, hR⟩, eq⟩ := (verify_decodes A R S c).1 hv
  have hR' := rep_torque hR
  obtain ⟨r', er', -, hr'⟩ := (C71_strict (F := F) r.torque.compress _).2 (C21_compress_value hR')
  refine ⟨A, R, S, r.torque.compress, e, ?_, ?_⟩
  · have hne : (verify448 A r.torque.compress S c).eval F ≠ some true := by
      intro h
      obtain ⟨RA', RR', hd, e'⟩ := (verify_decodes _ _ S c).1 h
      obtain ⟨rfl, rfl⟩ := hd.unique
        (⟨hS, a, r', ea, hA, er', hr'⟩ : Decodes F A r.torque.compress S RA (RR + torsion2))
      rw [eq, add_assoc, add_right_inj, right_eq_add] at e'
      exact torsion2_ne e'
    obtain ⟨o, hSo, h1, -⟩ := C07_from_canonical_bytes S
    obtain ⟨s, rfl, -, -⟩ := h1 hS
    obtain ⟨k, hk, -, -⟩ := C08_wide_reduction c
    obtain ⟨x, ex, -⟩ := rep_scalarMul (rep_generator (F := F)) s
    obtain ⟨ka, eka, -⟩ := rep_scalarMul hA k
    have hev : (verify448 A r.torque.compress S c).eval F = some (x.eq (r'.add ka)) := by
      unfold verify448
      rw [eval_unwrap, hSo, hk, Option.join_some, Option.bind_some, eval_unwrap, Option.bind_some,
        eval_verify, ex, Option.bind_some, er', Option.bind_some, ea, Option.bind_some, eka,
        Option.map_some]
    rw [hev] at hne ⊢
    cases hb : x.eq (r'.add ka) with
    | false => rfl
    | true => exact absurd (by rw [hb]) hne
  · refine (C81_cofactored_iff _ _ _ _).2 ⟨hS, a, r', RA, _, ea, hA, er', hr', ?_⟩
    have h2 : 4 • torsion2 = (0 : E) := by
      rw [show 4 = 2 * 2 from rfl, mul_nsmul', two_nsmul (torsion2), torsion2_two, smul_zero]
    rw [eq, add_right_comm, nsmul_add _ torsion2, h2, add_zero]

/-! ## Batches -/

open Classical in
variable (F) in
/-- The value of `S B - R - k A`, zero if something does not decode. -/
noncomputable def defectPt (s : Sig) : E := if h : ∃ D, Defect F s D then h.choose else 0

theorem defectPt_eq {s : Sig} {D : E} (h : Defect F s D) : defectPt F s = D := by
  have hex : ∃ D, Defect F s D := ⟨D, h⟩
  unfold defectPt
  rw [dif_pos hex]
  exact hex.choose_spec.unique h

theorem batchSum_run (l : List (Scalar × Sig)) :
    (∀ x, (batchSum448 l).run F = some x → (∀ s ∈ l, ∃ D, Defect F s.2 D) ∧
      Rep x (l.map fun s => s.1.val • defectPt F s.2).sum) ∧
    ((∀ s ∈ l, ∃ D, Defect F s.2 D) → ∃ x, (batchSum448 l).run F = some x) := by
  induction l with
  | nil =>
    refine ⟨fun x h => ?_, fun _ => ⟨_, rfl⟩⟩
    have h : some (EdPt.identity : EdPt F) = some x := h
    cases h
    exact ⟨by simp, rep_identity⟩
  | cons s l ih =>
    obtain ⟨z, s⟩ := s
    obtain ⟨h1, h2⟩ := defect_run (F := F) s
    have hr : (batchSum448 ((z, s) :: l)).run F =
        (((defect448 s.A s.R s.S s.c).run F).bind fun (D : EdPt F) => D.scalarMul z).bind
          fun (x : EdPt F) => ((batchSum448 l).run F).bind fun (y : EdPt F) => some (x.add y) := rfl
    constructor
    · intro x h
      rw [hr] at h
      obtain ⟨u, hu, h⟩ := Option.bind_eq_some_iff.1 h
      obtain ⟨D, hD, hu⟩ := Option.bind_eq_some_iff.1 hu
      obtain ⟨y, hy, h⟩ := Option.bind_eq_some_iff.1 h
      cases h
      obtain ⟨Dp, hDp, hrep⟩ := h1 D hD
      obtain ⟨i1, i2⟩ := ih.1 y hy
      obtain ⟨u', eu, hu'⟩ := rep_scalarMul hrep z
      rw [hu] at eu
      cases eu
      refine ⟨?_, ?_⟩
      · intro t ht
        rcases List.mem_cons.1 ht with rfl | ht
        · exact ⟨Dp, hDp⟩
        · exact i1 t ht
      · rw [List.map_cons, List.sum_cons, defectPt_eq hDp]
        exact rep_add hu' i2
    · intro h
      obtain ⟨D, hD⟩ := h _ List.mem_cons_self
      obtain ⟨x, ex, hx⟩ := h2 D hD
      obtain ⟨u, eu, -⟩ := rep_scalarMul hx z
      obtain ⟨y, ey⟩ := ih.2 fun t ht => h t (List.mem_cons_of_mem _ ht)
      refine ⟨u.add y, ?_⟩
      rw [hr, ex, ey]
      show ((x.scalarMul z).bind fun u => some (u.add y)) = _
      rw [eu]
      rfl

theorem batch_iff (l : List (Scalar × Sig)) : (batch448 l).eval F = some true ↔
    (∀ s ∈ l, ∃ D, Defect F s.2 D) ∧ 4 • (l.map fun s => s.1.val • defectPt F s.2).sum = 0 := by
  obtain ⟨h1, h2⟩ := batchSum_run (F := F) l
  unfold batch448
  constructor
  · intro h
    rcases ho : (batchSum448 l).run F with _ | x
    · rw [eval_four_none ho] at h; cases h
    · obtain ⟨i1, i2⟩ := h1 x ho
      obtain ⟨b, eb, hb⟩ := eval_four_zero ho i2
      rw [h] at eb
      cases eb
      exact ⟨i1, hb.1 rfl⟩
  · rintro ⟨hl, h4⟩
    obtain ⟨x, ex⟩ := h2 hl
    obtain ⟨b, eb, hb⟩ := eval_four_zero ex (h1 x ex).2
    rw [eb, hb.2 h4]

/-- A batch of signatures that verify one by one (with the cofactor) is accepted, whatever the
coefficients. -/
theorem C81_batch_complete (l : List (Scalar × Sig))
    (h : ∀ s ∈ l, (verifyCofactored448 s.2.A s.2.R s.2.S s.2.c).eval F = some true) :
    (batch448 l).eval F = some true := by
  rw [batch_iff]
  refine ⟨fun s hs => ?_, ?_⟩
  · obtain ⟨D, hD, -⟩ := (cofactored_iff s.2).1 (h s hs)
    exact ⟨D, hD⟩
  · induction l with
    | nil => exact smul_zero _
    | cons s l ih =>
      obtain ⟨D, hD, h4⟩ := (cofactored_iff s.2).1 (h s List.mem_cons_self)
      rw [List.map_cons, List.sum_cons, nsmul_add, ih fun t ht => h t (List.mem_cons_of_mem _ ht),
        defectPt_eq hD, ← mul_nsmul', mul_comm, mul_nsmul', h4, smul_zero, add_zero]

/-- A batch with a signature that does not verify is accepted for at most one coefficient of that
signature modulo the order, the others being fixed: if it is accepted for two, the signature
verifies. -/
theorem C81_batch_sound (l l' : List (Scalar × Sig)) (s : Sig) (z z' : Scalar)
    (hz : z.val % ell ≠ z'.val % ell)
    (h : (batch448 (l ++ (z, s) :: l')).eval F = some true)
    (h' : (batch448 (l ++ (z', s) :: l')).eval F = some true) :
    (verifyCofactored448 s.A s.R s.S s.c).eval F = some true := by
  have : Fact ell.Prime := ⟨ell_prime⟩
  rw [batch_iff] at h h'
  obtain ⟨hd, e⟩ := h
  obtain ⟨-, e'⟩ := h'
  obtain ⟨D, hD⟩ := hd (z, s) (by simp)
  refine (cofactored_iff s).2 ⟨D, hD, ?_⟩
  simp only [List.map_append, List.map_cons, List.sum_append, List.sum_cons] at e e'
  rw [defectPt_eq hD] at e e'
  have key : ∀ X : E, 4 • X = 0 → dlog X = 0 := fun X hX => by
    apply dlog_eq
    rw [hX, ZMod.val_zero, mul_zero, zero_nsmul]
  have k := key _ e
  have k' := key _ e'
  rw [dlog_add, dlog_add, dlog_nsmul] at k k'
  have hm : ((z.val : ZMod ell) - z'.val) * dlog D = 0 := by linear_combination k - k'
  rcases mul_eq_zero.1 hm with h0 | h0
  · exact absurd ((ZMod.natCast_eq_natCast_iff _ _ _).1 (sub_eq_zero.1 h0)) hz
  · rw [← dlog_spec D, h0, ZMod.val_zero, mul_zero, zero_nsmul]

end

/-- The key of the identity (the string `1`) accepts one signature for every challenge. -/
example : ∃ R S : Bytes 57, ∀ c : Bytes 114,
    (verify448 (Arr.ofVal 57 256 (by norm_num) 1) R S c).eval U32.Fe = some true := by
  have h1 : (Arr.ofVal 57 256 (by norm_num) 1).val = (0 : E).y.val + 2 ^ 455 * ((0 : E).x.val % 2) := by
    rw [Arr.ofVal_val _ _ (by norm_num), Pt.zero_y, Pt.zero_x, ZMod.val_zero, ZMod.val_one, Nat.zero_mod,
      mul_zero, add_zero]
  obtain ⟨a, ea, -, ha⟩ := (C71_strict (F := U32.Fe) _ 0).2 h1
  obtain ⟨R, hR⟩ := C81_small_order_key ea ha (smul_zero _) (Arr.ofVal 57 256 (by norm_num) 7)
    (by rw [Arr.ofVal_val _ _ (by norm_num), ell_lit]; norm_num)
  exact ⟨R, _, fun c => (hR c).2 (smul_zero _)⟩

/-- Two signatures with one nonce whose challenges are 1 and 2 give the secret as the difference. -/
example (secret nonce c c' : Bytes 114) (h : c.val = 2) (h' : c'.val = 1) :
    ∃ A R S S', (sign448 secret nonce c).eval U32.Fe = some (A, R, S) ∧
      (sign448 secret nonce c').eval U32.Fe = some (A, R, S') ∧
      (secret.val : ZMod ell) = S.val - S'.val := by
  obtain ⟨A, R, S, S', e, e', k⟩ := C81_nonce_reuse (F := U32.Fe) secret nonce c c' (by
    rw [h, h', ell_lit]; norm_num)
  refine ⟨A, R, S, S', e, e', ?_⟩
  rw [← (k _).2 rfl, h, h']
  push_cast
  ring

end Ed448.Props
