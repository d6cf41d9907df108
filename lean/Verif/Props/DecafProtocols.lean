import Verif.Props.Signatures

/-!
# Protocols on Decaf strings (C82)

Diffie–Hellman, oblivious evaluation, Pedersen commitments and proofs of equal logarithms, written as
programs over the library that take and return 56-byte strings. The theorems speak about the strings.
-/

namespace Ed448.Props
open Ed448.Model Ed448.Edw Ed448.Iso
open FieldVal (val)

set_option exponentiation.threshold 1000
set_option maxRecDepth 10000

/-! ## The programs -/

/-- The multiple of an encoded point. Panics if the string is not accepted. -/
def mulD (k : Scalar) (b : Bytes 56) : Prog (.host (Bytes 56)) :=
  .op1 .decafCompress (.op1 (.decafScalarMul k) (.op0 (.decafDecompress b)))

/-- The sum of two encoded points. -/
def addD (b c : Bytes 56) : Prog (.host (Bytes 56)) :=
  .op1 .decafCompress (.op2 .decafAdd (.op0 (.decafDecompress b)) (.op0 (.decafDecompress c)))

/-- A public key. -/
def keyD (k : Scalar) : Prog (.host (Bytes 56)) :=
  .op1 .decafCompress (.op1 (.decafScalarMul k) (.op0 .decafGenerator))

/-- Oblivious evaluation: the client blinds `x` with `r`, the server multiplies by `k`, the client
removes `r`. -/
def oprfD (k r : Scalar) (x : Bytes 56) : Prog (.host (Bytes 56)) :=
  .bind (mulD r x) fun blinded =>
  .bind (mulD k blinded) fun evaluated =>
  .bind (unwrap r.invert) fun i =>
  mulD i evaluated

/-- A Pedersen commitment to `m` with opening `r`. -/
def commitD (H : Bytes 56) (m r : Scalar) : Prog (.host (Bytes 56)) :=
  .op1 .decafCompress (.op2 .decafAdd (.op1 (.decafScalarMul m) (.op0 .decafGenerator))
    (.op1 (.decafScalarMul r) (.op0 (.decafDecompress H))))

/-- One equation of a proof: `s P = A + c X`. -/
def checkD (P A X : Bytes 56) (c s : Scalar) : Prog (.host Bool) :=
  .op2 .decafEquals (.op1 (.decafScalarMul s) (.op0 (.decafDecompress P)))
    (.op2 .decafAdd (.op0 (.decafDecompress A))
      (.op1 (.decafScalarMul c) (.op0 (.decafDecompress X))))

section
variable {F L : Type} [FieldBackend F L] [Lawful F]

/-! ## Logarithms of strings -/

variable (F) in
/-- The string is accepted, and this is its logarithm. -/
def LogOf (b : Bytes 56) (n : ZMod ell) : Prop :=
  ∃ P : DecafPt F, decafDecompress F b = some P ∧ decafLog P = n

theorem LogOf.unique {b : Bytes 56} {n m : ZMod ell} (h : LogOf F b n) (k : LogOf F b m) : n = m := by
  obtain ⟨P, e, rfl⟩ := h
  obtain ⟨Q, e', rfl⟩ := k
  rw [e] at e'; cases e'; rfl

theorem reach_log_iff {P Q : DecafPt F} (hP : DecafReach P) (hQ : DecafReach Q) :
    P.compress = Q.compress ↔ decafLog P = decafLog Q := by
  obtain ⟨R, h⟩ := hP.rep
  obtain ⟨S, k⟩ := hQ.rep
  rw [decafLog_eq h, decafLog_eq k, dlog_iff, drep_compress_eq h k]

theorem reach_equals_iff {P Q : DecafPt F} (hP : DecafReach P) (hQ : DecafReach Q) :
    P.equals Q = true ↔ decafLog P = decafLog Q := by
  rw [C40_equals_iff_compress hP hQ, reach_log_iff hP hQ]

theorem LogOf.inj {b c : Bytes 56} {n : ZMod ell} (h : LogOf F b n) (k : LogOf F c n) : b = c := by
  obtain ⟨P, e, h⟩ := h
  obtain ⟨Q, e', k⟩ := k
  rw [← C38_unique b e, ← C38_unique c e', reach_log_iff (.decompress e) (.decompress e'), h, k]

theorem reach_log {P : DecafPt F} (hP : DecafReach P) : LogOf F P.compress (decafLog P) := by
  obtain ⟨Q, e, h⟩ := C37_round_trip hP
  exact ⟨Q, e, (reach_equals_iff (.decompress e) hP).1 h⟩

theorem decafLog_add {P Q : DecafPt F} (hP : DecafReach P) (hQ : DecafReach Q) :
    decafLog (P.add Q) = decafLog P + decafLog Q := by
  obtain ⟨R, h⟩ := hP.rep
  obtain ⟨S, k⟩ := hQ.rep
  rw [decafLog_eq h, decafLog_eq k, decafLog_eq (drep_add h k), dlog_add]

theorem decafLog_mul {P : DecafPt F} (hP : DecafReach P) (s : Scalar) :
    decafLog (P.scalarMul s) = s.val * decafLog P := by
  obtain ⟨R, h⟩ := hP.rep
  rw [decafLog_eq h, decafLog_eq (drep_mul h s), dlog_nsmul]

theorem decafLog_gen : decafLog (DecafPt.generator : DecafPt F) = 1 := by
  rw [decafLog_eq drep_generator, dlog_G]

/-- The string of the identity is the one with logarithm 0. -/
theorem logOf_zero {b : Bytes 56} {n : ZMod ell} (h : LogOf F b n) : b.val = 0 ↔ n = 0 := by
  obtain ⟨P, e, rfl⟩ := h
  have hP := DecafReach.decompress e
  have h1 := C43_identity_encoding hP
  have hz : compressedDecafIdentity.val = 0 := by decide +kernel
  rw [C38_unique b e, reach_equals_iff hP .identity, decafLog_eq drep_identity] at h1
  rw [← hz, Arr.val_inj_iff (by norm_num), h1, show dlog 0 = 0 from map_zero dlogHom]

theorem mul_log {b : Bytes 56} {n : ZMod ell} (h : LogOf F b n) (k : Scalar) :
    ∃ c, (mulD k b).eval F = some c ∧ LogOf F c (k.val * n) := by
  obtain ⟨P, e, rfl⟩ := h
  have hP := DecafReach.decompress e
  refine ⟨(P.scalarMul k).compress, ?_, ?_⟩
  · show (((decafDecompress F b).bind fun (P : DecafPt F) => some (P.scalarMul k)).bind
      fun (P : DecafPt F) => some P.compress) = _
    rw [e]; rfl
  · rw [← decafLog_mul hP]
    exact reach_log (.scalarMul k hP)

theorem add_log {b c : Bytes 56} {n m : ZMod ell} (h : LogOf F b n) (k : LogOf F c m) :
    ∃ r, (addD b c).eval F = some r ∧ LogOf F r (n + m) := by
  obtain ⟨P, e, rfl⟩ := h
  obtain ⟨Q, e', rfl⟩ := k
  have hP := DecafReach.decompress e
  have hQ := DecafReach.decompress e'
  refine ⟨(P.add Q).compress, ?_, ?_⟩
  · show (((decafDecompress F b).bind fun (P : DecafPt F) => (decafDecompress F c).bind
      fun (Q : DecafPt F) => some (P.add Q)).bind fun (P : DecafPt F) => some P.compress) = _
    rw [e, e']; rfl
  · rw [← decafLog_add hP hQ]
    exact reach_log (.add hP hQ)

theorem key_log (k : Scalar) : ∃ c, (keyD k).eval F = some c ∧ LogOf F c k.val := by
  refine ⟨((DecafPt.generator : DecafPt F).scalarMul k).compress, rfl, ?_⟩
  have h := decafLog_mul (DecafReach.generator (F := F)) k
  rw [decafLog_gen, mul_one] at h
  rw [← h]
  exact reach_log (.scalarMul k .generator)

theorem commit_log {H : Bytes 56} {n : ZMod ell} (h : LogOf F H n) (m r : Scalar) :
    ∃ c, (commitD H m r).eval F = some c ∧ LogOf F c (m.val + r.val * n) := by
  obtain ⟨P, e, rfl⟩ := h
  have hP := DecafReach.decompress e
  refine ⟨((DecafPt.generator.scalarMul m).add (P.scalarMul r)).compress, ?_, ?_⟩
  · show (((some (DecafPt.generator : DecafPt F)).bind fun (P : DecafPt F) =>
      some (P.scalarMul m)).bind fun (P : DecafPt F) => ((decafDecompress F H).bind
      fun (Q : DecafPt F) => some (Q.scalarMul r)).bind fun (Q : DecafPt F) =>
      some (P.add Q)).bind (fun (P : DecafPt F) => some P.compress) = _
    rw [e]; rfl
  · have h := decafLog_mul (DecafReach.generator (F := F)) m
    rw [decafLog_gen, mul_one] at h
    rw [← h, ← decafLog_mul hP, ← decafLog_add (.scalarMul m .generator) (.scalarMul r hP)]
    exact reach_log (.add (.scalarMul m .generator) (.scalarMul r hP))

theorem accepted_log {b : Bytes 56} (h : (decafDecompress F b).isSome = true) : ∃ n, LogOf F b n := by
  obtain ⟨P, e⟩ := Option.isSome_iff_exists.1 h
  exact ⟨_, P, e, rfl⟩

theorem check_log {P A X : Bytes 56} {n a x : ZMod ell} (hP : LogOf F P n) (hA : LogOf F A a)
    (hX : LogOf F X x) (c s : Scalar) : ∃ b, (checkD P A X c s).eval F = some b ∧
      (b = true ↔ (s.val : ZMod ell) * n = a + c.val * x) := by
  obtain ⟨P', eP, rfl⟩ := hP
  obtain ⟨A', eA, rfl⟩ := hA
  obtain ⟨X', eX, rfl⟩ := hX
  have hP := DecafReach.decompress eP
  have hA := DecafReach.decompress eA
  have hX := DecafReach.decompress eX
  refine ⟨(P'.scalarMul s).equals (A'.add (X'.scalarMul c)), ?_, ?_⟩
  · show (((decafDecompress F P).bind fun (P : DecafPt F) => some (P.scalarMul s)).bind
      fun (Q : DecafPt F) => ((decafDecompress F A).bind fun (A : DecafPt F) =>
        ((decafDecompress F X).bind fun (X : DecafPt F) => some (X.scalarMul c)).bind
          fun (X : DecafPt F) => some (A.add X)).bind fun (R : DecafPt F) => some (Q.equals R)) = _
    rw [eP, eA, eX]; rfl
  · rw [reach_equals_iff (.scalarMul s hP) (.add hA (.scalarMul c hX)), decafLog_mul hP,
      decafLog_add hA (.scalarMul c hX), decafLog_mul hX]

/-- A program that checks an equation panics unless the three strings are accepted. -/
theorem check_accepts {P A X : Bytes 56} {c s : Scalar} {b : Bool}
    (h : (checkD P A X c s).eval F = some b) :
    ∃ n a x, LogOf F P n ∧ LogOf F A a ∧ LogOf F X x := by
  have e : (checkD P A X c s).eval F =
      (((decafDecompress F P).bind fun (P : DecafPt F) => some (P.scalarMul s)).bind
      fun (Q : DecafPt F) => ((decafDecompress F A).bind fun (A : DecafPt F) =>
        ((decafDecompress F X).bind fun (X : DecafPt F) => some (X.scalarMul c)).bind
          fun (X : DecafPt F) => some (A.add X)).bind fun (R : DecafPt F) => some (Q.equals R)) := rfl
  rw [e] at h
  rcases hP : decafDecompress F P with _ | P'
  · rw [hP] at h; cases h
  rcases hA : decafDecompress F A with _ | A'
  · rw [hP, hA] at h; cases h
  rcases hX : decafDecompress F X with _ | X'
  · rw [hP, hA, hX] at h; cases h
  exact ⟨_, _, _, ⟨P', hP, rfl⟩, ⟨A', hA, rfl⟩, ⟨X', hX, rfl⟩⟩

theorem scalar_iff (s : Scalar) (n : ZMod ell) : (s.val : ZMod ell) = n ↔ s.val % ell = n.val := by
  have : NeZero ell := ⟨ell_prime.ne_zero⟩
  constructor
  · rintro rfl
    exact (ZMod.val_natCast ell s.val).symm
  · intro h
    rw [← ZMod.natCast_zmod_val n, ← h, ZMod.natCast_mod]

/-! ## C82 -/

/-- Two parties get the same string, whatever the scalars and for every accepted string as base. -/
theorem C82_dh {x : Bytes 56} (hx : (decafDecompress F x).isSome = true) (a b : Scalar) :
    ∃ u v w, (mulD a x).eval F = some u ∧ (mulD b x).eval F = some v ∧
      (mulD a v).eval F = some w ∧ (mulD b u).eval F = some w := by
  obtain ⟨n, hn⟩ := accepted_log hx
  obtain ⟨u, eu, hu⟩ := mul_log hn a
  obtain ⟨v, ev, hv⟩ := mul_log hn b
  obtain ⟨w, ew, hw⟩ := mul_log hv a
  obtain ⟨w', ew', hw'⟩ := mul_log hu b
  refine ⟨u, v, w, eu, ev, ew, ?_⟩
  rw [ew', hw'.inj (F := F) (by convert hw using 1; ring)]

/-- Oblivious evaluation returns the multiple by the key, for every blinding that is not a multiple of
the order. -/
theorem C82_oprf {x : Bytes 56} (hx : (decafDecompress F x).isSome = true) (k r : Scalar)
    (hr : ¬ ell ∣ r.val) :
    ∃ y, (oprfD k r x).eval F = some y ∧ (mulD k x).eval F = some y := by
  obtain ⟨n, hn⟩ := accepted_log hx
  obtain ⟨u, eu, hu⟩ := mul_log hn r
  obtain ⟨v, ev, hv⟩ := mul_log hu k
  obtain ⟨i, ei, -, hi, -⟩ := C04_scalar_invert r
  obtain ⟨m, em, hm⟩ := hi hr
  obtain ⟨m', em', hm', -⟩ := C03_scalar_mul r i
  rw [em] at em'; cases em'
  have h1 : (r.val : ZMod ell) * i.val = 1 := by
    rw [← Nat.cast_mul, ← ZMod.natCast_mod, ← hm', hm]
    have : Scalar.one.val = 1 := by decide +kernel
    rw [this, Nat.cast_one]
  obtain ⟨w, ew, hw⟩ := mul_log hv i
  obtain ⟨y, ey, hy⟩ := mul_log hn k
  refine ⟨y, ?_, ey⟩
  have : w = y := hw.inj (F := F) (by
    convert hy using 1
    linear_combination (k.val : ZMod ell) * n * h1)
  subst this
  show ((mulD r x).eval F).bind (fun b => ((mulD k b).eval F).bind fun e =>
    (Prog.bind (unwrap r.invert) fun i => mulD i e).eval F) = _
  rw [eu, Option.bind_some, ev, Option.bind_some, eval_unwrap, ei, Option.bind_some, ew]

/-- The blinded string hides the input: every string but the identity's comes from exactly one blinding
modulo the order. -/
theorem C82_blinding {x y : Bytes 56} (hx : (decafDecompress F x).isSome = true) (hx0 : x.val ≠ 0)
    (hy : (decafDecompress F y).isSome = true) (hy0 : y.val ≠ 0) :
    ∃ r < ell, r ≠ 0 ∧ ∀ s : Scalar, (mulD s x).eval F = some y ↔ s.val % ell = r := by
  have : Fact ell.Prime := ⟨ell_prime⟩
  obtain ⟨n, hn⟩ := accepted_log hx
  obtain ⟨m, hm⟩ := accepted_log hy
  have hn0 : n ≠ 0 := fun h => hx0 ((logOf_zero hn).2 h)
  have hm0 : m ≠ 0 := fun h => hy0 ((logOf_zero hm).2 h)
  refine ⟨(m / n).val, ZMod.val_lt _, ?_, fun s => ?_⟩
  · rw [Ne, ZMod.val_eq_zero]
    exact div_ne_zero hm0 hn0
  · obtain ⟨z, ez, hz⟩ := mul_log hn s
    rw [ez, Option.some_inj, ← scalar_iff, eq_div_iff hn0]
    constructor
    · rintro rfl
      exact hz.unique hm
    · intro h
      rw [h] at hz
      exact hz.inj hm

/-- Pedersen commitments hide perfectly: every string is a commitment to every message, with exactly
one opening modulo the order. -/
theorem C82_hiding {H C : Bytes 56} (hH : (decafDecompress F H).isSome = true) (hH0 : H.val ≠ 0)
    (hC : (decafDecompress F C).isSome = true) (m : Scalar) :
    ∃ r < ell, ∀ s : Scalar, (commitD H m s).eval F = some C ↔ s.val % ell = r := by
  have : Fact ell.Prime := ⟨ell_prime⟩
  obtain ⟨n, hn⟩ := accepted_log hH
  obtain ⟨x, hx⟩ := accepted_log hC
  have hn0 : n ≠ 0 := fun h => hH0 ((logOf_zero hn).2 h)
  refine ⟨((x - m.val) / n).val, ZMod.val_lt _, fun s => ?_⟩
  obtain ⟨z, ez, hz⟩ := commit_log hn m s
  rw [ez, Option.some_inj, ← scalar_iff, eq_div_iff hn0, eq_sub_iff_add_eq']
  constructor
  · rintro rfl
    exact hz.unique hx
  · intro h
    rw [h] at hz
    exact hz.inj hx

/-- Pedersen commitments bind: from two openings to different messages the logarithm of `H` is computed
by one division. -/
theorem C82_binding {H C : Bytes 56} (hH : (decafDecompress F H).isSome = true)
    {m m' r r' : Scalar} (hm : m.val % ell ≠ m'.val % ell)
    (h : (commitD H m r).eval F = some C) (h' : (commitD H m' r').eval F = some C) (k : Scalar) :
    (keyD k).eval F = some H ↔ (k.val : ZMod ell) * (r'.val - r.val) = m.val - m'.val := by
  have : Fact ell.Prime := ⟨ell_prime⟩
  obtain ⟨n, hn⟩ := accepted_log hH
  obtain ⟨z, ez, hz⟩ := commit_log hn m r
  obtain ⟨z', ez', hz'⟩ := commit_log hn m' r'
  rw [h] at ez; cases ez
  rw [h'] at ez'; cases ez'
  have e := hz.unique hz'
  have hne : (m.val : ZMod ell) - m'.val ≠ 0 := fun h0 =>
    hm ((ZMod.natCast_eq_natCast_iff _ _ _).1 (sub_eq_zero.1 h0))
  have hr : (r'.val : ZMod ell) - r.val ≠ 0 := by
    intro h0
    apply hne
    linear_combination e + n * h0
  obtain ⟨q, eq, hq⟩ := key_log (F := F) k
  rw [eq, Option.some_inj]
  constructor
  · rintro rfl
    have := hq.unique hn
    rw [this]
    linear_combination -e
  · intro hk
    have : (k.val : ZMod ell) = n := by
      apply mul_right_cancel₀ hr
      rw [hk]
      linear_combination e
    rw [this] at hq
    exact hq.inj hn

/-- The sum of commitments is a commitment to the sum. -/
theorem C82_homomorphic {H : Bytes 56} (hH : (decafDecompress F H).isSome = true)
    {m m' r r' : Scalar} (hm : m.val < ell) (hm' : m'.val < ell) (hr : r.val < ell)
    (hr' : r'.val < ell) :
    ∃ c c' C M R, (commitD H m r).eval F = some c ∧ (commitD H m' r').eval F = some c' ∧
      Scalar.add m m' = some M ∧ Scalar.add r r' = some R ∧ (addD c c').eval F = some C ∧
      (commitD H M R).eval F = some C := by
  obtain ⟨n, hn⟩ := accepted_log hH
  obtain ⟨c, ec, hc⟩ := commit_log hn m r
  obtain ⟨c', ec', hc'⟩ := commit_log hn m' r'
  obtain ⟨C, eC, hC⟩ := add_log hc hc'
  obtain ⟨M, eM, vM, -⟩ := C01_scalar_add m m' hm hm'
  obtain ⟨R, eR, vR, -⟩ := C01_scalar_add r r' hr hr'
  obtain ⟨C', eC', hC'⟩ := commit_log hn M R
  refine ⟨c, c', C, M, R, ec, ec', eM, eR, eC, ?_⟩
  have : C' = C := hC'.inj (F := F) (by
    convert hC using 1
    rw [vM, vR, ZMod.natCast_mod, ZMod.natCast_mod]
    push_cast; ring)
  rw [eC', this]

/-- Proofs of equal logarithms: two accepted proofs with the same first message and different
challenges exist only if the two keys have the same logarithm to their bases, and it is computed by one
division. -/
theorem C82_equal_logs {P Q X Y A B : Bytes 56} {c c' s s' : Scalar}
    (hc : c.val % ell ≠ c'.val % ell)
    (h1 : (checkD P A X c s).eval F = some true) (h2 : (checkD Q B Y c s).eval F = some true)
    (h1' : (checkD P A X c' s').eval F = some true) (h2' : (checkD Q B Y c' s').eval F = some true) :
    ∃ x < ell, (x : ZMod ell) * (c.val - c'.val) = s.val - s'.val ∧
      ∀ k : Scalar, k.val % ell = x → (mulD k P).eval F = some X ∧ (mulD k Q).eval F = some Y := by
  have : Fact ell.Prime := ⟨ell_prime⟩
  have hne : (c.val : ZMod ell) - c'.val ≠ 0 := fun h0 =>
    hc ((ZMod.natCast_eq_natCast_iff _ _ _).1 (sub_eq_zero.1 h0))
  set x : ZMod ell := (s.val - s'.val) / (c.val - c'.val) with hx
  have key : ∀ {P A X : Bytes 56}, (checkD P A X c s).eval F = some true →
      (checkD P A X c' s').eval F = some true → ∀ k : Scalar, k.val % ell = x.val →
      (mulD k P).eval F = some X := by
    intro P A X h h' k hk
    obtain ⟨n, a, y, hP, hA, hX⟩ := check_accepts h
    obtain ⟨b, eb, hb⟩ := check_log hP hA hX c s
    rw [h] at eb; cases eb
    obtain ⟨b, eb, hb'⟩ := check_log hP hA hX c' s'
    rw [h'] at eb; cases eb
    have e1 := hb.1 rfl
    have e2 := hb'.1 rfl
    obtain ⟨z, ez, hz⟩ := mul_log hP k
    rw [(scalar_iff k x).2 hk] at hz
    rw [ez, hz.inj (F := F) (by
      convert hX using 1
      rw [hx, div_mul_eq_mul_div, div_eq_iff hne]
      linear_combination e1 - e2)]
  refine ⟨x.val, ZMod.val_lt x, ?_, fun k hk => ⟨key h1 h1' k hk, key h2 h2' k hk⟩⟩
  rw [ZMod.natCast_zmod_val, hx, div_mul_cancel₀ _ hne]

/-- The honest prover is accepted: with first message `r P` and response `r + c k`. -/
theorem C82_equal_logs_complete {P : Bytes 56} (hP : (decafDecompress F P).isSome = true)
    (k r c : Scalar) (hr : r.val < ell) :
    ∃ X A ck s, (mulD k P).eval F = some X ∧ (mulD r P).eval F = some A ∧
      Scalar.mul c k = some ck ∧ Scalar.add r ck = some s ∧
      (checkD P A X c s).eval F = some true := by
  obtain ⟨n, hn⟩ := accepted_log hP
  obtain ⟨X, eX, hX⟩ := mul_log hn k
  obtain ⟨A, eA, hA⟩ := mul_log hn r
  obtain ⟨ck, e1, v1, l1⟩ := C03_scalar_mul c k
  obtain ⟨s, e2, v2, -⟩ := C01_scalar_add r ck hr l1
  obtain ⟨b, eb, hb⟩ := check_log hn hA hX c s
  refine ⟨X, A, ck, s, eX, eA, e1, e2, ?_⟩
  rw [eb, hb.2]
  rw [v2, ZMod.natCast_mod, Nat.cast_add, v1, ZMod.natCast_mod]
  push_cast; ring

end

/-- The generator's string is accepted and is not the identity's, so the theorems apply to it. -/
example : ∃ x : Bytes 56, (keyD Scalar.one).eval U32.Fe = some x ∧
    (decafDecompress U32.Fe x).isSome = true ∧ x.val ≠ 0 := by
  obtain ⟨x, ex, hx⟩ := key_log (F := U32.Fe) Scalar.one
  have : Fact (1 < ell) := ⟨ell_prime.one_lt⟩
  have h1 : Scalar.one.val = 1 := by decide +kernel
  refine ⟨x, ex, ?_, ?_⟩
  · obtain ⟨P, e, -⟩ := hx; rw [e]; rfl
  · rw [Ne, logOf_zero hx, h1, Nat.cast_one]
    exact one_ne_zero

/-- Blinding by 0 does not work: the result is the identity's string. -/
example (k : Scalar) (x : Bytes 56) (hx : (decafDecompress U32.Fe x).isSome = true) :
    ∃ y, (oprfD k Scalar.zero x).eval U32.Fe = some y ∧ y.val = 0 := by
  obtain ⟨n, hn⟩ := accepted_log hx
  have h0 : Scalar.zero.val = 0 := by decide +kernel
  obtain ⟨u, eu, hu⟩ := mul_log hn Scalar.zero
  obtain ⟨v, ev, hv⟩ := mul_log hu k
  obtain ⟨i, ei, -⟩ := C04_scalar_invert Scalar.zero
  obtain ⟨w, ew, hw⟩ := mul_log hv i
  refine ⟨w, ?_, (logOf_zero hw).2 (by rw [h0]; push_cast; ring)⟩
  show ((mulD Scalar.zero x).eval U32.Fe).bind (fun b => ((mulD k b).eval U32.Fe).bind fun e =>
    (Prog.bind (unwrap Scalar.zero.invert) fun i => mulD i e).eval U32.Fe) = _
  rw [eu, Option.bind_some, ev, Option.bind_some, eval_unwrap, ei, Option.bind_some, ew]

end Ed448.Props
