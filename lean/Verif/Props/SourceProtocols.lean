import Verif.Spec.Rfc8032Sign
import Verif.Props.RepairLeakage
import Verif.Props.Rfc
import Verif.Props.Rfc9496
import Verif.Props.DecafProtocols

/-!
# Ed448, X448 and Decaf Diffie–Hellman on the translated source (C84, C85)

The protocols, from strings to strings, over the functions that tools/rust2lean.py has translated from
the source. Each program is written once, over the functions it calls (`Api`), and run with the
translation with overflow checks, with the wrapping one, with the recording one, and with the same
three of the repaired source. The hash is any function.
-/

namespace Ed448.Props
open Ed448.Model Ed448.Edw Ed448.Proofs
open Leak (Lk Ev Er LeakBackend CTBackend)

set_option exponentiation.threshold 1000
set_option maxRecDepth 10000

/-! ## The functions -/

/-- The functions of the library that the programs call. -/
structure Api (m : Type → Type) (F : Type) where
  wide : List ℕ → m (List ℕ)
  fromBytes : List ℕ → m (List ℕ)
  fromCanonical : List ℕ → m (Option (List ℕ))
  scalarAdd : List ℕ → List ℕ → m (List ℕ)
  scalarMul : List ℕ → List ℕ → m (List ℕ)
  toRfc8032 : List ℕ → m (List ℕ)
  edMul : EdPt F → List ℕ → m (EdPt F)
  edAdd : EdPt F → EdPt F → m (EdPt F)
  edDouble : EdPt F → m (EdPt F)
  edEq : EdPt F → EdPt F → m Bool
  edCompress : EdPt F → m (List ℕ)
  edDecompress : List ℕ → m (Option (EdPt F))
  montMul : List ℕ → List ℕ → m (List ℕ)
  decafMul : DecafPt F → List ℕ → m (DecafPt F)
  decafCompress : DecafPt F → m (List ℕ)
  decafDecompress : List ℕ → m (Option (DecafPt F))

namespace Api
variable (F : Type) {L : Type} [FieldBackend F L]

/-- The source, with overflow checks. -/
def source : Api Option F where
  wide := Gen.Scalar.from_bytes_mod_order_wide
  fromBytes := Gen.Scalar.from_bytes
  fromCanonical := Gen.Scalar.from_canonical_bytes
  scalarAdd := Gen.Scalar.op_add
  scalarMul := Gen.Scalar.op_mul
  toRfc8032 := Gen.Scalar.to_bytes_rfc_8032
  edMul := Gen.EdPt.op_mul_Scalar
  edAdd P Q := some (Gen.EdPt.op_add P Q)
  edDouble P := some (Gen.EdPt.double P)
  edEq P Q := some (Gen.EdPt.eq P Q)
  edCompress := Gen.EdPt.compress
  edDecompress := Gen.CompressedEdwardsY.decompress
  montMul := Gen.MontgomeryPoint.op_mul_Scalar (F := F)
  decafMul := Gen.DecafPt.op_mul_Scalar
  decafCompress := Gen.DecafPt.compress
  decafDecompress := Gen.CompressedDecaf.decompress

/-- The source in a release build. -/
def release : Api Option F where
  wide := Rel.Scalar.from_bytes_mod_order_wide
  fromBytes := Rel.Scalar.from_bytes
  fromCanonical := Rel.Scalar.from_canonical_bytes
  scalarAdd := Rel.Scalar.op_add
  scalarMul := Rel.Scalar.op_mul
  toRfc8032 := Rel.Scalar.to_bytes_rfc_8032
  edMul := Rel.EdPt.op_mul_Scalar
  edAdd P Q := some (Gen.EdPt.op_add P Q)
  edDouble P := some (Gen.EdPt.double P)
  edEq P Q := some (Gen.EdPt.eq P Q)
  edCompress := Rel.EdPt.compress
  edDecompress := Rel.CompressedEdwardsY.decompress
  montMul := Rel.MontgomeryPoint.op_mul_Scalar (F := F)
  decafMul := Rel.DecafPt.op_mul_Scalar
  decafCompress := Rel.DecafPt.compress
  decafDecompress := Rel.CompressedDecaf.decompress

/-- The repaired source, with overflow checks. -/
def repaired : Api Option F :=
  { source F with
    wide := Gen.Fix.Scalar.from_bytes_mod_order_wide
    scalarAdd := Gen.Fix.Scalar.op_add
    edDecompress := Gen.Fix.CompressedEdwardsY.decompress
    montMul := Gen.Fix.MontgomeryPoint.op_mul_Scalar (F := F) }

/-- The repaired source in a release build. -/
def repairedRelease : Api Option F :=
  { release F with
    wide := Rel.Fix.Scalar.from_bytes_mod_order_wide
    scalarAdd := Rel.Fix.Scalar.op_add
    edDecompress := Rel.Fix.CompressedEdwardsY.decompress
    montMul := Rel.Fix.MontgomeryPoint.op_mul_Scalar (F := F) }

/-- The source with its observations. -/
def observed [LeakBackend F L] : Api Lk F where
  wide := Leak.Scalar.from_bytes_mod_order_wide
  fromBytes := Leak.Scalar.from_bytes
  fromCanonical := Leak.Scalar.from_canonical_bytes
  scalarAdd := Leak.Scalar.op_add
  scalarMul := Leak.Scalar.op_mul
  toRfc8032 := Leak.Scalar.to_bytes_rfc_8032
  edMul := Leak.EdPt.op_mul_Scalar
  edAdd := Leak.EdPt.op_add
  edDouble := Leak.EdPt.double
  edEq := Leak.EdPt.eq
  edCompress := Leak.EdPt.compress
  edDecompress := Leak.CompressedEdwardsY.decompress
  montMul := Leak.MontgomeryPoint.op_mul_Scalar (F := F)
  decafMul := Leak.DecafPt.op_mul_Scalar
  decafCompress := Leak.DecafPt.compress
  decafDecompress := Leak.CompressedDecaf.decompress

/-- The repaired source with its observations. -/
def repairedObserved [LeakBackend F L] : Api Lk F :=
  { observed F with
    wide := Leak.Fix.Scalar.from_bytes_mod_order_wide
    scalarAdd := Leak.Fix.Scalar.op_add
    edDecompress := Leak.Fix.CompressedEdwardsY.decompress
    montMul := Leak.Fix.MontgomeryPoint.op_mul_Scalar (F := F) }

/-- The original source, in both builds. -/
def original : List (Api Option F) := [source F, release F]

/-- The repaired source, in both builds. -/
def fixed : List (Api Option F) := [repaired F, repairedRelease F]

/-- All four. -/
def all : List (Api Option F) := original F ++ fixed F

end Api

/-! ## The programs -/

instance : Monad Lk where
  pure := Lk.ret
  bind := Lk.bind

/-- Pruning of the first half of the hash of the key (RFC 8032, 5.2.5), padded to the 114 bytes that
`from_bytes_mod_order_wide` takes. -/
def pruned (h : List ℕ) : List ℕ :=
  (((h.take 57).modify 0 (· &&& 252)).modify 56 (fun _ => 0)).modify 55 (· ||| 128) ++
    List.replicate 57 0

namespace Api
variable {m : Type → Type} [Monad m] {F L : Type} [FieldBackend F L] (a : Api m F)

/-- The encoding of a multiple of the generator. -/
def mulGen (s : List ℕ) : m (List ℕ) :=
  a.edMul Gen.EdPt.generator s >>= fun P => a.edCompress P

/-- The public key of a private key. -/
def publicKey (H : Rfc8032.Hash) (sk : List ℕ) : m (List ℕ) :=
  a.wide (pruned (H sk).l) >>= fun s => a.mulGen s

/-- A signature, from the private key, the flag, the context and the message. -/
def sign (H : Rfc8032.Hash) (sk : List ℕ) (f : ℕ) (C M : List ℕ) : m (List ℕ × List ℕ) :=
  a.wide (pruned (H sk).l) >>= fun s =>
  a.mulGen s >>= fun A =>
  a.wide (H (Rfc8032.dom4 f C ++ (H sk).l.drop 57 ++ M)).l >>= fun r =>
  a.mulGen r >>= fun R =>
  a.wide (H (Rfc8032.dom4 f C ++ R ++ A ++ M)).l >>= fun k =>
  a.scalarMul k s >>= fun ks =>
  a.scalarAdd r ks >>= fun S =>
  a.toRfc8032 S >>= fun S =>
  pure (R, S)

/-- Verification of a signature, with the cofactor. -/
def verify (H : Rfc8032.Hash) (A : List ℕ) (f : ℕ) (C M R S : List ℕ) : m Bool :=
  a.fromCanonical S >>= fun s =>
  a.edDecompress R >>= fun PR =>
  a.edDecompress A >>= fun PA =>
  a.wide (H (Rfc8032.dom4 f C ++ R ++ A ++ M)).l >>= fun k =>
  match s, PR, PA with
  | some s, some PR, some PA =>
    a.edMul Gen.EdPt.generator s >>= fun SB =>
    a.edMul PA k >>= fun kA =>
    a.edAdd PR kA >>= fun T =>
    a.edDouble SB >>= fun SB =>
    a.edDouble SB >>= fun SB =>
    a.edDouble T >>= fun T =>
    a.edDouble T >>= fun T =>
    a.edEq SB T
  | _, _, _ => pure false

/-- X448. -/
def x448 (k u : List ℕ) : m (List ℕ) :=
  a.fromBytes ((k.modify 0 (· &&& 252)).modify 55 (· ||| 128)) >>= fun s => a.montMul u s

/-- A public key of Diffie–Hellman on Decaf strings. -/
def decafKey (k : List ℕ) : m (List ℕ) :=
  a.fromBytes k >>= fun s =>
  a.decafMul Gen.DecafPt.generator s >>= fun Q =>
  a.decafCompress Q

/-- Diffie–Hellman on Decaf strings; `none` if the string is not accepted. -/
def decafShared (k b : List ℕ) : m (Option (List ℕ)) :=
  a.fromBytes k >>= fun s =>
  a.decafDecompress b >>= fun P =>
  match P with
  | some P =>
    a.decafMul P s >>= fun Q =>
    a.decafCompress Q >>= fun c =>
    pure (some c)
  | none => pure none

end Api

/-! ## What is needed of the functions -/

section
variable {F L : Type} [FieldBackend F L]

/-- What the functions compute, for a given relation of strings and decoded points. -/
structure Api.Ok [Lawful F] (a : Api Option F) (dec : Bytes 57 → E → Prop) : Prop where
  wide : ∀ b : Bytes 114, ∃ r : Scalar, a.wide b.l = some r.l ∧ r.val = b.val % ell
  fromBytes : ∀ b : Bytes 56, a.fromBytes b.l = some (Scalar.fromBytes b).l
  fromCanonical : ∀ b : Bytes 57, ∃ o : Option Scalar, a.fromCanonical b.l = some (o.map (·.l)) ∧
    (b.val < ell → ∃ s, o = some s ∧ s.val = b.val) ∧ (ell ≤ b.val → o = none)
  scalarAdd : ∀ x y : Scalar, x.val < ell → y.val < ell →
    ∃ r : Scalar, a.scalarAdd x.l y.l = some r.l ∧ r.val = (x.val + y.val) % ell
  scalarMul : ∀ x y : Scalar, ∃ r : Scalar, a.scalarMul x.l y.l = some r.l ∧
    r.val = x.val * y.val % ell
  toRfc8032 : ∀ x : Scalar, x.val < ell → ∃ b : Bytes 57, a.toRfc8032 x.l = some b.l ∧ b.val = x.val
  edMul : ∀ (P : EdPt F) (s : Scalar), ∃ r, a.edMul P s.l = some r ∧ P.scalarMul s = some r
  edAdd : ∀ P Q, a.edAdd P Q = some (P.add Q)
  edDouble : ∀ P, a.edDouble P = some P.double
  edEq : ∀ P Q, a.edEq P Q = some (P.eq Q)
  edCompress : ∀ P, a.edCompress P = some P.compress.l
  edDecompress : ∀ b : Bytes 57, ∃ o, a.edDecompress b.l = some o ∧
    (∀ P, o = some P → ∃ R, Rep P R) ∧ ∀ R, (∃ P, o = some P ∧ Rep P R) ↔ dec b R
  montMul : ∀ (u : Bytes 56) (s : Scalar), s.val % 2 = 0 →
    a.montMul u.l s.l = some (montMulScalar F u s).l
  decafMul : ∀ P (s : Scalar), a.decafMul P s.l = some (P.scalarMul s)
  decafCompress : ∀ P, a.decafCompress P = some P.compress.l
  decafDecompress : ∀ b : Bytes 56, a.decafDecompress b.l = some (Model.decafDecompress F b)

/-- The strings that the decoder of the source takes for a point. -/
def Loose (b : Bytes 57) (R : E) : Prop :=
  ((b.val % 2 ^ 448 : ℕ) : Fp) = R.y ∧ (R.x = 0 ∨ b.val / 2 ^ 455 = R.x.val % 2)

/-- The one string that the RFC takes for a point. -/
def Strict (b : Bytes 57) (R : E) : Prop := Rfc8032.decode b = some (R.x, R.y)

theorem strict_iff (b : Bytes 57) (R : E) :
    Strict b R ↔ b.val = R.y.val + 2 ^ 455 * (R.x.val % 2) := by
  unfold Strict
  rw [rfc8032_decode]
  exact ⟨fun h => h.2, fun h => ⟨R.on, h⟩⟩

variable [Lawful F]

theorem source_ok : (Api.source F).Ok Loose where
  wide b := by
    obtain ⟨r, e, h, -⟩ := C08_wide_reduction b
    exact ⟨r, (Source.from_bytes_mod_order_wide b).trans (by rw [e]; rfl), h⟩
  fromBytes := Source.from_bytes
  fromCanonical b := by
    obtain ⟨o, e, h, k⟩ := C07_from_canonical_bytes b
    refine ⟨o, (Source.from_canonical_bytes b).trans (by rw [e]; rfl), fun hb => ?_, k⟩
    obtain ⟨s, h1, h2, -⟩ := h hb
    exact ⟨s, h1, h2⟩
  scalarAdd x y hx hy := by
    obtain ⟨r, e, h, -⟩ := C01_scalar_add x y hx hy
    exact ⟨r, (Source.op_add x y).trans (by rw [e]; rfl), h⟩
  scalarMul x y := by
    obtain ⟨r, e, h, -⟩ := C03_scalar_mul x y
    exact ⟨r, (Source.op_mul x y).trans (by rw [e]; rfl), h⟩
  toRfc8032 x hx := ⟨x.toBytesRfc8032, Source.to_bytes_rfc_8032 x, (C07_rfc8032_roundtrip x hx).2⟩
  edMul P s := by
    obtain ⟨r, e⟩ := Leak.scalarMul_some P s
    exact ⟨r, (Source.EdPt_op_mul P s).trans e, e⟩
  edAdd _ _ := rfl
  edDouble _ := rfl
  edEq P Q := congrArg some (Source.EdPt_eq P Q)
  edCompress := Source.EdPt_compress
  edDecompress b := by
    refine ⟨_, Source.Ed_decompress b, fun P e => ?_, fun R => C71_encodings b R⟩
    obtain ⟨R, h, -⟩ := edDecompress_some b e
    exact ⟨R, h⟩
  montMul u s _ := Source.Mont_mul u s
  decafMul := Source.Decaf_op_mul
  decafCompress := Source.Decaf_compress
  decafDecompress := Source.Decaf_decompress

theorem repaired_ok : (Api.repaired F).Ok Strict where
  wide b := (C77_scalars Scalar.zero Scalar.zero b).2.2
  fromBytes b := by dsimp only [Api.repaired]; exact source_ok.fromBytes b
  fromCanonical b := by dsimp only [Api.repaired]; exact source_ok.fromCanonical b
  scalarAdd x y _ _ := (C77_scalars x y (Arr.ofVal 114 256 (by norm_num) 0)).1
  scalarMul x y := by dsimp only [Api.repaired]; exact source_ok.scalarMul x y
  toRfc8032 x hx := by dsimp only [Api.repaired]; exact source_ok.toRfc8032 x hx
  edMul P s := by dsimp only [Api.repaired]; exact source_ok.edMul P s
  edAdd P Q := by dsimp only [Api.repaired]; exact source_ok.edAdd P Q
  edDouble P := by dsimp only [Api.repaired]; exact source_ok.edDouble P
  edEq P Q := by dsimp only [Api.repaired]; exact source_ok.edEq P Q
  edCompress P := by dsimp only [Api.repaired]; exact source_ok.edCompress P
  edDecompress b := by
    obtain ⟨o, e, -, h, -⟩ := C77_decompress (F := F) b
    refine ⟨o, e, fun P eP => ?_, fun R => (h R).trans (strict_iff b R).symm⟩
    have hc := (C77_conservative (F := F) b (Arr.ofVal 56 256 (by norm_num) 0) Scalar.zero).1 P
      (e.trans (congrArg some eP))
    rw [Source.Ed_decompress] at hc
    obtain ⟨R, h, -⟩ := edDecompress_some b (Option.some.inj hc)
    exact ⟨R, h⟩
  montMul u s hs := ((C77_conservative (F := F) (Arr.ofVal 57 256 (by norm_num) 0) u s).2.2.1
    hs).trans (Source.Mont_mul u s)
  decafMul P s := by dsimp only [Api.repaired]; exact source_ok.decafMul P s
  decafCompress P := by dsimp only [Api.repaired]; exact source_ok.decafCompress P
  decafDecompress b := by dsimp only [Api.repaired]; exact source_ok.decafDecompress b

omit [FieldBackend F L] [Lawful F] in
/-- Wherever the functions of `a` return, those of `b` return the same. -/
structure Api.Refines (a b : Api Option F) : Prop where
  wide : ∀ x r, a.wide x = some r → b.wide x = some r
  fromBytes : ∀ x r, a.fromBytes x = some r → b.fromBytes x = some r
  fromCanonical : ∀ x r, a.fromCanonical x = some r → b.fromCanonical x = some r
  scalarAdd : ∀ x y r, a.scalarAdd x y = some r → b.scalarAdd x y = some r
  scalarMul : ∀ x y r, a.scalarMul x y = some r → b.scalarMul x y = some r
  toRfc8032 : ∀ x r, a.toRfc8032 x = some r → b.toRfc8032 x = some r
  edMul : ∀ x y r, a.edMul x y = some r → b.edMul x y = some r
  edAdd : ∀ x y r, a.edAdd x y = some r → b.edAdd x y = some r
  edDouble : ∀ x r, a.edDouble x = some r → b.edDouble x = some r
  edEq : ∀ x y r, a.edEq x y = some r → b.edEq x y = some r
  edCompress : ∀ x r, a.edCompress x = some r → b.edCompress x = some r
  edDecompress : ∀ x r, a.edDecompress x = some r → b.edDecompress x = some r
  montMul : ∀ x y r, a.montMul x y = some r → b.montMul x y = some r
  decafMul : ∀ x y r, a.decafMul x y = some r → b.decafMul x y = some r
  decafCompress : ∀ x r, a.decafCompress x = some r → b.decafCompress x = some r
  decafDecompress : ∀ x r, a.decafDecompress x = some r → b.decafDecompress x = some r

theorem Api.Refines.ok {a b : Api Option F} {dec} (h : a.Refines b) (k : a.Ok dec) : b.Ok dec where
  wide x := (k.wide x).imp fun _ e => ⟨h.wide _ _ e.1, e.2⟩
  fromBytes x := h.fromBytes _ _ (k.fromBytes x)
  fromCanonical x := (k.fromCanonical x).imp fun _ e => ⟨h.fromCanonical _ _ e.1, e.2⟩
  scalarAdd x y hx hy := (k.scalarAdd x y hx hy).imp fun _ e => ⟨h.scalarAdd _ _ _ e.1, e.2⟩
  scalarMul x y := (k.scalarMul x y).imp fun _ e => ⟨h.scalarMul _ _ _ e.1, e.2⟩
  toRfc8032 x hx := (k.toRfc8032 x hx).imp fun _ e => ⟨h.toRfc8032 _ _ e.1, e.2⟩
  edMul P s := (k.edMul P s).imp fun _ e => ⟨h.edMul _ _ _ e.1, e.2⟩
  edAdd P Q := h.edAdd _ _ _ (k.edAdd P Q)
  edDouble P := h.edDouble _ _ (k.edDouble P)
  edEq P Q := h.edEq _ _ _ (k.edEq P Q)
  edCompress P := h.edCompress _ _ (k.edCompress P)
  edDecompress b := (k.edDecompress b).imp fun _ e => ⟨h.edDecompress _ _ e.1, e.2⟩
  montMul u s hs := h.montMul _ _ _ (k.montMul u s hs)
  decafMul P s := h.decafMul _ _ _ (k.decafMul P s)
  decafCompress P := h.decafCompress _ _ (k.decafCompress P)
  decafDecompress b := h.decafDecompress _ _ (k.decafDecompress b)

omit [Lawful F] in
theorem release_refines : (Api.source F).Refines (Api.release F) := by
  constructor <;> dsimp only [Api.source, Api.release]
  case edAdd => exact fun _ _ _ h => h
  case edDouble => exact fun _ _ h => h
  case edEq => exact fun _ _ _ h => h
  all_goals first
    | exact fun _ => (inferInstance : Rel.Ref _ _).ref
    | exact fun _ _ => (inferInstance : Rel.Ref _ _).ref

omit [Lawful F] in
theorem repairedRelease_refines : (Api.repaired F).Refines (Api.repairedRelease F) := by
  constructor <;> dsimp only [Api.repaired, Api.repairedRelease, Api.source, Api.release]
  case edAdd => exact fun _ _ _ h => h
  case edDouble => exact fun _ _ h => h
  case edEq => exact fun _ _ _ h => h
  all_goals first
    | exact fun _ => (inferInstance : Rel.Ref _ _).ref
    | exact fun _ _ => (inferInstance : Rel.Ref _ _).ref

theorem release_ok : (Api.release F).Ok Loose := release_refines.ok source_ok

theorem repairedRelease_ok : (Api.repairedRelease F).Ok Strict := repairedRelease_refines.ok repaired_ok

theorem original_ok {a : Api Option F} (h : a ∈ Api.original F) : a.Ok Loose := by
  simp only [Api.original, List.mem_cons, List.not_mem_nil, or_false] at h
  rcases h with rfl | rfl
  exacts [source_ok, release_ok]

theorem fixed_ok {a : Api Option F} (h : a ∈ Api.fixed F) : a.Ok Strict := by
  simp only [Api.fixed, List.mem_cons, List.not_mem_nil, or_false] at h
  rcases h with rfl | rfl
  exacts [repaired_ok, repairedRelease_ok]

theorem Strict.loose {b : Bytes 57} {R : E} (h : Strict b R) : Loose b R := by
  obtain ⟨P, e, -, hP⟩ := (C71_strict (F := U32.Fe) b R).2 ((strict_iff b R).1 h)
  exact (C71_encodings (F := U32.Fe) b R).1 ⟨P, e, hP⟩

theorem all_ok {a : Api Option F} (h : a ∈ Api.all F) : ∃ dec, a.Ok dec ∧
    (∀ b R, Strict b R → dec b R) ∧ ∀ b R, dec b R → Loose b R := by
  rcases List.mem_append.1 h with h | h
  · exact ⟨_, original_ok h, fun _ _ h => h.loose, fun _ _ h => h⟩
  · exact ⟨_, fixed_ok h, fun _ _ h => h, fun _ _ h => h.loose⟩

/-! ## Strings -/

omit [FieldBackend F L] [Lawful F] in
theorem modify_lt {f : ℕ → ℕ} (hf : ∀ x < 256, f x < 256) : ∀ (l : List ℕ) (i : ℕ),
    (∀ x ∈ l, x < 256) → ∀ x ∈ l.modify i f, x < 256
  | [], _, _, x, hx => by simp at hx
  | a :: l, 0, h, x, hx => by
    rw [List.modify_zero_cons, List.mem_cons] at hx
    rcases hx with rfl | hx
    · exact hf a (h a (by simp))
    · exact h x (by simp [hx])
  | a :: l, i + 1, h, x, hx => by
    rw [List.modify_succ_cons, List.mem_cons] at hx
    rcases hx with rfl | hx
    · exact h x (by simp)
    · exact modify_lt hf l i (fun y hy => h y (by simp [hy])) x hx

theorem and_lt (x : ℕ) (h : x < 256) : x &&& 252 < 256 := lt_of_le_of_lt Nat.and_le_left h

theorem or_lt (x : ℕ) (h : x < 256) : x ||| 128 < 256 :=
  Nat.or_lt_two_pow (n := 8) h (by norm_num)

/-- The pruned hash, as bytes. -/
def prunedB (h : Bytes 114) : Bytes 114 :=
  ⟨pruned h.l, by simp [pruned, h.len], fun x hx => by
    rcases List.mem_append.1 hx with hx | hx
    · exact modify_lt or_lt _ _ (modify_lt (fun _ _ => by norm_num) _ _ (modify_lt and_lt _ _
        fun y hy => h.lt y (List.mem_of_mem_take hy))) x hx
    · rw [List.eq_of_mem_replicate hx]; norm_num⟩

theorem prunedB_val (h : Bytes 114) : (prunedB h).val = Rfc8032.secretScalar h := by
  show Nat.ofDigits 256 (pruned h.l) = _
  rw [pruned, Nat.ofDigits_append]
  have hz : ∀ n, Nat.ofDigits 256 (List.replicate n 0) = 0 := fun n => by
    induction n with
    | zero => rfl
    | succ n ih => rw [List.replicate_succ, Nat.ofDigits_cons, ih]
  rw [hz, mul_zero, add_zero]
  rfl

/-- The key of X448 with its bits set, as bytes. -/
def clampB (k : Bytes 56) : Bytes 56 :=
  ⟨(k.l.modify 0 (· &&& 252)).modify 55 (· ||| 128), by simp [k.len],
    modify_lt or_lt _ _ (modify_lt and_lt _ _ k.lt)⟩

theorem encodePt_val (P : E) : (Rfc8032.encodePt P).val = P.y.val + 2 ^ 455 * (P.x.val % 2) := by
  have := ZMod.val_lt P.y
  have hp : p < 2 ^ 448 := by rw [p_lit]; norm_num
  have : P.x.val % 2 < 2 := Nat.mod_lt _ (by norm_num)
  exact Arr.ofVal_val (by norm_num) _ (by norm_num; omega)

theorem strict_encodePt (P : E) : Strict (Rfc8032.encodePt P) P :=
  (strict_iff _ _).2 (encodePt_val P)

theorem compress_encodePt {P : EdPt F} {R : E} (h : Rep P R) : P.compress = Rfc8032.encodePt R :=
  C79_compress h

/-! ## C84: signatures -/

omit [FieldBackend F L] [Lawful F] in
theorem obind {α β : Type} {o : Option α} {r : α} {f : α → Option β} {c : Option β}
    (h : o = some r) (k : f r = c) : o >>= f = c := by
  subst h
  exact k

theorem mulGen_eq {a : Api Option F} {dec} (ha : a.Ok dec) {s : Scalar} {n : ℕ} (h : s.val = n % ell) :
    a.mulGen s.l = some (Rfc8032.encodePt (n • G)).l := by
  obtain ⟨r, e, e'⟩ := ha.edMul EdPt.generator s
  obtain ⟨r', e'', hr⟩ := rep_scalarMul (rep_generator (F := F)) s
  obtain rfl := Option.some.inj (e'.symm.trans e'')
  rw [h, nsmul_mod ell_G] at hr
  exact obind e ((ha.edCompress r).trans (by rw [compress_encodePt hr]))

theorem publicKey_eq {a : Api Option F} {dec} (ha : a.Ok dec) (H : Rfc8032.Hash) (sk : Bytes 57) :
    a.publicKey H sk.l = some (Rfc8032.publicKey H sk).l := by
  obtain ⟨s, es, hs⟩ := ha.wide (prunedB (H sk.l))
  rw [prunedB_val] at hs
  exact obind es (mulGen_eq ha hs)

theorem sign_eq {a : Api Option F} {dec} (ha : a.Ok dec) (H : Rfc8032.Hash) (sk : Bytes 57) (f : ℕ)
    (C M : List ℕ) : a.sign H sk.l f C M =
      some ((Rfc8032.sign H sk f C M).1.l, (Rfc8032.sign H sk f C M).2.l) := by
  obtain ⟨s, es, hs⟩ := ha.wide (prunedB (H sk.l))
  rw [prunedB_val] at hs
  obtain ⟨r, er, hr⟩ := ha.wide (H (Rfc8032.dom4 f C ++ (H sk.l).l.drop 57 ++ M))
  obtain ⟨k, ek, hk⟩ := ha.wide (H (Rfc8032.dom4 f C ++ (Rfc8032.sign H sk f C M).1.l ++
    (Rfc8032.publicKey H sk).l ++ M))
  obtain ⟨ks, eks, hks⟩ := ha.scalarMul k s
  obtain ⟨S, eS, hS⟩ := ha.scalarAdd r ks (hr ▸ Nat.mod_lt _ ell_pos) (hks ▸ Nat.mod_lt _ ell_pos)
  obtain ⟨Sb, eSb, hSb⟩ := ha.toRfc8032 S (hS ▸ Nat.mod_lt _ ell_pos)
  have hR : a.mulGen r.l = some (Rfc8032.sign H sk f C M).1.l := mulGen_eq ha (by rw [hr, Nat.mod_mod])
  refine obind es (obind (mulGen_eq ha hs) (obind er (obind hR (obind ek (obind eks (obind eS
    (obind eSb ?_)))))))
  refine congrArg (fun b : Bytes 57 => some ((Rfc8032.sign H sk f C M).1.l, b.l))
    (Arr.val_inj (by norm_num) ?_)
  rw [hSb, hS, hks, hr, hk, hs]
  have hlt : ∀ n, n % ell < 256 ^ 57 := fun n =>
    lt_trans (Nat.mod_lt n ell_pos) (by rw [ell_lit]; norm_num)
  refine Eq.trans ?_ (Arr.ofVal_val (by norm_num) _ (hlt _)).symm
  show _ = ((H (Rfc8032.dom4 f C ++ (H sk.l).l.drop 57 ++ M)).val +
    (H (Rfc8032.dom4 f C ++ (Rfc8032.sign H sk f C M).1.l ++
      (Rfc8032.publicKey H sk).l ++ M)).val % ell * Rfc8032.secretScalar (H sk.l)) % ell
  simp [Nat.add_mod, Nat.mul_mod]

theorem four_mod (n : ℕ) (R : E) : 4 • ((n % ell) • R) = 4 • (n • R) := by
  have h : ell • (4 • R) = 0 := by
    rw [four_dlog, smul_comm ell 4, smul_comm ell _ G, ell_G, smul_zero, smul_zero]
  rw [smul_comm 4 (n % ell) R, nsmul_mod h, smul_comm]

theorem four_double (R : E) : R + R + (R + R) = 4 • R := by abel

theorem verify_eq {a : Api Option F} {dec} (ha : a.Ok dec) (H : Rfc8032.Hash) (A : Bytes 57) (f : ℕ)
    (C M : List ℕ) (R S : Bytes 57) : ∃ b, a.verify H A.l f C M R.l S.l = some b ∧
      (b = true ↔ ∃ PR PA : E, dec R PR ∧ dec A PA ∧ S.val < ell ∧
        4 • (S.val • G) = 4 • PR + 4 • (Rfc8032.challenge H f C M R A • PA)) := by
  obtain ⟨s, es, hs, hs'⟩ := ha.fromCanonical S
  obtain ⟨oR, eR, hR, hR'⟩ := ha.edDecompress R
  obtain ⟨oA, eA, hA, hA'⟩ := ha.edDecompress A
  obtain ⟨k, ek, hk⟩ := ha.wide (H (Rfc8032.dom4 f C ++ R.l ++ A.l ++ M))
  rcases s with _ | s
  · refine ⟨false, obind es (obind eR (obind eA (obind ek rfl))), ⟨nofun, ?_⟩⟩
    rintro ⟨-, -, -, -, h, -⟩
    obtain ⟨s, h, -⟩ := hs h
    cases h
  rcases oR with _ | pR
  · refine ⟨false, obind es (obind eR (obind eA (obind ek rfl))), ⟨nofun, ?_⟩⟩
    rintro ⟨PR, -, h, -⟩
    obtain ⟨P, h, -⟩ := (hR' PR).2 h
    cases h
  rcases oA with _ | pA
  · refine ⟨false, obind es (obind eR (obind eA (obind ek rfl))), ⟨nofun, ?_⟩⟩
    rintro ⟨-, PA, -, h, -⟩
    obtain ⟨P, h, -⟩ := (hA' PA).2 h
    cases h
  have hlt : S.val < ell := by
    by_contra h
    cases hs' (not_lt.1 h)
  obtain ⟨s', h, hsv⟩ := hs hlt
  obtain rfl := Option.some.inj h
  obtain ⟨PR, rR⟩ := hR pR rfl
  obtain ⟨PA, rA⟩ := hA pA rfl
  obtain ⟨SB, e1, e1'⟩ := ha.edMul EdPt.generator s
  obtain ⟨_, e1'', rS⟩ := rep_scalarMul (rep_generator (F := F)) s
  obtain rfl := Option.some.inj (e1'.symm.trans e1'')
  obtain ⟨kA, e2, e2'⟩ := ha.edMul pA k
  obtain ⟨_, e2'', rk⟩ := rep_scalarMul rA k
  obtain rfl := Option.some.inj (e2'.symm.trans e2'')
  refine ⟨_, obind es (obind eR (obind eA (obind ek (obind e1 (obind e2 (obind (ha.edAdd _ _)
    (obind (ha.edDouble _) (obind (ha.edDouble _) (obind (ha.edDouble _) (obind (ha.edDouble _)
    (ha.edEq _ _))))))))))), ?_⟩
  rw [rep_eq (rep_double (rep_double rS)) (rep_double (rep_double (rep_add rR rk))), four_double,
    four_double, nsmul_add, hk, four_mod, hsv]
  constructor
  · exact fun h => ⟨PR, PA, (hR' PR).1 ⟨_, rfl, rR⟩, (hA' PA).1 ⟨_, rfl, rA⟩, hlt, h⟩
  · rintro ⟨PR', PA', h1, h2, -, h⟩
    obtain ⟨_, h3, h4⟩ := (hR' PR').2 h1
    obtain ⟨_, h5, h6⟩ := (hA' PA').2 h2
    cases h3; cases h5
    obtain rfl := h4.unique rR
    obtain rfl := h6.unique rA
    exact h

variable {a : Api Option F}

/-- Key generation is that of RFC 8032, for every hash function, in both builds of the source and of
the repaired source. -/
theorem C84_public_key (ha : a ∈ Api.all F) (H : Rfc8032.Hash) (sk : Bytes 57) :
    a.publicKey H sk.l = some (Rfc8032.publicKey H sk).l := by
  obtain ⟨_, h, -⟩ := all_ok ha
  exact publicKey_eq h H sk

/-- Signing is that of RFC 8032, byte for byte, for every key, flag, context and message. -/
theorem C84_sign (ha : a ∈ Api.all F) (H : Rfc8032.Hash) (sk : Bytes 57) (f : ℕ) (C M : List ℕ) :
    a.sign H sk.l f C M =
      some ((Rfc8032.sign H sk f C M).1.l, (Rfc8032.sign H sk f C M).2.l) := by
  obtain ⟨_, h, -⟩ := all_ok ha
  exact sign_eq h H sk f C M

/-- On the repaired source verification is that of RFC 8032: it never panics, and accepts exactly what
the RFC accepts. -/
theorem C84_verify_repaired (ha : a ∈ Api.fixed F) (H : Rfc8032.Hash) (A : Bytes 57) (f : ℕ)
    (C M : List ℕ) (R S : Bytes 57) : ∃ b, a.verify H A.l f C M R.l S.l = some b ∧
      (b = true ↔ Rfc8032.Verifies H A f C M R S) :=
  verify_eq (fixed_ok ha) H A f C M R S

/-- On the source as it is verification never panics and accepts all that the RFC accepts; it accepts
more, because of the strings that its decoder accepts (C23, C71). -/
theorem C84_verify (ha : a ∈ Api.original F) (H : Rfc8032.Hash) (A : Bytes 57) (f : ℕ)
    (C M : List ℕ) (R S : Bytes 57) : ∃ b, a.verify H A.l f C M R.l S.l = some b ∧
      (b = true ↔ ∃ PR PA : E, Loose R PR ∧ Loose A PA ∧ S.val < ell ∧
        4 • (S.val • G) = 4 • PR + 4 • (Rfc8032.challenge H f C M R A • PA)) ∧
      (Rfc8032.Verifies H A f C M R S → b = true) := by
  obtain ⟨b, e, h⟩ := verify_eq (original_ok ha) H A f C M R S
  obtain ⟨dec, hd, hs, -⟩ := all_ok (List.mem_append_left _ ha : a ∈ Api.all F)
  obtain ⟨b', e', h'⟩ := verify_eq hd H A f C M R S
  obtain rfl := Option.some.inj (e.symm.trans e')
  exact ⟨b, e, h, fun ⟨PR, PA, h1, h2, h3, h4⟩ => h'.2 ⟨PR, PA, hs _ _ h1, hs _ _ h2, h3, h4⟩⟩

/-- What the RFC signs, the RFC verifies. -/
theorem rfc_complete (H : Rfc8032.Hash) (sk : Bytes 57) (f : ℕ) (C M : List ℕ) :
    Rfc8032.Verifies H (Rfc8032.publicKey H sk) f C M (Rfc8032.sign H sk f C M).1
      (Rfc8032.sign H sk f C M).2 := by
  have hlt : ∀ n, n % ell < 256 ^ 57 := fun n =>
    lt_trans (Nat.mod_lt n ell_pos) (by rw [ell_lit]; norm_num)
  have hS : (Rfc8032.sign H sk f C M).2.val =
      ((H (Rfc8032.dom4 f C ++ (H sk.l).l.drop 57 ++ M)).val +
      Rfc8032.challenge H f C M (Rfc8032.sign H sk f C M).1 (Rfc8032.publicKey H sk) % ell *
        Rfc8032.secretScalar (H sk.l)) % ell := Arr.ofVal_val (by norm_num) _ (hlt _)
  refine ⟨_, _, strict_encodePt _, strict_encodePt _, hS ▸ Nat.mod_lt _ ell_pos, ?_⟩
  rw [hS, nsmul_mod ell_G, ← nsmul_add, add_nsmul, nsmul_mod ell_G, mul_nsmul', nsmul_add, four_mod,
    nsmul_add]

/-- A signature by any of the builds is verified by any of the builds. -/
theorem C84_complete {b : Api Option F} (ha : a ∈ Api.all F) (hb : b ∈ Api.all F) (H : Rfc8032.Hash)
    (sk : Bytes 57) (f : ℕ) (C M : List ℕ) :
    ∃ A R S : Bytes 57, a.publicKey H sk.l = some A.l ∧ a.sign H sk.l f C M = some (R.l, S.l) ∧
      b.verify H A.l f C M R.l S.l = some true := by
  obtain ⟨dec, hd, hs, -⟩ := all_ok hb
  obtain ⟨r, e, h⟩ := verify_eq hd H (Rfc8032.publicKey H sk) f C M (Rfc8032.sign H sk f C M).1
      (Rfc8032.sign H sk f C M).2
  obtain ⟨PR, PA, h1, h2, h3, h4⟩ := rfc_complete H sk f C M
  obtain rfl := h.2 ⟨PR, PA, hs _ _ h1, hs _ _ h2, h3, h4⟩
  exact ⟨_, _, _, C84_public_key ha H sk, C84_sign ha H sk f C M, e⟩

/-! ## C84: Diffie–Hellman -/

/-- X448 on each of the builds is X448 of RFC 7748. -/
theorem C84_x448 (ha : a ∈ Api.all F) (k u : Bytes 56) :
    a.x448 k.l u.l = some (Rfc7748.X448 k u).l := by
  obtain ⟨_, h, -⟩ := all_ok ha
  have hv : (Scalar.fromBytes (clampB k)).val = clamp448 k.val :=
    (Scalar.fromBytes_val _).trans (decodeScalar_eq k)
  have hs : Scalar.fromBytes (clampB k) =
      Arr.ofVal 14 (2 ^ 32) (by norm_num) (clamp448 k.val) :=
    Arr.val_inj (by norm_num) (hv.trans (Arr.ofVal_val (by norm_num) _ (clamp448_lt _)).symm)
  refine obind (h.fromBytes (clampB k)) ((h.montMul u _ (by rw [hv]; unfold clamp448; omega)).trans ?_)
  rw [hs]
  exact congrArg (Option.map fun b : Bytes 56 => b.l) ((eval_x448 (F := F) k u).symm.trans (C80_x448 k u))

/-- The vectors of RFC 7748, section 5.2, on each of the builds. -/
example (ha : a ∈ Api.all F) : ∀ v ∈ rfc7748, a.x448 v.1.l v.2.1.l = some v.2.2.l := fun v hv => by
  rw [C84_x448 ha, Option.some.inj ((C80_x448 (F := F) v.1 v.2.1).symm.trans (C57_rfc7748 v hv))]

/-- The secret shared over Decaf strings is the one computed with the group of RFC 9496: strings that
the RFC does not decode are rejected, for the others the result is the encoding of the multiple. -/
theorem C84_decaf (ha : a ∈ Api.all F) (k b : Bytes 56) :
    (Rfc9496.decode b = none → a.decafShared k.l b.l = some none) ∧
    (∀ q A u, Rfc9496.decode b = some q → Rfc9496.Coord q A → Rfc9496.Coord u (k.val • A) →
      a.decafShared k.l b.l = some (some (Rfc9496.encode u).l)) := by
  obtain ⟨_, h, -⟩ := all_ok ha
  have hacc := C78_accepts (F := F) b
  constructor
  · intro hb
    rw [hb] at hacc
    have hn : decafDecompress F b = none := by
      cases hd : decafDecompress F b with
      | none => rfl
      | some P => rw [hd] at hacc; cases hacc
    exact obind (h.fromBytes k) (obind ((h.decafDecompress b).trans (congrArg some hn)) rfl)
  · intro q A u hq hA hu
    rw [hq] at hacc
    obtain ⟨P, hP⟩ := Option.isSome_iff_exists.1 hacc
    have hm := (C78_interoperates hP hP hq hq hA hA (u := u)).2.2.2.1 (Scalar.fromBytes k)
      (by rw [Scalar.fromBytes_val]; exact hu)
    refine obind (h.fromBytes k) (obind ((h.decafDecompress b).trans (congrArg some hP))
      (obind (h.decafMul P _) (obind (h.decafCompress _) ?_)))
    rw [hm]
    rfl

theorem decafShared_log {b : Bytes 56} {n : ZMod ell} (ha : a ∈ Api.all F) (h : LogOf F b n)
    (k : Bytes 56) : ∃ c : Bytes 56, a.decafShared k.l b.l = some (some c.l) ∧ LogOf F c (k.val * n) := by
  obtain ⟨_, ok, -⟩ := all_ok ha
  obtain ⟨P, e, rfl⟩ := h
  have hP := DecafReach.decompress e
  refine ⟨(P.scalarMul (Scalar.fromBytes k)).compress, ?_, ?_⟩
  · exact obind (ok.fromBytes k) (obind ((ok.decafDecompress b).trans (congrArg some e))
      (obind (ok.decafMul P _) (obind (ok.decafCompress _) rfl)))
  · rw [← Scalar.fromBytes_val, ← decafLog_mul hP]
    exact reach_log (.scalarMul _ hP)

theorem decafKey_log (ha : a ∈ Api.all F) (k : Bytes 56) :
    ∃ c : Bytes 56, a.decafKey k.l = some c.l ∧ LogOf F c k.val := by
  obtain ⟨_, ok, -⟩ := all_ok ha
  refine ⟨((DecafPt.generator : DecafPt F).scalarMul (Scalar.fromBytes k)).compress, ?_, ?_⟩
  · exact obind (ok.fromBytes k) (obind (ok.decafMul _ _) (ok.decafCompress _))
  · have h := decafLog_mul (DecafReach.generator (F := F)) (Scalar.fromBytes k)
    rw [decafLog_gen, mul_one, Scalar.fromBytes_val] at h
    rw [← h]
    exact reach_log (.scalarMul _ .generator)

/-- Two parties on any two of the builds agree on the secret, for any keys. -/
theorem C84_decaf_agreement {a' : Api Option F} (ha : a ∈ Api.all F) (ha' : a' ∈ Api.all F)
    (j k : Bytes 56) : ∃ A B w : Bytes 56, a.decafKey j.l = some A.l ∧ a'.decafKey k.l = some B.l ∧
      a.decafShared j.l B.l = some (some w.l) ∧ a'.decafShared k.l A.l = some (some w.l) := by
  obtain ⟨A, eA, hA⟩ := decafKey_log ha j
  obtain ⟨B, eB, hB⟩ := decafKey_log ha' k
  obtain ⟨w, ew, hw⟩ := decafShared_log ha hB j
  obtain ⟨w', ew', hw'⟩ := decafShared_log ha' hA k
  rw [mul_comm] at hw'
  obtain rfl := hw.inj hw'
  exact ⟨A, B, w, eA, eB, ew, ew'⟩

/-! ## C85: what is seen of the secrets -/

variable [LeakBackend F L] [CTBackend F L]

omit [FieldBackend F L] [Lawful F] [LeakBackend F L] [CTBackend F L] in
theorem lk_bind_eq {α β : Type} (m : Lk α) (f : α → Lk β) : m >>= f = Lk.bind m f := rfl

omit [FieldBackend F L] [Lawful F] [LeakBackend F L] [CTBackend F L] in
theorem lk_pure_eq {α : Type} (x : α) : (pure x : Lk α) = Lk.ret x := rfl

/-- The inputs of the signer: hash, private key, flag, context and message. -/
abbrev SignInput := Rfc8032.Hash × Bytes 57 × ℕ × List ℕ × List ℕ

/-- Key generation and signing: one list of observations for all private keys, contexts and messages.
(What the hash function itself shows is not part of the library.) -/
theorem C85_sign :
    SameTrace (fun _ : Rfc8032.Hash × Bytes 57 => True)
      (fun x => (Api.source F).publicKey x.1 x.2.l) (fun x => (Api.observed F).publicKey x.1 x.2.l) ∧
    SameTrace (fun _ : SignInput => True)
      (fun x => (Api.source F).sign x.1 x.2.1.l x.2.2.1 x.2.2.2.1 x.2.2.2.2)
      (fun x => (Api.observed F).sign x.1 x.2.1.l x.2.2.1 x.2.2.2.1 x.2.2.2.2) := by
  refine ⟨sameTrace_inst (fun x y => ⟨?_⟩) (fun x => ?_) fun x _ =>
      ⟨_, publicKey_eq source_ok x.1 x.2⟩,
    sameTrace_inst (fun x y => ⟨?_⟩) (fun x => ?_) fun x _ => ⟨_, sign_eq source_ok x.1 x.2.1 _ _ _⟩⟩
  · simp only [Api.publicKey, Api.mulGen, Api.observed, lk_bind_eq]
    ct
  · simp only [Api.publicKey, Api.mulGen, Api.observed, Api.source, lk_bind_eq,
      Option.bind_eq_bind]
    er
  · simp only [Api.sign, Api.mulGen, Api.observed, lk_bind_eq, lk_pure_eq]
    ct
  · simp only [Api.sign, Api.mulGen, Api.observed, Api.source, lk_bind_eq, lk_pure_eq,
      Option.bind_eq_bind, Option.pure_def]
    er

/-- The same for the repaired source. -/
theorem C85_sign_repaired :
    SameTrace (fun _ : Rfc8032.Hash × Bytes 57 => True)
      (fun x => (Api.repaired F).publicKey x.1 x.2.l)
      (fun x => (Api.repairedObserved F).publicKey x.1 x.2.l) ∧
    SameTrace (fun _ : SignInput => True)
      (fun x => (Api.repaired F).sign x.1 x.2.1.l x.2.2.1 x.2.2.2.1 x.2.2.2.2)
      (fun x => (Api.repairedObserved F).sign x.1 x.2.1.l x.2.2.1 x.2.2.2.1 x.2.2.2.2) := by
  refine ⟨sameTrace_inst (fun x y => ⟨?_⟩) (fun x => ?_) fun x _ =>
      ⟨_, publicKey_eq repaired_ok x.1 x.2⟩,
    sameTrace_inst (fun x y => ⟨?_⟩) (fun x => ?_) fun x _ => ⟨_, sign_eq repaired_ok x.1 x.2.1 _ _ _⟩⟩
  · simp only [Api.publicKey, Api.mulGen, Api.repairedObserved, Api.observed, lk_bind_eq]
    ct
  · simp only [Api.publicKey, Api.mulGen, Api.repairedObserved, Api.observed, Api.repaired, Api.source,
      lk_bind_eq, Option.bind_eq_bind]
    er
  · simp only [Api.sign, Api.mulGen, Api.repairedObserved, Api.observed, lk_bind_eq, lk_pure_eq]
    ct
  · simp only [Api.sign, Api.mulGen, Api.repairedObserved, Api.observed, Api.repaired, Api.source,
      lk_bind_eq, lk_pure_eq, Option.bind_eq_bind, Option.pure_def]
    er

omit [FieldBackend F L] [Lawful F] [LeakBackend F L] [CTBackend F L] in
theorem SameTrace.get {ι α : Type} {S : ι → Prop} {g : ι → Option α} {f : ι → Lk α}
    (h : SameTrace S g f) : ∃ T, ∀ x r, S x → g x = some r → f x = some (r, T) := by
  obtain ⟨T, h⟩ := h
  refine ⟨T, fun x r hx e => ?_⟩
  obtain ⟨r', e', k⟩ := h x hx
  rw [e] at e'
  cases e'
  exact k

omit [LeakBackend F L] [CTBackend F L] in
theorem x448_trace {a : Api Option F} {l : Api Lk F} {dec} (ha : a.Ok dec)
    (h1 : SameTrace (Words 56 256) a.fromBytes l.fromBytes)
    (h2 : SameTrace (fun x : List ℕ × List ℕ => Words 56 256 x.1 ∧ W14 x.2)
      (fun x => a.montMul x.1 x.2) (fun x => l.montMul x.1 x.2)) :
    SameTrace (fun _ : Bytes 56 × Bytes 56 => True) (fun x => a.x448 x.1.l x.2.l)
      (fun x => l.x448 x.1.l x.2.l) := by
  obtain ⟨T, h1⟩ := h1.get
  obtain ⟨U, h2⟩ := h2
  refine ⟨T ++ U, fun x _ => ?_⟩
  have e := ha.fromBytes (clampB x.1)
  obtain ⟨r, e2, k⟩ := h2 (x.2.l, (Scalar.fromBytes (clampB x.1)).l) ⟨Arr.words _, Arr.words _⟩
  exact ⟨r, obind e e2, lk_bind (h1 _ _ (Arr.words (clampB x.1)) e) k⟩

omit [LeakBackend F L] [CTBackend F L] in
theorem decafShared_trace {a : Api Option F} {l : Api Lk F} {dec} (ha : a.Ok dec)
    (h1 : SameTrace (Words 56 256) a.fromBytes l.fromBytes)
    (h2 : SameTrace (fun b => Words 56 256 b ∧ ∃ P : DecafPt F, a.decafDecompress b = some (some P))
      a.decafDecompress l.decafDecompress)
    (h3 : SameTrace (fun x : DecafPt F × List ℕ => W14 x.2) (fun x => a.decafMul x.1 x.2)
      (fun x => l.decafMul x.1 x.2))
    (h4 : SameTrace (fun _ : DecafPt F => True) a.decafCompress l.decafCompress) :
    SameTrace (fun _ : Bytes 56 => True) (fun k => a.decafKey k.l) (fun k => l.decafKey k.l) ∧
    SameTrace (fun x : Bytes 56 × Bytes 56 => (Rfc9496.decode x.2).isSome = true)
      (fun x => a.decafShared x.1.l x.2.l) (fun x => l.decafShared x.1.l x.2.l) := by
  obtain ⟨T, h1⟩ := h1.get
  obtain ⟨U, h2⟩ := h2.get
  obtain ⟨V, h3⟩ := h3.get
  obtain ⟨W, h4⟩ := h4.get
  constructor
  · refine ⟨T ++ (V ++ W), fun k _ => ?_⟩
    have e1 := ha.fromBytes k
    have e2 := ha.decafMul Gen.DecafPt.generator (Scalar.fromBytes k)
    have e3 := ha.decafCompress ((Gen.DecafPt.generator : DecafPt F).scalarMul (Scalar.fromBytes k))
    exact ⟨_, obind e1 (obind e2 e3), lk_bind
      (f := fun s => Lk.bind (l.decafMul Gen.DecafPt.generator s) fun Q => l.decafCompress Q)
      (h1 _ _ (Arr.words k) e1) (lk_bind
        (h3 (Gen.DecafPt.generator, (Scalar.fromBytes k).l) _ (Arr.words (Scalar.fromBytes k)) e2)
        (h4 _ _ trivial e3))⟩
  · refine ⟨T ++ (U ++ (V ++ (W ++ []))), fun x hx => ?_⟩
    change (Rfc9496.decode x.2).isSome = true at hx
    rw [← C78_accepts (F := F)] at hx
    obtain ⟨P, hP⟩ := Option.isSome_iff_exists.1 hx
    have e1 := ha.fromBytes x.1
    have e2 := (ha.decafDecompress x.2).trans (congrArg some hP)
    have e3 := ha.decafMul P (Scalar.fromBytes x.1)
    have e4 := ha.decafCompress (P.scalarMul (Scalar.fromBytes x.1))
    refine ⟨_, obind e1 (obind e2 (obind e3 (obind e4 rfl))), ?_⟩
    have k4 : Lk.bind (l.decafCompress (P.scalarMul (Scalar.fromBytes x.1)))
        (fun c => Lk.ret (some c)) = _ := lk_bind (h4 _ _ trivial e4) rfl
    have k3 : Lk.bind (l.decafMul P (Scalar.fromBytes x.1).l)
        (fun Q => Lk.bind (l.decafCompress Q) fun c => Lk.ret (some c)) = _ :=
      lk_bind (h3 (P, (Scalar.fromBytes x.1).l) _ (Arr.words (Scalar.fromBytes x.1)) e3) k4
    let f := fun (s : List ℕ) (P : Option (DecafPt F)) => show Lk (Option (List ℕ)) from match P with
      | some P => Lk.bind (l.decafMul P s) fun Q => Lk.bind (l.decafCompress Q) fun c => Lk.ret (some c)
      | none => Lk.ret none
    exact lk_bind (f := fun s => Lk.bind (l.decafDecompress x.2.l) (f s)) (h1 _ _ (Arr.words x.1) e1)
      (lk_bind (f := f _) (h2 _ _ ⟨Arr.words x.2, P, e2⟩ e2) k3)

/-- X448: one list of observations for all keys and all strings; on both sources. -/
theorem C85_x448 :
    SameTrace (fun _ : Bytes 56 × Bytes 56 => True) (fun x => (Api.source F).x448 x.1.l x.2.l)
      (fun x => (Api.observed F).x448 x.1.l x.2.l) ∧
    SameTrace (fun _ : Bytes 56 × Bytes 56 => True) (fun x => (Api.repaired F).x448 x.1.l x.2.l)
      (fun x => (Api.repairedObserved F).x448 x.1.l x.2.l) :=
  ⟨x448_trace source_ok C68_scalar_codec.2.2.1 C69_scalar_mul.2.2.2.2.1,
    x448_trace repaired_ok C68_scalar_codec.2.2.1 C83_ladder.1⟩

/-- In particular, an even and an odd key cannot be told apart, nor can the strings 0 and 5. -/
example : ((Api.observed F).x448 (Arr.ofVal 56 256 (by norm_num) 4).l
      (Arr.ofVal 56 256 (by norm_num) 0).l).map Prod.snd =
    ((Api.observed F).x448 (Arr.ofVal 56 256 (by norm_num) 7).l
      (Arr.ofVal 56 256 (by norm_num) 5).l).map Prod.snd := by
  obtain ⟨T, h⟩ := (C85_x448 (F := F)).1
  obtain ⟨_, -, e⟩ := h (Arr.ofVal 56 256 (by norm_num) 4, Arr.ofVal 56 256 (by norm_num) 0) trivial
  obtain ⟨_, -, e'⟩ := h (Arr.ofVal 56 256 (by norm_num) 7, Arr.ofVal 56 256 (by norm_num) 5) trivial
  exact (congrArg (Option.map Prod.snd) e).trans (congrArg (Option.map Prod.snd) e').symm

/-- Decaf Diffie–Hellman: one list of observations for all keys, and all strings that are accepted. -/
theorem C85_decaf :
    SameTrace (fun _ : Bytes 56 => True) (fun k => (Api.source F).decafKey k.l)
      (fun k => (Api.observed F).decafKey k.l) ∧
    SameTrace (fun x : Bytes 56 × Bytes 56 => (Rfc9496.decode x.2).isSome = true)
      (fun x => (Api.source F).decafShared x.1.l x.2.l)
      (fun x => (Api.observed F).decafShared x.1.l x.2.l) :=
  decafShared_trace source_ok C68_scalar_codec.2.2.1 C69_codec.2.2.2.2 C69_scalar_mul.2.2.2.2.2
    C69_codec.2.1

end

end Ed448.Props
