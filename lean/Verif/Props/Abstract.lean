import Verif.Props.SourceProtocols
import Verif.Props.Api

/-!
# Programs over the public functions and programs over mathematical objects (C90)

A program calls the public functions of the library on scalars, Edwards points, Montgomery strings and
Decaf elements, and computes anything in between from the bytes, booleans and bits it has seen. It runs on
the translated source, original and repaired, with overflow checks and in release builds (`Call.run`), and
on numbers, points of the curve and exponents (`Call.ideal`).
-/

namespace Ed448.Props
open Ed448.Model Ed448.Edw Ed448.Proofs Ed448.Iso

set_option exponentiation.threshold 1000
set_option maxRecDepth 10000

/-! ## The builds -/

/-- The four translations: the source and the repaired source, with overflow checks and wrapping. -/
inductive Build
  | source | release | repaired | repairedRelease
  deriving DecidableEq

/-- Whether the repairs are in. -/
def Build.fixed : Build → Bool
  | source | release => false
  | repaired | repairedRelease => true

namespace Build
variable {F L : Type} [FieldBackend F L]

/-- `Scalar.op_add` (src/field/scalar.rs) in each build. -/
def scalarAdd : Build → List ℕ → List ℕ → Option (List ℕ)
  | source => Gen.Scalar.op_add
  | release => Rel.Scalar.op_add
  | repaired => Gen.Fix.Scalar.op_add
  | repairedRelease => Rel.Fix.Scalar.op_add

/-- `Scalar.op_sub` (src/field/scalar.rs) in each build. -/
def scalarSub : Build → List ℕ → List ℕ → Option (List ℕ)
  | source => Gen.Scalar.op_sub
  | release => Rel.Scalar.op_sub
  | repaired => Gen.Fix.Scalar.op_sub
  | repairedRelease => Rel.Fix.Scalar.op_sub

/-- `Scalar.op_mul` (src/field/scalar.rs) in each build. -/
def scalarMul : Build → List ℕ → List ℕ → Option (List ℕ)
  | source | repaired => Gen.Scalar.op_mul
  | release | repairedRelease => Rel.Scalar.op_mul

/-- `Scalar.eq` (src/field/scalar.rs) in each build. -/
def scalarEq : Build → List ℕ → List ℕ → Option Bool
  | source | repaired => Gen.Scalar.eq
  | release | repairedRelease => Rel.Scalar.eq

/-- `Scalar.invert` (src/field/scalar.rs) in each build. -/
def scalarInvert : Build → List ℕ → Option (List ℕ)
  | source | repaired => Gen.Scalar.invert
  | release | repairedRelease => Rel.Scalar.invert

/-- `Scalar.halve` (src/field/scalar.rs) in each build. -/
def scalarHalve : Build → List ℕ → Option (List ℕ)
  | source | repaired => Gen.Scalar.halve
  | release | repairedRelease => Rel.Scalar.halve

/-- `Scalar.bits` (src/field/scalar.rs) in each build. -/
def scalarBits : Build → List ℕ → Option (List Bool)
  | source | repaired => Gen.Scalar.bits
  | release | repairedRelease => Rel.Scalar.bits

/-- `Scalar.from_bytes` (src/field/scalar.rs) in each build. -/
def scalarFromBytes : Build → List ℕ → Option (List ℕ)
  | source | repaired => Gen.Scalar.from_bytes
  | release | repairedRelease => Rel.Scalar.from_bytes

/-- `Scalar.to_bytes` (src/field/scalar.rs) in each build. -/
def scalarToBytes : Build → List ℕ → Option (List ℕ)
  | source | repaired => Gen.Scalar.to_bytes
  | release | repairedRelease => Rel.Scalar.to_bytes

/-- `Scalar.to_bytes_rfc_8032` (src/field/scalar.rs) in each build. -/
def scalarRfc8032 : Build → List ℕ → Option (List ℕ)
  | source | repaired => Gen.Scalar.to_bytes_rfc_8032
  | release | repairedRelease => Rel.Scalar.to_bytes_rfc_8032

/-- `Scalar.from_canonical_bytes` (src/field/scalar.rs) in each build. -/
def scalarCanonical : Build → List ℕ → Option (Option (List ℕ))
  | source | repaired => Gen.Scalar.from_canonical_bytes
  | release | repairedRelease => Rel.Scalar.from_canonical_bytes

/-- `Scalar.from_bytes_mod_order_wide` (src/field/scalar.rs) in each build. -/
def scalarWide : Build → List ℕ → Option (List ℕ)
  | source => Gen.Scalar.from_bytes_mod_order_wide
  | release => Rel.Scalar.from_bytes_mod_order_wide
  | repaired => Gen.Fix.Scalar.from_bytes_mod_order_wide
  | repairedRelease => Rel.Fix.Scalar.from_bytes_mod_order_wide

/-- `EdPt.op_mul_Scalar` (src/curve/edwards/extended.rs) in each build. -/
def edMul : Build → EdPt F → List ℕ → Option (EdPt F)
  | source | repaired => Gen.EdPt.op_mul_Scalar
  | release | repairedRelease => Rel.EdPt.op_mul_Scalar

/-- `EdPt.to_montgomery` (src/curve/edwards/extended.rs) in each build. -/
def edToMontgomery : Build → EdPt F → Option (List ℕ)
  | source | repaired => Gen.EdPt.to_montgomery
  | release | repairedRelease => Rel.EdPt.to_montgomery

/-- `EdPt.is_torsion_free` (src/curve/edwards/extended.rs) in each build. -/
def edTorsionFree : Build → EdPt F → Option Bool
  | source | repaired => Gen.EdPt.is_torsion_free
  | release | repairedRelease => Rel.EdPt.is_torsion_free

/-- `EdPt.compress` (src/curve/edwards/extended.rs) in each build. -/
def edCompress : Build → EdPt F → Option (List ℕ)
  | source | repaired => Gen.EdPt.compress
  | release | repairedRelease => Rel.EdPt.compress

/-- `CompressedEdwardsY.decompress` (src/curve/edwards/extended.rs) in each build. -/
def edDecompress : Build → List ℕ → Option (Option (EdPt F))
  | source => Gen.CompressedEdwardsY.decompress
  | release => Rel.CompressedEdwardsY.decompress
  | repaired => Gen.Fix.CompressedEdwardsY.decompress
  | repairedRelease => Rel.Fix.CompressedEdwardsY.decompress

/-- `DecafPt.op_mul_Scalar` (src/decaf) in each build. -/
def decafMul : Build → DecafPt F → List ℕ → Option (DecafPt F)
  | source | repaired => Gen.DecafPt.op_mul_Scalar
  | release | repairedRelease => Rel.DecafPt.op_mul_Scalar

/-- `DecafPt.compress` (src/decaf) in each build. -/
def decafCompress : Build → DecafPt F → Option (List ℕ)
  | source | repaired => Gen.DecafPt.compress
  | release | repairedRelease => Rel.DecafPt.compress

/-- `CompressedDecaf.decompress` (src/decaf) in each build. -/
def decafDecompress : Build → List ℕ → Option (Option (DecafPt F))
  | source | repaired => Gen.CompressedDecaf.decompress
  | release | repairedRelease => Rel.CompressedDecaf.decompress

variable (F) in
/-- `MontgomeryPoint.op_mul_Scalar` (src/curve/montgomery/montgomery.rs) in each build. -/
def montMul : Build → List ℕ → List ℕ → Option (List ℕ)
  | source => Gen.MontgomeryPoint.op_mul_Scalar (F := F)
  | release => Rel.MontgomeryPoint.op_mul_Scalar (F := F)
  | repaired => Gen.Fix.MontgomeryPoint.op_mul_Scalar (F := F)
  | repairedRelease => Rel.Fix.MontgomeryPoint.op_mul_Scalar (F := F)

variable (F) in
/-- `MontgomeryPoint.is_low_order` (src/curve/montgomery/montgomery.rs) in each build. -/
def montLowOrder : Build → List ℕ → Option Bool
  | source | release => fun u => some (Gen.MontgomeryPoint.is_low_order u)
  | repaired | repairedRelease => Gen.Fix.MontgomeryPoint.is_low_order (F := F)

end Build

/-! ## The calls -/

/-- What a program handles: its own data, scalars, Edwards points and Decaf elements. -/
inductive Obj : Type 1
  | host (α : Type)
  | scalar | ed | decaf

/-- Calls without an object as argument. -/
inductive Call0 : Obj → Type 1
  | scalarZero : Call0 .scalar
  | scalarOne : Call0 .scalar
  | scalarDefault : Call0 .scalar
  | scalarFrom (a : ℕ) (h : a < 2 ^ 32) : Call0 .scalar
  | scalarFromBytes (b : Bytes 56) : Call0 .scalar
  | scalarWide (b : Bytes 114) : Call0 .scalar
  | scalarCanonicalOk (b : Bytes 57) : Call0 (.host Bool)
  | scalarCanonical (b : Bytes 57) : Call0 .scalar
  | edIdentity : Call0 .ed
  | edDefault : Call0 .ed
  | edGenerator : Call0 .ed
  | edDecompressOk (b : Bytes 57) : Call0 (.host Bool)
  | edDecompress (b : Bytes 57) : Call0 .ed
  | montGenerator : Call0 (.host (Bytes 56))
  | montLowOrder (u : Bytes 56) : Call0 (.host Bool)
  | montEq (u v : Bytes 56) : Call0 (.host Bool)
  | decafIdentity : Call0 .decaf
  | decafGenerator : Call0 .decaf
  | decafIdentityBytes : Call0 (.host (Bytes 56))
  | decafBytesEq (b c : Bytes 56) : Call0 (.host Bool)
  | decafDecompressOk (b : Bytes 56) : Call0 (.host Bool)
  | decafDecompress (b : Bytes 56) : Call0 .decaf

/-- Calls with one object as argument. -/
inductive Call1 : Obj → Obj → Type 1
  | scalarInvert : Call1 .scalar .scalar
  | scalarHalve : Call1 .scalar .scalar
  | scalarBits : Call1 .scalar (.host (List Bool))
  | scalarToBytes : Call1 .scalar (.host (Bytes 56))
  | scalarRfc8032 : Call1 .scalar (.host (Bytes 57))
  | scalarIndex (i : ℕ) : Call1 .scalar (.host ℕ)
  | scalarSet (i v : ℕ) (h : v < 2 ^ 32) : Call1 .scalar .scalar
  | edNegate : Call1 .ed .ed
  | edDouble : Call1 .ed .ed
  | edTorque : Call1 .ed .ed
  | edTorsionFree : Call1 .ed (.host Bool)
  | edCompress : Call1 .ed (.host (Bytes 57))
  | edToMontgomery : Call1 .ed (.host (Bytes 56))
  | montMul (u : Bytes 56) : Call1 .scalar (.host (Bytes 56))
  | decafNeg : Call1 .decaf .decaf
  | decafCompress : Call1 .decaf (.host (Bytes 56))

/-- Calls with two objects as arguments. -/
inductive Call2 : Obj → Obj → Obj → Type 1
  | scalarAdd : Call2 .scalar .scalar .scalar
  | scalarSub : Call2 .scalar .scalar .scalar
  | scalarMul : Call2 .scalar .scalar .scalar
  | scalarEq : Call2 .scalar .scalar (.host Bool)
  | edAdd : Call2 .ed .ed .ed
  | edSub : Call2 .ed .ed .ed
  | edSelect (c : Bool) : Call2 .ed .ed .ed
  | edEq : Call2 .ed .ed (.host Bool)
  | edMul : Call2 .ed .scalar .ed
  | edMulModFour : Call2 .ed .scalar .ed
  | decafAdd : Call2 .decaf .decaf .decaf
  | decafSub : Call2 .decaf .decaf .decaf
  | decafEq : Call2 .decaf .decaf (.host Bool)
  | decafMul : Call2 .decaf .scalar .decaf

/-- Programs. `decompress` and `from_canonical_bytes` are followed by `unwrap`; the calls ending in `Ok`
say beforehand whether that panics. -/
inductive Call : Obj → Type 1
  | ret {α : Type} (a : α) : Call (.host α)
  | bind {α : Type} {τ : Obj} (a : Call (.host α)) (f : α → Call τ) : Call τ
  | panic {τ : Obj} : Call τ
  | call0 {τ : Obj} (o : Call0 τ) : Call τ
  | call1 {σ τ : Obj} (o : Call1 σ τ) (a : Call σ) : Call τ
  | call2 {ρ σ τ : Obj} (o : Call2 ρ σ τ) (a : Call ρ) (b : Call σ) : Call τ

/-! ## On the source -/

section run
variable (F : Type) {L : Type} [FieldBackend F L]

/-- Objects of the source. A scalar is its words. -/
def Obj.Src : Obj → Type
  | .host α => α
  | .scalar => List ℕ
  | .ed => EdPt F
  | .decaf => DecafPt F

/-- Byte strings that the source returns become arrays if they have the right length and range; anything
else counts as a panic. -/
def asBytes (n : ℕ) (o : Option (List ℕ)) : Option (Bytes n) := o.bind (Arr.ofList? n 256)

/-- What a call returns on a build; `none` is a panic. -/
def Call0.run (v : Build) : {τ : Obj} → Call0 τ → Option (τ.Src F)
  | _, scalarZero => some Gen.Scalar.zero
  | _, scalarOne => some Gen.Scalar.one
  | _, scalarDefault => some Gen.Scalar.default
  | _, scalarFrom a _ => some (Gen.Scalar.from a)
  | _, scalarFromBytes b => v.scalarFromBytes b.l
  | _, scalarWide b => v.scalarWide b.l
  | _, scalarCanonicalOk b => (v.scalarCanonical b.l).map Option.isSome
  | _, scalarCanonical b => (v.scalarCanonical b.l).join
  | _, edIdentity => some (Gen.EdPt.identity : EdPt F)
  | _, edDefault => some (Gen.EdPt.default : EdPt F)
  | _, edGenerator => some (Gen.EdPt.generator : EdPt F)
  | _, edDecompressOk b => (v.edDecompress (F := F) b.l).map Option.isSome
  | _, edDecompress b => (v.edDecompress (F := F) b.l).join
  | _, montGenerator => asBytes 56 (some Gen.MontgomeryPoint.generator)
  | _, montLowOrder u => v.montLowOrder F u.l
  | _, montEq u u' => some (Gen.MontgomeryPoint.eq u.l u'.l)
  | _, decafIdentity => some (Gen.DecafPt.identity : DecafPt F)
  | _, decafGenerator => some (Gen.DecafPt.generator : DecafPt F)
  | _, decafIdentityBytes => asBytes 56 (some Gen.CompressedDecaf.identity)
  | _, decafBytesEq b c => some (Gen.CompressedDecaf.eq b.l c.l)
  | _, decafDecompressOk b => (v.decafDecompress (F := F) b.l).map Option.isSome
  | _, decafDecompress b => (v.decafDecompress (F := F) b.l).join

/-- What a call returns on a build; `none` is a panic. -/
def Call1.run (v : Build) : {σ τ : Obj} → Call1 σ τ → σ.Src F → Option (τ.Src F)
  | _, _, scalarInvert, (s : List ℕ) => v.scalarInvert s
  | _, _, scalarHalve, (s : List ℕ) => v.scalarHalve s
  | _, _, scalarBits, (s : List ℕ) => v.scalarBits s
  | _, _, scalarToBytes, (s : List ℕ) => asBytes 56 (v.scalarToBytes s)
  | _, _, scalarRfc8032, (s : List ℕ) => asBytes 57 (v.scalarRfc8032 s)
  | _, _, scalarIndex i, (s : List ℕ) => Gen.Scalar.index s i
  | _, _, scalarSet i x _, (s : List ℕ) => Gen.Scalar.index_mut s i x
  | _, _, edNegate, (P : EdPt F) => some (Gen.EdPt.negate P)
  | _, _, edDouble, (P : EdPt F) => some (Gen.EdPt.double P)
  | _, _, edTorque, (P : EdPt F) => some (Gen.EdPt.torque P)
  | _, _, edTorsionFree, (P : EdPt F) => v.edTorsionFree P
  | _, _, edCompress, (P : EdPt F) => asBytes 57 (v.edCompress P)
  | _, _, edToMontgomery, (P : EdPt F) => asBytes 56 (v.edToMontgomery P)
  | _, _, montMul u, (s : List ℕ) => asBytes 56 (v.montMul F u.l s)
  | _, _, decafNeg, (P : DecafPt F) => some (Gen.DecafPt.op_neg P)
  | _, _, decafCompress, (P : DecafPt F) => asBytes 56 (v.decafCompress P)

/-- What a call returns on a build; `none` is a panic. -/
def Call2.run (v : Build) : {ρ σ τ : Obj} → Call2 ρ σ τ → ρ.Src F → σ.Src F → Option (τ.Src F)
  | _, _, _, scalarAdd, (s : List ℕ), (t : List ℕ) => v.scalarAdd s t
  | _, _, _, scalarSub, (s : List ℕ), (t : List ℕ) => v.scalarSub s t
  | _, _, _, scalarMul, (s : List ℕ), (t : List ℕ) => v.scalarMul s t
  | _, _, _, scalarEq, (s : List ℕ), (t : List ℕ) => v.scalarEq s t
  | _, _, _, edAdd, (P : EdPt F), (Q : EdPt F) => some (Gen.EdPt.op_add P Q)
  | _, _, _, edSub, (P : EdPt F), (Q : EdPt F) => some (Gen.EdPt.op_sub P Q)
  | _, _, _, edSelect c, (P : EdPt F), (Q : EdPt F) => some (Gen.EdPt.conditional_select P Q c)
  | _, _, _, edEq, (P : EdPt F), (Q : EdPt F) => some (Gen.EdPt.eq P Q)
  | _, _, _, edMul, (P : EdPt F), (s : List ℕ) => v.edMul P s
  | _, _, _, edMulModFour, (P : EdPt F), (s : List ℕ) => Gen.EdPt.scalar_mod_four P s
  | _, _, _, decafAdd, (P : DecafPt F), (Q : DecafPt F) => some (Gen.DecafPt.op_add P Q)
  | _, _, _, decafSub, (P : DecafPt F), (Q : DecafPt F) => some (Gen.DecafPt.op_sub P Q)
  | _, _, _, decafEq, (P : DecafPt F), (Q : DecafPt F) => some (Gen.DecafPt.equals P Q)
  | _, _, _, decafMul, (P : DecafPt F), (s : List ℕ) => v.decafMul P s

/-- Runs a program on a build and a backend. `none` is a panic. -/
def Call.run (v : Build) : {τ : Obj} → Call τ → Option (τ.Src F)
  | _, ret a => some a
  | _, bind a f => (a.run v).bind fun x => (f x).run v
  | _, panic => none
  | _, call0 o => o.run F v
  | _, call1 o a => (a.run v).bind (o.run F v)
  | _, call2 o a b => (a.run v).bind fun x => (b.run v).bind (o.run F v x)

end run

/-! ## On mathematical objects -/

/-- Mathematical objects: numbers below 2^448, points of the curve, and exponents of the group of prime
order. -/
def Obj.Math : Obj → Type
  | .host α => α
  | .scalar => ℕ
  | .ed => E
  | .decaf => ZMod ell

/-- The point that RFC 9496 decodes from its generator string. -/
theorem exists_decafBase : ∃ Q : E, ∃ q, Rfc9496.decode Rfc9496.generatorBytes = some q ∧
    Rfc9496.Coord q Q := by
  have hc : (DecafPt.generator : DecafPt Fast).compress = Rfc9496.generatorBytes := by decide +kernel
  obtain ⟨P, e, -⟩ := C37_round_trip (DecafReach.generator (F := Fast))
  rw [hc] at e
  have hs : (Rfc9496.decode Rfc9496.generatorBytes).isSome = true := by
    rw [← C78_accepts (F := Fast), e]; rfl
  obtain ⟨q, hq⟩ := Option.isSome_iff_exists.1 hs
  obtain ⟨S, h1, h2, -⟩ := C78_same (F := Fast)
  obtain ⟨-, A, hA⟩ := h2 P q (h1 _ P q e hq)
  exact ⟨A, q, hq, hA⟩

/-- That point. -/
noncomputable def decafBase : E := exists_decafBase.choose

/-- The RFC 9496 encoding of the `n`-th multiple of the generator. -/
noncomputable def decafEnc (n : ZMod ell) : Bytes 56 :=
  Rfc9496.encode ⟨(n.val • decafBase).x, (n.val • decafBase).y, 1,
    (n.val • decafBase).x * (n.val • decafBase).y⟩

open Classical in
/-- The point with this RFC 8032 encoding. -/
noncomputable def edDec (b : Bytes 57) : Option E :=
  if h : ∃ R : E, Rfc8032.encodePt R = b then some h.choose else none

open Classical in
/-- The exponent with this RFC 9496 encoding. -/
noncomputable def decafDec (b : Bytes 56) : Option (ZMod ell) :=
  if h : ∃ n, decafEnc n = b then some h.choose else none

open Classical in
/-- What a call means; `none` is a panic. -/
noncomputable def Call0.ideal : {τ : Obj} → Call0 τ → Option τ.Math
  | _, scalarZero => some (0 : ℕ)
  | _, scalarOne => some (1 : ℕ)
  | _, scalarDefault => some (0 : ℕ)
  | _, scalarFrom a _ => some a
  | _, scalarFromBytes b => some b.val
  | _, scalarWide b => some (b.val % ell)
  | _, scalarCanonicalOk b => some (decide (b.val < ell))
  | _, scalarCanonical b => if b.val < ell then some b.val else none
  | _, edIdentity => some (0 : E)
  | _, edDefault => some (0 : E)
  | _, edGenerator => some G
  | _, edDecompressOk b => some (edDec b).isSome
  | _, edDecompress b => edDec b
  | _, montGenerator => some (Rfc7748.encodeUCoordinate 5)
  | _, montLowOrder u => some (decide ((u.val : Fp) = 0 ∨ (u.val : Fp) = 1 ∨ (u.val : Fp) = -1))
  | _, montEq u v => some (decide (u = v))
  | _, decafIdentity => some (0 : ZMod ell)
  | _, decafGenerator => some (1 : ZMod ell)
  | _, decafIdentityBytes => some (decafEnc 0)
  | _, decafBytesEq b c => some (decide (b = c))
  | _, decafDecompressOk b => some (decafDec b).isSome
  | _, decafDecompress b => decafDec b

open Classical in
/-- What a call means; `none` is a panic. -/
noncomputable def Call1.ideal : {σ τ : Obj} → Call1 σ τ → σ.Math → Option τ.Math
  | _, _, scalarInvert, (n : ℕ) => some ((n : ZMod ell)⁻¹).val
  | _, _, scalarHalve, (n : ℕ) => some (if n % 2 = 0 then n / 2 else (n + ell) / 2)
  | _, _, scalarBits, (n : ℕ) => some ((List.range 448).map n.testBit)
  | _, _, scalarToBytes, (n : ℕ) => some (Arr.ofVal 56 256 (by norm_num) n)
  | _, _, scalarRfc8032, (n : ℕ) => some (Arr.ofVal 57 256 (by norm_num) n)
  | _, _, scalarIndex i, (n : ℕ) => if i < 14 then some (n / 2 ^ (32 * i) % 2 ^ 32) else none
  | _, _, scalarSet i v _, (n : ℕ) =>
    if i < 14 then some (n + 2 ^ (32 * i) * v - 2 ^ (32 * i) * (n / 2 ^ (32 * i) % 2 ^ 32)) else none
  | _, _, edNegate, (R : E) => some (-R)
  | _, _, edDouble, (R : E) => some (2 • R)
  | _, _, edTorque, (R : E) => some (R + torsion2)
  | _, _, edTorsionFree, (R : E) => some (decide (∃ n : ℕ, R = n • G))
  | _, _, edCompress, (R : E) => some (Rfc8032.encodePt R)
  | _, _, edToMontgomery, (R : E) => some (Rfc7748.encodeUCoordinate (R.y ^ 2 / R.x ^ 2))
  | _, _, montMul u, (n : ℕ) =>
    some (Rfc7748.encodeUCoordinate (Rfc7748.ladder n (Rfc7748.decodeUCoordinate u)))
  | _, _, decafNeg, (x : ZMod ell) => some (-x)
  | _, _, decafCompress, (x : ZMod ell) => some (decafEnc x)

open Classical in
/-- What a call means; `none` is a panic. -/
noncomputable def Call2.ideal : {ρ σ τ : Obj} → Call2 ρ σ τ → ρ.Math → σ.Math → Option τ.Math
  | _, _, _, scalarAdd, (n : ℕ), (m : ℕ) => some ((n : ZMod ell) + m).val
  | _, _, _, scalarSub, (n : ℕ), (m : ℕ) => some ((n : ZMod ell) - m).val
  | _, _, _, scalarMul, (n : ℕ), (m : ℕ) => some ((n : ZMod ell) * m).val
  | _, _, _, scalarEq, (n : ℕ), (m : ℕ) => some (decide (n = m))
  | _, _, _, edAdd, (R : E), (S : E) => some (R + S)
  | _, _, _, edSub, (R : E), (S : E) => some (R - S)
  | _, _, _, edSelect c, (R : E), (S : E) => some (if c then S else R)
  | _, _, _, edEq, (R : E), (S : E) => some (decide (R = S))
  | _, _, _, edMul, (R : E), (n : ℕ) => some (n • R)
  | _, _, _, edMulModFour, (R : E), (n : ℕ) => some ((n % 4) • R)
  | _, _, _, decafAdd, (x : ZMod ell), (y : ZMod ell) => some (x + y)
  | _, _, _, decafSub, (x : ZMod ell), (y : ZMod ell) => some (x - y)
  | _, _, _, decafEq, (x : ZMod ell), (y : ZMod ell) => some (decide (x = y))
  | _, _, _, decafMul, (x : ZMod ell), (n : ℕ) => some ((n : ZMod ell) * x)

/-- Runs a program on mathematical objects. -/
noncomputable def Call.ideal : {τ : Obj} → Call τ → Option τ.Math
  | _, ret a => some a
  | _, bind a f => a.ideal.bind fun x => (f x).ideal
  | _, panic => none
  | _, call0 o => o.ideal
  | _, call1 o a => a.ideal.bind o.ideal
  | _, call2 o a b => a.ideal.bind fun x => b.ideal.bind (o.ideal x)

/-! ## Where the original source is right -/

/-- The strings for which the original decoders and `is_low_order` do what they should: no second
encoding of a point, no unreduced coordinate. -/
def Call0.Dom : {τ : Obj} → Call0 τ → Prop
  | _, edDecompressOk b => ∀ R, Loose b R → Strict b R
  | _, edDecompress b => ∀ R, Loose b R → Strict b R
  | _, montLowOrder u => u.val < p
  | _, _ => True

/-- The ladder needs an even scalar. -/
def Call1.Dom : {σ τ : Obj} → Call1 σ τ → σ.Math → Prop
  | _, _, montMul _, (n : ℕ) => n % 2 = 0
  | _, _, _, _ => True

/-- Sums and differences need reduced scalars. -/
def Call2.Dom : {ρ σ τ : Obj} → Call2 ρ σ τ → ρ.Math → σ.Math → Prop
  | _, _, _, scalarAdd, (n : ℕ), (m : ℕ) => n < ell ∧ m < ell
  | _, _, _, scalarSub, (n : ℕ), (m : ℕ) => n < ell ∧ m < ell
  | _, _, _, _, _, _ => True

/-- A program that calls functions only where the original source is right. -/
def Call.Within : {τ : Obj} → Call τ → Prop
  | _, ret _ => True
  | _, bind a f => a.Within ∧ ∀ x, a.ideal = some x → (f x).Within
  | _, panic => True
  | _, call0 o => o.Dom
  | _, call1 o a => a.Within ∧ ∀ x, a.ideal = some x → o.Dom x
  | _, call2 o a b => a.Within ∧ b.Within ∧ ∀ x y, a.ideal = some x → b.ideal = some y → o.Dom x y

/-! ## What corresponds to what -/

section
variable {F L : Type} [FieldBackend F L] [Lawful F]

/-- An object of the source and the mathematical object it stands for. -/
def Obj.Rel : (τ : Obj) → τ.Src F → τ.Math → Prop
  | .host _, x, y => x = y
  | .scalar, (l : List ℕ), (n : ℕ) => ∃ s : Scalar, l = s.l ∧ s.val = n
  | .ed, (P : EdPt F), (R : E) => Rep P R
  | .decaf, (P : DecafPt F), (n : ZMod ell) => DecafReach P ∧ decafLog P = n

omit [FieldBackend F L] [Lawful F] in
theorem rel_ref {α : Type} {a b : Option α} (h : Rel.Ref a b) {r : α} (e : a = some r) : b = some r :=
  h.ref r e

omit [FieldBackend F L] [Lawful F] in
theorem asBytes_eq {n : ℕ} {o : Option (List ℕ)} {b : Bytes n} (h : o = some b.l) :
    asBytes n o = some b := by
  rw [h, asBytes, Option.bind_some, Arr.ofList?_eq _ b.len b.lt]

namespace Build
variable (v : Build)

theorem scalarAdd_ok (a b : Scalar) (h : v.fixed = true ∨ a.val < ell ∧ b.val < ell) :
    ∃ r : Scalar, v.scalarAdd a.l b.l = some r.l ∧ r.val = ((a.val : ZMod ell) + b.val).val := by
  have hv : ((a.val : ZMod ell) + b.val).val = (a.val + b.val) % ell := by
    rw [← Nat.cast_add, ZMod.val_natCast]
  obtain ⟨r, e, hr⟩ := (C77_scalars a b (Arr.ofVal 114 256 (by norm_num) 0)).1
  rw [hv]
  cases v with
  | source =>
    obtain ⟨h1, h2⟩ := h.resolve_left (by decide)
    exact ⟨r, (C77_scalars_same a b h1 h2).1.symm.trans e, hr⟩
  | release =>
    obtain ⟨h1, h2⟩ := h.resolve_left (by decide)
    exact ⟨r, rel_ref (a := Gen.Scalar.op_add a.l b.l)
        (b := Rel.Scalar.op_add a.l b.l) inferInstance
      ((C77_scalars_same a b h1 h2).1.symm.trans e), hr⟩
  | repaired => exact ⟨r, e, hr⟩
  | repairedRelease =>
    exact ⟨r, rel_ref (a := Gen.Fix.Scalar.op_add a.l b.l)
        (b := Rel.Fix.Scalar.op_add a.l b.l) inferInstance e, hr⟩

theorem scalarSub_ok (a b : Scalar) (h : v.fixed = true ∨ a.val < ell ∧ b.val < ell) :
    ∃ r : Scalar, v.scalarSub a.l b.l = some r.l ∧ r.val = ((a.val : ZMod ell) - b.val).val := by
  have : NeZero ell := ⟨ell_prime.ne_zero⟩
  obtain ⟨r, e, hr⟩ := (C77_scalars a b (Arr.ofVal 114 256 (by norm_num) 0)).2.1
  have hv : r.val = ((a.val : ZMod ell) - b.val).val := by
    have h1 : ((a.val : ZMod ell) - b.val) = ((r.val : ℕ) : ZMod ell) := by
      have : ((r.val : ℤ) : ZMod ell) = (((a.val : ℤ) - b.val : ℤ) : ZMod ell) := by
        rw [hr, ZMod.intCast_mod]
      push_cast at this
      exact this.symm
    have hlt : r.val < ell := by
      have := Int.emod_lt_of_pos ((a.val : ℤ) - b.val) (b := ell) (by exact_mod_cast ell_pos)
      rw [← hr] at this
      exact_mod_cast this
    rw [h1, ZMod.val_natCast, Nat.mod_eq_of_lt hlt]
  cases v with
  | source =>
    obtain ⟨h1, h2⟩ := h.resolve_left (by decide)
    exact ⟨r, (C77_scalars_same a b h1 h2).2.symm.trans e, hv⟩
  | release =>
    obtain ⟨h1, h2⟩ := h.resolve_left (by decide)
    exact ⟨r, rel_ref (a := Gen.Scalar.op_sub a.l b.l)
        (b := Rel.Scalar.op_sub a.l b.l) inferInstance
      ((C77_scalars_same a b h1 h2).2.symm.trans e), hv⟩
  | repaired => exact ⟨r, e, hv⟩
  | repairedRelease =>
    exact ⟨r, rel_ref (a := Gen.Fix.Scalar.op_sub a.l b.l)
        (b := Rel.Fix.Scalar.op_sub a.l b.l) inferInstance e, hv⟩

theorem scalarMul_ok (a b : Scalar) :
    ∃ r : Scalar, v.scalarMul a.l b.l = some r.l ∧ r.val = ((a.val : ZMod ell) * b.val).val := by
  obtain ⟨r, e, hr, -⟩ := C03_scalar_mul a b
  have h : Gen.Scalar.op_mul a.l b.l = some r.l := (Source.op_mul a b).trans (by rw [e]; rfl)
  refine ⟨r, ?_, by rw [hr, ← Nat.cast_mul, ZMod.val_natCast]⟩
  cases v
  exacts [h, rel_ref (a := Gen.Scalar.op_mul a.l b.l)
        (b := Rel.Scalar.op_mul a.l b.l) inferInstance h, h,
    rel_ref (a := Gen.Scalar.op_mul a.l b.l)
        (b := Rel.Scalar.op_mul a.l b.l) inferInstance h]

theorem scalarEq_ok (a b : Scalar) : v.scalarEq a.l b.l = some (decide (a.val = b.val)) := by
  have h : Gen.Scalar.eq a.l b.l = some (decide (a.val = b.val)) := by
    rw [Source.scalar_eq, Option.some.injEq, Bool.eq_iff_iff, decide_eq_true_iff, Scalar.eq_iff]
  cases v
  exacts [h, rel_ref (a := Gen.Scalar.eq a.l b.l)
        (b := Rel.Scalar.eq a.l b.l) inferInstance h, h,
    rel_ref (a := Gen.Scalar.eq a.l b.l)
        (b := Rel.Scalar.eq a.l b.l) inferInstance h]

theorem scalarInvert_ok (a : Scalar) :
    ∃ r : Scalar, v.scalarInvert a.l = some r.l ∧ r.val = ((a.val : ZMod ell)⁻¹).val := by
  have : Fact ell.Prime := ⟨ell_prime⟩
  obtain ⟨r, e, hl, h1, h2⟩ := C04_scalar_invert a
  have h : Gen.Scalar.invert a.l = some r.l := (Source.invert a).trans (by rw [e]; rfl)
  refine ⟨r, ?_, ?_⟩
  · cases v
    exacts [h, rel_ref (a := Gen.Scalar.invert a.l)
        (b := Rel.Scalar.invert a.l) inferInstance h, h,
      rel_ref (a := Gen.Scalar.invert a.l)
        (b := Rel.Scalar.invert a.l) inferInstance h]
  · have hr : (r.val : ZMod ell) = (a.val : ZMod ell)⁻¹ := by
      by_cases hd : ell ∣ a.val
      · rw [h2 hd, (ZMod.natCast_eq_zero_iff _ _).2 hd, inv_zero, zero_val, Nat.cast_zero]
      · obtain ⟨m, em, rfl⟩ := h1 hd
        obtain ⟨m, em', hm, -⟩ := C03_scalar_mul a r
        obtain rfl := Option.some.inj (em.symm.trans em')
        refine eq_inv_of_mul_eq_one_right ?_
        rw [← Nat.cast_mul, ← ZMod.natCast_mod, ← hm, one_val, Nat.cast_one]
    rw [← hr, ZMod.val_natCast, Nat.mod_eq_of_lt hl]

theorem scalarHalve_ok (a : Scalar) : ∃ r : Scalar, v.scalarHalve a.l = some r.l ∧
    r.val = if a.val % 2 = 0 then a.val / 2 else (a.val + ell) / 2 := by
  obtain ⟨r, e, hr⟩ := Scalar.halve_spec a
  have h : Gen.Scalar.halve a.l = some r.l := (Source.halve a).trans (by rw [e]; rfl)
  refine ⟨r, ?_, ?_⟩
  · cases v
    exacts [h, rel_ref (a := Gen.Scalar.halve a.l)
        (b := Rel.Scalar.halve a.l) inferInstance h, h,
      rel_ref (a := Gen.Scalar.halve a.l)
        (b := Rel.Scalar.halve a.l) inferInstance h]
  · rcases Nat.mod_two_eq_zero_or_one a.val with k | k
    · rw [if_pos k, hr, k, Nat.zero_mul, Nat.add_zero]
    · rw [if_neg (by omega), hr, k, Nat.one_mul]

theorem scalarBits_ok (a : Scalar) :
    v.scalarBits a.l = some ((List.range 448).map a.val.testBit) := by
  have h : Gen.Scalar.bits a.l = some ((List.range 448).map a.val.testBit) := by
    rw [Source.bits, bits_testBit]
  cases v
  exacts [h, rel_ref (a := Gen.Scalar.bits a.l)
        (b := Rel.Scalar.bits a.l) inferInstance h, h,
    rel_ref (a := Gen.Scalar.bits a.l)
        (b := Rel.Scalar.bits a.l) inferInstance h]

theorem scalarFromBytes_ok (b : Bytes 56) :
    ∃ r : Scalar, v.scalarFromBytes b.l = some r.l ∧ r.val = b.val := by
  have h := Source.from_bytes b
  refine ⟨_, ?_, C06_scalar_codec.2.2.2 b⟩
  cases v
  exacts [h, rel_ref (a := Gen.Scalar.from_bytes b.l)
        (b := Rel.Scalar.from_bytes b.l) inferInstance h, h,
    rel_ref (a := Gen.Scalar.from_bytes b.l)
        (b := Rel.Scalar.from_bytes b.l) inferInstance h]

theorem scalarToBytes_ok (a : Scalar) :
    asBytes 56 (v.scalarToBytes a.l) = some (Arr.ofVal 56 256 (by norm_num) a.val) := by
  have e : a.toBytes = Arr.ofVal 56 256 (by norm_num) a.val := by
    refine Arr.val_inj (by norm_num) ?_
    have hl := Arr.val_lt (by norm_num) a
    rw [C06_scalar_codec.2.2.1 a, Arr.ofVal_val _ _ (lt_of_lt_of_eq hl (by norm_num))]
  rw [← e]
  have h := Source.to_bytes a
  apply asBytes_eq
  cases v
  exacts [h, rel_ref (a := Gen.Scalar.to_bytes a.l)
        (b := Rel.Scalar.to_bytes a.l) inferInstance h, h,
    rel_ref (a := Gen.Scalar.to_bytes a.l)
        (b := Rel.Scalar.to_bytes a.l) inferInstance h]

theorem scalarRfc8032_ok (a : Scalar) :
    asBytes 57 (v.scalarRfc8032 a.l) = some (Arr.ofVal 57 256 (by norm_num) a.val) := by
  have e : a.toBytesRfc8032 = Arr.ofVal 57 256 (by norm_num) a.val := by
    refine Arr.val_inj (by norm_num) ?_
    have hl := Arr.val_lt (by norm_num) a
    rw [Arr.ofVal_val _ _ (lt_trans hl (by norm_num)), ← Scalar.toBytes_val]
    show Nat.ofDigits 256 (a.toBytes.l ++ [0]) = _
    rw [Nat.ofDigits_append_zero]; rfl
  rw [← e]
  have h := Source.to_bytes_rfc_8032 a
  apply asBytes_eq
  cases v
  exacts [h, rel_ref (a := Gen.Scalar.to_bytes_rfc_8032 a.l)
        (b := Rel.Scalar.to_bytes_rfc_8032 a.l) inferInstance h, h,
    rel_ref (a := Gen.Scalar.to_bytes_rfc_8032 a.l)
        (b := Rel.Scalar.to_bytes_rfc_8032 a.l) inferInstance h]

theorem scalarCanonical_ok (b : Bytes 57) : ∃ o : Option Scalar,
    v.scalarCanonical b.l = some (o.map (·.l)) ∧
    (b.val < ell → ∃ s, o = some s ∧ s.val = b.val) ∧ (ell ≤ b.val → o = none) := by
  obtain ⟨o, e, h1, h2⟩ := source_ok (F := U32.Fe).fromCanonical b
  refine ⟨o, ?_, h1, h2⟩
  have h : Gen.Scalar.from_canonical_bytes b.l = some (o.map (·.l)) := e
  cases v
  exacts [h, rel_ref (a := Gen.Scalar.from_canonical_bytes b.l)
        (b := Rel.Scalar.from_canonical_bytes b.l) inferInstance h, h,
    rel_ref (a := Gen.Scalar.from_canonical_bytes b.l)
        (b := Rel.Scalar.from_canonical_bytes b.l) inferInstance h]

theorem scalarWide_ok (b : Bytes 114) :
    ∃ r : Scalar, v.scalarWide b.l = some r.l ∧ r.val = b.val % ell := by
  cases v
  · exact (source_ok (F := U32.Fe)).wide b
  · exact (release_ok (F := U32.Fe)).wide b
  · exact (repaired_ok (F := U32.Fe)).wide b
  · exact (repairedRelease_ok (F := U32.Fe)).wide b

theorem edMul_ok {P : EdPt F} {R : E} (h : Rep P R) (s : Scalar) :
    ∃ r, v.edMul P s.l = some r ∧ Rep r (s.val • R) := by
  obtain ⟨r, e, hr⟩ := C16_scalar_mul h s
  have e' : Gen.EdPt.op_mul_Scalar P s.l = some r := (Source.EdPt_op_mul P s).trans e
  refine ⟨r, ?_, hr⟩
  cases v
  exacts [e', rel_ref (a := Gen.EdPt.op_mul_Scalar P s.l)
        (b := Rel.EdPt.op_mul_Scalar P s.l) inferInstance e', e',
    rel_ref (a := Gen.EdPt.op_mul_Scalar P s.l)
        (b := Rel.EdPt.op_mul_Scalar P s.l) inferInstance e']

theorem edToMontgomery_ok {P : EdPt F} {R : E} (h : Rep P R) :
    asBytes 56 (v.edToMontgomery P) = some (Rfc7748.encodeUCoordinate (R.y ^ 2 / R.x ^ 2)) := by
  obtain ⟨h1, h2, -⟩ := C30_to_montgomery h
  have e : P.toMontgomery = Rfc7748.encodeUCoordinate (R.y ^ 2 / R.x ^ 2) := by
    refine Arr.val_inj (by norm_num) ?_
    rw [Rfc7748.encodeUCoordinate, Arr.ofVal_val _ _ (lt_trans (ZMod.val_lt _) (by rw [p_lit]; norm_num)),
      ← h1, ZMod.val_natCast, Nat.mod_eq_of_lt h2]
  rw [← e]
  have k := Source.EdPt_to_montgomery P
  apply asBytes_eq
  cases v
  exacts [k, rel_ref (a := Gen.EdPt.to_montgomery P)
        (b := Rel.EdPt.to_montgomery P) inferInstance k, k,
    rel_ref (a := Gen.EdPt.to_montgomery P)
        (b := Rel.EdPt.to_montgomery P) inferInstance k]

open Classical in
theorem edTorsionFree_ok {P : EdPt F} {R : E} (h : Rep P R) :
    v.edTorsionFree P = some (decide (∃ n : ℕ, R = n • G)) := by
  obtain ⟨b, e, -, hb⟩ := C18_torsion_free h
  have k : Gen.EdPt.is_torsion_free P = some (decide (∃ n : ℕ, R = n • G)) := by
    rw [Source.EdPt_is_torsion_free, e, Option.some.injEq, Bool.eq_iff_iff, decide_eq_true_iff, hb]
  cases v
  exacts [k, rel_ref (a := Gen.EdPt.is_torsion_free P)
        (b := Rel.EdPt.is_torsion_free P) inferInstance k, k,
    rel_ref (a := Gen.EdPt.is_torsion_free P)
        (b := Rel.EdPt.is_torsion_free P) inferInstance k]

theorem edCompress_ok {P : EdPt F} {R : E} (h : Rep P R) :
    asBytes 57 (v.edCompress P) = some (Rfc8032.encodePt R) := by
  rw [← compress_encodePt h]
  have k := Source.EdPt_compress P
  apply asBytes_eq
  cases v
  exacts [k, rel_ref (a := Gen.EdPt.compress P)
        (b := Rel.EdPt.compress P) inferInstance k, k,
    rel_ref (a := Gen.EdPt.compress P)
        (b := Rel.EdPt.compress P) inferInstance k]

theorem strict_eq (b : Bytes 57) (R : E) : Strict b R ↔ Rfc8032.encodePt R = b := by
  rw [strict_iff, ← encodePt_val, Arr.val_inj_iff (by norm_num), eq_comm]

/-- The decoder of each build, where it is right. -/
theorem edDecompress_ok (b : Bytes 57) (h : v.fixed = true ∨ ∀ R, Loose b R → Strict b R) :
    ∃ o : Option (EdPt F), v.edDecompress b.l = some o ∧ Option.Rel Rep o (edDec b) := by
  have key : ∃ o : Option (EdPt F), v.edDecompress b.l = some o ∧
      (∀ P, o = some P → ∃ R, Rep P R) ∧ ∀ R, (∃ P, o = some P ∧ Rep P R) ↔ Strict b R := by
    cases v with
    | source =>
      have h := h.resolve_left (by decide)
      obtain ⟨o, e, h1, h2⟩ := (source_ok (F := F)).edDecompress b
      exact ⟨o, e, h1, fun R => (h2 R).trans ⟨h R, Strict.loose⟩⟩
    | release =>
      have h := h.resolve_left (by decide)
      obtain ⟨o, e, h1, h2⟩ := (release_ok (F := F)).edDecompress b
      exact ⟨o, e, h1, fun R => (h2 R).trans ⟨h R, Strict.loose⟩⟩
    | repaired => exact (repaired_ok (F := F)).edDecompress b
    | repairedRelease => exact (repairedRelease_ok (F := F)).edDecompress b
  obtain ⟨o, e, h1, h2⟩ := key
  refine ⟨o, e, ?_⟩
  unfold edDec
  rcases o with _ | P
  · rw [dif_neg]
    · exact .none
    · rintro ⟨R, hR⟩
      obtain ⟨P, hP, -⟩ := (h2 R).2 ((strict_eq b R).2 hR)
      cases hP
  · obtain ⟨R, hR⟩ := h1 P rfl
    have hx : ∃ R : E, Rfc8032.encodePt R = b := ⟨R, (strict_eq b R).1 ((h2 R).1 ⟨P, rfl, hR⟩)⟩
    rw [dif_pos hx]
    refine .some ?_
    obtain ⟨Q, hQ, hr⟩ := (h2 _).2 ((strict_eq b _).2 hx.choose_spec)
    cases hQ
    exact hr

variable (F) in
theorem montMul_ok (u : Bytes 56) (s : Scalar) (h : v.fixed = true ∨ s.val % 2 = 0) :
    asBytes 56 (v.montMul F u.l s.l) = some (Rfc7748.encodeUCoordinate
      (Rfc7748.ladder s.val (Rfc7748.decodeUCoordinate u))) := by
  apply asBytes_eq
  have k := C80_repaired (F := F) u s
  have k' : s.val % 2 = 0 → Gen.MontgomeryPoint.op_mul_Scalar (F := F) u.l s.l = some
      (Rfc7748.encodeUCoordinate (Rfc7748.ladder s.val (Rfc7748.decodeUCoordinate u))).l :=
    fun hs => (Source.Mont_mul u s).trans (by rw [C80_even u s hs])
  cases v with
  | source => exact k' (h.resolve_left (by decide))
  | release =>
    exact rel_ref (a := Gen.MontgomeryPoint.op_mul_Scalar (F := F) u.l s.l)
        (b := Rel.MontgomeryPoint.op_mul_Scalar (F := F) u.l s.l) inferInstance
      (k' (h.resolve_left (by decide)))
  | repaired => exact k
  | repairedRelease =>
    exact rel_ref (a := Gen.Fix.MontgomeryPoint.op_mul_Scalar (F := F) u.l s.l)
        (b := Rel.Fix.MontgomeryPoint.op_mul_Scalar (F := F) u.l s.l) inferInstance k

theorem low_iff (u : Bytes 56) (h : u.val < p) :
    isLowOrder u = decide ((u.val : Fp) = 0 ∨ (u.val : Fp) = 1 ∨ (u.val : Fp) = -1) := by
  have h1 := p_prime.one_lt
  have : Fact (1 < p) := ⟨h1⟩
  have hv : (u.val : Fp).val = u.val := by rw [ZMod.val_natCast, Nat.mod_eq_of_lt h]
  have hm : (-1 : Fp).val = p - 1 := by
    rw [ZMod.neg_val, if_neg one_ne_zero, ZMod.val_one]
  rw [Bool.eq_iff_iff, isLowOrder_iff, decide_eq_true_iff]
  refine or_congr ?_ (or_congr ?_ ?_)
  · rw [← hv, ZMod.val_eq_zero, hv]
  · rw [← (ZMod.val_injective p).eq_iff (b := 1), hv, ZMod.val_one]
  · rw [← (ZMod.val_injective p).eq_iff (b := -1), hv, hm]

variable (F) in
theorem montLowOrder_ok (u : Bytes 56) (h : v.fixed = true ∨ u.val < p) :
    v.montLowOrder F u.l =
      some (decide ((u.val : Fp) = 0 ∨ (u.val : Fp) = 1 ∨ (u.val : Fp) = -1)) := by
  have k : Gen.Fix.MontgomeryPoint.is_low_order (F := F) u.l =
      some (decide ((u.val : Fp) = 0 ∨ (u.val : Fp) = 1 ∨ (u.val : Fp) = -1)) := by
    unfold Gen.Fix.MontgomeryPoint.is_low_order
    refine (Source.bind_of_eq (Source.fieldFromBytes_eq _) _).trans ?_
    show some (isLowOrder (FieldBackend.toBytes (FieldBackend.fromBytes u : F))) = _
    rw [low_iff _ (toBytes_val_lt _), Lawful.toBytes_val, ZMod.natCast_zmod_val, Lawful.val_fromBytes]
  have k' : u.val < p → some (Gen.MontgomeryPoint.is_low_order u.l) =
      some (decide ((u.val : Fp) = 0 ∨ (u.val : Fp) = 1 ∨ (u.val : Fp) = -1)) :=
    fun hu => (congrArg some (Source.Mont_is_low_order u)).trans (by rw [low_iff u hu])
  cases v
  exacts [k' (h.resolve_left (by decide)), k' (h.resolve_left (by decide)), k, k]

omit [Lawful F] in
theorem decafMul_ok (P : DecafPt F) (s : Scalar) : v.decafMul P s.l = some (P.scalarMul s) := by
  have e := Source.Decaf_op_mul P s
  cases v
  exacts [e, rel_ref (a := Gen.DecafPt.op_mul_Scalar P s.l)
        (b := Rel.DecafPt.op_mul_Scalar P s.l) inferInstance e, e,
    rel_ref (a := Gen.DecafPt.op_mul_Scalar P s.l)
        (b := Rel.DecafPt.op_mul_Scalar P s.l) inferInstance e]

omit [Lawful F] in
theorem decafCompress_ok (P : DecafPt F) : asBytes 56 (v.decafCompress P) = some P.compress := by
  have e := Source.Decaf_compress P
  apply asBytes_eq
  cases v
  exacts [e, rel_ref (a := Gen.DecafPt.compress P)
        (b := Rel.DecafPt.compress P) inferInstance e, e,
    rel_ref (a := Gen.DecafPt.compress P)
        (b := Rel.DecafPt.compress P) inferInstance e]

omit [Lawful F] in
theorem decafDecompress_ok (b : Bytes 56) :
    v.decafDecompress b.l = some (Model.decafDecompress F b) := by
  have e := Source.Decaf_decompress (F := F) b
  cases v
  exacts [e, rel_ref (a := Gen.CompressedDecaf.decompress (F := F) b.l)
        (b := Rel.CompressedDecaf.decompress (F := F) b.l) inferInstance e, e,
    rel_ref (a := Gen.CompressedDecaf.decompress (F := F) b.l)
        (b := Rel.CompressedDecaf.decompress (F := F) b.l) inferInstance e]

end Build

/-! ## Decaf elements -/

theorem decafBase_spec : IsTwice decafBase G := by
  obtain ⟨q, hq, hc⟩ := exists_decafBase.choose_spec
  have hg : (DecafPt.generator : DecafPt Fast).compress = Rfc9496.generatorBytes := by decide +kernel
  have hv := drep_compress (drep_generator (F := Fast))
  rw [hg] at hv
  obtain ⟨Q, h1, h2⟩ := rfc_decode hq (R := G) (by rw [hv, ZMod.natCast_zmod_val])
  rw [coord_unique h1 hc] at h2
  exact h2

theorem compress_decafEnc {P : DecafPt F} (h : DecafReach P) : P.compress = decafEnc (decafLog P) := by
  have : NeZero ell := ⟨ell_prime.ne_zero⟩
  obtain ⟨R, hR⟩ := h.rep
  set n := (decafLog P).val with hn
  have hl : n < 2 ^ 448 := lt_trans (ZMod.val_lt _) (by rw [ell_lit]; norm_num)
  let s : Scalar := Arr.ofVal 14 (2 ^ 32) (by norm_num) n
  have hs : s.val = n := Arr.ofVal_val _ _ (lt_of_lt_of_eq hl (by norm_num))
  have hQ : DecafReach ((DecafPt.generator : DecafPt F).scalarMul s) := .scalarMul s .generator
  have e : P.compress = ((DecafPt.generator : DecafPt F).scalarMul s).compress := by
    rw [reach_log_iff h hQ, decafLog_mul .generator, decafLog_gen, mul_one, hs, hn,
      ZMod.natCast_zmod_val]
  rw [e]
  refine (same_encode (F := F) ⟨_, n • decafBase, drep_mul drep_generator s, ?_, ?_⟩).symm
  · exact ⟨one_ne_zero, (mul_one _).symm, (mul_one _).symm, by ring⟩
  · rw [hs]; exact isTwice_nsmul decafBase_spec n

theorem exists_decafLog (n : ZMod ell) : ∃ P : DecafPt F, DecafReach P ∧ decafLog P = n := by
  obtain ⟨f, -, -, -, -, -⟩ := C41_prime_order_group (F := F)
  have : NeZero ell := ⟨ell_prime.ne_zero⟩
  have hl : n.val < 2 ^ 448 := lt_trans (ZMod.val_lt _) (by rw [ell_lit]; norm_num)
  refine ⟨(DecafPt.generator : DecafPt F).scalarMul (Arr.ofVal 14 (2 ^ 32) (by norm_num) n.val),
    .scalarMul _ .generator, ?_⟩
  rw [decafLog_mul .generator, decafLog_gen, mul_one, Arr.ofVal_val _ _ (lt_of_lt_of_eq hl (by norm_num)),
    ZMod.natCast_zmod_val]

theorem decafDecompress_ideal (b : Bytes 56) : Option.Rel
    (fun (P : DecafPt F) n => DecafReach P ∧ decafLog P = n) (decafDecompress F b) (decafDec b) := by
  unfold decafDec
  rcases e : decafDecompress F b with _ | P
  · rw [dif_neg]
    · exact .none
    · rintro ⟨n, hn⟩
      obtain ⟨P, hP, rfl⟩ := exists_decafLog (F := F) n
      obtain ⟨Q, hQ, -⟩ := C37_round_trip hP
      rw [compress_decafEnc hP, hn, e] at hQ
      cases hQ
  · have hP := DecafReach.decompress e
    have hb : decafEnc (decafLog P) = b := by rw [← compress_decafEnc hP, C38_unique b e]
    have hx : ∃ n, decafEnc n = b := ⟨_, hb⟩
    rw [dif_pos hx]
    refine .some ⟨hP, ?_⟩
    obtain ⟨Q, hQ, hn⟩ := exists_decafLog (F := F) hx.choose
    rw [← hn, ← reach_log_iff hP hQ, compress_decafEnc hQ, hn, hx.choose_spec, C38_unique b e]

/-! ## Words of a scalar -/

omit [FieldBackend F L] [Lawful F] in
theorem digit_split (B : ℕ) : ∀ (l : List ℕ) (i : ℕ) (h : i < l.length), Nat.ofDigits B l =
    Nat.ofDigits B (l.take i) + B ^ i * (l[i] + B * Nat.ofDigits B (l.drop (i + 1)))
  | [], i, h => absurd h (by simp)
  | x :: l, 0, _ => by simp [Nat.ofDigits_cons]
  | x :: l, i + 1, h => by
    have := digit_split B l i (by simpa using h)
    simp only [Nat.ofDigits_cons, List.take_succ_cons, List.getElem_cons_succ, List.drop_succ_cons]
    rw [this]; ring

omit [FieldBackend F L] [Lawful F] in
theorem word_val (s : Scalar) (i : ℕ) (h : i < s.l.length) :
    s.l[i] = s.val / 2 ^ (32 * i) % 2 ^ 32 := by
  have e := digit_split (2 ^ 32) s.l i h
  have hl : Nat.ofDigits (2 ^ 32) (s.l.take i) < (2 ^ 32) ^ i := by
    have := Nat.ofDigits_lt_base_pow_length (b := 2 ^ 32) (l := s.l.take i) (by norm_num)
      (fun x hx => s.lt x (List.mem_of_mem_take hx))
    rwa [List.length_take, Nat.min_eq_left h.le] at this
  have hb := s.lt _ (List.getElem_mem h)
  rw [Arr.val, e, Nat.pow_mul, Nat.add_mul_div_left _ _ (by positivity),
    Nat.div_eq_of_lt hl, Nat.zero_add, Nat.add_mul_mod_self_left, Nat.mod_eq_of_lt hb]

omit [FieldBackend F L] [Lawful F] in
theorem set_val (s : Scalar) (i v : ℕ) (hi : i < 14) (hv : v < 2 ^ 32) :
    ∃ r : Scalar, s.l.set i v = r.l ∧
      r.val = s.val + 2 ^ (32 * i) * v - 2 ^ (32 * i) * (s.val / 2 ^ (32 * i) % 2 ^ 32) := by
  have h : i < s.l.length := by rw [s.len]; exact hi
  refine ⟨⟨s.l.set i v, by rw [List.length_set, s.len], fun x hx => ?_⟩, rfl, ?_⟩
  · rcases List.mem_or_eq_of_mem_set hx with k | k
    · exact s.lt x k
    · exact k ▸ hv
  · rw [← word_val s i h, Nat.pow_mul]
    have e := digit_split (2 ^ 32) s.l i h
    have e' := digit_split (2 ^ 32) (s.l.set i v) i (by rw [List.length_set]; exact h)
    rw [List.take_set_of_le le_rfl, List.getElem_set_self, List.drop_set_of_lt (by omega)] at e'
    show Nat.ofDigits (2 ^ 32) (s.l.set i v) = Nat.ofDigits (2 ^ 32) s.l + _ - _
    rw [e, e', eq_comm, Nat.sub_eq_iff_eq_add]
    · ring
    · nlinarith [Nat.zero_le (Nat.ofDigits (2 ^ 32) (s.l.take i)),
        Nat.zero_le ((2 ^ 32) ^ i * (2 ^ 32 * Nat.ofDigits (2 ^ 32) (s.l.drop (i + 1)))),
        Nat.zero_le ((2 ^ 32) ^ i * v)]

omit [FieldBackend F L] [Lawful F] in
theorem scalar_index {l : List ℕ} {i : ℕ} (h : i < l.length) : Gen.Scalar.index l i = some l[i] := by
  simp [Gen.Scalar.index, Gen.Rt.idx, h]

omit [FieldBackend F L] [Lawful F] in
theorem scalar_index_out {l : List ℕ} {i : ℕ} (h : l.length ≤ i) : Gen.Scalar.index l i = none := by
  simp [Gen.Scalar.index, Gen.Rt.idx, h]

omit [FieldBackend F L] [Lawful F] in
theorem scalar_index_mut {l : List ℕ} {i v : ℕ} (h : i < l.length) :
    Gen.Scalar.index_mut l i v = some (l.set i v) := by
  simp [Gen.Scalar.index_mut, Gen.Rt.put, h]

omit [FieldBackend F L] [Lawful F] in
theorem scalar_index_mut_out {l : List ℕ} {i v : ℕ} (h : l.length ≤ i) :
    Gen.Scalar.index_mut l i v = none := by
  simp [Gen.Scalar.index_mut, Gen.Rt.put, h]

omit [FieldBackend F L] [Lawful F] in
theorem dlog_zero : dlog 0 = 0 := by
  have h := dlog_add (0 : E) 0
  rw [add_zero] at h
  exact left_eq_add.1 h

theorem decafLog_neg {P : DecafPt F} (hP : DecafReach P) : decafLog P.neg = -decafLog P := by
  obtain ⟨R, h⟩ := hP.rep
  rw [decafLog_eq h, decafLog_eq (drep_neg h), eq_neg_iff_add_eq_zero, ← dlog_add, neg_add_cancel,
    dlog_zero]

theorem decafLog_sub {P Q : DecafPt F} (hP : DecafReach P) (hQ : DecafReach Q) :
    decafLog (P.sub Q) = decafLog P - decafLog Q := by
  obtain ⟨R, h⟩ := hP.rep
  obtain ⟨S, k⟩ := hQ.rep
  rw [decafLog_eq h, decafLog_eq k, decafLog_eq (drep_sub h k), eq_sub_iff_add_eq, ← dlog_add,
    sub_add_cancel]

/-! ## Every call -/

omit [FieldBackend F L] [Lawful F] in
theorem rel_some {α β : Type} {R : α → β → Prop} {o : Option α} {o' : Option β} {x : α} {y : β}
    (e : o = some x) (e' : o' = some y) (h : R x y) : Option.Rel R o o' := by
  rw [e, e']; exact .some h

omit [FieldBackend F L] [Lawful F] in
theorem rel_isSome {α β : Type} {R : α → β → Prop} {o : Option α} {o' : Option β}
    (h : Option.Rel R o o') : o.isSome = o'.isSome := by cases h <;> rfl

theorem Call0.related (v : Build) : ∀ {τ : Obj} (o : Call0 τ), v.fixed = true ∨ o.Dom →
    Option.Rel (Obj.Rel (F := F) τ) (o.run F v) o.ideal
  | _, scalarZero, _ => .some ⟨Scalar.zero, rfl, zero_val⟩
  | _, scalarOne, _ => .some ⟨Scalar.one, rfl, one_val⟩
  | _, scalarDefault, _ => .some ⟨Scalar.zero, rfl, zero_val⟩
  | _, scalarFrom a h, _ => .some ⟨Scalar.ofU32 a h, rfl, by
      show Nat.ofDigits (2 ^ 32) [a, 0, 0, 0, 0, 0, 0, 0, 0, 0, 0, 0, 0, 0] = a
      simp [Nat.ofDigits]⟩
  | _, scalarFromBytes b, _ => by
    obtain ⟨r, e, h⟩ := v.scalarFromBytes_ok b
    exact rel_some e rfl ⟨r, rfl, h⟩
  | _, scalarWide b, _ => by
    obtain ⟨r, e, h⟩ := v.scalarWide_ok b
    exact rel_some e rfl ⟨r, rfl, h⟩
  | _, scalarCanonicalOk b, _ => by
    obtain ⟨o, e, h1, h2⟩ := v.scalarCanonical_ok b
    show Option.Rel _ ((v.scalarCanonical b.l).map Option.isSome) _
    rw [e]
    refine .some ?_
    show (o.map (·.l)).isSome = decide (b.val < ell)
    by_cases hb : b.val < ell
    · obtain ⟨s, rfl, -⟩ := h1 hb
      rw [decide_eq_true hb]; rfl
    · rw [h2 (not_lt.1 hb), decide_eq_false hb]; rfl
  | _, scalarCanonical b, _ => by
    obtain ⟨o, e, h1, h2⟩ := v.scalarCanonical_ok b
    show Option.Rel _ ((v.scalarCanonical b.l).join) (if b.val < ell then _ else _)
    rw [e]
    by_cases hb : b.val < ell
    · obtain ⟨s, rfl, hs⟩ := h1 hb
      rw [if_pos hb]
      exact .some ⟨s, rfl, hs⟩
    · rw [h2 (not_lt.1 hb), if_neg hb]
      exact .none
  | _, edIdentity, _ => .some (rep_identity (F := F))
  | _, edDefault, _ => .some (rep_identity (F := F))
  | _, edGenerator, _ => .some (rep_generator (F := F))
  | _, edDecompressOk b, h => by
    obtain ⟨o, e, k⟩ := v.edDecompress_ok (F := F) b h
    show Option.Rel _ ((v.edDecompress (F := F) b.l).map Option.isSome) _
    rw [e]
    exact .some (rel_isSome k)
  | _, edDecompress b, h => by
    obtain ⟨o, e, k⟩ := v.edDecompress_ok (F := F) b h
    show Option.Rel _ ((v.edDecompress (F := F) b.l).join) _
    rw [e]
    exact k
  | _, montGenerator, _ => by
    show Option.Rel _ (asBytes 56 (some Gen.MontgomeryPoint.generator)) _
    refine rel_some (asBytes_eq (b := Model.montGenerator) rfl) rfl (Arr.val_inj (by norm_num) ?_)
    have h5 : (5 : Fp).val = 5 := by
      have := ZMod.val_natCast (n := p) 5
      rwa [Nat.cast_ofNat, Nat.mod_eq_of_lt (by rw [p_lit]; norm_num)] at this
    rw [show Model.montGenerator.val = 5 by decide, Rfc7748.encodeUCoordinate, h5,
      Arr.ofVal_val _ _ (by norm_num)]
  | _, montLowOrder u, h => by
    show Option.Rel _ (v.montLowOrder F u.l) _
    rw [v.montLowOrder_ok F u h]
    refine .some ?_
    show _ = _
    congr
  | _, montEq u u', _ => .some (by
      show Gen.MontgomeryPoint.eq u.l u'.l = decide (u = u')
      rw [Source.Mont_eq, Bool.eq_iff_iff, decide_eq_true_iff]
      exact (C60_encoding_eq u u').2.2.1)
  | _, decafIdentity, _ => .some ⟨.identity, (decafLog_eq (F := F) drep_identity).trans dlog_zero⟩
  | _, decafGenerator, _ => .some ⟨.generator, decafLog_gen⟩
  | _, decafIdentityBytes, _ => by
    show Option.Rel _ (asBytes 56 (some Gen.CompressedDecaf.identity)) _
    have h := compress_decafEnc (F := F) .identity
    rw [decafLog_eq drep_identity, dlog_zero] at h
    have k := (C43_identity_encoding (F := F) .identity).2 ((reach_equals_iff .identity .identity).2 rfl)
    exact rel_some (asBytes_eq (b := compressedDecafIdentity) rfl) rfl (k.symm.trans h)
  | _, decafBytesEq b c, _ => .some (by
      show Gen.CompressedDecaf.eq b.l c.l = decide (b = c)
      rw [Source.CompressedDecaf_eq, Bool.eq_iff_iff, decide_eq_true_iff]
      exact (C60_encoding_eq b c).1)
  | _, decafDecompressOk b, _ => by
    show Option.Rel _ ((v.decafDecompress (F := F) b.l).map Option.isSome) _
    rw [v.decafDecompress_ok]
    exact .some (rel_isSome (decafDecompress_ideal b))
  | _, decafDecompress b, _ => by
    show Option.Rel _ ((v.decafDecompress (F := F) b.l).join) _
    rw [v.decafDecompress_ok]
    exact decafDecompress_ideal b

theorem Call1.related (v : Build) : ∀ {σ τ : Obj} (o : Call1 σ τ) (x : σ.Src F) (x' : σ.Math),
    Obj.Rel σ x x' → v.fixed = true ∨ o.Dom x' →
    Option.Rel (Obj.Rel (F := F) τ) (o.run F v x) (o.ideal x')
  | _, _, scalarInvert, _, _, ⟨s, rfl, rfl⟩, _ => by
    obtain ⟨r, e, h⟩ := v.scalarInvert_ok s
    exact rel_some e rfl ⟨r, rfl, h⟩
  | _, _, scalarHalve, _, _, ⟨s, rfl, rfl⟩, _ => by
    obtain ⟨r, e, h⟩ := v.scalarHalve_ok s
    exact rel_some e rfl ⟨r, rfl, h⟩
  | _, _, scalarBits, _, _, ⟨s, rfl, rfl⟩, _ =>
    rel_some (v.scalarBits_ok s) rfl rfl
  | _, _, scalarToBytes, _, _, ⟨s, rfl, rfl⟩, _ =>
    rel_some (v.scalarToBytes_ok s) rfl rfl
  | _, _, scalarRfc8032, _, _, ⟨s, rfl, rfl⟩, _ =>
    rel_some (v.scalarRfc8032_ok s) rfl rfl
  | _, _, scalarIndex i, _, _, ⟨s, rfl, rfl⟩, _ => by
    show Option.Rel _ (Gen.Scalar.index s.l i) (if i < 14 then _ else _)
    by_cases hi : i < 14
    · have h : i < s.l.length := by rw [s.len]; exact hi
      rw [scalar_index h, if_pos hi]
      exact .some (word_val s i h)
    · rw [scalar_index_out (by rw [s.len]; omega), if_neg hi]
      exact .none
  | _, _, scalarSet i x hx, _, _, ⟨s, rfl, rfl⟩, _ => by
    show Option.Rel _ (Gen.Scalar.index_mut s.l i x) (if i < 14 then _ else _)
    by_cases hi : i < 14
    · have h : i < s.l.length := by rw [s.len]; exact hi
      rw [scalar_index_mut h, if_pos hi]
      exact .some (set_val s i x hi hx)
    · rw [scalar_index_mut_out (by rw [s.len]; omega), if_neg hi]
      exact .none
  | _, _, edNegate, _, _, h, _ => .some (rep_negate (F := F) h)
  | _, _, edDouble, (P : EdPt F), (R : E), h, _ => .some (by
      show Rep (Gen.EdPt.double P) (2 • R)
      rw [two_nsmul]; exact rep_double (F := F) h)
  | _, _, edTorque, _, _, h, _ => .some (rep_torque (F := F) h)
  | _, _, edTorsionFree, (P : EdPt F), _, h, _ =>
    rel_some (v.edTorsionFree_ok h) rfl rfl
  | _, _, edCompress, (P : EdPt F), _, h, _ =>
    rel_some (v.edCompress_ok h) rfl rfl
  | _, _, edToMontgomery, (P : EdPt F), _, h, _ =>
    rel_some (v.edToMontgomery_ok h) rfl rfl
  | _, _, montMul u, _, _, ⟨s, rfl, rfl⟩, h =>
    rel_some (v.montMul_ok F u s h) rfl rfl
  | _, _, decafNeg, (P : DecafPt F), _, ⟨h, rfl⟩, _ => .some ⟨.neg h, decafLog_neg h⟩
  | _, _, decafCompress, (P : DecafPt F), _, ⟨h, rfl⟩, _ =>
    rel_some (v.decafCompress_ok P) rfl (compress_decafEnc h)

theorem Call2.related (v : Build) : ∀ {ρ σ τ : Obj} (o : Call2 ρ σ τ) (x : ρ.Src F) (x' : ρ.Math)
    (y : σ.Src F) (y' : σ.Math), Obj.Rel ρ x x' → Obj.Rel σ y y' → v.fixed = true ∨ o.Dom x' y' →
    Option.Rel (Obj.Rel (F := F) τ) (o.run F v x y) (o.ideal x' y')
  | _, _, _, scalarAdd, _, _, _, _, ⟨s, rfl, rfl⟩, ⟨t, rfl, rfl⟩, h => by
    obtain ⟨r, e, h⟩ := v.scalarAdd_ok s t h
    exact rel_some e rfl ⟨r, rfl, h⟩
  | _, _, _, scalarSub, _, _, _, _, ⟨s, rfl, rfl⟩, ⟨t, rfl, rfl⟩, h => by
    obtain ⟨r, e, h⟩ := v.scalarSub_ok s t h
    exact rel_some e rfl ⟨r, rfl, h⟩
  | _, _, _, scalarMul, _, _, _, _, ⟨s, rfl, rfl⟩, ⟨t, rfl, rfl⟩, _ => by
    obtain ⟨r, e, h⟩ := v.scalarMul_ok s t
    exact rel_some e rfl ⟨r, rfl, h⟩
  | _, _, _, scalarEq, _, _, _, _, ⟨s, rfl, rfl⟩, ⟨t, rfl, rfl⟩, _ => by
    show Option.Rel _ (v.scalarEq s.l t.l) _
    rw [v.scalarEq_ok s t]
    refine .some ?_
    show _ = _
    congr
  | _, _, _, edAdd, _, _, _, _, h, k, _ => .some (rep_add (F := F) h k)
  | _, _, _, edSub, _, _, _, _, h, k, _ => .some (rep_sub (F := F) h k)
  | _, _, _, edSelect c, _, _, _, _, h, k, _ => .some (rep_select (F := F) h k c)
  | _, _, _, edEq, (P : EdPt F), (R : E), (Q : EdPt F), (S : E), h, k, _ => .some (by
      show Gen.EdPt.eq P Q = decide (R = S)
      rw [Source.EdPt_eq, Bool.eq_iff_iff, decide_eq_true_iff]
      exact rep_eq h k)
  | _, _, _, edMul, (P : EdPt F), _, _, _, h, ⟨t, rfl, rfl⟩, _ => by
    obtain ⟨r, e, hr⟩ := v.edMul_ok h t
    exact rel_some e rfl hr
  | _, _, _, edMulModFour, (P : EdPt F), _, _, _, h, ⟨t, rfl, rfl⟩, _ =>
    rel_some (Source.EdPt_scalar_mod_four P t) rfl (rep_scalarModFour h t)
  | _, _, _, decafAdd, (P : DecafPt F), _, (Q : DecafPt F), _, ⟨h, rfl⟩, ⟨k, rfl⟩, _ =>
    .some ⟨.add h k, decafLog_add h k⟩
  | _, _, _, decafSub, (P : DecafPt F), _, (Q : DecafPt F), _, ⟨h, rfl⟩, ⟨k, rfl⟩, _ =>
    .some ⟨.sub h k, decafLog_sub h k⟩
  | _, _, _, decafEq, (P : DecafPt F), _, (Q : DecafPt F), _, ⟨h, rfl⟩, ⟨k, rfl⟩, _ => .some (by
      show Gen.DecafPt.equals P Q = decide (decafLog P = decafLog Q)
      rw [Source.Decaf_equals, Bool.eq_iff_iff, decide_eq_true_iff]
      exact reach_equals_iff h k)
  | _, _, _, decafMul, (P : DecafPt F), _, _, _, ⟨h, rfl⟩, ⟨t, rfl, rfl⟩, _ =>
    rel_some (v.decafMul_ok P t) rfl ⟨.scalarMul t h, decafLog_mul h t⟩

omit [FieldBackend F L] [Lawful F] in
theorem rel_bind {α β α' β' : Type} {R : α → β → Prop} {S : α' → β' → Prop} {o : Option α}
    {o' : Option β} {f : α → Option α'} {f' : β → Option β'} (h : Option.Rel R o o')
    (k : ∀ x y, o' = some y → R x y → Option.Rel S (f x) (f' y)) :
    Option.Rel S (o.bind f) (o'.bind f') := by
  cases h with
  | none => exact .none
  | some h => exact k _ _ rfl h

/-- C90. Every program ends, on every build, with the object that the same program over mathematical
objects ends with, and panics where that has no value; the original source only as far as the program
stays within the calls that it gets right. -/
theorem C90_related (v : Build) : ∀ {τ : Obj} (e : Call τ), v.fixed = true ∨ e.Within →
    Option.Rel (Obj.Rel (F := F) τ) (e.run F v) e.ideal
  | _, .ret a, _ => .some rfl
  | _, .bind a f, h => rel_bind (C90_related v a (h.imp id fun h => h.1)) fun x y e k => by
    obtain rfl : x = y := k
    exact C90_related v (f x) (h.imp id fun h => h.2 x e)
  | _, .panic, _ => .none
  | _, .call0 o, h => o.related v h
  | _, .call1 o a, h => rel_bind (C90_related v a (h.imp id fun h => h.1)) fun x y e k =>
    o.related v x y k (h.imp id fun h => h.2 y e)
  | _, .call2 o a b, h => rel_bind (C90_related v a (h.imp id fun h => h.1)) fun x y e k =>
    rel_bind (C90_related v b (h.imp id fun h => h.2.1)) fun x' y' e' k' =>
      o.related v x y x' y' k k' (h.imp id fun h => h.2.2 y y' e e')

omit [FieldBackend F L] [Lawful F] in
theorem rel_eq {α : Type} {o o' : Option α} (h : Option.Rel (fun x y : α => x = y) o o') : o = o' := by
  cases h with
  | none => rfl
  | some h => exact congrArg some h

/-- C90. On the repaired source every program returns what it returns over mathematical objects, for both
field backends, with overflow checks and without. -/
theorem C90_repaired {α : Type} (v : Build) (hv : v.fixed = true) (e : Call (.host α)) :
    (show Option α from e.run F v) = (show Option α from e.ideal) :=
  rel_eq (C90_related v e (.inl hv))

/-- C90. So does the source as it stands, for programs within the calls that it gets right. -/
theorem C90_original {α : Type} (v : Build) (e : Call (.host α)) (he : e.Within) :
    (show Option α from e.run F v) = (show Option α from e.ideal) :=
  rel_eq (C90_related v e (.inr he))

/-- C90. Programs that compute the same over mathematical objects cannot be told apart by running them on
the repaired source. -/
theorem C90_equal {α : Type} {F' L' : Type} [FieldBackend F' L'] [Lawful F'] (v v' : Build)
    (hv : v.fixed = true) (hv' : v'.fixed = true) (e e' : Call (.host α)) (h : e.ideal = e'.ideal) :
    (show Option α from e.run F v) = (show Option α from e'.run F' v') :=
  (C90_repaired v hv e).trans (h.trans (C90_repaired v' hv' e').symm)

/-! ## The mathematical side is the RFCs -/

/-- C90. The encodings on the mathematical side are those of RFC 8032 and RFC 9496: decoding inverts
encoding, a string decodes exactly if the RFC decodes it, and the generator is the RFC's. -/
theorem C90_spec :
    (∀ R : E, edDec (Rfc8032.encodePt R) = some R) ∧
    (∀ b R, edDec b = some R ↔ Rfc8032.decode b = some (R.x, R.y)) ∧
    (∀ n, decafDec (decafEnc n) = some n) ∧
    (∀ b n, decafDec b = some n → decafEnc n = b) ∧
    (∀ b, (decafDec b).isSome = (Rfc9496.decode b).isSome) ∧
    decafEnc 1 = Rfc9496.generatorBytes ∧ (decafEnc 0).val = 0 := by
  have inj : ∀ R S : E, Rfc8032.encodePt R = Rfc8032.encodePt S → R = S := by
    intro R S h
    have h1 := strict_encodePt R
    have h2 := strict_encodePt S
    rw [← h] at h2
    have := Option.some.inj (h1.symm.trans h2)
    exact Pt.ext (congrArg Prod.fst this) (congrArg Prod.snd this)
  have ed : ∀ R : E, edDec (Rfc8032.encodePt R) = some R := by
    intro R
    have hx : ∃ S : E, Rfc8032.encodePt S = Rfc8032.encodePt R := ⟨R, rfl⟩
    rw [edDec, dif_pos hx, inj _ _ hx.choose_spec]
  have dinj : ∀ n m, decafEnc n = decafEnc m → n = m := by
    intro n m h
    obtain ⟨P, hP, rfl⟩ := exists_decafLog (F := Fast) n
    obtain ⟨Q, hQ, rfl⟩ := exists_decafLog (F := Fast) m
    rwa [← compress_decafEnc hP, ← compress_decafEnc hQ, reach_log_iff hP hQ] at h
  have dd : ∀ b n, decafDec b = some n → decafEnc n = b := by
    intro b n h
    unfold decafDec at h
    split at h
    · next hx => rw [← Option.some.inj h]; exact hx.choose_spec
    · cases h
  refine ⟨ed, fun b R => ?_, fun n => ?_, dd, fun b => ?_, ?_, ?_⟩
  · rw [show Rfc8032.decode b = some (R.x, R.y) ↔ _ from Build.strict_eq b R]
    constructor
    · intro h
      unfold edDec at h
      split at h
      · next hx => rw [← Option.some.inj h]; exact hx.choose_spec
      · cases h
    · rintro rfl; exact ed R
  · have hx : ∃ m, decafEnc m = decafEnc n := ⟨n, rfl⟩
    rw [decafDec, dif_pos hx, dinj _ _ hx.choose_spec]
  · rw [← C78_accepts (F := Fast)]
    exact (rel_isSome (decafDecompress_ideal (F := Fast) b)).symm
  · have h := compress_decafEnc (F := Fast) .generator
    rw [decafLog_gen] at h
    exact h.symm.trans (by decide +kernel)
  · have h := compress_decafEnc (F := Fast) .identity
    rw [decafLog_eq drep_identity, dlog_zero] at h
    have k := (C43_identity_encoding (F := Fast) .identity).2
      ((reach_equals_iff .identity .identity).2 rfl)
    rw [← h, k]
    decide +kernel

end

/-! ## Examples -/

namespace Call

/-- The scalar with these bytes. -/
def sc (b : Bytes 56) : Call .scalar := call0 (.scalarFromBytes b)

/-- `compress(a * (b * G))` on Decaf, for `a` and `b` given as bytes. -/
def dh (a b : Bytes 56) : Call (.host (Bytes 56)) :=
  call1 .decafCompress (call2 .decafMul (call2 .decafMul (call0 .decafGenerator) (sc b)) (sc a))

end Call

/-- Both sides of a Diffie-Hellman exchange agree on all four builds, because `a b = b a`. -/
example (v v' : Build) (a b : Bytes 56) :
    (Call.dh a b).run U32.Fe v = (Call.dh b a).run Fast v' := by
  have h : (Call.dh a b).ideal = (Call.dh b a).ideal := by
    show some (decafEnc (a.val * (b.val * 1))) = some (decafEnc (b.val * (a.val * 1)))
    rw [mul_left_comm]
  refine (C90_original v _ ?_).trans (h.trans (C90_original v' _ ?_).symm) <;>
    simp [Call.Within, Call.dh, Call.sc, Call0.Dom, Call1.Dom, Call2.Dom]

/-- A program that decides by what a call has answered: it decodes a string, and encodes the sum of the
point with its negative, or gives up. It returns the encoding of the neutral element, or nothing, by the
decoding of RFC 8032. -/
def cancel (b : Bytes 57) : Call (.host (Option (Bytes 57))) :=
  .bind (.call0 (.edDecompressOk b)) fun ok =>
    if ok then .bind (.call1 .edCompress (.call2 .edAdd (.call0 (.edDecompress b))
      (.call1 .edNegate (.call0 (.edDecompress b))))) fun c => .ret (some c)
    else .ret none

example (v : Build) (hv : v.fixed = true) (b : Bytes 57) : (cancel b).run U32.Fe v =
    some (if (Rfc8032.decode b).isSome then some (Rfc8032.encodePt 0) else none) := by
  refine (C90_repaired v hv _).trans ?_
  unfold cancel
  show (if (edDec b).isSome then Call.bind _ _ else Call.ret none).ideal = _
  rcases h : edDec b with _ | R
  · have hn : Rfc8032.decode b = none := by
      rcases k : Rfc8032.decode b with _ | ⟨x, y⟩
      · rfl
      · have on := ((rfc8032_decode b x y).1 k).1
        have := (C90_spec.2.1 b ⟨x, y, on⟩).2 k
        rw [h] at this
        cases this
    rw [hn]
    rfl
  · rw [(C90_spec.2.1 b R).1 h]
    show Option.bind (Option.bind (Option.bind (edDec b) fun x => Option.bind
      (Option.bind (edDec b) _) _) _) _ = _
    rw [h]
    show some (some (Rfc8032.encodePt (R + -R))) = _
    rw [add_neg_cancel]
    rfl

/-- The original source leaves this behaviour outside: the string of `p` stands for the coordinate 0, of
low order, and the original says that it is not of low order. -/
example : ∃ e : Call (.host Bool), ¬ e.Within ∧ e.ideal = some true ∧
    e.run U32.Fe .repaired = some true ∧ e.run U32.Fe .source = some false := by
  have hv : (Arr.ofVal 56 256 (by norm_num) p : Bytes 56).val = p :=
    Arr.ofVal_val _ _ (by rw [p_lit]; norm_num)
  have hi : (Call.call0 (.montLowOrder (Arr.ofVal 56 256 (by norm_num) p))).ideal = some true := by
    show some (decide _) = some true
    rw [hv]
    exact congrArg some (decide_eq_true (Or.inl (ZMod.natCast_self p)))
  refine ⟨.call0 (.montLowOrder (Arr.ofVal 56 256 (by norm_num) p)), ?_, hi,
    (C90_repaired .repaired rfl _).trans hi, ?_⟩
  · intro h
    exact absurd (show (Arr.ofVal 56 256 (by norm_num) p : Bytes 56).val < p from h) (by rw [hv]; exact lt_irrefl p)
  · show some (Gen.MontgomeryPoint.is_low_order _) = _
    rw [Source.Mont_is_low_order, Option.some.injEq, Bool.eq_false_iff, Ne, isLowOrder_iff, hv]
    have := p_prime.two_le
    omega

end Ed448.Props
