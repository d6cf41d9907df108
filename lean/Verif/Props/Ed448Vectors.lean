import Verif.Spec.Shake256
import Verif.Proofs.Fast
import Verif.Props.SourceProtocols

/-!
# The test vectors of RFC 8032 for Ed448 (C84)

The hash is SHAKE256. The translated source is run by the kernel, over the field of integers modulo `p`
(`Proofs/Fast.lean`); the results hold for both field backends and in every build by C84.
-/

namespace Ed448.Props
open Ed448.Model Ed448.Edw Ed448.Proofs
open Shake256 (shake256)

set_option exponentiation.threshold 1000
set_option maxRecDepth 10000

/-- RFC 8032, section 7.4, "Blank". -/
def vectorBlankKey : Bytes 57 := Arr.ofVal 57 256 (by norm_num)
  0x5bf99800a249752e038f2f49945bfca3394e042fcc3f8a8c52a348e3f60e96c9639f8cfadd349f926cbf3e51c889be32d6108d80cb62a5826c

def vectorBlankPublic : Bytes 57 := Arr.ofVal 57 256 (by norm_num)
  0x806125e8afbe1afad16c0fe5f13d78d61b06c7469b7624f1ed7867e9805da70e8a1f0ea7852434a11d6ad46a61ec87e72cfd61b4599b44d75f

def vectorBlankR : Bytes 57 := Arr.ofVal 57 256 (by norm_num)
  0x8039fd1ba2d09bc528787dd4dd227afdf28182624f033f232b1f591ad423d84f07d2343e844a50fb2dae76f9880d3c021f2557e4bbf6373a53

def vectorBlankS : Bytes 57 := Arr.ofVal 57 256 (by norm_num)
  0x0026652eff0858d9718c2663735af04911b6dbf4a013a13085dacdc7c59ab92d8504410bc08d5d925b342d1c5d6c003ef69d8ab1d428200dff

theorem vectorBlank_source :
    (Api.source Fast).publicKey shake256 vectorBlankKey.l = some vectorBlankPublic.l ∧
    (Api.source Fast).sign shake256 vectorBlankKey.l 0 [] [] =
      some (vectorBlankR.l, vectorBlankS.l) := by
  constructor <;> decide +kernel

/-- RFC 8032, section 7.4, "1 octet (with context)". -/
def vectorOneOctetKey : Bytes 57 := Arr.ofVal 57 256 (by norm_num)
  0x4e27120a4e951e02f89e9459a697c33b5e7c87d2e8c567eafb3a462cdaac001f4a0d3a350cfe082b554d928984b4dbf332c60770355db0eac4

def vectorOneOctetPublic : Bytes 57 := Arr.ofVal 57 256 (by norm_num)
  0x80943a4c7b626051239c1682cba48e43b802287400eb01ea6a86c098676c0cfa2b37c058935da534c80acd7e5f5431e56a45ffcd30f428ba43

def vectorOneOctetR : Bytes 57 := Arr.ofVal 57 256 (by norm_num)
  0x00ea15682f046ece7f2107d642b89f27aea28c1df147761f15d2f7892ab301d0bcab355e8c1f5443de55505dfdd66708f446dd701713f6f8d4

def vectorOneOctetS : Bytes 57 := Arr.ofVal 57 256 (by norm_num)
  0x003c6ce66437c15591a498bcdc857e4028540d4dd510ad1c8c574f75bbcbfc38a5fd248529a7d70525e46df9a7aba1a64411dac8e51d74850c

theorem vectorOneOctet_source :
    (Api.source Fast).publicKey shake256 vectorOneOctetKey.l = some vectorOneOctetPublic.l ∧
    (Api.source Fast).sign shake256 vectorOneOctetKey.l 0 [102, 111, 111] [3] =
      some (vectorOneOctetR.l, vectorOneOctetS.l) := by
  constructor <;> decide +kernel

theorem vectorOneOctet_other :
    (Api.source Fast).verify shake256 vectorOneOctetPublic.l 0 [] [3] vectorOneOctetR.l
      vectorOneOctetS.l = some false := by
  decide +kernel

/-- The vectors hold of the RFC as it is stated here. -/
theorem C84_rfc_vectors :
    Rfc8032.publicKey shake256 vectorBlankKey = vectorBlankPublic ∧
    Rfc8032.sign shake256 vectorBlankKey 0 [] [] = (vectorBlankR, vectorBlankS) ∧
    Rfc8032.publicKey shake256 vectorOneOctetKey = vectorOneOctetPublic ∧
    Rfc8032.sign shake256 vectorOneOctetKey 0 [102, 111, 111] [3] =
      (vectorOneOctetR, vectorOneOctetS) := by
  have hm : Api.source Fast ∈ Api.all Fast := List.mem_cons_self
  have key : ∀ {b c : Bytes 57}, some b.l = some c.l → b = c := fun h => Arr.ext (Option.some.inj h)
  have pair : ∀ {b c : Bytes 57 × Bytes 57}, some (b.1.l, b.2.l) = some (c.1.l, c.2.l) → b = c :=
    fun h => Prod.ext (Arr.ext (congrArg Prod.fst (Option.some.inj h)))
      (Arr.ext (congrArg Prod.snd (Option.some.inj h)))
  exact ⟨key ((C84_public_key hm _ _).symm.trans vectorBlank_source.1),
    pair ((C84_sign hm _ _ _ _ _).symm.trans vectorBlank_source.2),
    key ((C84_public_key hm _ _).symm.trans vectorOneOctet_source.1),
    pair ((C84_sign hm _ _ _ _ _).symm.trans vectorOneOctet_source.2)⟩

section
variable {F L : Type} [FieldBackend F L] [Lawful F] {a : Api Option F}

/-- And of the source and the repaired source, in both builds, over every field backend. -/
theorem C84_vectors (ha : a ∈ Api.all F) :
    a.publicKey shake256 vectorBlankKey.l = some vectorBlankPublic.l ∧
    a.sign shake256 vectorBlankKey.l 0 [] [] = some (vectorBlankR.l, vectorBlankS.l) ∧
    a.verify shake256 vectorBlankPublic.l 0 [] [] vectorBlankR.l vectorBlankS.l = some true ∧
    a.publicKey shake256 vectorOneOctetKey.l = some vectorOneOctetPublic.l ∧
    a.sign shake256 vectorOneOctetKey.l 0 [102, 111, 111] [3] =
      some (vectorOneOctetR.l, vectorOneOctetS.l) ∧
    a.verify shake256 vectorOneOctetPublic.l 0 [102, 111, 111] [3] vectorOneOctetR.l
      vectorOneOctetS.l = some true := by
  obtain ⟨h1, h2, h3, h4⟩ := C84_rfc_vectors
  have k1 := C84_public_key ha shake256 vectorBlankKey
  have k2 := C84_sign ha shake256 vectorBlankKey 0 [] []
  have k3 := C84_public_key ha shake256 vectorOneOctetKey
  have k4 := C84_sign ha shake256 vectorOneOctetKey 0 [102, 111, 111] [3]
  obtain ⟨A, R, S, e1, e2, v1⟩ := C84_complete ha ha shake256 vectorBlankKey 0 [] []
  obtain ⟨A', R', S', e3, e4, v2⟩ := C84_complete ha ha shake256 vectorOneOctetKey 0 [102, 111, 111] [3]
  rw [h1] at k1; rw [h2] at k2; rw [h3] at k3; rw [h4] at k4
  have key : ∀ {b c : Bytes 57} {o}, o = some b.l → o = some c.l → b = c := fun h h' =>
    Arr.ext (Option.some.inj (h.symm.trans h'))
  have pair : ∀ {b c b' c' : Bytes 57} {o}, o = some (b.l, c.l) → o = some (b'.l, c'.l) →
      b = b' ∧ c = c' := fun h h' =>
    have h := Option.some.inj (h.symm.trans h')
    ⟨Arr.ext (congrArg Prod.fst h), Arr.ext (congrArg Prod.snd h)⟩
  obtain rfl := key e1 k1
  obtain rfl := key e3 k3
  obtain ⟨rfl, rfl⟩ := pair e2 k2
  obtain ⟨rfl, rfl⟩ := pair e4 k4
  exact ⟨k1, k2, v1, k3, k4, v2⟩

/-- The second signature without its context is rejected. -/
theorem C84_vector_rejected (ha : a ∈ Api.all F) :
    a.verify shake256 vectorOneOctetPublic.l 0 [] [3] vectorOneOctetR.l vectorOneOctetS.l =
      some false := by
  obtain ⟨c, ec, h⟩ := verify_eq (source_ok (F := Fast)) shake256 vectorOneOctetPublic 0 [] [3]
    vectorOneOctetR vectorOneOctetS
  obtain rfl := Option.some.inj (vectorOneOctet_other.symm.trans ec)
  have hn := mt h.2 Bool.false_ne_true
  obtain ⟨dec, hd, -, hl⟩ := all_ok ha
  obtain ⟨b, e, k⟩ := verify_eq hd shake256 vectorOneOctetPublic 0 [] [3] vectorOneOctetR
    vectorOneOctetS
  cases b with
  | false => exact e
  | true =>
    obtain ⟨PR, PA, h1, h2, h3⟩ := k.1 rfl
    exact absurd ⟨PR, PA, hl _ _ h1, hl _ _ h2, h3⟩ hn

end

/-- Decaf on the translated source: the key of the scalar 1 is the generator of RFC 9496, the secret that
the scalar 2 shares with it is the encoding of the double, and a string of 0xff is rejected. -/
example :
    (Api.source Fast).decafKey (Arr.ofVal 56 256 (by norm_num) 1).l = some Rfc9496.generatorBytes.l ∧
    (Api.source Fast).decafShared (Arr.ofVal 56 256 (by norm_num) 2).l Rfc9496.generatorBytes.l =
      ((Api.source Fast).decafKey (Arr.ofVal 56 256 (by norm_num) 2).l).map some ∧
    (Api.source Fast).decafShared (Arr.ofVal 56 256 (by norm_num) 2).l (List.replicate 56 255) =
      some none := by
  decide +kernel

end Ed448.Props
