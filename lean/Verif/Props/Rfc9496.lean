import Verif.Proofs.Rfc9496
import Verif.Proofs.Fast
import Verif.Props.Decaf

/-!
# The library's Decaf is the decaf448 of RFC 9496 (C78)
-/

namespace Ed448.Props
open Ed448.Model Ed448.Edw Ed448.Iso
open Rfc9496 (Ext Coord)
open FieldVal (val)

set_option exponentiation.threshold 1000
set_option maxRecDepth 10000

variable {F L : Type} [FieldBackend F L] [Lawful F]

/-- `P` and `q` represent the same element. -/
def Same (P : DecafPt F) (q : Ext) : Prop := ∃ R Q, DRep P R ∧ Coord q Q ∧ IsTwice Q R

theorem isTwice_add {Q Q' R R' : E} (h : IsTwice Q R) (k : IsTwice Q' R') :
    IsTwice (Q + Q') (R + R') := by
  have h2 := torsion2_two
  rcases h with rfl | rfl <;> rcases k with rfl | rfl
  · left; abel
  · right; abel
  · right; abel
  · left
    rw [show R + R + torsion2 + (R' + R' + torsion2) =
      R + R' + (R + R') + (torsion2 + torsion2) by abel, h2, add_zero]

theorem isTwice_neg {Q R : E} (h : IsTwice Q R) : IsTwice (-Q) (-R) := by
  have h2 : -torsion2 = torsion2 := neg_eq_of_add_eq_zero_left torsion2_two
  rcases h with rfl | rfl
  · left; abel
  · right; rw [neg_add, h2]; abel

theorem isTwice_zero : IsTwice 0 0 := by left; rw [add_zero]

theorem isTwice_nsmul {Q R : E} (h : IsTwice Q R) (n : ℕ) : IsTwice (n • Q) (n • R) := by
  induction n with
  | zero => rw [zero_nsmul, zero_nsmul]; exact isTwice_zero
  | succ n ih => rw [add_nsmul, add_nsmul, one_nsmul, one_nsmul]; exact isTwice_add ih h

/-- A point has at most one meaning. -/
theorem coord_unique {q : Ext} {Q Q' : E} (h : Coord q Q) (k : Coord q Q') : Q = Q' := by
  ext
  · exact mul_right_cancel₀ h.z (h.x.symm.trans k.x)
  · exact mul_right_cancel₀ h.z (h.y.symm.trans k.y)

theorem same_encode {P : DecafPt F} {q : Ext} (h : Same P q) : Rfc9496.encode q = P.compress := by
  obtain ⟨R, Q, hP, hq, hQ⟩ := h
  apply Arr.val_inj (by norm_num)
  rw [drep_compress hP, Rfc9496.encode, Arr.ofVal_val, rfc_encode hq hQ]
  exact lt_trans (ZMod.val_lt _) (by rw [p_lit]; norm_num)

theorem same_decode {b : Bytes 56} {P : DecafPt F} {q : Ext} (h : decafDecompress F b = some P)
    (k : Rfc9496.decode b = some q) : Same P q := by
  obtain ⟨e, R, hR, henc⟩ := decaf_some b h
  obtain ⟨Q, hq, hQ⟩ := rfc_decode k henc
  exact ⟨R, Q, ⟨e, hR⟩, hq, hQ⟩

/-- The library accepts the strings that the RFC accepts. -/
theorem C78_accepts (b : Bytes 56) :
    (decafDecompress F b).isSome = (Rfc9496.decode b).isSome := by
  rw [Bool.eq_iff_iff, decaf_isSome, rfc_decode_isSome]

/-- There is a relation between the library's points and the RFC's points which holds for what the
two decode from the same string, for the identities and for the generators, which the operations
preserve (on the RFC's side the group law of edwards448), and related points have the same encoding
and are equal to the same points. -/
theorem C78_same : ∃ S : DecafPt F → Ext → Prop,
    (∀ b P q, decafDecompress F b = some P → Rfc9496.decode b = some q → S P q) ∧
    (∀ P q, S P q → Rfc9496.encode q = P.compress ∧ ∃ A, Coord q A) ∧
    (∀ P P' q q', S P q → S P' q' → P.equals P' = Rfc9496.equals q q') ∧
    S DecafPt.identity Rfc9496.identity ∧
    (∀ q, Rfc9496.decode Rfc9496.generatorBytes = some q → S DecafPt.generator q) ∧
    (∀ P P' q q' A A' u, S P q → S P' q' → Coord q A → Coord q' A' →
      (Coord u (A + A') → S (P.add P') u) ∧ (Coord u (A - A') → S (P.sub P') u)) ∧
    (∀ P q A u, S P q → Coord q A →
      (Coord u (-A) → S P.neg u) ∧ ∀ s : Scalar, Coord u (s.val • A) → S (P.scalarMul s) u) ∧
    ∀ P, DecafReach P → ∃ q, S P q := by
  refine ⟨Same, fun b P q h k => same_decode h k, fun P q h => ⟨same_encode h, ?_⟩, ?_, ?_, ?_, ?_,
    ?_, ?_⟩
  · obtain ⟨R, Q, -, hq, -⟩ := h; exact ⟨Q, hq⟩
  · rintro P P' q q' ⟨R, Q, hP, hq, hQ⟩ ⟨R', Q', hP', hq', hQ'⟩
    rw [Bool.eq_iff_iff, drep_equals hP hP', rfc_equals hq hq' hQ hQ']
  · exact ⟨0, 0, drep_identity, ⟨one_ne_zero, by simp [Rfc9496.identity, Pt.zero_x],
      by simp [Rfc9496.identity, Pt.zero_y], by simp [Rfc9496.identity, Pt.zero_x, Pt.zero_y]⟩, isTwice_zero⟩
  · intro q hq
    have hc : (DecafPt.generator : DecafPt Fast).compress = Rfc9496.generatorBytes := by
      decide +kernel
    have hv := drep_compress (drep_generator (F := Fast))
    rw [hc] at hv
    obtain ⟨Q, h1, h2⟩ := rfc_decode hq (R := G)
      (by rw [hv, ZMod.natCast_zmod_val])
    exact ⟨G, Q, drep_generator, h1, h2⟩
  · rintro P P' q q' A A' u ⟨R, Q, hP, hq, hQ⟩ ⟨R', Q', hP', hq', hQ'⟩ hA hA'
    rw [coord_unique hA hq, coord_unique hA' hq', sub_eq_add_neg]
    refine ⟨fun h => ⟨_, _, drep_add hP hP', h, isTwice_add hQ hQ'⟩,
      fun h => ⟨_, _, drep_sub hP hP', h, ?_⟩⟩
    rw [sub_eq_add_neg]
    exact isTwice_add hQ (isTwice_neg hQ')
  · rintro P q A u ⟨R, Q, hP, hq, hQ⟩ hA
    rw [coord_unique hA hq]
    exact ⟨fun h => ⟨_, _, drep_neg hP, h, isTwice_neg hQ⟩,
      fun s h => ⟨_, _, drep_mul hP s, h, isTwice_nsmul hQ _⟩⟩
  · intro P h
    obtain ⟨R, hR⟩ := h.rep
    exact ⟨⟨(R + R).x, (R + R).y, 1, (R + R).x * (R + R).y⟩, R, R + R, hR,
      ⟨one_ne_zero, by ring, by ring, by ring⟩, Or.inl rfl⟩

/-- Two programs, one using the library and one following the RFC, read the same strings and write
the same strings: sums, differences, opposites, multiples and comparisons. -/
theorem C78_interoperates {b c : Bytes 56} {P Q : DecafPt F} {q r u : Ext} {A B : E}
    (hP : decafDecompress F b = some P) (hQ : decafDecompress F c = some Q)
    (hq : Rfc9496.decode b = some q) (hr : Rfc9496.decode c = some r)
    (hA : Coord q A) (hB : Coord r B) :
    (Coord u (A + B) → (P.add Q).compress = Rfc9496.encode u) ∧
    (Coord u (A - B) → (P.sub Q).compress = Rfc9496.encode u) ∧
    (Coord u (-A) → P.neg.compress = Rfc9496.encode u) ∧
    (∀ s : Scalar, Coord u (s.val • A) → (P.scalarMul s).compress = Rfc9496.encode u) ∧
    P.equals Q = Rfc9496.equals q r ∧ Rfc9496.encode q = b := by
  obtain ⟨S, h1, h2, h3, -, -, h6, h7, -⟩ := C78_same (F := F)
  have a := h1 b P q hP hq
  have b' := h1 c Q r hQ hr
  have e := h6 P Q q r A B u a b' hA hB
  have f := h7 P q A u a hA
  refine ⟨fun h => (h2 _ _ (e.1 h)).1.symm, fun h => (h2 _ _ (e.2 h)).1.symm,
    fun h => (h2 _ _ (f.1 h)).1.symm, fun s h => (h2 _ _ (f.2 s h)).1.symm, h3 _ _ _ _ a b', ?_⟩
  rw [(h2 _ _ a).1, C38_unique b hP]

/-- The RFC's own codec, as a consequence: its decoded points encode to the string they come from. -/
theorem C78_rfc_round_trip {b : Bytes 56} {q : Ext} (h : Rfc9496.decode b = some q) :
    Rfc9496.encode q = b := by
  have hs : (decafDecompress Fast b).isSome = true := by rw [C78_accepts, h]; rfl
  obtain ⟨P, hP⟩ := Option.isSome_iff_exists.1 hs
  rw [same_encode (same_decode hP h), C38_unique b hP]

/-- The generator's encoding of RFC 9496 is accepted, and is the library's generator. -/
example : ∃ P : DecafPt Fast, decafDecompress Fast Rfc9496.generatorBytes = some P ∧
    P.equals DecafPt.generator = true ∧
    (Rfc9496.decode Rfc9496.generatorBytes).isSome = true := by
  have h : (decafDecompress Fast Rfc9496.generatorBytes).isSome = true := by decide +kernel
  obtain ⟨P, hP⟩ := Option.isSome_iff_exists.1 h
  refine ⟨P, hP, ?_, by rw [← C78_accepts (F := Fast), h]⟩
  rw [C40_equals_iff_compress (.decompress hP) .generator, C38_unique _ hP]
  decide +kernel

/-- RFC 9496, appendix B.1: the encoding of twice the generator. -/
example : ((DecafPt.generator : DecafPt Fast).add DecafPt.generator).compress.l =
    [0xc8, 0x98, 0xeb, 0x4f, 0x87, 0xf9, 0x7c, 0x56, 0x4c, 0x6f, 0xd6, 0x1f, 0xc7, 0xe4,
     0x96, 0x89, 0x31, 0x4a, 0x1f, 0x81, 0x8e, 0xc8, 0x5e, 0xeb, 0x3b, 0xd5, 0x51, 0x4a,
     0xc8, 0x16, 0xd3, 0x87, 0x78, 0xf6, 0x9e, 0xf3, 0x47, 0xa8, 0x9f, 0xca, 0x81, 0x7e,
     0x66, 0xde, 0xfd, 0xed, 0xce, 0x17, 0x8c, 0x7c, 0xc7, 0x09, 0xb2, 0x11, 0x6e, 0x75] := by
  decide +kernel

end Ed448.Props
