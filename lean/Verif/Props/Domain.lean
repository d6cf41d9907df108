import Verif.Spec.Rfc8032Sign
import Verif.Spec.Shake256

/-!
# What is hashed for a signature (C84)

The strings that the signature scheme of RFC 8032 hashes determine flag, context, commitment, public key and
message: no two different statements share a challenge unless the hash has a collision.
-/

namespace Ed448.Props

/-- The string of `dom4` names the scheme in ASCII, and the context after its length. -/
theorem C84_dom4 (f : ℕ) (C : List ℕ) :
    (Rfc8032.dom4 f C).take 8 = "SigEd448".toList.map Char.toNat ∧
    (Rfc8032.dom4 f C)[8]? = some f ∧ (Rfc8032.dom4 f C)[9]? = some C.length ∧
    (Rfc8032.dom4 f C).drop 10 = C := 
  ⟨show [0x53, 0x69, 0x67, 0x45, 0x64, 0x34, 0x34, 0x38] = "SigEd448".toList.map Char.toNat by decide +kernel,
    rfl, rfl, rfl⟩

/-- Two prefixes of the same string are the same: flags and contexts are separated. -/
theorem C84_prefix_free {f f' : ℕ} {C C' M M' : List ℕ}
    (h : Rfc8032.dom4 f C ++ M = Rfc8032.dom4 f' C' ++ M') : f = f' ∧ C = C' ∧ M = M' := by
  simp only [Rfc8032.dom4, List.cons_append, List.nil_append, List.cons.injEq, true_and] at h
  obtain ⟨h1, h2, h3⟩ := h
  obtain ⟨h4, h5⟩ := List.append_inj h3 h2
  exact ⟨h1, h4, h5⟩

/-- The hashed string determines everything that is signed. -/
theorem C84_binding {f f' : ℕ} {C C' M M' : List ℕ} {R R' A A' : Bytes 57}
    (h : Rfc8032.dom4 f C ++ R.l ++ A.l ++ M = Rfc8032.dom4 f' C' ++ R'.l ++ A'.l ++ M') :
    f = f' ∧ C = C' ∧ R = R' ∧ A = A' ∧ M = M' := by
  rw [List.append_assoc, List.append_assoc, List.append_assoc, List.append_assoc] at h
  obtain ⟨h1, h2, h3⟩ := C84_prefix_free h
  obtain ⟨h4, h5⟩ := List.append_inj h3 (R.len.trans R'.len.symm)
  obtain ⟨h6, h7⟩ := List.append_inj h5 (A.len.trans A'.len.symm)
  exact ⟨h1, h2, Arr.ext h4, Arr.ext h6, h7⟩

/-- So a challenge that two different statements share is a collision of the hash. -/
theorem C84_collision (H : Rfc8032.Hash) {f f' : ℕ} {C C' M M' : List ℕ} {R R' A A' : Bytes 57}
    (h : Rfc8032.challenge H f C M R A = Rfc8032.challenge H f' C' M' R' A')
    (hn : ¬ (f = f' ∧ C = C' ∧ R = R' ∧ A = A' ∧ M = M')) :
    ∃ x y, x ≠ y ∧ H x = H y := by
  refine ⟨_, _, fun e => hn (C84_binding e), Arr.val_inj (by norm_num) h⟩

/-- The same message with the context "foo" and with none. -/
example : Rfc8032.dom4 0 [102, 111, 111] ++ [3] ≠ Rfc8032.dom4 0 [] ++ [3] := by
  intro h
  have := (C84_prefix_free h).2.1
  simp at this

end Ed448.Props
