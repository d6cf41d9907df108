import Verif.Spec.Rfc8032
import Verif.Spec.Curve

/-!
# Ed448 as published: RFC 8032, sections 5.2.5 to 5.2.7

The hash (SHAKE256 with 114 octets of output) is a parameter: any function from strings to 114 octets.
The message is `PH(M)`: the message itself for Ed448, its digest for Ed448ph. Nothing here comes from
the library.
-/

namespace Ed448.Rfc8032

set_option exponentiation.threshold 1000

/-- A hash function with 114 octets of output. -/
abbrev Hash := List ℕ → Bytes 114

/-- `dom4(x, y)`: the string "SigEd448", the flag, the length of the context, the context. -/
def dom4 (x : ℕ) (y : List ℕ) : List ℕ :=
  [0x53, 0x69, 0x67, 0x45, 0x64, 0x34, 0x34, 0x38] ++ [x, y.length] ++ y

/-- Section 5.2.5, steps 1 to 3: the first 57 octets of the hash of the private key, with the two least
significant bits of the first octet cleared, all bits of the last octet cleared, the highest bit of the
second to last octet set; interpreted as a little-endian integer. -/
def secretScalar (h : Bytes 114) : ℕ :=
  Nat.ofDigits 256 ((((h.l.take 57).modify 0 (· &&& 252)).modify 56 (fun _ => 0)).modify 55 (· ||| 128))

/-- Encoding of a point. -/
def encodePt (P : E) : Bytes 57 := encode P.x P.y

/-- Section 5.2.5, step 4. -/
def publicKey (H : Hash) (sk : Bytes 57) : Bytes 57 := encodePt (secretScalar (H sk.l) • G)

/-- The challenge of step 4 of 5.2.6 and step 2 of 5.2.7, as an integer. -/
def challenge (H : Hash) (f : ℕ) (C M : List ℕ) (R A : Bytes 57) : ℕ :=
  (H (dom4 f C ++ R.l ++ A.l ++ M)).val

/-- Section 5.2.6. The signature is the concatenation of the two strings. -/
def sign (H : Hash) (sk : Bytes 57) (f : ℕ) (C M : List ℕ) : Bytes 57 × Bytes 57 :=
  -- 1.
  let h := H sk.l
  let s := secretScalar h
  let A := publicKey H sk
  let prefix_ := h.l.drop 57
  -- 2.
  let r := (H (dom4 f C ++ prefix_ ++ M)).val
  -- 3. "For efficiency, do this by first reducing r modulo L"
  let R := encodePt ((r % ell) • G)
  -- 4. 5.
  let k := challenge H f C M R A % ell
  let S := (r + k * s) % ell
  -- 6.
  (R, Arr.ofVal 57 256 (by norm_num) S)

/-- Section 5.2.7: the strings decode, `S` is in range, and `[4][S]B = [4]R + [4][k]A'`. -/
def Verifies (H : Hash) (A : Bytes 57) (f : ℕ) (C M : List ℕ) (R S : Bytes 57) : Prop :=
  ∃ PR PA : E, decode R = some (PR.x, PR.y) ∧ decode A = some (PA.x, PA.y) ∧ S.val < ell ∧
    4 • (S.val • G) = 4 • PR + 4 • (challenge H f C M R A • PA)

end Ed448.Rfc8032
