import Verif.Spec.Bytes
import Verif.Spec.Params

/-!
# Point encoding of Ed448 as published: RFC 8032, section 5.2

Nothing here comes from the library.
-/

namespace Ed448.Rfc8032

set_option exponentiation.threshold 1000

/-- Encoding, section 5.2.2: the 57 octets of `y`, with the least significant bit of `x` as the most
significant bit of the last octet. -/
def encode (x y : Fp) : Bytes 57 :=
  Arr.ofVal 57 256 (by norm_num) (y.val + 2 ^ 455 * (x.val % 2))

/-- Decoding, section 5.2.3. -/
def decode (b : Bytes 57) : Option (Fp × Fp) :=
  -- 1. bit 455 is the least significant bit of the x-coordinate; y is recovered by clearing it
  let x_0 := b.val / 2 ^ 455
  let y := b.val % 2 ^ 455
  if y ≥ p then none
  else
    -- 2. the candidate root of (y^2-1)/(d y^2-1)
    let u : Fp := (y : Fp) ^ 2 - 1
    let v : Fp := -39081 * (y : Fp) ^ 2 - 1
    let x := u ^ 3 * v * (u ^ 5 * v ^ 3) ^ ((p - 3) / 4)
    -- 3.
    if v * x ^ 2 ≠ u then none
    -- 4.
    else if x = 0 ∧ x_0 = 1 then none
    else if x_0 = x.val % 2 then some (x, y)
    else some (-x, y)

end Ed448.Rfc8032
