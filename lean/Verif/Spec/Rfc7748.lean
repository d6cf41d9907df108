import Verif.Spec.Bytes
import Verif.Spec.Params

/-!
# X448 as published: RFC 7748, section 5

Nothing here comes from the library.
-/

namespace Ed448.Rfc7748

set_option exponentiation.threshold 1000

/-- `decodeScalar448`: `k_list[0] &= 252; k_list[55] |= 128`, then little-endian. -/
def decodeScalar448 (k : Bytes 56) : ℕ :=
  Nat.ofDigits 256 ((k.l.modify 0 (· &&& 252)).modify 55 (· ||| 128))

/-- `decodeUCoordinate` for 448 bits: little-endian, taken modulo `p`. -/
def decodeUCoordinate (u : Bytes 56) : Fp := (u.val : Fp)

/-- `encodeUCoordinate`: the least non-negative residue, little-endian. -/
def encodeUCoordinate (u : Fp) : Bytes 56 := Arr.ofVal 56 256 (by norm_num) u.val

/-- The variables of the loop. -/
structure State where
  x_2 : Fp
  z_2 : Fp
  x_3 : Fp
  z_3 : Fp
  swap : Bool

/-- `cswap` on both pairs. -/
def State.cswap (s : State) : State :=
  if s.swap then ⟨s.x_3, s.z_3, s.x_2, s.z_2, s.swap⟩ else s

/-- One iteration, with `a24 = 39081`. -/
def step (x_1 : Fp) (s : State) (k_t : Bool) : State :=
  let s := { s with swap := xor s.swap k_t }
  let s := s.cswap
  let A := s.x_2 + s.z_2
  let AA := A ^ 2
  let B := s.x_2 - s.z_2
  let BB := B ^ 2
  let E := AA - BB
  let C := s.x_3 + s.z_3
  let D := s.x_3 - s.z_3
  let DA := D * A
  let CB := C * B
  { x_3 := (DA + CB) ^ 2
    z_3 := x_1 * (DA - CB) ^ 2
    x_2 := AA * BB
    z_2 := E * (AA + 39081 * E)
    swap := k_t }

/-- The Montgomery ladder for 448 bits. -/
def ladder (k : ℕ) (u : Fp) : Fp :=
  let s := ((List.range 448).reverse.map k.testBit).foldl (step u) ⟨1, 0, u, 1, false⟩
  let s := s.cswap
  s.x_2 * s.z_2 ^ (p - 2)

/-- `X448`. -/
def X448 (k u : Bytes 56) : Bytes 56 :=
  encodeUCoordinate (ladder (decodeScalar448 k) (decodeUCoordinate u))

end Ed448.Rfc7748
