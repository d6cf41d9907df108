import Verif.Spec.Bytes
import Verif.Spec.Curve

/-!
# decaf448 as published: RFC 9496, section 5

The internal representation of the RFC is a point of edwards448 in extended coordinates
`(x0, y0, z0, t0)` with `x = x0/z0`, `y = y0/z0`, `x y = t0/z0`. The library works on another curve,
the 4-isogenous twisted one. Nothing here comes from the library.
-/

namespace Ed448.Rfc9496

set_option exponentiation.threshold 1000

/-- IS_NEGATIVE, section 3.1: the least non-negative residue is odd. -/
def isNegative (x : Fp) : Bool := x.val % 2 == 1

/-- CT_ABS, section 3.1. -/
def ctAbs (x : Fp) : Fp := if isNegative x then -x else x

/-- Section 5.1. -/
def D : Fp := -39081

/-- Section 5.1: ONE_MINUS_D. -/
def ONE_MINUS_D : Fp := 39082

/-- Section 5.1: SQRT_MINUS_D. -/
def SQRT_MINUS_D : Fp := (98944233647732219769177004876929019128417576295529901074099889598043702116001257856802131563896515373927712232092845883226922417596214 : ℕ)

/-- Section 5.1: INVSQRT_MINUS_D. -/
def INVSQRT_MINUS_D : Fp := (315019913931389607337177038330951043522456072897266928557328499619017160722351061360252776265186336876723201881398623946864393857820716 : ℕ)

/-- SQRT_RATIO_M1, section 5.2. -/
def sqrtRatioM1 (u v : Fp) : Bool × Fp :=
  let r := u * (u * v) ^ ((p - 3) / 4)
  let check := v * r ^ 2
  (check == u, ctAbs r)

/-- Extended coordinates. -/
structure Ext where
  x0 : Fp
  y0 : Fp
  z0 : Fp
  t0 : Fp

/-- `q` are extended coordinates of the point `Q` of edwards448. -/
structure Coord (q : Ext) (Q : E) : Prop where
  z : q.z0 ≠ 0
  x : q.x0 = Q.x * q.z0
  y : q.y0 = Q.y * q.z0
  t : q.t0 = Q.x * Q.y * q.z0

/-- Decode, section 5.3.1, from a string of 56 bytes. -/
def decode (b : Bytes 56) : Option Ext :=
  if b.val ≥ p then none
  else
    let s : Fp := b.val
    if isNegative s then none
    else
      let ss := s ^ 2
      let u1 := 1 + ss
      let u2 := u1 ^ 2 - 4 * D * ss
      let (was_square, invsqrt) := sqrtRatioM1 1 (u2 * u1 ^ 2)
      let u3 := ctAbs (2 * s * invsqrt * u1 * SQRT_MINUS_D)
      let x := u3 * invsqrt * u2 * INVSQRT_MINUS_D
      let y := (1 - ss) * invsqrt * u1
      let t := x * y
      if was_square then some ⟨x, y, 1, t⟩ else none

/-- The field element written by Encode, section 5.3.2. -/
def encodeS (q : Ext) : Fp :=
  let u1 := (q.x0 + q.t0) * (q.x0 - q.t0)
  let (_, invsqrt) := sqrtRatioM1 1 (u1 * ONE_MINUS_D * q.x0 ^ 2)
  let ratio := ctAbs (invsqrt * u1 * SQRT_MINUS_D)
  let u2 := INVSQRT_MINUS_D * ratio * q.z0 - q.t0
  ctAbs (ONE_MINUS_D * invsqrt * q.x0 * u2)

/-- Encode, section 5.3.2: 56 bytes, little-endian. -/
def encode (q : Ext) : Bytes 56 := Arr.ofVal 56 256 (by norm_num) (encodeS q).val

/-- Equals, section 5.3.3. -/
def equals (a b : Ext) : Bool := a.x0 * b.y0 == a.y0 * b.x0

/-- The identity element, section 5. -/
def identity : Ext := ⟨0, 1, 1, 0⟩

/-- The encoding of the generator, section 5. -/
def generatorBytes : Bytes 56 :=
  ⟨List.replicate 28 0x66 ++ List.replicate 28 0x33, by decide, by decide⟩

end Ed448.Rfc9496
