import Verif.Spec.Rfc8032Sign

/-!
# SHAKE256 as published: FIPS 202

The hash of Ed448 (RFC 8032, section 5.2). The library does not contain it: it is used only to run the
protocols on the test vectors of the RFC. Nothing here comes from the library.
-/

namespace Ed448.Shake256

/-- Rotation of a lane of 64 bits to the left. -/
def rot (w n : ℕ) : ℕ := ((w <<< n) ||| (w >>> (64 - n))) % 2 ^ 64

/-- FIPS 202, table 2: the offsets of ρ modulo 64, at `x + 5 y`. -/
def offsets : List ℕ :=
  [0, 1, 62, 28, 27, 36, 44, 6, 55, 20, 3, 10, 43, 25, 39, 41, 45, 15, 21, 8, 18, 2, 61, 56, 14]

/-- FIPS 202, 3.2.5: the constants of the 24 rounds. -/
def constants : List ℕ :=
  [0x0000000000000001, 0x0000000000008082, 0x800000000000808a, 0x8000000080008000,
   0x000000000000808b, 0x0000000080000001, 0x8000000080008081, 0x8000000000008009,
   0x000000000000008a, 0x0000000000000088, 0x0000000080008009, 0x000000008000000a,
   0x000000008000808b, 0x800000000000008b, 0x8000000000008089, 0x8000000000008003,
   0x8000000000008002, 0x8000000000000080, 0x000000000000800a, 0x800000008000000a,
   0x8000000080008081, 0x8000000000008080, 0x0000000080000001, 0x8000000080008008]

/-- A state: 25 lanes, lane `(x, y)` at `x + 5 y`. -/
abbrev State := List ℕ

/-- Lane `(x, y)`; the coordinates are taken modulo 5. -/
def lane (A : State) (x y : ℕ) : ℕ := A.getD (x % 5 + 5 * (y % 5)) 0

/-- The state with the given lanes. -/
def build (f : ℕ → ℕ → ℕ) : State := (List.range 25).map fun i => f (i % 5) (i / 5)

/-- 3.2.1. -/
def theta (A : State) : State :=
  let C := (List.range 5).map fun x =>
    lane A x 0 ^^^ lane A x 1 ^^^ lane A x 2 ^^^ lane A x 3 ^^^ lane A x 4
  let D := (List.range 5).map fun x => C.getD ((x + 4) % 5) 0 ^^^ rot (C.getD ((x + 1) % 5) 0) 1
  build fun x y => lane A x y ^^^ D.getD x 0

/-- 3.2.2. -/
def rho (A : State) : State := build fun x y => rot (lane A x y) (lane offsets x y)

/-- 3.2.3. -/
def pi (A : State) : State := build fun x y => lane A (x + 3 * y) x

/-- 3.2.4. -/
def chi (A : State) : State :=
  build fun x y => lane A x y ^^^ ((lane A (x + 1) y ^^^ (2 ^ 64 - 1)) &&& lane A (x + 2) y)

/-- 3.2.5. -/
def iota (rc : ℕ) (A : State) : State := build fun x y =>
  if x = 0 ∧ y = 0 then lane A x y ^^^ rc else lane A x y

/-- 3.3: Keccak-f[1600]. -/
def keccakF (A : State) : State :=
  constants.foldl (fun A rc => iota rc (chi (pi (rho (theta A))))) A

/-- The number of octets absorbed at a time: `(1600 − 512)/8`. -/
def rate : ℕ := 136

/-- The lanes of a block. -/
def lanes (block : List ℕ) : State :=
  (List.range 25).map fun i => Nat.ofDigits 256 ((block.drop (8 * i)).take 8)

/-- The suffix 1111 of SHAKE and the padding 10…01, for a last block that is not full. -/
def pad (m : List ℕ) : List ℕ :=
  (m ++ [0x1f] ++ List.replicate (rate - 1 - m.length) 0).modify (rate - 1) (· ||| 0x80)

/-- Section 4, Algorithm 8: absorbing the message, in `n + 1` blocks. -/
def absorb : ℕ → State → List ℕ → State
  | 0, A, m => keccakF (List.zipWith (· ^^^ ·) A (lanes (pad m)))
  | n + 1, A, m => absorb n (keccakF (List.zipWith (· ^^^ ·) A (lanes (m.take rate)))) (m.drop rate)

/-- SHAKE256 with 114 octets of output, which are the first of the state (less than the rate). -/
def shake256 : Rfc8032.Hash := fun m =>
  let m := m.map (· % 256)
  let A := absorb (m.length / rate) (List.replicate 25 0) m
  Arr.ofVal 114 256 (by norm_num) (Nat.ofDigits (2 ^ 64) A)

end Ed448.Shake256
