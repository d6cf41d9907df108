import Verif.Model.Machine
import Verif.Spec.Bytes

/-!
# Model of the 32-bit field backend, `/repo/src/field/u32`

`FieldElement28` is an array of sixteen `u32` limbs. `none` is an overflow panic of a checked
operation or a failed `assert!`.
-/

namespace Ed448.Model.U32
open Ed448.Model

/-- `struct FieldElement28(pub(crate) [u32; 16])`; the limbs may be any `u32`.
/repo/src/field/u32/prime_field.rs:10-11 -/
abbrev Raw := Arr 16 (2 ^ 32)

/-- Wraps sixteen results as an array. -/
def pack (l : List ℕ) : Option Raw := Arr.ofList? 16 (2 ^ 32) l

/-- `u32::wrapping_add`. -/
def wrapAddU32 (x y : ℕ) : ℕ := (x + y) % 2 ^ 32
/-- `u32::wrapping_sub`. -/
def wrapSubU32 (x y : ℕ) : ℕ := (x + (2 ^ 32 - y)) % 2 ^ 32
/-- `u64::wrapping_add`. -/
def wrapAddU64 (x y : ℕ) : ℕ := (x + y) % 2 ^ 64
/-- `u64::wrapping_sub`. (For `u64` arguments `y % 2 ^ 64 = y`.) -/
def wrapSubU64 (x y : ℕ) : ℕ := (x + (2 ^ 64 - y % 2 ^ 64)) % 2 ^ 64
/-- `u64::wrapping_mul`. -/
def wrapMulU64 (x y : ℕ) : ℕ := x * y % 2 ^ 64
/-- `x << 1` on `u64` (the top bit is lost silently). -/
def shl1U64 (x : ℕ) : ℕ := x * 2 % 2 ^ 64

/-- `MASK = (1 << 28) - 1`. /repo/src/field/u32/karatsuba.rs:14,
/repo/src/field/u32/prime_field.rs:152, 198, 227, 255 -/
def MASK : ℕ := 2 ^ 28 - 1

/-! ## Linear operations -/

/-- `add_no_reduce`: limbwise checked addition. The code spells out the sixteen limbs.
/repo/src/field/u32/prime_field.rs:395-414 -/
def addNoReduce (a b : Raw) : Option Raw :=
  ((List.range 16).mapM fun i => ckU32 (a.get i + b.get i)).bind pack

/-- `sub_no_reduce`: limbwise wrapping subtraction.
/repo/src/field/u32/prime_field.rs:418-437 -/
def subNoReduce (a b : Raw) : Option Raw :=
  pack ((List.range 16).map fun i => wrapSubU32 (a.get i) (b.get i))

/-- `bias(a, b)`: adds `b` times the limbs of `p`; `lo = [co1; 4]`, `hi = [co2, co1, co1, co1]`.
/repo/src/field/u32/prime_field.rs:197-224 -/
def bias (a : Raw) (b : ℕ) : Option Raw := do
  let co1 ← ckU32 (b * MASK)
  let co2 ← ckSub co1 b
  pack [wrapAddU32 (a.get 0) co1, wrapAddU32 (a.get 1) co1, wrapAddU32 (a.get 2) co1,
    wrapAddU32 (a.get 3) co1, wrapAddU32 (a.get 4) co1, wrapAddU32 (a.get 5) co1,
    wrapAddU32 (a.get 6) co1, wrapAddU32 (a.get 7) co1, wrapAddU32 (a.get 8) co2,
    wrapAddU32 (a.get 9) co1, wrapAddU32 (a.get 10) co1, wrapAddU32 (a.get 11) co1,
    wrapAddU32 (a.get 12) co1, wrapAddU32 (a.get 13) co1, wrapAddU32 (a.get 14) co1,
    wrapAddU32 (a.get 15) co1]

/-- `(x & MASK) + y`, a checked `u32` addition; one line of `weak_reduce`.
/repo/src/field/u32/prime_field.rs:232-248 -/
def maskAdd (x y : ℕ) : Option ℕ := ckU32 ((x &&& MASK) + y)

/-- `weak_reduce`. The assignments go from limb 15 down to limb 0, so each right-hand side reads the
old value of the limb below; limb 8 has already received the top carry.
/repo/src/field/u32/prime_field.rs:226-249 -/
def weakReduce (a : Raw) : Option Raw := do
  let limb16Mod := a.get 15 >>> 28
  let a8 ← ckU32 (a.get 8 + limb16Mod)
  let c15 ← maskAdd (a.get 15) (a.get 14 >>> 28)
  let c14 ← maskAdd (a.get 14) (a.get 13 >>> 28)
  let c13 ← maskAdd (a.get 13) (a.get 12 >>> 28)
  let c12 ← maskAdd (a.get 12) (a.get 11 >>> 28)
  let c11 ← maskAdd (a.get 11) (a.get 10 >>> 28)
  let c10 ← maskAdd (a.get 10) (a.get 9 >>> 28)
  let c9 ← maskAdd (a.get 9) (a8 >>> 28)
  let c8 ← maskAdd a8 (a.get 7 >>> 28)
  let c7 ← maskAdd (a.get 7) (a.get 6 >>> 28)
  let c6 ← maskAdd (a.get 6) (a.get 5 >>> 28)
  let c5 ← maskAdd (a.get 5) (a.get 4 >>> 28)
  let c4 ← maskAdd (a.get 4) (a.get 3 >>> 28)
  let c3 ← maskAdd (a.get 3) (a.get 2 >>> 28)
  let c2 ← maskAdd (a.get 2) (a.get 1 >>> 28)
  let c1 ← maskAdd (a.get 1) (a.get 0 >>> 28)
  let c0 ← maskAdd (a.get 0) limb16Mod
  pack [c0, c1, c2, c3, c4, c5, c6, c7, c8, c9, c10, c11, c12, c13, c14, c15]

/-- `Add`. /repo/src/field/u32/prime_field.rs:42-49 -/
def add (a b : Raw) : Option Raw := (addNoReduce a b).bind weakReduce

/-- `Sub`. /repo/src/field/u32/prime_field.rs:50-58 -/
def sub (a b : Raw) : Option Raw :=
  (bias a 2).bind fun s => (subNoReduce s b).bind weakReduce

/-- A constant written as sixteen limbs. -/
def lit (l : List ℕ) (h : l.length = 16 := by rfl) (h' : ∀ x ∈ l, x < 2 ^ 32 := by decide) : Raw :=
  ⟨l, h, h'⟩

/-- `zero` (also `Default`). /repo/src/field/u32/prime_field.rs:95-107 -/
def zero : Raw := lit [0, 0, 0, 0, 0, 0, 0, 0, 0, 0, 0, 0, 0, 0, 0, 0]

/-- `one`. /repo/src/field/u32/prime_field.rs:108-110 -/
def one : Raw := lit [1, 0, 0, 0, 0, 0, 0, 0, 0, 0, 0, 0, 0, 0, 0, 0]

/-- `minus_one`. /repo/src/field/u32/prime_field.rs:111-116 -/
def minusOne : Raw := lit [
  268435454, 268435455, 268435455, 268435455, 268435455, 268435455, 268435455, 268435455,
  268435454, 268435455, 268435455, 268435455, 268435455, 268435455, 268435455, 268435455]

/-- `negate`. /repo/src/field/u32/prime_field.rs:191-194 -/
def negate (a : Raw) : Option Raw := sub zero a

/-- `conditional_select`: limbwise, `b` if the choice is set. `u32::conditional_select` of `subtle`
is modelled by its documented result. /repo/src/field/u32/prime_field.rs:67-92 -/
def select (a b : Raw) (c : Bool) : Raw where
  l := (List.range 16).map fun i => if c then b.get i else a.get i
  len := by simp
  lt := by
    intro x hx
    obtain ⟨i, -, rfl⟩ := List.mem_map.mp hx
    split
    · exact Arr.get_lt b i (by norm_num)
    · exact Arr.get_lt a i (by norm_num)

/-- The limbs subtracted (and added back) by `strong_reduce`.
/repo/src/field/u32/prime_field.rs:275-320 -/
def pLimbs : List ℕ :=
  [0xfffffff, 0xfffffff, 0xfffffff, 0xfffffff, 0xfffffff, 0xfffffff, 0xfffffff, 0xfffffff,
    0xffffffe, 0xfffffff, 0xfffffff, 0xfffffff, 0xfffffff, 0xfffffff, 0xfffffff, 0xfffffff]

/-- The sixteen repetitions of `scarry += sub_carry(self[i], c); self[i] = (scarry as u32) & MASK;
scarry >>= 28` with `sub_carry(a, b) = (a as i64) - b`. The code unrolls this loop.
/repo/src/field/u32/prime_field.rs:261-264, 274-322 -/
def strongSub : ℤ → List ℕ → List ℕ → Option (List ℕ × ℤ)
  | scarry, x :: xs, c :: cs => do
    let t ← ckI64 ((x : ℤ) - (c : ℤ))
    let s ← ckI64 (scarry + t)
    let (r, f) ← strongSub (sarZ s 28) xs cs
    some ((asU32Z s &&& MASK) :: r, f)
  | scarry, _, _ => some ([], scarry)

/-- The masks added back: `m`, except `m & 0xfffffffffffffffe` at limb 8.
/repo/src/field/u32/prime_field.rs:331-382 -/
def addBack (m : ℕ) : List ℕ :=
  [m, m, m, m, m, m, m, m, m &&& 0xfffffffffffffffe, m, m, m, m, m, m, m]

/-- The sixteen repetitions of `carry += add_carry(self[i], m); self[i] = (carry as u32) & MASK;
carry >>= 28` with `add_carry(a, b) = (a as u64) + b`. The code unrolls this loop.
/repo/src/field/u32/prime_field.rs:265-268, 332-386 -/
def strongAdd : ℕ → List ℕ → List ℕ → Option (List ℕ × ℕ)
  | carry, x :: xs, m :: ms => do
    let t ← ckU64 (x + m)
    let s ← ckU64 (carry + t)
    let (r, f) ← strongAdd (s >>> 28) xs ms
    some ((asU32 s &&& MASK) :: r, f)
  | carry, _, _ => some ([], carry)

/-- `strong_reduce`, with its two assertions. /repo/src/field/u32/prime_field.rs:254-391 -/
def strongReduce (a : Raw) : Option Raw := do
  let a ← weakReduce a
  let (d, scarry) ← strongSub 0 a.l pLimbs
  let m := asU32Z scarry &&& MASK
  let (r, carry) ← strongAdd 0 d (addBack m)
  if carry < 2 ∧ (carry : ℤ) + scarry = 0 then pack r else none

/-! ## Bytes -/

/-- `load7`. /repo/src/field/u32/prime_field.rs:142-150 -/
def load7 (b0 b1 b2 b3 b4 b5 b6 : ℕ) : ℕ :=
  b0 ||| (b1 <<< 8) ||| (b2 <<< 16) ||| (b3 <<< 24) ||| (b4 <<< 32) ||| (b5 <<< 40) ||| (b6 <<< 48)

/-- The loop of `from_bytes`: seven bytes give two limbs.
/repo/src/field/u32/prime_field.rs:154-160 -/
def fromBytesLoop : List ℕ → List ℕ
  | b0 :: b1 :: b2 :: b3 :: b4 :: b5 :: b6 :: rest =>
    let out := load7 b0 b1 b2 b3 b4 b5 b6
    (asU32 out &&& MASK) :: asU32 (out >>> 28) :: fromBytesLoop rest
  | _ => []

/-- `from_bytes`. /repo/src/field/u32/prime_field.rs:141-163 -/
def fromBytes (b : Bytes 56) : Option Raw := pack (fromBytesLoop b.l)

/-- The inner loop of `to_bytes`: `res[7 * i + j] = l as u8; l >>= 8`, `n` times.
/repo/src/field/u32/prime_field.rs:176-179 -/
def storeBytes : ℕ → ℕ → List ℕ
  | 0, _ => []
  | n + 1, l => asU8 l :: storeBytes n (l >>> 8)

/-- The outer loop of `to_bytes`: two limbs give seven bytes; the addition is a checked `u64`
addition, `<< 28` cannot lose bits of a `u32`. /repo/src/field/u32/prime_field.rs:173-180 -/
def toBytesLoop : List ℕ → Option (List ℕ)
  | x :: y :: rest => do
    let l ← ckU64 (x + y <<< 28)
    let r ← toBytesLoop rest
    some (storeBytes 7 l ++ r)
  | _ => some []

/-- `to_bytes`. /repo/src/field/u32/prime_field.rs:166-182 -/
def toBytes (a : Raw) : Option (Bytes 56) := do
  let limbs ← strongReduce a
  let r ← toBytesLoop limbs.l
  Arr.ofList? 56 256 r

/-! ## Karatsuba multiplication -/

/-- `m(a, b) = (a as i128) * (b as i128)`; two `u32` values, so it cannot overflow.
/repo/src/field/u32/karatsuba.rs:42 -/
def mm (x y : ℕ) : ℤ := (x : ℤ) * (y : ℤ)

/-- A chain `x + y + z + …` of checked `i128` additions, left to right. A subtraction is written as
the addition of the negated term. -/
def ckSum : List ℤ → Option ℤ
  | [] => some 0
  | x :: xs => xs.foldlM (fun s y => ckI128 (s + y)) x

/-- `(z & MASK) as u32` for an `i128` value and `MASK = 2^28 - 1` (two's complement).
/repo/src/field/u32/karatsuba.rs:18, 74-75 -/
def maskI (z : ℤ) : ℕ := (z % 2 ^ 28).toNat

/-- `j = 0`: two result limbs and the two carries.
/repo/src/field/u32/karatsuba.rs:46-79 -/
def mulJ0 (a b aa bb : ℕ → ℕ) (z0 : ℤ) : Option (ℕ × ℕ × ℤ × ℤ) :=
  let z2 : ℤ := mm (a 0) (b 0)
  (ckSum [mm (aa 0) (bb 0), -z2]).bind fun z1 =>
  (ckSum [mm (a 8) (b 8), z2]).bind fun e =>
  (ckI128 (z0 + e)).bind fun z0 =>
  (ckSum [mm (aa 7) (bb 1), mm (aa 6) (bb 2), mm (aa 5) (bb 3), mm (aa 4) (bb 4),
    mm (aa 3) (bb 5), mm (aa 2) (bb 6), mm (aa 1) (bb 7)]).bind fun z2 =>
  (ckSum [mm (a 15) (b 9), mm (a 14) (b 10), mm (a 13) (b 11), mm (a 12) (b 12),
    mm (a 11) (b 13), mm (a 10) (b 14), mm (a 9) (b 15), z2]).bind fun e =>
  (ckI128 (z1 + e)).bind fun z1 =>
  (ckSum [mm (a 7) (b 1), mm (a 6) (b 2), mm (a 5) (b 3), mm (a 4) (b 4), mm (a 3) (b 5),
    mm (a 2) (b 6), mm (a 1) (b 7), -z2]).bind fun e =>
  (ckI128 (z0 - e)).bind fun z0 =>
  let c0 := maskI z0
  let c8 := maskI z1
  let z0 := sarZ z0 28
  let z1 := sarZ z1 28
  some (c0, c8, z0, z1)

/-- `j = 1`: two result limbs and the two carries.
/repo/src/field/u32/karatsuba.rs:81-111 -/
def mulJ1 (a b aa bb : ℕ → ℕ) (z0 z1 : ℤ) : Option (ℕ × ℕ × ℤ × ℤ) :=
  (ckSum [mm (a 1) (b 0), mm (a 0) (b 1)]).bind fun z2 =>
  (ckSum [mm (aa 1) (bb 0), mm (aa 0) (bb 1), -z2]).bind fun e =>
  (ckI128 (z1 + e)).bind fun z1 =>
  (ckSum [mm (a 9) (b 8), mm (a 8) (b 9), z2]).bind fun e =>
  (ckI128 (z0 + e)).bind fun z0 =>
  (ckSum [mm (aa 7) (bb 2), mm (aa 6) (bb 3), mm (aa 5) (bb 4), mm (aa 4) (bb 5),
    mm (aa 3) (bb 6), mm (aa 2) (bb 7)]).bind fun z2 =>
  (ckSum [mm (a 15) (b 10), mm (a 14) (b 11), mm (a 13) (b 12), mm (a 12) (b 13),
    mm (a 11) (b 14), mm (a 10) (b 15), z2]).bind fun e =>
  (ckI128 (z1 + e)).bind fun z1 =>
  (ckSum [mm (a 7) (b 2), mm (a 6) (b 3), mm (a 5) (b 4), mm (a 4) (b 5), mm (a 3) (b 6),
    mm (a 2) (b 7), -z2]).bind fun e =>
  (ckI128 (z0 - e)).bind fun z0 =>
  let c1 := maskI z0
  let c9 := maskI z1
  let z0 := sarZ z0 28
  let z1 := sarZ z1 28
  some (c1, c9, z0, z1)

/-- `j = 2`: two result limbs and the two carries.
/repo/src/field/u32/karatsuba.rs:113-131 -/
def mulJ2 (a b aa bb : ℕ → ℕ) (z0 z1 : ℤ) : Option (ℕ × ℕ × ℤ × ℤ) :=
  (ckSum [mm (a 2) (b 0), mm (a 1) (b 1), mm (a 0) (b 2)]).bind fun z2 =>
  (ckSum [mm (aa 0) (bb 2), mm (aa 1) (bb 1), mm (aa 2) (bb 0), -z2]).bind fun e =>
  (ckI128 (z1 + e)).bind fun z1 =>
  (ckSum [mm (a 10) (b 8), mm (a 9) (b 9), mm (a 8) (b 10), z2]).bind fun e =>
  (ckI128 (z0 + e)).bind fun z0 =>
  (ckSum [mm (aa 7) (bb 3), mm (aa 6) (bb 4), mm (aa 5) (bb 5), mm (aa 4) (bb 6),
    mm (aa 3) (bb 7)]).bind fun z2 =>
  (ckSum [mm (a 15) (b 11), mm (a 14) (b 12), mm (a 13) (b 13), mm (a 12) (b 14),
    mm (a 11) (b 15), z2]).bind fun e =>
  (ckI128 (z1 + e)).bind fun z1 =>
  (ckSum [mm (a 7) (b 3), mm (a 6) (b 4), mm (a 5) (b 5), mm (a 4) (b 6), mm (a 3) (b 7),
    -z2]).bind fun e =>
  (ckI128 (z0 - e)).bind fun z0 =>
  let c2 := maskI z0
  let c10 := maskI z1
  let z0 := sarZ z0 28
  let z1 := sarZ z1 28
  some (c2, c10, z0, z1)

/-- `j = 3`: two result limbs and the two carries.
/repo/src/field/u32/karatsuba.rs:133-146 -/
def mulJ3 (a b aa bb : ℕ → ℕ) (z0 z1 : ℤ) : Option (ℕ × ℕ × ℤ × ℤ) :=
  (ckSum [mm (a 3) (b 0), mm (a 2) (b 1), mm (a 1) (b 2), mm (a 0) (b 3)]).bind fun z2 =>
  (ckSum [mm (aa 3) (bb 0), mm (aa 2) (bb 1), mm (aa 1) (bb 2), mm (aa 0) (bb 3),
    -z2]).bind fun e =>
  (ckI128 (z1 + e)).bind fun z1 =>
  (ckSum [mm (a 11) (b 8), mm (a 10) (b 9), mm (a 9) (b 10), mm (a 8) (b 11), z2]).bind fun e =>
  (ckI128 (z0 + e)).bind fun z0 =>
  (ckSum [mm (aa 7) (bb 4), mm (aa 6) (bb 5), mm (aa 5) (bb 6), mm (aa 4) (bb 7)]).bind fun z2 =>
  (ckSum [mm (a 7) (b 4), mm (a 6) (b 5), mm (a 5) (b 6), mm (a 4) (b 7), -z2]).bind fun e =>
  (ckI128 (z0 - e)).bind fun z0 =>
  (ckSum [mm (a 15) (b 12), mm (a 14) (b 13), mm (a 13) (b 14), mm (a 12) (b 15), z2]).bind fun e =>
  (ckI128 (z1 + e)).bind fun z1 =>
  let c3 := maskI z0
  let c11 := maskI z1
  let z0 := sarZ z0 28
  let z1 := sarZ z1 28
  some (c3, c11, z0, z1)

/-- `j = 4`: two result limbs and the two carries.
/repo/src/field/u32/karatsuba.rs:148-162 -/
def mulJ4 (a b aa bb : ℕ → ℕ) (z0 z1 : ℤ) : Option (ℕ × ℕ × ℤ × ℤ) :=
  (ckSum [mm (a 4) (b 0), mm (a 3) (b 1), mm (a 2) (b 2), mm (a 1) (b 3),
    mm (a 0) (b 4)]).bind fun z2 =>
  (ckSum [mm (aa 4) (bb 0), mm (aa 3) (bb 1), mm (aa 2) (bb 2), mm (aa 1) (bb 3),
    mm (aa 0) (bb 4), -z2]).bind fun e =>
  (ckI128 (z1 + e)).bind fun z1 =>
  (ckSum [mm (a 12) (b 8), mm (a 11) (b 9), mm (a 10) (b 10), mm (a 9) (b 11), mm (a 8) (b 12),
    z2]).bind fun e =>
  (ckI128 (z0 + e)).bind fun z0 =>
  (ckSum [mm (aa 7) (bb 5), mm (aa 6) (bb 6), mm (aa 5) (bb 7)]).bind fun z2 =>
  (ckSum [mm (a 15) (b 13), mm (a 14) (b 14), mm (a 13) (b 15), z2]).bind fun e =>
  (ckI128 (z1 + e)).bind fun z1 =>
  (ckSum [mm (a 7) (b 5), mm (a 6) (b 6), mm (a 5) (b 7), -z2]).bind fun e =>
  (ckI128 (z0 - e)).bind fun z0 =>
  let c4 := maskI z0
  let c12 := maskI z1
  let z0 := sarZ z0 28
  let z1 := sarZ z1 28
  some (c4, c12, z0, z1)

/-- `j = 5`: two result limbs and the two carries.
/repo/src/field/u32/karatsuba.rs:164-193 -/
def mulJ5 (a b aa bb : ℕ → ℕ) (z0 z1 : ℤ) : Option (ℕ × ℕ × ℤ × ℤ) :=
  (ckSum [mm (a 5) (b 0), mm (a 4) (b 1), mm (a 3) (b 2), mm (a 2) (b 3), mm (a 1) (b 4),
    mm (a 0) (b 5)]).bind fun z2 =>
  (ckSum [mm (aa 5) (bb 0), mm (aa 4) (bb 1), mm (aa 3) (bb 2), mm (aa 2) (bb 3),
    mm (aa 1) (bb 4), mm (aa 0) (bb 5), -z2]).bind fun e =>
  (ckI128 (z1 + e)).bind fun z1 =>
  (ckSum [mm (a 13) (b 8), mm (a 12) (b 9), mm (a 11) (b 10), mm (a 10) (b 11),
    mm (a 9) (b 12), mm (a 8) (b 13), z2]).bind fun e =>
  (ckI128 (z0 + e)).bind fun z0 =>
  (ckSum [mm (aa 7) (bb 6), mm (aa 6) (bb 7)]).bind fun z2 =>
  (ckSum [mm (a 15) (b 14), mm (a 14) (b 15), z2]).bind fun e =>
  (ckI128 (z1 + e)).bind fun z1 =>
  (ckSum [mm (a 7) (b 6), mm (a 6) (b 7), -z2]).bind fun e =>
  (ckI128 (z0 - e)).bind fun z0 =>
  let c5 := maskI z0
  let c13 := maskI z1
  let z0 := sarZ z0 28
  let z1 := sarZ z1 28
  some (c5, c13, z0, z1)

/-- `j = 6`: two result limbs and the two carries.
/repo/src/field/u32/karatsuba.rs:195-229 -/
def mulJ6 (a b aa bb : ℕ → ℕ) (z0 z1 : ℤ) : Option (ℕ × ℕ × ℤ × ℤ) :=
  (ckSum [mm (a 6) (b 0), mm (a 5) (b 1), mm (a 4) (b 2), mm (a 3) (b 3), mm (a 2) (b 4),
    mm (a 1) (b 5), mm (a 0) (b 6)]).bind fun z2 =>
  (ckSum [mm (aa 6) (bb 0), mm (aa 5) (bb 1), mm (aa 4) (bb 2), mm (aa 3) (bb 3),
    mm (aa 2) (bb 4), mm (aa 1) (bb 5), mm (aa 0) (bb 6), -z2]).bind fun e =>
  (ckI128 (z1 + e)).bind fun z1 =>
  (ckSum [mm (a 14) (b 8), mm (a 13) (b 9), mm (a 12) (b 10), mm (a 11) (b 11),
    mm (a 10) (b 12), mm (a 9) (b 13), mm (a 8) (b 14), z2]).bind fun e =>
  (ckI128 (z0 + e)).bind fun z0 =>
  let z2 : ℤ := mm (aa 7) (bb 7)
  (ckSum [mm (a 15) (b 15), z2]).bind fun e =>
  (ckI128 (z1 + e)).bind fun z1 =>
  (ckSum [mm (a 7) (b 7), -z2]).bind fun e =>
  (ckI128 (z0 - e)).bind fun z0 =>
  let c6 := maskI z0
  let c14 := maskI z1
  let z0 := sarZ z0 28
  let z1 := sarZ z1 28
  some (c6, c14, z0, z1)

/-- `j = 7`: two result limbs and the two carries.
/repo/src/field/u32/karatsuba.rs:231-267 -/
def mulJ7 (a b aa bb : ℕ → ℕ) (z0 z1 : ℤ) : Option (ℕ × ℕ × ℤ × ℤ) :=
  (ckSum [mm (a 7) (b 0), mm (a 6) (b 1), mm (a 5) (b 2), mm (a 4) (b 3), mm (a 3) (b 4),
    mm (a 2) (b 5), mm (a 1) (b 6), mm (a 0) (b 7)]).bind fun z2 =>
  (ckSum [mm (aa 7) (bb 0), mm (aa 6) (bb 1), mm (aa 5) (bb 2), mm (aa 4) (bb 3),
    mm (aa 3) (bb 4), mm (aa 2) (bb 5), mm (aa 1) (bb 6), mm (aa 0) (bb 7), -z2]).bind fun e =>
  (ckI128 (z1 + e)).bind fun z1 =>
  (ckSum [mm (a 15) (b 8), mm (a 14) (b 9), mm (a 13) (b 10), mm (a 12) (b 11),
    mm (a 11) (b 12), mm (a 10) (b 13), mm (a 9) (b 14), mm (a 8) (b 15), z2]).bind fun e =>
  (ckI128 (z0 + e)).bind fun z0 =>
  let z2 : ℤ := 0
  (ckI128 (z1 + z2)).bind fun z1 =>
  (ckI128 (z0 + z2)).bind fun z0 =>
  let c7 := maskI z0
  let c15 := maskI z1
  let z0 := sarZ z0 28
  let z1 := sarZ z1 28
  some (c7, c15, z0, z1)

/-- The last step of `mul`: folds the two carries back in. `c` are the limbs so far.
/repo/src/field/u32/karatsuba.rs:269-283 -/
def mulFinal (c0 c1 c2 c3 c4 c5 c6 c7 c8 c9 c10 c11 c12 c13 c14 c15 : ℕ) (z0 z1 : ℤ) :
    Option Raw :=
  (ckSum [z1, (c8 : ℤ)]).bind fun e =>
  (ckI128 (z0 + e)).bind fun z0 =>
  (ckI128 (z1 + (c0 : ℤ))).bind fun z1 =>
  let c8 := maskI z0
  let c0 := maskI z1
  let z0 := sarZ z0 28
  let z1 := sarZ z1 28
  (ckU32 (c9 + maskI z0)).bind fun c9 =>
  (ckU32 (c1 + maskI z1)).bind fun c1 =>
  pack [c0, c1, c2, c3, c4, c5, c6, c7, c8, c9, c10, c11, c12, c13, c14, c15]

/-- `mul`. /repo/src/field/u32/karatsuba.rs:17-284 -/
def mul (x y : Raw) : Option Raw :=
  let a : ℕ → ℕ := x.get
  let b : ℕ → ℕ := y.get
  let aa : ℕ → ℕ := fun i => wrapAddU32 (a i) (a (i + 8))
  let bb : ℕ → ℕ := fun i => wrapAddU32 (b i) (b (i + 8))
  (mulJ0 a b aa bb 0).bind fun (c0, c8, z0, z1) =>
  (mulJ1 a b aa bb z0 z1).bind fun (c1, c9, z0, z1) =>
  (mulJ2 a b aa bb z0 z1).bind fun (c2, c10, z0, z1) =>
  (mulJ3 a b aa bb z0 z1).bind fun (c3, c11, z0, z1) =>
  (mulJ4 a b aa bb z0 z1).bind fun (c4, c12, z0, z1) =>
  (mulJ5 a b aa bb z0 z1).bind fun (c5, c13, z0, z1) =>
  (mulJ6 a b aa bb z0 z1).bind fun (c6, c14, z0, z1) =>
  (mulJ7 a b aa bb z0 z1).bind fun (c7, c15, z0, z1) =>
  mulFinal c0 c1 c2 c3 c4 c5 c6 c7 c8 c9 c10 c11 c12 c13 c14 c15 z0 z1

/-! ## Karatsuba squaring -/

/-- `widemul(a, b) = (a as u64) * (b as u64)`; cannot overflow for `u32` arguments.
/repo/src/field/u32/karatsuba.rs:293 -/
def widemul (x y : ℕ) : ℕ := x * y

/-- The three accumulators `(accum0, accum1, accum2)`. -/
abbrev Acc := ℕ × ℕ × ℕ

/-- End of a round: `accum1 - accum2`, `accum0 + accum2`. /repo/src/field/u32/karatsuba.rs:305-307,
341-345, 374-375 -/
def sqMid : Acc → Acc
  | (a0, a1, a2) => (wrapAddU64 a0 a2, wrapSubU64 a1 a2, 0)

/-- Body of the loop for `j = 0`. /repo/src/field/u32/karatsuba.rs:308-312 -/
def sq0Body (a aa : ℕ → ℕ) : Acc → ℕ → Acc
  | (a0, a1, a2), i =>
    (wrapSubU64 a0 (shl1U64 (widemul (a i) (a (8 - i)))),
      wrapAddU64 a1 (shl1U64 (widemul (a (8 + i)) (a (16 - i)))),
      wrapAddU64 a2 (shl1U64 (wrapMulU64 (aa i) (aa (8 - i)))))

/-- `j = 0`. Returns `accum0` and `accum1` before masking.
/repo/src/field/u32/karatsuba.rs:300-319 -/
def sqJ0 (a aa : ℕ → ℕ) : ℕ × ℕ :=
  let st : Acc := (0, 0, 0)
  let a2 := wrapAddU64 st.2.2 (widemul (a 0) (a 0))
  let a1 := wrapAddU64 st.2.1 (wrapMulU64 (aa 0) (aa 0))
  let a0 := wrapAddU64 st.1 (widemul (a 8) (a 8))
  let st := sqMid (a0, a1, a2)
  let st := [1, 2, 3].foldl (sq0Body a aa) st
  let a2 := wrapAddU64 st.2.2 (wrapMulU64 (aa 4) (aa 4))
  let a1 := wrapAddU64 (wrapAddU64 st.2.1 (widemul (a 12) (a 12))) a2
  let a0 := wrapAddU64 (wrapSubU64 st.1 (widemul (a 4) (a 4))) a2
  (a0, a1)

/-- Body of the first round for `1 ≤ j < 7`. /repo/src/field/u32/karatsuba.rs:331-339 -/
def sqFirst (a aa : ℕ → ℕ) (j : ℕ) : Acc → ℕ → Acc
  | (a0, a1, a2), i =>
    if i ≠ j - i then
      (wrapAddU64 a0 (shl1U64 (widemul (a (8 + (j - i))) (a (8 + i)))),
        wrapAddU64 a1 (shl1U64 (wrapMulU64 (aa (j - i)) (aa i))),
        wrapAddU64 a2 (shl1U64 (widemul (a (j - i)) (a i))))
    else
      (wrapAddU64 a0 (widemul (a (8 + (j / 2))) (a (8 + (j / 2)))),
        wrapAddU64 a1 (wrapMulU64 (aa (j / 2)) (aa (j / 2))),
        wrapAddU64 a2 (widemul (a (j / 2)) (a (j / 2))))

/-- Body of the second round for `1 ≤ j < 7`. /repo/src/field/u32/karatsuba.rs:347-355 -/
def sqSecond (a aa : ℕ → ℕ) (j : ℕ) : Acc → ℕ → Acc
  | (a0, a1, a2), i =>
    if j + i ≠ 8 - i then
      (wrapSubU64 a0 (shl1U64 (widemul (a (8 - i)) (a (j + i)))),
        wrapAddU64 a1 (shl1U64 (widemul (a (16 - i)) (a (8 + j + i)))),
        wrapAddU64 a2 (shl1U64 (wrapMulU64 (aa (8 - i)) (aa (j + i)))))
    else
      (wrapSubU64 a0 (widemul (a (j + i)) (a (j + i))),
        wrapAddU64 a1 (widemul (a (8 + j + i)) (a (8 + j + i))),
        wrapAddU64 a2 (wrapMulU64 (aa (j + i)) (aa (j + i))))

/-- One iteration `1 ≤ j < 7`, from the carries to `accum0`, `accum1` before masking. The loops run
over `0..(j/2 + 1)` and `1..((8 - j)/2 + 1)`. /repo/src/field/u32/karatsuba.rs:327-358 -/
def sqStep (a aa : ℕ → ℕ) (j : ℕ) (a0 a1 : ℕ) : ℕ × ℕ :=
  let st := (List.range' 0 (j / 2 + 1)).foldl (sqFirst a aa j) (a0, a1, 0)
  let st := sqMid st
  let st := (List.range' 1 ((8 - j) / 2)).foldl (sqSecond a aa j) st
  (wrapAddU64 st.1 st.2.2, wrapAddU64 st.2.1 st.2.2)

/-- Body of the loop for `j = 7`. /repo/src/field/u32/karatsuba.rs:369-373 -/
def sq7Body (a aa : ℕ → ℕ) : Acc → ℕ → Acc
  | (a0, a1, a2), i =>
    (wrapAddU64 a0 (shl1U64 (widemul (a (15 - i)) (a (8 + i)))),
      wrapAddU64 a1 (shl1U64 (wrapMulU64 (aa (7 - i)) (aa i))),
      wrapAddU64 a2 (shl1U64 (widemul (a (7 - i)) (a i))))

/-- `j = 7`. /repo/src/field/u32/karatsuba.rs:368-375 -/
def sqJ7 (a aa : ℕ → ℕ) (a0 a1 : ℕ) : ℕ × ℕ :=
  let st := [0, 1, 2, 3].foldl (sq7Body a aa) (a0, a1, 0)
  let st := sqMid st
  (st.1, st.2.1)

/-- `(accum as u32) & MASK`. /repo/src/field/u32/karatsuba.rs:320-321, 360-361, 376-377 -/
def maskU (z : ℕ) : ℕ := asU32 z &&& MASK

/-- The last step of `square`. /repo/src/field/u32/karatsuba.rs:382-393 -/
def sqFinal (c0 c1 c2 c3 c4 c5 c6 c7 c8 c9 c10 c11 c12 c13 c14 c15 : ℕ) (a0 a1 : ℕ) :
    Option Raw :=
  (ckU64 (a0 + a1)).bind fun a0 =>
  (ckU64 (a0 + c8)).bind fun a0 =>
  (ckU64 (a1 + c0)).bind fun a1 =>
  let c8 := maskU a0
  let c0 := maskU a1
  let a0 := a0 >>> 28
  let a1 := a1 >>> 28
  (ckU32 (c9 + asU32 a0)).bind fun c9 =>
  (ckU32 (c1 + asU32 a1)).bind fun c1 =>
  pack [c0, c1, c2, c3, c4, c5, c6, c7, c8, c9, c10, c11, c12, c13, c14, c15]

/-- `square`. The carries are `accum >>= 28` after each step.
/repo/src/field/u32/karatsuba.rs:287-394 -/
def square (x : Raw) : Option Raw :=
  let a : ℕ → ℕ := x.get
  let aa : ℕ → ℕ := fun i => a i + a (i + 8)
  let s0 := sqJ0 a aa
  let s1 := sqStep a aa 1 (s0.1 >>> 28) (s0.2 >>> 28)
  let s2 := sqStep a aa 2 (s1.1 >>> 28) (s1.2 >>> 28)
  let s3 := sqStep a aa 3 (s2.1 >>> 28) (s2.2 >>> 28)
  let s4 := sqStep a aa 4 (s3.1 >>> 28) (s3.2 >>> 28)
  let s5 := sqStep a aa 5 (s4.1 >>> 28) (s4.2 >>> 28)
  let s6 := sqStep a aa 6 (s5.1 >>> 28) (s5.2 >>> 28)
  let s7 := sqJ7 a aa (s6.1 >>> 28) (s6.2 >>> 28)
  sqFinal (maskU s0.1) (maskU s1.1) (maskU s2.1) (maskU s3.1) (maskU s4.1) (maskU s5.1)
    (maskU s6.1) (maskU s7.1) (maskU s0.2) (maskU s1.2) (maskU s2.2) (maskU s3.2) (maskU s4.2)
    (maskU s5.2) (maskU s6.2) (maskU s7.2) (s7.1 >>> 28) (s7.2 >>> 28)

end Ed448.Model.U32
