import Verif.Model.Machine

/-!
# Model of `src/field/scalar.rs`

Loops over limb indices are structural recursions over limb lists (least significant first);
each call consumes one limb, exactly as one loop iteration does.
-/

namespace Ed448.Model

/-- `struct Scalar(pub(crate) [u32; 14])`. /repo/src/field/scalar.rs:9-13 -/
abbrev Scalar := Arr 14 (2 ^ 32)

/-- Little-endian limbs of `MODULUS = constants::BASEPOINT_ORDER`.
/repo/src/constants.rs:15-18, /repo/src/field/scalar.rs:15 -/
def modulusLimbs : List ℕ :=
  [0xab5844f3, 0x2378c292, 0x8dc58f55, 0x216cc272, 0xaed63690, 0xc44edb49, 0x7cca23e9, 0xffffffff,
    0xffffffff, 0xffffffff, 0xffffffff, 0xffffffff, 0xffffffff, 0x3fffffff]

/-- `MODULUS`. /repo/src/field/scalar.rs:15 -/
def MODULUS : Scalar := ⟨modulusLimbs, rfl, by decide⟩

/-- `R2`. /repo/src/field/scalar.rs:18-21 -/
def R2 : Scalar :=
  ⟨[0x049b9b60, 0xe3539257, 0xc1b195d9, 0x7af32c4b, 0x88ea1859, 0x0d66de23, 0x5ee4d838, 0xae17cf72,
    0xa3c47c44, 0x1a9cc14b, 0xe4d070af, 0x2052bcb7, 0xf823b729, 0x3402a939], rfl, by decide⟩

/-- `R`. /repo/src/field/scalar.rs:22-25 -/
def Rconst : Scalar :=
  ⟨[0x529eec34, 0x721cf5b5, 0xc8e9c2ab, 0x7a4cf635, 0x44a725bf, 0xeec492d9, 0xcd77058, 0x2, 0, 0,
    0, 0, 0, 0], rfl, by decide⟩

/-- `Scalar::zero`. /repo/src/field/scalar.rs:89-91 -/
def Scalar.zero : Scalar := ⟨[0, 0, 0, 0, 0, 0, 0, 0, 0, 0, 0, 0, 0, 0], rfl, by decide⟩

/-- `Scalar::one`. /repo/src/field/scalar.rs:86-88 -/
def Scalar.one : Scalar := ⟨[1, 0, 0, 0, 0, 0, 0, 0, 0, 0, 0, 0, 0, 0], rfl, by decide⟩

/-- `impl From<u32> for Scalar`; the argument is a `u32`. /repo/src/field/scalar.rs:40-44 -/
def Scalar.ofU32 (a : ℕ) (h : a < 2 ^ 32) : Scalar :=
  ⟨[a, 0, 0, 0, 0, 0, 0, 0, 0, 0, 0, 0, 0, 0], rfl, by
    intro x hx
    simp only [List.mem_cons, List.not_mem_nil, or_false] at hx
    rcases hx with rfl | hx
    · exact h
    · rcases hx with rfl | rfl | rfl | rfl | rfl | rfl | rfl | rfl | rfl | rfl | rfl | rfl | rfl <;>
        norm_num⟩

/-! ## Addition and subtraction -/

/-- Loop `chain += a[i] as u64 + b[i] as u64; result[i] = chain as u32; chain >>= 32`; returns the
result limbs and the final `chain`. /repo/src/field/scalar.rs:354-360 -/
def addLoop : ℕ → List ℕ → List ℕ → Option (List ℕ × ℕ)
  | chain, a :: as, b :: bs => do
    let t ← ckU64 (a + b)
    let chain ← ckU64 (chain + t)
    let (r, c) ← addLoop (chain / 2 ^ 32) as bs
    some (asU32 chain :: r, c)
  | chain, _, _ => some ([], chain)

/-- Loop `chain += a[i] as i64 - b[i] as i64; result[i] = chain as u32; chain >>= 32`.
/repo/src/field/scalar.rs:373-379 -/
def subLoop : ℤ → List ℕ → List ℕ → Option (List ℕ × ℤ)
  | chain, a :: as, b :: bs => do
    let t ← ckI64 ((a : ℤ) - (b : ℤ))
    let chain ← ckI64 (chain + t)
    let (r, c) ← subLoop (sarZ chain 32) as bs
    some (asU32Z chain :: r, c)
  | chain, _, _ => some ([], chain)

/-- Loop `chain += result[i] as i64 + ((MODULUS[i] as i64) & borrow); result[i] = chain as u32;
chain >>= 32`. /repo/src/field/scalar.rs:389-395 -/
def addMaskLoop (borrow : ℤ) : ℤ → List ℕ → List ℕ → Option (List ℕ × ℤ)
  | chain, r :: rs, m :: ms => do
    let t ← ckI64 ((r : ℤ) + landI64 m borrow)
    let chain ← ckI64 (chain + t)
    let (out, c) ← addMaskLoop borrow (sarZ chain 32) rs ms
    some (asU32Z chain :: out, c)
  | chain, _, _ => some ([], chain)

/-- `sub_extra` on limb lists. /repo/src/field/scalar.rs:368-398 -/
def subExtraRaw (a b : List ℕ) (carry : ℕ) : Option (List ℕ) := do
  let (result, chain) ← subLoop 0 a b
  let borrow ← ckI64 (chain + (carry : ℤ))
  let (result, _) ← addMaskLoop borrow 0 result modulusLimbs
  some result

/-- `sub_extra`. /repo/src/field/scalar.rs:368-398 -/
def subExtra (a b : Scalar) (carry : ℕ) : Option Scalar :=
  (subExtraRaw a.l b.l carry).bind (Arr.ofList? 14 (2 ^ 32))

/-- `pub fn add` and `impl Add`. /repo/src/field/scalar.rs:60-65, 345-364 -/
def Scalar.add (a b : Scalar) : Option Scalar := do
  let (result, chain) ← addLoop 0 a.l b.l
  (subExtraRaw result modulusLimbs (asU32 chain)).bind (Arr.ofList? 14 (2 ^ 32))

/-- `impl Sub`. /repo/src/field/scalar.rs:73-78 -/
def Scalar.sub (a b : Scalar) : Option Scalar := subExtra a b 0

/-! ## Montgomery multiplication -/

/-- `MONTGOMERY_FACTOR`. /repo/src/field/scalar.rs:401 -/
def MONTGOMERY_FACTOR : ℕ := 0xae918bc5

/-- `mul_add(a, b, c) = (a as u64) * (b as u64) + (c as u64)`. /repo/src/field/scalar.rs:406-407 -/
def mulAdd (a b c : ℕ) : Option ℕ := do
  let t ← ckU64 (a * b)
  ckU64 (t + c)

/-- Inner loop `chain += mul_add(a, y[j], result[j]); result[j] = chain as u32; chain >>= 32`.
/repo/src/field/scalar.rs:411-415 -/
def mulAddLoop (a : ℕ) : ℕ → List ℕ → List ℕ → Option (List ℕ × ℕ)
  | chain, y :: ys, r :: rs => do
    let t ← mulAdd a y r
    let chain ← ckU64 (chain + t)
    let (out, c) ← mulAddLoop a (chain / 2 ^ 32) ys rs
    some (asU32 chain :: out, c)
  | chain, _, _ => some ([], chain)

/-- End of an outer iteration: `chain += saved as u64 + carry as u64; result[13] = chain as u32;
carry = (chain >> 32) as u32`. The second inner loop stores limb `j` in `result[j-1]` and drops
limb 0, here: the tail of the row. /repo/src/field/scalar.rs:421-430 -/
def montFinish (saved carry : ℕ) (sc : List ℕ × ℕ) : Option (List ℕ × ℕ) := do
  let t ← ckU64 (saved + carry)
  let chain ← ckU64 (sc.2 + t)
  some (sc.1.tail ++ [asU32 chain], asU32 (chain / 2 ^ 32))

/-- Reduction half of an outer iteration: `multiplicand = result[0].wrapping_mul(FACTOR)`, then a
row with `MODULUS`. `rc` is the row and chain of the first inner loop.
/repo/src/field/scalar.rs:417-430 -/
def montReduce (carry : ℕ) (rc : List ℕ × ℕ) : Option (List ℕ × ℕ) :=
  (mulAddLoop (wrapMulU32 (rc.1.headD 0) MONTGOMERY_FACTOR) 0 modulusLimbs rc.1).bind
    (montFinish (asU32 rc.2) carry)

/-- One iteration of the outer loop; the state is `(result, carry)`.
/repo/src/field/scalar.rs:409-431 -/
def montStep (y : List ℕ) (st : List ℕ × ℕ) (xi : ℕ) : Option (List ℕ × ℕ) :=
  (mulAddLoop xi 0 y st.1).bind (montReduce st.2)

/-- `montgomery_multiply`. /repo/src/field/scalar.rs:400-434 -/
def montMul (x y : Scalar) : Option Scalar := do
  let (result, carry) ← x.l.foldlM (montStep y.l) (Scalar.zero.l, 0)
  (subExtraRaw result modulusLimbs carry).bind (Arr.ofList? 14 (2 ^ 32))

/-- `impl Mul`. /repo/src/field/scalar.rs:66-72 -/
def Scalar.mul (a b : Scalar) : Option Scalar := do
  let unreduced ← montMul a b
  montMul unreduced R2

/-- `fn square` (stays in Montgomery form). /repo/src/field/scalar.rs:178-180 -/
def Scalar.square (a : Scalar) : Option Scalar := montMul a a

/-! ## Inversion

The loop of `invert` is written over an arbitrary carrier `S` with multiplication `mm`; `invert`
instantiates it with `Scalar` and `montgomery_multiply`. -/

/-- Table `pre_comp`: entry 0 is the argument, entry `last = 7` is first set to its square, then
entries `1..=7` are computed from the previous entry and entry 7.
/repo/src/field/scalar.rs:188-197 -/
def invPre {S : Type} (mm : S → S → Option S) (a : S) : Option (List S) := do
  let sq ← mm a a
  let p1 ← mm a sq
  let p2 ← mm p1 sq
  let p3 ← mm p2 sq
  let p4 ← mm p3 sq
  let p5 ← mm p4 sq
  let p6 ← mm p5 sq
  let p7 ← mm p6 sq
  some [a, p1, p2, p3, p4, p5, p6, p7]

/-- Loop state of the sliding window. /repo/src/field/scalar.rs:183, 200-202 -/
structure InvState (S : Type) where
  result : S
  residue : ℕ
  trailing : ℕ
  started : Bool

/-- `if started != 0 { result = result.square() }`. /repo/src/field/scalar.rs:208-210 -/
def invSquare {S : Type} (mm : S → S → Option S) (started : Bool) (result : S) : Option S :=
  if started then mm result result else some result

/-- The word `w`: limb `i / 32` of the modulus, minus 2 in the lowest limb, or 0 for negative `i`.
/repo/src/field/scalar.rs:212-221 -/
def invWord (i : ℤ) : Option ℕ :=
  let w := if 0 ≤ i then modulusLimbs.getD (i / 32).toNat 0 else 0
  if 0 ≤ i ∧ i < 32 then ckSub w 2 else some w

/-- New `(trailing, residue)` from the old ones and `w`. /repo/src/field/scalar.rs:223-227 -/
def invWindow (i : ℤ) (w residue trailing : ℕ) : ℕ × ℕ :=
  let residue := asU32 (residue * 2) ||| ((w >>> (asU32Z i % 32)) &&& 1)
  if residue >>> 3 ≠ 0 then (residue, 0) else (trailing, residue)

/-- `if started != 0 { montgomery_multiply(&result, &e) } else { e }`.
/repo/src/field/scalar.rs:230-238 -/
def invMul {S : Type} (mm : S → S → Option S) (started : Bool) (result e : S) : Option S :=
  if started then mm result e else some e

/-- Use of the table when the window is complete. /repo/src/field/scalar.rs:229-241 -/
def invApply {S : Type} (mm : S → S → Option S) (pre : List S) (started : Bool) (result : S)
    (tr : ℕ × ℕ) : Option (InvState S) :=
  if 0 < tr.1 ∧ tr.1 &&& 7 = 0 then
    pre[tr.1 >>> 4]?.bind fun e =>
      (invMul mm started result e).bind fun r => some ⟨r, tr.2, 0, true⟩
  else some ⟨result, tr.2, tr.1 * 2, started⟩

/-- One iteration with loop variable `i`. `none` is an overflow panic or an out-of-range table
index. /repo/src/field/scalar.rs:207-242 -/
def invStep {S : Type} (mm : S → S → Option S) (pre : List S) (st : InvState S) (i : ℤ) :
    Option (InvState S) :=
  (invSquare mm st.started st.result).bind fun result =>
    (invWord i).bind fun w =>
      invApply mm pre st.started result (invWindow i w st.residue st.trailing)

/-- The values of `i` in `(-3 ..= 445).rev()`. /repo/src/field/scalar.rs:205-207 -/
def invIndices : List ℤ := (List.range 449).map fun k => 445 - (k : ℤ)

/-- The whole loop. /repo/src/field/scalar.rs:186-242 -/
def invLoop {S : Type} (mm : S → S → Option S) (zero a : S) : Option S := do
  let pre ← invPre mm a
  let st ← invIndices.foldlM (invStep mm pre) ⟨zero, 0, 0, false⟩
  some st.result

/-- `invert`. /repo/src/field/scalar.rs:181-247 -/
def Scalar.invert (a : Scalar) : Option Scalar := do
  let am ← montMul a R2
  let result ← invLoop montMul Scalar.zero am
  montMul result Scalar.one

/-! ## Halving and division by four -/

/-- Loop `chain += self[i] as u64 + (MODULUS[i] & mask) as u64; result[i] = chain as u32;
chain >>= 32`. /repo/src/field/scalar.rs:256-260 -/
def halveLoop (mask : ℕ) : ℕ → List ℕ → List ℕ → Option (List ℕ × ℕ)
  | chain, a :: as, m :: ms => do
    let t ← ckU64 (a + (m &&& mask))
    let chain ← ckU64 (chain + t)
    let (r, c) ← halveLoop mask (chain / 2 ^ 32) as ms
    some (asU32 chain :: r, c)
  | chain, _, _ => some ([], chain)

/-- Loop `result[i] = (result[i] >> 1) | (result[i+1] << 31)`; in the last limb the final `chain`
plays the role of the next limb. Bits shifted out of a word are dropped.
/repo/src/field/scalar.rs:262-265 -/
def shr1Loop (chain : ℕ) : List ℕ → List ℕ
  | [] => []
  | [x] => [(x >>> 1) ||| asU32 (chain <<< 31 % 2 ^ 64)]
  | x :: y :: rest => ((x >>> 1) ||| asU32 (y <<< 31)) :: shr1Loop chain (y :: rest)

/-- `mask = 0u32.wrapping_sub(self[0] & 1)`. /repo/src/field/scalar.rs:253 -/
def halveMask (limb0 : ℕ) : ℕ := if limb0 &&& 1 = 1 then 2 ^ 32 - 1 else 0

/-- `halve`. /repo/src/field/scalar.rs:250-268 -/
def Scalar.halve (a : Scalar) : Option Scalar :=
  (halveLoop (halveMask (a.l.headD 0)) 0 a.l modulusLimbs).bind fun rc =>
    Arr.ofList? 14 (2 ^ 32) (shr1Loop rc.2 rc.1)

/-- `div_by_four` on limbs. /repo/src/field/scalar.rs:95-100 -/
def shr2Loop : List ℕ → List ℕ
  | [] => []
  | [x] => [x >>> 2]
  | x :: y :: rest => (asU32 (y <<< 30) ||| (x >>> 2)) :: shr2Loop (y :: rest)

/-- `div_by_four`. /repo/src/field/scalar.rs:92-100 -/
def Scalar.divByFour (a : Scalar) : Option Scalar := Arr.ofList? 14 (2 ^ 32) (shr2Loop a.l)

/-! ## Codecs -/

/-- `from_bytes` on lists: groups of four bytes, `b0 | b1 << 8 | b2 << 16 | b3 << 24`.
/repo/src/field/scalar.rs:149-165 -/
def fromBytesRaw : List ℕ → List ℕ
  | b0 :: b1 :: b2 :: b3 :: rest =>
    asU32 (b0 ||| (b1 <<< 8) ||| (b2 <<< 16) ||| (b3 <<< 24)) :: fromBytesRaw rest
  | _ => []

/-- `to_bytes` on lists: each limb gives `l as u8`, then `l >>= 8`, four times.
/repo/src/field/scalar.rs:166-177 -/
def toBytesRaw : List ℕ → List ℕ
  | [] => []
  | l :: ls =>
    asU8 l :: asU8 (l >>> 8) :: asU8 (l >>> 8 >>> 8) :: asU8 (l >>> 8 >>> 8 >>> 8) :: toBytesRaw ls

theorem fromBytesRaw_len : ∀ l : List ℕ, (fromBytesRaw l).length = l.length / 4
  | b0 :: b1 :: b2 :: b3 :: rest => by
    simp only [fromBytesRaw, List.length_cons, fromBytesRaw_len rest]; omega
  | [] => rfl
  | [_] => by simp [fromBytesRaw]
  | [_, _] => by simp [fromBytesRaw]
  | [_, _, _] => by simp [fromBytesRaw]

theorem fromBytesRaw_lt : ∀ l : List ℕ, ∀ x ∈ fromBytesRaw l, x < 2 ^ 32
  | b0 :: b1 :: b2 :: b3 :: rest => by
    simp only [fromBytesRaw, List.mem_cons]
    rintro x (rfl | h)
    · exact Nat.mod_lt _ (by norm_num)
    · exact fromBytesRaw_lt rest x h
  | [] => by simp [fromBytesRaw]
  | [_] => by simp [fromBytesRaw]
  | [_, _] => by simp [fromBytesRaw]
  | [_, _, _] => by simp [fromBytesRaw]

theorem toBytesRaw_len : ∀ l : List ℕ, (toBytesRaw l).length = 4 * l.length
  | [] => rfl
  | _ :: ls => by simp only [toBytesRaw, List.length_cons, toBytesRaw_len ls]; omega

theorem toBytesRaw_lt : ∀ l : List ℕ, ∀ x ∈ toBytesRaw l, x < 256
  | [] => by simp [toBytesRaw]
  | l :: ls => by
    simp only [toBytesRaw, List.mem_cons]
    rintro x (rfl | rfl | rfl | rfl | h)
    iterate 4 exact Nat.mod_lt _ (by norm_num)
    exact toBytesRaw_lt ls x h

/-- `from_bytes`. /repo/src/field/scalar.rs:149-165 -/
def Scalar.fromBytes (b : Bytes 56) : Scalar :=
  ⟨fromBytesRaw b.l, by rw [fromBytesRaw_len, b.len], fromBytesRaw_lt _⟩

/-- `to_bytes`. /repo/src/field/scalar.rs:166-177 -/
def Scalar.toBytes (s : Scalar) : Bytes 56 :=
  ⟨toBytesRaw s.l, by rw [toBytesRaw_len, s.len], toBytesRaw_lt _⟩

/-- `ct_eq`, `PartialEq`: comparison of the serialisations. /repo/src/field/scalar.rs:27-38 -/
def Scalar.eq (a b : Scalar) : Bool := decide (a.toBytes = b.toBytes)

/-- `std::array::from_fn(|i| bytes[off + i])` for a byte array. -/
def Bytes.slice {n : ℕ} (b : Bytes n) (off m : ℕ) (h : off + m ≤ n) : Bytes m where
  l := (b.l.drop off).take m
  len := by rw [List.length_take, List.length_drop, b.len]; omega
  lt := fun x hx => b.lt x (List.mem_of_mem_drop (List.mem_of_mem_take hx))

/-- `from_canonical_bytes`: outer `none` is a panic, inner `none` is Rust's `None`.
/repo/src/field/scalar.rs:277-292 -/
def Scalar.fromCanonicalBytes (bytes : Bytes 57) : Option (Option Scalar) :=
  if Arr.get bytes 56 ≠ 0 ∨ Arr.get bytes 55 >>> 6 ≠ 0 then some none
  else do
    let candidate := Scalar.fromBytes (Bytes.slice bytes 0 56 (by norm_num))
    let reduced ← subExtra candidate MODULUS 0
    some (if Scalar.eq candidate reduced then some candidate else none)

/-- `to_bytes_rfc_8032`. /repo/src/field/scalar.rs:296-300 -/
def Scalar.toBytesRfc8032 (s : Scalar) : Bytes 57 where
  l := s.toBytes.l ++ [0]
  len := by rw [List.length_append, s.toBytes.len]; rfl
  lt := by
    intro x hx
    rcases List.mem_append.mp hx with h | h
    · exact s.toBytes.lt x h
    · rw [List.mem_singleton.mp h]; norm_num

/-- `top`: two bytes padded with zeros. /repo/src/field/scalar.rs:316-318 -/
def wideTop (input : Bytes 114) : Bytes 56 where
  l := input.l.drop 112 ++ List.replicate 54 0
  len := by rw [List.length_append, List.length_drop, input.len, List.length_replicate]
  lt := by
    intro x hx
    rcases List.mem_append.mp hx with h | h
    · exact input.lt x (List.mem_of_mem_drop h)
    · rw [List.eq_of_mem_replicate h]; norm_num

/-- `from_bytes_mod_order_wide`. /repo/src/field/scalar.rs:304-326 -/
def Scalar.fromBytesModOrderWide (input : Bytes 114) : Option Scalar := do
  let lo ← montMul (Scalar.fromBytes (Bytes.slice input 0 56 (by norm_num))) Rconst
  let hi ← montMul (Scalar.fromBytes (Bytes.slice input 56 56 (by norm_num))) R2
  let top ← montMul (Scalar.fromBytes (wideTop input)) R2
  let top ← montMul top R2
  let s ← Scalar.add lo hi
  Scalar.add s top

/-- `random`: `fill` is the 114 bytes the generator writes. /repo/src/field/scalar.rs:338-342 -/
def Scalar.random (fill : Bytes 114) : Option Scalar := Scalar.fromBytesModOrderWide fill

/-! ## Digit expansions -/

/-- `bits`: for each limb, `limb & (1 << j) != 0` for `j` in `0..32`.
/repo/src/field/scalar.rs:135-148 -/
def Scalar.bits (s : Scalar) : List Bool :=
  s.l.flatMap fun limb => (List.range 32).map fun j => decide (limb &&& (1 <<< j) ≠ 0)

/-- Nibbles: `bot_half`, `top_half` of each byte, as `i8`. /repo/src/field/scalar.rs:111-124 -/
def nibbles : List ℕ → List ℤ
  | [] => []
  | b :: bs => ((b >>> 0 &&& 15 : ℕ) : ℤ) :: ((b >>> 4 &&& 15 : ℕ) : ℤ) :: nibbles bs

/-- Re-centering loop: `carry = (output[i] + 8) >> 4; output[i] -= carry << 4;
output[i+1] += carry`, for all digits but the last. The pending addition `output[i+1] += carry` is
passed on as the argument `c`. `carry << 4` is an `i8` shift and drops high bits; the carry is 0 or
1 for nibble input, so nothing is dropped. /repo/src/field/scalar.rs:125-130 -/
def recenter : ℤ → List ℤ → Option (List ℤ)
  | _, [] => some []
  | c, x :: rest => do
    let x ← ckI8 (x + c)
    if rest.isEmpty then some [x]
    else do
      let t ← ckI8 (x + 8)
      let carry := sarZ t 4
      let x ← ckI8 (x - carry * 16)
      let r ← recenter carry rest
      some (x :: r)

/-- `to_radix_16`: 112 nibbles and a final zero digit, then re-centred.
/repo/src/field/scalar.rs:105-133 -/
def Scalar.toRadix16 (s : Scalar) : Option (List ℤ) :=
  recenter 0 (nibbles s.toBytes.l ++ [0])

end Ed448.Model
