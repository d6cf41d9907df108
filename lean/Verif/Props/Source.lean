import Verif.Proofs.SourceCurve
import Verif.Proofs.SourceFiat
import Verif.Proofs.SourceU32Bytes
import Verif.Proofs.FiatInstance
import Verif.Props.Field
import Verif.Props.Edwards
import Verif.Props.Montgomery
import Verif.Props.Decaf

/-!
# Properties of the mechanically translated source (C64–C67)

`Ed448.Gen` is written by tools/rust2lean.py from the Rust text; it shares no definition with the
hand-written model except the checked machine operations and the names of the point structures. The
statements here are about `Gen` only: arrays are lists of numbers, `some` means "no panic".
-/

namespace Ed448.Props
open Ed448.Model Ed448.Edw Ed448.Proofs
open FieldVal (val)

set_option exponentiation.threshold 1000
set_option maxRecDepth 10000

/-- A Rust array of `n` unsigned words below `B`. -/
def Words (n B : ℕ) (l : List ℕ) : Prop := l.length = n ∧ ∀ x ∈ l, x < B

/-- The little-endian value of an array of words. -/
def wval (B : ℕ) (l : List ℕ) : ℕ := Nat.ofDigits B l

/-- An array as a bounded array of the model. -/
def Words.arr {n B : ℕ} {l : List ℕ} (h : Words n B l) : Arr n B := ⟨l, h.1, h.2⟩

theorem Arr.words {n B : ℕ} (a : Arr n B) : Words n B a.l := ⟨a.len, a.lt⟩

/-! ## C64: scalars -/

/-- `+`, `-`, `*` of src/field/scalar.rs. `*` needs no canonical operands. -/
theorem C64_source_scalar_ring {a b : List ℕ} (ha : Words 14 (2 ^ 32) a) (hb : Words 14 (2 ^ 32) b) :
    (∃ r, Gen.Scalar.op_mul a b = some r ∧ Words 14 (2 ^ 32) r ∧
      wval (2 ^ 32) r = wval (2 ^ 32) a * wval (2 ^ 32) b % ell) ∧
    (wval (2 ^ 32) a < ell → wval (2 ^ 32) b < ell →
      (∃ r, Gen.Scalar.op_add a b = some r ∧ Words 14 (2 ^ 32) r ∧
        wval (2 ^ 32) r = (wval (2 ^ 32) a + wval (2 ^ 32) b) % ell) ∧
      (∃ r, Gen.Scalar.op_sub a b = some r ∧ Words 14 (2 ^ 32) r ∧
        (wval (2 ^ 32) r : ℤ) = ((wval (2 ^ 32) a : ℤ) - wval (2 ^ 32) b) % ell)) := by
  refine ⟨?_, fun h h' => ⟨?_, ?_⟩⟩
  · obtain ⟨r, e, hr, -⟩ := C03_scalar_mul ha.arr hb.arr
    exact ⟨r.l, (Source.op_mul ha.arr hb.arr).trans (by rw [e]; rfl), Arr.words r, hr⟩
  · obtain ⟨r, e, hr, -⟩ := C01_scalar_add ha.arr hb.arr h h'
    exact ⟨r.l, (Source.op_add ha.arr hb.arr).trans (by rw [e]; rfl), Arr.words r, hr⟩
  · obtain ⟨r, e, hr, -⟩ := C02_scalar_sub ha.arr hb.arr h h'
    exact ⟨r.l, (Source.op_sub ha.arr hb.arr).trans (by rw [e]; rfl), Arr.words r, hr⟩

/-- `invert` and `halve` of src/field/scalar.rs on any array of words. -/
theorem C64_source_scalar_invert {a : List ℕ} (ha : Words 14 (2 ^ 32) a) :
    (∃ r, Gen.Scalar.invert a = some r ∧ Words 14 (2 ^ 32) r ∧ wval (2 ^ 32) r < ell ∧
      (¬ ell ∣ wval (2 ^ 32) a → Gen.Scalar.op_mul a r = some Gen.Scalar.one) ∧
      (ell ∣ wval (2 ^ 32) a → r = Gen.Scalar.zero)) ∧
    (∃ r, Gen.Scalar.halve a = some r ∧ Words 14 (2 ^ 32) r ∧
      2 * wval (2 ^ 32) r ≡ wval (2 ^ 32) a [MOD ell]) := by
  constructor
  · obtain ⟨r, e, h1, h2, h3⟩ := C04_scalar_invert ha.arr
    refine ⟨r.l, (Source.invert ha.arr).trans (by rw [e]; rfl), Arr.words r, h1, fun h => ?_, fun h => ?_⟩
    · obtain ⟨m, em, rfl⟩ := h2 h
      exact (Source.op_mul ha.arr r).trans (by rw [em]; rfl)
    · rw [h3 h]; rfl
  · obtain ⟨r, e, h1, -⟩ := C05_scalar_halve ha.arr
    exact ⟨r.l, (Source.halve ha.arr).trans (by rw [e]; rfl), Arr.words r, h1⟩

/-- The byte encodings of src/field/scalar.rs: `to_bytes` and `from_bytes` keep the value,
`from_canonical_bytes` accepts exactly the values below the order, the wide reduction reduces. -/
theorem C64_source_scalar_codec :
    (∀ a, Words 14 (2 ^ 32) a → ∃ r, Gen.Scalar.to_bytes a = some r ∧ Words 56 256 r ∧
      wval 256 r = wval (2 ^ 32) a) ∧
    (∀ b, Words 56 256 b → ∃ r, Gen.Scalar.from_bytes b = some r ∧ Words 14 (2 ^ 32) r ∧
      wval (2 ^ 32) r = wval 256 b) ∧
    (∀ b, Words 57 256 b → (wval 256 b < ell → ∃ r, Gen.Scalar.from_canonical_bytes b = some (some r) ∧
        wval (2 ^ 32) r = wval 256 b ∧ Gen.Scalar.to_bytes_rfc_8032 r = some b) ∧
      (ell ≤ wval 256 b → Gen.Scalar.from_canonical_bytes b = some none)) ∧
    (∀ b, Words 114 256 b → ∃ r, Gen.Scalar.from_bytes_mod_order_wide b = some r ∧
      Words 14 (2 ^ 32) r ∧ wval (2 ^ 32) r = wval 256 b % ell) := by
  refine ⟨fun a ha => ?_, fun b hb => ?_, fun b hb => ?_, fun b hb => ?_⟩
  · exact ⟨_, Source.to_bytes ha.arr, Arr.words _, C06_scalar_codec.2.2.1 ha.arr⟩
  · exact ⟨_, Source.from_bytes hb.arr, Arr.words _, C06_scalar_codec.2.2.2 hb.arr⟩
  · obtain ⟨o, e, h1, h2⟩ := C07_from_canonical_bytes hb.arr
    have e' := (Source.from_canonical_bytes hb.arr).trans (by rw [e])
    refine ⟨fun h => ?_, fun h => ?_⟩
    · obtain ⟨s, rfl, hs, ht⟩ := h1 h
      refine ⟨s.l, e'.trans rfl, hs, ?_⟩
      rw [Source.to_bytes_rfc_8032, ht]; rfl
    · rw [h2 h] at e'
      exact e'.trans rfl
  · obtain ⟨r, e, h1, -⟩ := C08_wide_reduction hb.arr
    exact ⟨r.l, (Source.from_bytes_mod_order_wide hb.arr).trans (by rw [e]; rfl), Arr.words r, h1⟩

/-- The decompositions used by the multiplication routines: `bits` and `to_radix_16`. -/
theorem C64_source_scalar_digits {a : List ℕ} (ha : Words 14 (2 ^ 32) a) :
    (∃ r, Gen.Scalar.bits a = some r ∧ r.length = 448 ∧
      Nat.ofDigits 2 (r.map Bool.toNat) = wval (2 ^ 32) a) ∧
    (∃ r, Gen.Scalar.to_radix_16 a = some r ∧ r.length = 113 ∧
      (∀ i, i < 113 → -8 ≤ r.getD i 0 ∧ r.getD i 0 < 8) ∧
      r.foldr (fun d acc => d + 16 * acc) 0 = (wval (2 ^ 32) a : ℤ)) := by
  constructor
  · obtain ⟨h1, h2, -⟩ := C10_scalar_bits ha.arr
    exact ⟨_, Source.bits ha.arr, h1, h2⟩
  · obtain ⟨r, e, h1, h2, h3, h4⟩ := C27_radix16 ha.arr
    refine ⟨r, (Source.to_radix_16 ha.arr).trans e, h1, fun i hi => ?_, h4⟩
    by_cases h : i < 112
    · exact h2 i h
    · obtain rfl : i = 112 := by omega
      rcases h3 with h | h <;> rw [h] <;> decide

/-- The translated code computes `(l - 1) * (l - 1) = 1` and `(2^448 - 1)^2 mod l`. -/
example : Gen.Scalar.op_mul lMinusOne.l lMinusOne.l = some Gen.Scalar.one := by
  obtain ⟨⟨r, e, hr, hv⟩, -⟩ := C64_source_scalar_ring (Arr.words lMinusOne) (Arr.words lMinusOne)
  rw [e]
  have h1 : wval (2 ^ 32) lMinusOne.l = ell - 1 := lMinusOne_val
  rw [h1] at hv
  have h2 : (ell - 1) * (ell - 1) % ell = 1 := by rw [ell_lit]
  rw [h2] at hv
  have : hr.arr = Scalar.one := Arr.val_inj (by norm_num) (hv.trans (by decide +kernel))
  exact congrArg some (congrArg Arr.l this)

example : ∃ r, Gen.Scalar.op_mul allOnes.l allOnes.l = some r ∧
    wval (2 ^ 32) r = ((2 ^ 32) ^ 14 - 1) * ((2 ^ 32) ^ 14 - 1) % ell := by
  obtain ⟨⟨r, e, -, hv⟩, -⟩ := C64_source_scalar_ring (Arr.words allOnes) (Arr.words allOnes)
  have h1 : wval (2 ^ 32) allOnes.l = (2 ^ 32) ^ 14 - 1 := allOnes_val
  exact ⟨r, e, by rw [hv, h1]⟩

/-! ## C65: the 32-bit field -/

/-- A Rust `FieldElement28` within the limb bound of C44. -/
def Limbs28 (l : List ℕ) : Prop := l.length = 16 ∧ ∀ x ∈ l, x ≤ 2 ^ 28 + 2 ^ 8

def Limbs28.raw {l : List ℕ} (h : Limbs28 l) : U32.Raw :=
  ⟨l, h.1, fun x hx => lt_of_le_of_lt (h.2 x hx) (by norm_num)⟩

theorem limbs28 {r : U32.Raw} (h : InBound r) : Limbs28 r.l := ⟨r.len, h⟩

/-- The arithmetic of src/field/u32: no panic, the limb bound is kept, the value is right. -/
theorem C65_source_field_arithmetic {a b : List ℕ} (ha : Limbs28 a) (hb : Limbs28 b) :
    (∃ r, Gen.FieldElement28.op_add a b = some r ∧ Limbs28 r ∧
      (wval (2 ^ 28) r : Fp) = wval (2 ^ 28) a + wval (2 ^ 28) b) ∧
    (∃ r, Gen.FieldElement28.op_sub a b = some r ∧ Limbs28 r ∧
      (wval (2 ^ 28) r : Fp) = wval (2 ^ 28) a - wval (2 ^ 28) b) ∧
    (∃ r, Gen.FieldElement28.op_mul a b = some r ∧ Limbs28 r ∧
      (wval (2 ^ 28) r : Fp) = wval (2 ^ 28) a * wval (2 ^ 28) b) ∧
    (∃ r, Gen.FieldElement28.square a = some r ∧ Limbs28 r ∧
      (wval (2 ^ 28) r : Fp) = (wval (2 ^ 28) a : Fp) ^ 2) ∧
    (∃ r, Gen.FieldElement28.negate a = some r ∧ Limbs28 r ∧
      (wval (2 ^ 28) r : Fp) = -(wval (2 ^ 28) a : Fp)) := by
  obtain ⟨⟨r1, e1, b1, v1⟩, ⟨r2, e2, b2, v2⟩, ⟨r3, e3, b3, v3⟩, ⟨r4, e4, b4, v4⟩, ⟨r5, e5, b5, v5⟩⟩ :=
    C44_u32_arithmetic ha.raw hb.raw ha.2 hb.2
  exact ⟨⟨r1.l, (Source.fe_add ha.raw hb.raw).trans (by rw [e1]; rfl), limbs28 b1, v1⟩,
    ⟨r2.l, (Source.fe_sub ha.raw hb.raw).trans (by rw [e2]; rfl), limbs28 b2, v2⟩,
    ⟨r3.l, (Source.fe_mul ha.raw hb.raw).trans (by rw [e3]; rfl), limbs28 b3, v3⟩,
    ⟨r4.l, (Source.fe_square ha.raw).trans (by rw [e4]; rfl), limbs28 b4, v4⟩,
    ⟨r5.l, (Source.fe_negate ha.raw).trans (by rw [e5]; rfl), limbs28 b5, v5⟩⟩

/-- The serialisation of src/field/u32: `to_bytes` writes the canonical residue, `from_bytes` reads. -/
theorem C65_source_field_codec {a b : List ℕ} (ha : Limbs28 a) (hb : Words 56 256 b) :
    (∃ r, Gen.FieldElement28.to_bytes a = some r ∧ Words 56 256 r ∧
      wval 256 r = wval (2 ^ 28) a % p) ∧
    (∃ r, Gen.FieldElement28.from_bytes b = some r ∧ Limbs28 r ∧
      (wval (2 ^ 28) r : Fp) = (wval 256 b : Fp)) := by
  obtain ⟨⟨r, e, h⟩, ⟨s, e', h1, h2⟩⟩ := C45_u32_codec ha.raw ha.2 hb.arr
  exact ⟨⟨r.l, (Source.fe_to_bytes ha.raw).trans (by rw [e]; rfl), Arr.words r, h⟩,
    ⟨s.l, (Source.fe_from_bytes hb.arr).trans (by rw [e']; rfl), limbs28 h1, h2⟩⟩

/-- The largest element within the bound, squared. -/
example : ∃ r, Gen.FieldElement28.op_mul (List.replicate 16 (2 ^ 28 + 2 ^ 8))
    (List.replicate 16 (2 ^ 28 + 2 ^ 8)) = some r ∧ Limbs28 r := by
  have h : Limbs28 (List.replicate 16 (2 ^ 28 + 2 ^ 8)) := by unfold Limbs28; decide
  obtain ⟨-, -, ⟨r, e, hr, -⟩, -⟩ := C65_source_field_arithmetic h h
  exact ⟨r, e, hr⟩

/-- Just outside the bound the translated subtraction does panic, so the bound is not vacuous. -/
example : Gen.FieldElement28.op_sub (List.replicate 16 0) (List.replicate 16 (2 ^ 29)) = none := by
  decide +kernel

/-! ## C66: the interface used by the curve code is the translated backend -/

/-- The operations of the instances are those of the model, which never panic. -/
theorem u32_ops (x y : U32.Fe) (b : Bytes 56) :
    U32.mul x.1 y.1 = some (FieldBackend.mul x y).1 ∧ U32.add x.1 y.1 = some (FieldBackend.add x y).1 ∧
    U32.sub x.1 y.1 = some (FieldBackend.sub x y).1 ∧ U32.square x.1 = some (FieldBackend.square x).1 ∧
    U32.negate x.1 = some (FieldBackend.negate x).1 ∧
    U32.strongReduce x.1 = some (FieldBackend.strongReduce x).1 ∧
    U32.toBytes x.1 = some (FieldBackend.toBytes x) ∧
    U32.fromBytes b = some (FieldBackend.fromBytes b : U32.Fe).1 :=
  ⟨U32.ofOpt_some _ (let ⟨r, h, t, _⟩ := U32.mul_spec x.2 y.2; ⟨r, h, t⟩),
    U32.ofOpt_some _ (let ⟨r, h, t, _⟩ := U32.add_spec x.2 y.2; ⟨r, h, t⟩),
    U32.ofOpt_some _ (let ⟨r, h, t, _⟩ := U32.sub_spec x.2 y.2; ⟨r, h, t⟩),
    U32.ofOpt_some _ (let ⟨r, h, t, _⟩ := U32.square_spec x.2; ⟨r, h, t⟩),
    U32.ofOpt_some _ (let ⟨r, h, t, _⟩ := U32.negate_spec x.2; ⟨r, h, t⟩),
    U32.ofOpt_some _ (let ⟨r, h, t, _⟩ := U32.strongReduce_spec x.2; ⟨r, h, U32.tight_of_lt t⟩),
    U32.ofOptB_some _ (let ⟨r, h, _⟩ := U32.toBytes_spec x.2; ⟨r, h⟩),
    U32.ofOpt_some _ (let ⟨r, h, t, _⟩ := U32.fromBytes_spec b; ⟨r, h, U32.tight_of_lt t⟩)⟩

/-- Every operation of the 32-bit instance is the translated function of src/field/u32. -/
theorem C66_source_backend_u32 :
    (∀ x y : U32.Fe, Gen.FieldElement28.op_mul x.1.l y.1.l = some (FieldBackend.mul x y).1.l ∧
      Gen.FieldElement28.op_add x.1.l y.1.l = some (FieldBackend.add x y).1.l ∧
      Gen.FieldElement28.op_sub x.1.l y.1.l = some (FieldBackend.sub x y).1.l ∧
      ∀ c, Gen.FieldElement28.conditional_select x.1.l y.1.l c = (FieldBackend.select x y c).1.l) ∧
    (∀ x : U32.Fe, Gen.FieldElement28.square x.1.l = some (FieldBackend.square x).1.l ∧
      Gen.FieldElement28.negate x.1.l = some (FieldBackend.negate x).1.l ∧
      Gen.FieldElement28.strong_reduce x.1.l = some (FieldBackend.strongReduce x).1.l ∧
      Gen.FieldElement28.to_bytes x.1.l = some (FieldBackend.toBytes x).l ∧
      Gen.FieldElement28.is_negative x.1.l = some (FieldBackend.isNegative x) ∧
      ∀ c, Gen.FieldElement28.conditional_negate x.1.l c = some (FieldBackend.condNegate x c).1.l) ∧
    (∀ b : Bytes 56, Gen.FieldElement28.from_bytes b.l =
      some (FieldBackend.fromBytes b : U32.Fe).1.l) ∧
    Gen.FieldElement28.zero = (FieldBackend.zero : U32.Fe).1.l ∧
    Gen.FieldElement28.one = (FieldBackend.one : U32.Fe).1.l ∧
    Gen.FieldElement28.minus_one = (FieldBackend.minusOne U32.Fe : U32.Fe).1.l ∧
    Gen.C.EDWARDS_D = (FieldBackend.EDWARDS_D U32.Fe : U32.Fe).1.l ∧
    Gen.C.TWISTED_D = (FieldBackend.TWISTED_D U32.Fe : U32.Fe).1.l ∧
    Gen.C.TWO_TIMES_TWISTED_D = (FieldBackend.TWO_TIMES_TWISTED_D U32.Fe : U32.Fe).1.l ∧
    Gen.C.NEG_EDWARDS_D = (FieldBackend.NEG_EDWARDS_D : U32.Fe).1.l ∧
    Gen.C.NEG_FOUR_TIMES_TWISTED_D = (FieldBackend.NEG_FOUR_TIMES_TWISTED_D : U32.Fe).1.l ∧
    Gen.C.DECAF_FACTOR = (FieldBackend.DECAF_FACTOR : U32.Fe).1.l ∧
    Gen.C.A_PLUS_TWO_OVER_FOUR = (FieldBackend.A_PLUS_TWO_OVER_FOUR : U32.Fe).1.l ∧
    (let P : U32.Fe × U32.Fe × U32.Fe × U32.Fe := FieldBackend.GOLDILOCKS_BASE_POINT
     Gen.C.GOLDILOCKS_BASE_POINT = (P.1.1.l, P.2.1.1.l, P.2.2.1.1.l, P.2.2.2.1.l)) ∧
    (let P : U32.Fe × U32.Fe × U32.Fe × U32.Fe := FieldBackend.TWISTED_EDWARDS_BASE_POINT
     Gen.C.TWISTED_EDWARDS_BASE_POINT = (P.1.1.l, P.2.1.1.l, P.2.2.1.1.l, P.2.2.2.1.l)) := by
  refine ⟨fun x y => ⟨?_, ?_, ?_, fun c => Source.fe_select _ _ _⟩,
    fun x => ⟨?_, ?_, ?_, ?_, ?_, fun c => ?_⟩, fun b => ?_, rfl, rfl, rfl, rfl, rfl, rfl, rfl, rfl, rfl,
    rfl, rfl, rfl⟩
  · rw [Source.fe_mul, (u32_ops x y (FieldBackend.toBytes x)).1]; rfl
  · rw [Source.fe_add, (u32_ops x y (FieldBackend.toBytes x)).2.1]; rfl
  · rw [Source.fe_sub, (u32_ops x y (FieldBackend.toBytes x)).2.2.1]; rfl
  · rw [Source.fe_square, (u32_ops x x (FieldBackend.toBytes x)).2.2.2.1]; rfl
  · rw [Source.fe_negate, (u32_ops x x (FieldBackend.toBytes x)).2.2.2.2.1]; rfl
  · rw [Source.strong_reduce, (u32_ops x x (FieldBackend.toBytes x)).2.2.2.2.2.1]; rfl
  · rw [Source.fe_to_bytes, (u32_ops x x (FieldBackend.toBytes x)).2.2.2.2.2.2.1]; rfl
  · rw [Source.fe_is_negative, (u32_ops x x (FieldBackend.toBytes x)).2.2.2.2.2.2.1]; rfl
  · rw [Source.fe_condNegate, (u32_ops x x (FieldBackend.toBytes x)).2.2.2.2.1]; rfl
  · rw [Source.fe_from_bytes, (u32_ops FieldBackend.zero FieldBackend.zero b).2.2.2.2.2.2.2]; rfl

/-- Every operation of the 64-bit instance is the translated wrapper of src/field/fiat_u64 around
functions `I.f` that meet the contract of the external crate. -/
theorem C66_source_backend_fiat (I : Fiat.Impl) :
    (∀ x y : Fiat.Fe I, Gen.FieldElement56.op_mul I.f x.a.l y.a.l = some (FieldBackend.mul x y).a.l ∧
      Gen.FieldElement56.op_add I.f x.a.l y.a.l = some (FieldBackend.add x y).a.l ∧
      Gen.FieldElement56.op_sub I.f x.a.l y.a.l = some (FieldBackend.sub x y).a.l ∧
      ∀ c, Gen.FieldElement56.conditional_select I.f x.a.l y.a.l c =
        some (FieldBackend.select x y c).a.l) ∧
    (∀ x : Fiat.Fe I, Gen.FieldElement56.square I.f x.a.l = some (FieldBackend.square x).a.l ∧
      Gen.FieldElement56.negate I.f x.a.l = some (FieldBackend.negate x).a.l ∧
      Gen.FieldElement56.strong_reduce I.f x.a.l = some (FieldBackend.strongReduce x).a.l ∧
      Gen.FieldElement56.to_bytes I.f x.a.l = some (FieldBackend.toBytes x).l ∧
      Gen.FieldElement56.is_negative I.f x.a.l = some (FieldBackend.isNegative x) ∧
      ∀ c, Gen.FieldElement56.conditional_negate I.f x.a.l c =
        some (FieldBackend.condNegate x c).a.l) ∧
    (∀ b : Bytes 56, Gen.FieldElement56.from_bytes I.f b.l =
      some (FieldBackend.fromBytes b : Fiat.Fe I).a.l) ∧
    (∀ c x : Fiat.LFe I, Gen.FieldElement56.op_mul I.f c.a.l x.a.l =
      some (FieldBackend.mulL c x : Fiat.Fe I).a.l) ∧
    Gen.FieldElement56.zero = (FieldBackend.zero : Fiat.Fe I).a.l ∧
    Gen.FieldElement56.one = (FieldBackend.one : Fiat.Fe I).a.l ∧
    Gen.FieldElement56.minus_one = (FieldBackend.minusOne (Fiat.Fe I) : Fiat.LFe I).a.l ∧
    Gen.C.fiat_EDWARDS_D = (FieldBackend.EDWARDS_D (Fiat.Fe I) : Fiat.LFe I).a.l ∧
    Gen.C.fiat_TWISTED_D = (FieldBackend.TWISTED_D (Fiat.Fe I) : Fiat.LFe I).a.l ∧
    Gen.C.fiat_TWO_TIMES_TWISTED_D = (FieldBackend.TWO_TIMES_TWISTED_D (Fiat.Fe I) : Fiat.LFe I).a.l ∧
    Gen.C.fiat_NEG_EDWARDS_D = (FieldBackend.NEG_EDWARDS_D : Fiat.Fe I).a.l ∧
    Gen.C.fiat_NEG_FOUR_TIMES_TWISTED_D = (FieldBackend.NEG_FOUR_TIMES_TWISTED_D : Fiat.Fe I).a.l ∧
    Gen.C.fiat_DECAF_FACTOR = (FieldBackend.DECAF_FACTOR : Fiat.Fe I).a.l ∧
    Gen.C.fiat_A_PLUS_TWO_OVER_FOUR = (FieldBackend.A_PLUS_TWO_OVER_FOUR : Fiat.Fe I).a.l ∧
    (let P : Fiat.Fe I × Fiat.Fe I × Fiat.Fe I × Fiat.Fe I := FieldBackend.GOLDILOCKS_BASE_POINT
     Gen.C.fiat_GOLDILOCKS_BASE_POINT = (P.1.a.l, P.2.1.a.l, P.2.2.1.a.l, P.2.2.2.a.l)) ∧
    (let P : Fiat.Fe I × Fiat.Fe I × Fiat.Fe I × Fiat.Fe I := FieldBackend.TWISTED_EDWARDS_BASE_POINT
     Gen.C.fiat_TWISTED_EDWARDS_BASE_POINT = (P.1.a.l, P.2.1.a.l, P.2.2.1.a.l, P.2.2.2.a.l)) := by
  refine ⟨fun x y => ⟨?_, ?_, ?_, fun c => ?_⟩,
    fun x => ⟨?_, ?_, ?_, ?_, ?_, fun c => ?_⟩, fun b => ?_, fun c x => ?_, rfl, rfl, rfl, rfl, rfl, rfl,
    rfl, rfl, rfl, rfl, rfl, rfl⟩
  · rw [Source.fiat_mul]
    exact congrArg (Option.map (·.l)) (Fiat.ofOpt_some (I := I) (Fiat.mul I.f x.a y.a)
      (let ⟨r, h, t, _⟩ := Fiat.mul_loose I.contract I.copies x.h.loose y.h.loose; ⟨r, h, t⟩))
  · rw [Source.fiat_add]; exact congrArg (Option.map (·.l)) (Fiat.ofOpt_some _ _)
  · rw [Source.fiat_sub]; exact congrArg (Option.map (·.l)) (Fiat.ofOpt_some _ _)
  · rw [Source.fiat_select]; exact congrArg (Option.map (·.l)) (Fiat.ofOpt_some _ _)
  · rw [Source.fiat_square]
    exact congrArg (Option.map (·.l)) (Fiat.ofOpt_some (I := I) (Fiat.square I.f x.a)
      (let ⟨r, h, t, _⟩ := Fiat.square_loose I.contract I.copies x.h.loose; ⟨r, h, t⟩))
  · rw [Source.fiat_negate]; exact congrArg (Option.map (·.l)) (Fiat.ofOpt_some _ _)
  · rw [Source.fiat_strong_reduce]; exact congrArg (Option.map (·.l)) (Fiat.ofOpt_some _ _)
  · rw [Source.fiat_to_bytes]; exact congrArg (Option.map (·.l)) (Fiat.ofOptB_some _ _)
  · rw [Source.fiat_is_negative]
    exact congrArg (Option.map fun b : Bytes 56 => b.l.headD 0 &&& 1 == 1) (Fiat.ofOptB_some _ _)
  · rw [Source.fiat_cond_negate]
    have e : Fiat.negate I.f x.a = some (FieldBackend.negate x).a := Fiat.ofOpt_some _
      (let ⟨r, h, t, _⟩ := Fiat.negate_spec I.contract x.h; ⟨r, h, t⟩)
    have e' : ∀ y : Fiat.Fe I, Fiat.select I.f x.a y.a c = some (FieldBackend.select x y c).a :=
      fun y => Fiat.ofOpt_some _ ⟨_, Fiat.select_spec I.contract _ _ _, by split; exacts [y.h, x.h]⟩
    rw [e, Option.bind_some, e']; rfl
  · rw [Source.fiat_from_bytes]; exact congrArg (Option.map (·.l)) (Fiat.ofOpt_some _ _)
  · rw [Source.fiat_mul]; exact congrArg (Option.map (·.l)) (Fiat.ofOpt_some _ _)

/-! ## C67: points -/

variable {F L : Type} [FieldBackend F L] [Lawful F]

/-- The group operations of src/curve/edwards/extended.rs, including multiplication by any 14 words. -/
theorem C67_source_edwards_group {P Q : EdPt F} {R S : E} (h : Rep P R) (k : Rep Q S) :
    Rep (Gen.EdPt.add P Q) (R + S) ∧ Rep (Gen.EdPt.op_sub P Q) (R - S) ∧
    Rep (Gen.EdPt.double P) (2 • R) ∧ Rep (Gen.EdPt.negate P) (-R) ∧
    Rep (Gen.EdPt.identity : EdPt F) 0 ∧ Rep (Gen.EdPt.generator : EdPt F) G ∧
    (Gen.EdPt.eq P Q = true ↔ R = S) ∧
    (∀ s, Words 14 (2 ^ 32) s → ∃ r, Gen.EdPt.op_mul_Scalar P s = some r ∧
      Rep r (wval (2 ^ 32) s • R)) ∧
    (∃ b, Gen.EdPt.is_torsion_free P = some b ∧ (b = true ↔ ∃ n : ℕ, R = n • G)) := by
  refine ⟨rep_add h k, ?_, ?_, rep_negate h, rep_identity, rep_generator, ?_, fun s hs => ?_, ?_⟩
  · rw [sub_eq_add_neg]; exact rep_add h (rep_negate k)
  · exact two_nsmul R ▸ rep_double h
  · rw [Source.EdPt_eq]; exact rep_eq h k
  · obtain ⟨r, e, hr⟩ := C16_scalar_mul h hs.arr
    exact ⟨r, (Source.EdPt_op_mul P hs.arr).trans e, hr⟩
  · obtain ⟨b, e, -, hb⟩ := C18_torsion_free h
    exact ⟨b, (Source.EdPt_is_torsion_free P).trans e, hb⟩

/-- The 57-byte encoding of src/curve/edwards/extended.rs: what `compress` writes, what `decompress`
accepts, and that decompressing a compressed point gives an equal point. -/
theorem C67_source_edwards_codec :
    (∀ (P : EdPt F) (R : E), Rep P R → ∃ b, Gen.EdPt.compress P = some b ∧ Words 57 256 b ∧
      wval 256 b = R.y.val + 2 ^ 455 * (R.x.val % 2) ∧
      ∃ Q : EdPt F, Gen.CompressedEdwardsY.decompress b = some (some Q) ∧ Gen.EdPt.eq Q P = true) ∧
    (∀ b, Words 57 256 b → ∃ o : Option (EdPt F), Gen.CompressedEdwardsY.decompress b = some o ∧
      (o.isSome = true ↔ ∃ R : E, R.y = ((wval 256 b % 2 ^ 448 : ℕ) : Fp)) ∧
      ∀ P, o = some P → ∃ R : E, Rep P R ∧ R.y = ((wval 256 b % 2 ^ 448 : ℕ) : Fp) ∧
        (R.x = 0 ∨ R.x.val % 2 = wval 256 b / 2 ^ 455)) := by
  refine ⟨fun P R h => ?_, fun b hb => ?_⟩
  · refine ⟨_, Source.EdPt_compress P, Arr.words _, C21_compress_value h, ?_⟩
    obtain ⟨Q, e, hQ⟩ := edDecompress_of_encode (F := F) (compress_val h)
    refine ⟨Q, (Source.Ed_decompress _).trans (by rw [e]), ?_⟩
    rw [Source.EdPt_eq]; exact (rep_eq hQ h).2 rfl
  · exact ⟨_, Source.Ed_decompress hb.arr, C22_decompress_accepts hb.arr⟩

/-- Scalar multiplication of src/curve/montgomery/montgomery.rs on any 56 bytes and any 14 words: it never panics,
two parties agree, and for even scalars (all clamped ones) it is `[s] P` on Curve448 or its twist. -/
theorem C67_source_montgomery {u s : List ℕ} (hu : Words 56 256 u) (hs : Words 14 (2 ^ 32) s) :
    ∃ r, Gen.MontgomeryPoint.op_mul_Scalar (F := F) u s = some r ∧ Words 56 256 r ∧ wval 256 r < p ∧
    (∀ t, Words 14 (2 ^ 32) t → ∃ r' o, Gen.MontgomeryPoint.op_mul_Scalar (F := F) u t = some r' ∧
      Gen.MontgomeryPoint.op_mul_Scalar (F := F) r' s = some o ∧
      Gen.MontgomeryPoint.op_mul_Scalar (F := F) r t = some o) ∧
    (wval (2 ^ 32) s % 2 = 0 → ∀ {K : Type} [Field K] [DecidableEq K] [Algebra Fp K]
      (P : (curve448 K).Point), algebraMap Fp K (wval 256 u : Fp) = ucoord P →
      algebraMap Fp K (wval 256 r : Fp) = ucoord (wval (2 ^ 32) s • P)) := by
  refine ⟨_, Source.Mont_mul hu.arr hs.arr, Arr.words _, (C34_reads_mod_p hu.arr hu.arr hs.arr).2,
    fun t ht => ⟨_, _, Source.Mont_mul hu.arr ht.arr, Source.Mont_mul _ hs.arr, ?_⟩, ?_⟩
  · rw [C33_dh_agreement hu.arr hs.arr ht.arr]; exact Source.Mont_mul _ ht.arr
  · intro h K _ _ _ P hP
    exact C31_even P hu.arr hs.arr h hP

/-- The elements that the public functions of src/decaf can produce. -/
inductive SrcDecaf : DecafPt F → Prop
  | identity : SrcDecaf Gen.DecafPt.identity
  | generator : SrcDecaf Gen.DecafPt.generator
  | decompress {b P} : Words 56 256 b → Gen.CompressedDecaf.decompress b = some (some P) → SrcDecaf P
  | add {P Q} : SrcDecaf P → SrcDecaf Q → SrcDecaf (Gen.DecafPt.op_add P Q)
  | sub {P Q} : SrcDecaf P → SrcDecaf Q → SrcDecaf (Gen.DecafPt.op_sub P Q)
  | neg {P} : SrcDecaf P → SrcDecaf (Gen.DecafPt.op_neg P)
  | mul {P s Q} : SrcDecaf P → Words 14 (2 ^ 32) s → Gen.DecafPt.op_mul_Scalar P s = some Q → SrcDecaf Q

omit [Lawful F] in
theorem srcDecaf_iff (P : DecafPt F) : SrcDecaf P ↔ DecafReach P := by
  constructor
  · intro h
    induction h with
    | identity => exact .identity
    | generator => exact .generator
    | decompress hb e => exact .decompress (Option.some_inj.1 ((Source.Decaf_decompress hb.arr).symm.trans e))
    | add _ _ h k => exact .add h k
    | sub _ _ h k => exact .sub h k
    | neg _ h => exact .neg h
    | @mul P s Q _ hs e h =>
      rw [← Option.some_inj.1 ((Source.Decaf_op_mul P hs.arr).symm.trans e)]
      exact .scalarMul _ h
  · intro h
    induction h with
    | identity => exact .identity
    | generator => exact .generator
    | @decompress b P e => exact .decompress (Arr.words b) ((Source.Decaf_decompress b).trans (by rw [e]))
    | add _ _ h k => exact .add h k
    | sub _ _ h k => exact .sub h k
    | neg _ h => exact .neg h
    | scalarMul s _ h => exact .mul h (Arr.words s) (Source.Decaf_op_mul _ s)

/-- The elements of src/decaf form a group of prime order with the translated operations. -/
theorem C67_source_decaf_group : ∃ f : DecafPt F → ZMod ell,
    (∀ P Q, SrcDecaf P → SrcDecaf Q → (Gen.DecafPt.equals P Q = true ↔ f P = f Q) ∧
      f (Gen.DecafPt.op_add P Q) = f P + f Q ∧ f (Gen.DecafPt.op_sub P Q) = f P - f Q) ∧
    (∀ P, SrcDecaf P → f (Gen.DecafPt.op_neg P) = -f P ∧ ∀ s, Words 14 (2 ^ 32) s →
      ∃ Q, Gen.DecafPt.op_mul_Scalar P s = some Q ∧ f Q = wval (2 ^ 32) s * f P) ∧
    f Gen.DecafPt.identity = 0 ∧ f Gen.DecafPt.generator = 1 ∧
    (∀ n, ∃ P, SrcDecaf P ∧ f P = n) := by
  obtain ⟨f, h1, h2, h3, h4, h5⟩ := C41_prime_order_group (F := F)
  refine ⟨f, fun P Q hP hQ => ?_, fun P hP => ⟨?_, fun s hs => ?_⟩, h3, h4, fun n => ?_⟩
  · rw [Source.Decaf_equals]; exact h1 P Q ((srcDecaf_iff P).1 hP) ((srcDecaf_iff Q).1 hQ)
  · exact (h2 P ((srcDecaf_iff P).1 hP)).1
  · exact ⟨_, Source.Decaf_op_mul P hs.arr, (h2 P ((srcDecaf_iff P).1 hP)).2 hs.arr⟩
  · obtain ⟨P, hP, e⟩ := h5 n
    exact ⟨P, (srcDecaf_iff P).2 hP, e⟩

/-- The 56-byte encoding of src/decaf: elements are equal exactly when their encodings are, decoding
inverts encoding in both directions, and the acceptance criterion. -/
theorem C67_source_decaf_codec :
    (∀ P Q : DecafPt F, SrcDecaf P → SrcDecaf Q → ∃ b c, Gen.DecafPt.compress P = some b ∧
      Gen.DecafPt.compress Q = some c ∧ (b = c ↔ Gen.DecafPt.equals P Q = true) ∧
      ∃ T : DecafPt F, Gen.CompressedDecaf.decompress b = some (some T) ∧
        Gen.DecafPt.equals T P = true) ∧
    (∀ b, Words 56 256 b → ∃ o : Option (DecafPt F), Gen.CompressedDecaf.decompress b = some o ∧
      (∀ P, o = some P → Gen.DecafPt.compress P = some b) ∧
      (o.isSome = true ↔ wval 256 b < p ∧ wval 256 b % 2 = 0 ∧
        (1 - (wval 256 b : Fp) ^ 2) ^ 2 + 4 * 39082 * (wval 256 b : Fp) ^ 2 ≠ 0 ∧
        IsSquare ((1 - (wval 256 b : Fp) ^ 2) ^ 2 + 4 * 39082 * (wval 256 b : Fp) ^ 2))) := by
  refine ⟨fun P Q hP hQ => ?_, fun b hb => ?_⟩
  · rw [srcDecaf_iff] at hP hQ
    refine ⟨_, _, Source.Decaf_compress P, Source.Decaf_compress Q, ?_, ?_⟩
    · rw [Source.Decaf_equals, C40_equals_iff_compress hP hQ]
      exact ⟨fun h => Arr.val_inj (by norm_num) (congrArg (Nat.ofDigits 256) h), fun h => by rw [h]⟩
    · obtain ⟨T, e, hT⟩ := C37_round_trip hP
      exact ⟨T, (Source.Decaf_decompress _).trans (by rw [e]), by rw [Source.Decaf_equals]; exact hT⟩
  · refine ⟨_, Source.Decaf_decompress hb.arr, fun P h => ?_, C39_accepts hb.arr⟩
    rw [Source.Decaf_compress, C38_unique hb.arr h]; rfl

/-- On concrete data: `2^448 - 1` times the generator, and its encoding read back. -/
example : ∃ r : EdPt F, Gen.EdPt.op_mul_Scalar Gen.EdPt.generator allOnes.l = some r ∧
    Rep r (((2 ^ 32) ^ 14 - 1) • G) := by
  obtain ⟨-, -, -, -, -, -, -, h, -⟩ := C67_source_edwards_group (rep_generator (F := F)) rep_generator
  obtain ⟨r, e, hr⟩ := h _ (Arr.words allOnes)
  have h1 : wval (2 ^ 32) allOnes.l = (2 ^ 32) ^ 14 - 1 := allOnes_val
  exact ⟨r, e, h1 ▸ hr⟩

/-- The encoding of the base point, read back. -/
example : ∃ b, Gen.EdPt.compress (Gen.EdPt.generator : EdPt F) = some b ∧ wval 256 b = Gy ∧
    ∃ Q : EdPt F, Gen.CompressedEdwardsY.decompress b = some (some Q) ∧
      Gen.EdPt.eq Q Gen.EdPt.generator = true := by
  obtain ⟨b, e, -, hv, hQ⟩ := C67_source_edwards_codec.1 _ _ (rep_generator (F := F))
  refine ⟨b, e, ?_, hQ⟩
  have h1 : G.y.val = Gy := val_cast (by rw [p_lit]; decide +kernel)
  have h2 : G.x.val = Gx := val_cast (by rw [p_lit]; decide +kernel)
  rw [hv, h1, h2]
  decide +kernel

/-- Twice the Decaf generator is neither the identity nor the generator. -/
example : Gen.DecafPt.equals (Gen.DecafPt.op_add Gen.DecafPt.generator Gen.DecafPt.generator)
      (Gen.DecafPt.generator : DecafPt F) = false ∧
    Gen.DecafPt.equals (Gen.DecafPt.op_add Gen.DecafPt.generator Gen.DecafPt.generator)
      (Gen.DecafPt.identity : DecafPt F) = false := by
  obtain ⟨f, h1, -, h3, h4, -⟩ := C67_source_decaf_group (F := F)
  have g := SrcDecaf.generator (F := F)
  have : Fact (1 < ell) := ⟨ell_prime.one_lt⟩
  have h2 : (2 : ZMod ell) ≠ 0 := by
    have : ((2 : ℕ) : ZMod ell) ≠ 0 := by
      rw [Ne, ZMod.natCast_eq_zero_iff]
      exact fun h => absurd (Nat.le_of_dvd two_pos h) (by rw [ell_lit]; norm_num)
    exact_mod_cast this
  constructor <;> rw [Bool.eq_false_iff] <;> intro h
  · have := (h1 _ _ (g.add g) g).1.1 h
    rw [(h1 _ _ g g).2.1, h4] at this
    exact one_ne_zero (left_eq_add.1 this.symm)
  · have := (h1 _ _ (g.add g) .identity).1.1 h
    rw [(h1 _ _ g g).2.1, h4, h3, one_add_one_eq_two] at this
    exact h2 this

end Ed448.Props
