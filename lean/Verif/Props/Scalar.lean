import Verif.Proofs.ScalarInv
import Verif.Proofs.ScalarMisc
import Mathlib.Data.Nat.Count
import Mathlib.Data.Int.ModEq
import Mathlib.Data.Int.CardIntervalMod

/-!
# Properties of scalars (C01–C12, C27)

All statements are about the API functions of `Verif.Model.Scalar` and the little-endian value
`Arr.val` of limbs and bytes. `some` means "returns without overflow panic".
-/

namespace Ed448.Props
open Ed448.Model

/-- A concrete canonical scalar used as a witness below: `l - 1`. -/
def lMinusOne : Scalar := Arr.ofVal 14 (2 ^ 32) (by norm_num) (ell - 1)

theorem lMinusOne_val : lMinusOne.val = ell - 1 := by
  refine Arr.ofVal_val _ _ ?_
  have : ell < (2 ^ 32) ^ 14 := by rw [ell_lit]; decide +kernel
  omega

/-- The all-ones scalar `2^448 - 1` (not canonical). -/
def allOnes : Scalar := Arr.ofVal 14 (2 ^ 32) (by norm_num) ((2 ^ 32) ^ 14 - 1)

theorem allOnes_val : allOnes.val = (2 ^ 32) ^ 14 - 1 :=
  Arr.ofVal_val _ _ (by decide +kernel)

/-! ## C01, C02: addition and subtraction -/

theorem add_exact (a b : Scalar) (h : a.val + b.val < RR + ell) :
    ∃ r, Scalar.add a b = some r ∧
      r.val = if a.val + b.val < ell then a.val + b.val else a.val + b.val - ell := by
  obtain ⟨s, c, h1, h2, h3, h4, h5⟩ := addLoop_spec 14 0 a.l b.l a.len b.len a.lt b.lt (by norm_num)
  have e1 : Nat.ofDigits W s + RR * c = a.val + b.val := by
    rw [show RR = W ^ 14 from rfl, h5, zero_add]; rfl
  obtain ⟨r, g1, g2⟩ := subExtraRaw_reduce s c h2 h3 h4 (by rw [e1]; exact h)
  rw [e1] at g2
  refine ⟨r, ?_, g2⟩
  unfold Scalar.add
  rw [h1, Option.bind_eq_bind, Option.bind_some]
  simp only
  rw [show asU32 c = c from Nat.mod_eq_of_lt (by omega)]
  exact g1

theorem C01_scalar_add (a b : Scalar) (ha : a.val < ell) (hb : b.val < ell) :
    ∃ r, Scalar.add a b = some r ∧ r.val = (a.val + b.val) % ell ∧ r.val < ell := by
  have hl := ell_lt_RR
  obtain ⟨r, h1, h2⟩ := add_exact a b (by omega)
  refine ⟨r, h1, ?_, ?_⟩
  · rw [h2]
    split
    · next h => rw [Nat.mod_eq_of_lt h]
    · next h => rw [Nat.mod_eq_sub_mod (by omega), Nat.mod_eq_of_lt (by omega)]
  · rw [h2]; split <;> omega

/-- Non-vacuity: the wrap-around case `(l-1) + (l-1) = l-2`. -/
example : ∃ r, Scalar.add lMinusOne lMinusOne = some r ∧ r.val = ell - 2 := by
  have h : lMinusOne.val < ell := by rw [lMinusOne_val]; have := ell_pos; omega
  obtain ⟨r, h1, h2, -⟩ := C01_scalar_add lMinusOne lMinusOne h h
  refine ⟨r, h1, ?_⟩
  rw [h2, lMinusOne_val]
  have : 2 < ell := by rw [ell_lit]; decide +kernel
  rw [Nat.mod_eq_sub_mod (by omega), Nat.mod_eq_of_lt (by omega)]; omega

theorem C02_scalar_sub (a b : Scalar) (ha : a.val < ell) (hb : b.val < ell) :
    ∃ r, Scalar.sub a b = some r ∧ (r.val : ℤ) = ((a.val : ℤ) - b.val) % ell ∧ r.val < ell := by
  have hl := ell_lt_RR
  obtain ⟨r, h1, h2⟩ := subExtra_spec a b 0 (by norm_num)
  refine ⟨r, h1, ?_⟩
  simp only [if_true] at h2
  generalize (RR : ℕ) = M at *
  generalize ell = l at *
  split at h2
  · next h =>
    rw [Int.emod_eq_of_lt (by omega) (by omega)] at h2
    constructor
    · rw [h2, ← Int.add_emod_right, Int.emod_eq_of_lt (by omega) (by omega)]
    · omega
  · next h =>
    rw [add_zero, Int.emod_eq_of_lt (by omega) (by omega)] at h2
    constructor
    · rw [h2, Int.emod_eq_of_lt (by omega) (by omega)]
    · omega

/-- Non-vacuity: `0 - 1 = l - 1`. -/
example : ∃ r, Scalar.sub Scalar.zero Scalar.one = some r ∧ (r.val : ℤ) = -1 % (ell : ℤ) := by
  have h0 : Scalar.zero.val < ell := by rw [zero_val]; exact ell_pos
  have h1 : Scalar.one.val < ell := by rw [one_val]; exact ell_prime.one_lt
  obtain ⟨r, e1, e2, -⟩ := C02_scalar_sub _ _ h0 h1
  exact ⟨r, e1, by rw [e2, zero_val, one_val]; norm_num⟩

/-! ## C03, C04, C05 -/

theorem C03_scalar_mul (a b : Scalar) :
    ∃ r, Scalar.mul a b = some r ∧ r.val = a.val * b.val % ell ∧ r.val < ell := by
  obtain ⟨r, h1, h2⟩ := Scalar.mul_spec a b
  exact ⟨r, h1, h2, h2 ▸ Nat.mod_lt _ ell_pos⟩

/-- The theorem has no hypotheses; here it is on the largest unreduced scalar. -/
example : ∃ r, Scalar.mul allOnes allOnes = some r ∧
    r.val = ((2 ^ 32) ^ 14 - 1) * ((2 ^ 32) ^ 14 - 1) % ell := by
  obtain ⟨r, h1, h2, -⟩ := C03_scalar_mul allOnes allOnes
  exact ⟨r, h1, by rw [h2, allOnes_val]⟩

theorem C04_scalar_invert (a : Scalar) :
    ∃ r, Scalar.invert a = some r ∧ r.val < ell ∧
      (¬ ell ∣ a.val → ∃ m, Scalar.mul a r = some m ∧ m = Scalar.one) ∧
      (ell ∣ a.val → r = Scalar.zero) := by
  obtain ⟨r, h1, h2, h3⟩ := Scalar.invert_pow a
  have hl2 : 2 < ell := by rw [ell_lit]; decide +kernel
  refine ⟨r, h1, h2, ?_, ?_⟩
  · intro hnd
    obtain ⟨m, g1, g2⟩ := Scalar.mul_spec a r
    refine ⟨m, g1, ?_⟩
    refine Arr.val_inj (by norm_num) ?_
    rw [one_val, g2]
    have ha : (a.val : Fl) ≠ 0 := fun h => hnd ((ZMod.natCast_eq_zero_iff _ _).mp h)
    have : ((a.val * r.val : ℕ) : Fl) = ((1 : ℕ) : Fl) := by
      rw [Nat.cast_mul, h3, ← pow_succ', Nat.cast_one]
      rw [show ell - 2 + 1 = ell - 1 by omega]
      exact ZMod.pow_card_sub_one_eq_one ha
    have := (ZMod.natCast_eq_natCast_iff _ _ _).mp this
    unfold Nat.ModEq at this
    rw [this, Nat.mod_eq_of_lt (by omega)]
  · intro hd
    refine Arr.val_inj (by norm_num) ?_
    rw [zero_val]
    have ha : (a.val : Fl) = 0 := (ZMod.natCast_eq_zero_iff _ _).mpr hd
    rw [ha, zero_pow (by omega)] at h3
    have := Nat.eq_zero_of_dvd_of_lt ((ZMod.natCast_eq_zero_iff _ _).mp h3) h2
    exact this

/-- Non-vacuity: both cases occur. -/
example : ¬ ell ∣ Scalar.one.val ∧ ell ∣ MODULUS.val := by
  rw [one_val, MODULUS_val]
  exact ⟨fun h => ell_prime.one_lt.ne' (Nat.dvd_one.mp h), dvd_rfl⟩

theorem C05_scalar_halve (a : Scalar) :
    ∃ r, Scalar.halve a = some r ∧ 2 * r.val ≡ a.val [MOD ell] ∧ (a.val < ell → r.val < ell) := by
  obtain ⟨r, h1, h2⟩ := Scalar.halve_spec a
  have hodd : ell % 2 = 1 := by rw [ell_lit]
  refine ⟨r, h1, ?_, ?_⟩
  · rcases Nat.mod_two_eq_zero_or_one a.val with h | h
    · have : 2 * r.val = a.val := by rw [h2, h]; omega
      rw [this]
    · have : 2 * r.val = a.val + ell := by rw [h2, h]; omega
      rw [this]
      exact Nat.add_mod_right _ _
  · intro ha
    rcases Nat.mod_two_eq_zero_or_one a.val with h | h <;> rw [h] at h2 <;> omega

/-- Non-vacuity: halving one gives `(l+1)/2`. -/
example : ∃ r, Scalar.halve Scalar.one = some r ∧ r.val = (1 + ell) / 2 := by
  obtain ⟨r, h1, h2⟩ := Scalar.halve_spec Scalar.one
  exact ⟨r, h1, by rw [h2, one_val]; norm_num⟩

/-! ## C06, C07: codecs -/

theorem C06_scalar_codec :
    (∀ s : Scalar, Scalar.fromBytes s.toBytes = s) ∧
    (∀ b : Bytes 56, (Scalar.fromBytes b).toBytes = b) ∧
    (∀ s : Scalar, s.toBytes.val = s.val) ∧ (∀ b : Bytes 56, (Scalar.fromBytes b).val = b.val) := by
  refine ⟨fun s => ?_, fun b => ?_, Scalar.toBytes_val, Scalar.fromBytes_val⟩
  · exact Arr.val_inj (by norm_num) (by rw [Scalar.fromBytes_val, Scalar.toBytes_val])
  · exact Arr.val_inj (by norm_num) (by rw [Scalar.toBytes_val, Scalar.fromBytes_val])

example : allOnes.toBytes.val = (2 ^ 32) ^ 14 - 1 := by rw [C06_scalar_codec.2.2.1, allOnes_val]

/-- `from_canonical_bytes` returns `Some` exactly on values below `l`, with that value. -/
theorem C07_from_canonical_bytes (b : Bytes 57) :
    ∃ o, Scalar.fromCanonicalBytes b = some o ∧
      (b.val < ell → ∃ s, o = some s ∧ s.val = b.val ∧ s.toBytesRfc8032 = b) ∧
      (ell ≤ b.val → o = none) := by
  have h56 := bytes_get_eq b 56 (by norm_num)
  have h55 := bytes_get_eq b 55 (by norm_num)
  have hb := Arr.val_lt (by norm_num) b
  have hl1 : ell < 256 ^ 55 * 64 := by rw [ell_lit]; decide +kernel
  have hl2 : 256 ^ 55 * 32 < ell := by rw [ell_lit]; decide +kernel
  unfold Scalar.fromCanonicalBytes
  split
  · next h =>
    refine ⟨none, rfl, ?_, fun _ => rfl⟩
    intro hv
    exfalso
    rcases h with h | h
    · apply h
      rw [h56, Nat.div_eq_of_lt (by
        refine lt_trans hv (lt_trans hl1 ?_); rw [pow_succ]; norm_num)]
    · apply h
      rw [h55, Nat.shiftRight_eq_div_pow, Nat.div_eq_of_lt]
      have h3 : b.val / 256 ^ 55 < 64 := by
        apply Nat.div_lt_of_lt_mul; omega
      rwa [Nat.mod_eq_of_lt (by omega)]
  · next h =>
    push Not at h
    obtain ⟨e56, e55⟩ := h
    have hv : b.val < 256 ^ 55 * 64 := by
      have h1 : b.val / 256 ^ 56 % 256 = 0 := by rw [← h56, e56]
      have h2 : b.val / 256 ^ 56 < 256 := by
        apply Nat.div_lt_of_lt_mul; rw [← pow_succ]; exact hb
      rw [Nat.mod_eq_of_lt h2] at h1
      have h3 : b.val / 256 ^ 55 < 256 := by
        have : b.val < 256 ^ 56 := (Nat.div_eq_zero_iff.mp h1).resolve_left (by positivity)
        apply Nat.div_lt_of_lt_mul; rw [← pow_succ]; exact this
      rw [h55, Nat.mod_eq_of_lt h3, Nat.shiftRight_eq_div_pow] at e55
      have h4 : b.val / 256 ^ 55 < 64 := by
        generalize b.val / 256 ^ 55 = q at *
        omega
      have := Nat.lt_mul_of_div_lt h4 (by positivity)
      rwa [mul_comm] at this
    set cand := Scalar.fromBytes (Bytes.slice b 0 56 (by norm_num)) with hcand
    have hcv : cand.val = b.val := by
      rw [hcand, Scalar.fromBytes_val, bytes_take_val, pow_zero, Nat.div_one, Nat.mod_eq_of_lt]
      refine lt_trans hv ?_; rw [pow_succ]; exact Nat.mul_lt_mul_of_pos_left (by norm_num) (by positivity)
    obtain ⟨r, h1, h2⟩ := subExtra_spec cand MODULUS 0 (by norm_num)
    rw [ MODULUS_val, hcv] at h2
    simp only [if_true] at h2
    have hl := ell_lt_RR
    have hRR : (256 : ℕ) ^ 55 * 64 < RR := by norm_num
    refine ⟨_, by dsimp only; rw [h1]; rfl, ?_, ?_⟩
    · intro hlt
      rw [if_pos hlt, sub_add_cancel,
        Int.emod_eq_of_lt (Int.natCast_nonneg _) (Int.ofNat_lt.mpr (by omega))] at h2
      have hr : r.val = b.val := Int.ofNat_inj.mp h2
      refine ⟨cand, ?_, hcv, ?_⟩
      · have : Scalar.eq cand r = true := by rw [Scalar.eq_iff, hcv, hr]
        rw [if_pos this]
      · refine Arr.val_inj (by norm_num) ?_
        rw [← hcv, ← Scalar.toBytes_val]
        show Nat.ofDigits 256 (cand.toBytes.l ++ [0]) = _
        rw [Nat.ofDigits_append_zero]; rfl
    · intro hge
      rw [if_neg (by omega), add_zero, Int.emod_eq_of_lt (by omega) (by
        generalize RR = M at *; omega)] at h2
      have : ¬ (Scalar.eq cand r = true) := by
        rw [Scalar.eq_iff, hcv]
        have := ell_pos
        omega
      rw [if_neg this]

/-- `to_bytes_rfc_8032` is inverted by `from_canonical_bytes` on canonical scalars. -/
theorem C07_rfc8032_roundtrip (s : Scalar) (h : s.val < ell) :
    Scalar.fromCanonicalBytes s.toBytesRfc8032 = some (some s) ∧
      s.toBytesRfc8032.val = s.val := by
  have hv : s.toBytesRfc8032.val = s.val := by
    rw [← Scalar.toBytes_val]
    show Nat.ofDigits 256 (s.toBytes.l ++ [0]) = _
    rw [Nat.ofDigits_append_zero]; rfl
  obtain ⟨o, h1, h2, -⟩ := C07_from_canonical_bytes s.toBytesRfc8032
  obtain ⟨t, rfl, ht, -⟩ := h2 (by rw [hv]; exact h)
  refine ⟨?_, hv⟩
  rw [h1, Arr.val_inj (by norm_num) (ht.trans hv)]

/-- Non-vacuity: `l-1` is accepted, and the 57-byte string of `l` is rejected. -/
example : Scalar.fromCanonicalBytes lMinusOne.toBytesRfc8032 = some (some lMinusOne) ∧
    Scalar.fromCanonicalBytes MODULUS.toBytesRfc8032 = some none := by
  constructor
  · exact (C07_rfc8032_roundtrip _ (by rw [lMinusOne_val]; have := ell_pos; omega)).1
  · obtain ⟨o, h1, -, h3⟩ := C07_from_canonical_bytes MODULUS.toBytesRfc8032
    rw [h1, h3]
    have : MODULUS.toBytesRfc8032.val = ell := by rw [ell_lit]; decide +kernel
    rw [this]

/-! ## C08, C09: wide reduction and random scalars -/

theorem C08_wide_reduction (b : Bytes 114) :
    ∃ r, Scalar.fromBytesModOrderWide b = some r ∧ r.val = b.val % ell ∧ r.val < ell := by
  have hR := RR_ne_zero
  obtain ⟨lo, a1, a2, a3⟩ := montMul_zmod (Scalar.fromBytes (Bytes.slice b 0 56 (by norm_num))) Rconst
  obtain ⟨hi, b1, b2, b3⟩ := montMul_zmod (Scalar.fromBytes (Bytes.slice b 56 56 (by norm_num))) R2
  obtain ⟨t1, c1, c2, c3⟩ := montMul_zmod (Scalar.fromBytes (wideTop b)) R2
  obtain ⟨t2, d1, d2, d3⟩ := montMul_zmod t1 R2
  obtain ⟨s, e1, e2, e3⟩ := C01_scalar_add lo hi (a3 Rconst_lt) (b3 R2_lt)
  obtain ⟨r, f1, f2, f3⟩ := C01_scalar_add s t2 e3 (d3 R2_lt)
  refine ⟨r, ?_, ?_, f3⟩
  · unfold Scalar.fromBytesModOrderWide
    rw [a1, Option.bind_eq_bind, Option.bind_some, b1, Option.bind_some, c1,
      Option.bind_some, d1, Option.bind_some, e1, Option.bind_some, f1]
  · refine eq_mod_of_cast f3 ?_
    have key : b.val = (Bytes.slice b 0 56 (by norm_num)).val +
        RR * ((Bytes.slice b 56 56 (by norm_num)).val + RR * (wideTop b).val) := by
      have hw : (wideTop b).val = Nat.ofDigits 256 (b.l.drop 112) := by
        show Nat.ofDigits 256 (b.l.drop 112 ++ List.replicate 54 0) = _
        rw [Nat.ofDigits_append_replicate_zero]
      rw [hw]
      show Nat.ofDigits 256 b.l = Nat.ofDigits 256 ((b.l.drop 0).take 56) +
        RR * (Nat.ofDigits 256 ((b.l.drop 56).take 56) + _)
      rw [List.drop_zero, ofDigits_split 256 b.l 56 (by rw [b.len]; norm_num),
        ofDigits_split 256 (b.l.drop 56) 56 (by rw [List.length_drop, b.len]; norm_num),
        List.drop_drop]
      have : (256 : ℕ) ^ 56 = RR := by norm_num
      rw [this]
    have hs : ((s.val : ℕ) : Fl) = lo.val + hi.val := by
      rw [e2, ZMod.natCast_mod, Nat.cast_add]
    rw [f2, ZMod.natCast_mod, Nat.cast_add, hs, a2, b2, d2, c2, key]
    rw [Scalar.fromBytes_val, Scalar.fromBytes_val, Scalar.fromBytes_val, R2_val, Rconst_val]
    simp only [Nat.cast_add, Nat.cast_mul]
    field_simp
    ring

/-- The theorem has no hypotheses; on 114 bytes `0xff` it gives `2^912 - 1 mod l`. -/
example : ∃ r, Scalar.fromBytesModOrderWide (Arr.ofVal 114 256 (by norm_num) (256 ^ 114 - 1)) =
    some r ∧ r.val = (256 ^ 114 - 1) % ell := by
  obtain ⟨r, h1, h2, -⟩ := C08_wide_reduction (Arr.ofVal 114 256 (by norm_num) (256 ^ 114 - 1))
  refine ⟨r, h1, ?_⟩
  rw [h2, Arr.ofVal_val _ _ (by decide +kernel)]

/-- Byte strings correspond to their values. -/
def bytesEquiv (n : ℕ) : Bytes n ≃ Fin (256 ^ n) where
  toFun b := ⟨b.val, Arr.val_lt (by norm_num) b⟩
  invFun v := Arr.ofVal n 256 (by norm_num) v.1
  left_inv b := Arr.val_inj (by norm_num)
    (Arr.ofVal_val (by norm_num) b.val (Arr.val_lt (by norm_num) b))
  right_inv v := Fin.ext (Arr.ofVal_val (by norm_num) v.1 v.2)

noncomputable instance (n : ℕ) : Fintype (Bytes n) := Fintype.ofEquiv _ (bytesEquiv n).symm

theorem pow_912 : (256 : ℕ) ^ 114 = 2 ^ 912 := by decide +kernel

/-- `Scalar::random` is canonical for every RNG output, and over the `2^912` RNG outputs every
residue is hit `⌊2^912/l⌋` or `⌊2^912/l⌋ + 1` times. -/
theorem C09_scalar_random :
    (∀ b : Bytes 114, ∃ r, Scalar.random b = some r ∧ r.val < ell) ∧
    (∀ v : ℕ, v < ell →
      Nat.card {b : Bytes 114 // ∃ r, Scalar.random b = some r ∧ r.val = v} = 2 ^ 912 / ell ∨
      Nat.card {b : Bytes 114 // ∃ r, Scalar.random b = some r ∧ r.val = v} = 2 ^ 912 / ell + 1) := by
  constructor
  · intro b
    obtain ⟨r, h1, -, h3⟩ := C08_wide_reduction b
    exact ⟨r, h1, h3⟩
  · intro v hv
    have e : {b : Bytes 114 // ∃ r, Scalar.random b = some r ∧ r.val = v} ≃
        {k // k ∈ (Finset.range (256 ^ 114)).filter (fun k => k ≡ v [MOD ell])} := by
      refine ((bytesEquiv 114).subtypeEquiv (q := fun k => k.1 ≡ v [MOD ell]) ?_).trans ?_
      · intro b
        obtain ⟨r, h1, h2, h3⟩ := C08_wide_reduction b
        show (∃ r, Scalar.fromBytesModOrderWide b = some r ∧ r.val = v) ↔ b.val ≡ v [MOD ell]
        rw [h1]
        unfold Nat.ModEq
        rw [Nat.mod_eq_of_lt hv]
        constructor
        · rintro ⟨r', hr, rfl⟩
          obtain rfl := Option.some.inj hr
          exact h2.symm
        · intro h
          exact ⟨r, rfl, h2.trans h⟩
      · exact {
          toFun := fun k => ⟨k.1.1, Finset.mem_filter.mpr ⟨Finset.mem_range.mpr k.1.2, k.2⟩⟩
          invFun := fun k => ⟨⟨k.1, Finset.mem_range.mp (Finset.mem_filter.mp k.2).1⟩,
            (Finset.mem_filter.mp k.2).2⟩
          left_inv := fun k => rfl
          right_inv := fun k => rfl }
    rw [Nat.card_congr e]
    rw [Nat.card_eq_fintype_card, Fintype.card_coe]
    rw [← Nat.count_eq_card_filter_range, Nat.count_modEq_card _ ell_pos]
    rw [← pow_912]
    generalize 256 ^ 114 = N
    split
    · right; rfl
    · left; rfl

example : 0 < ell ∧ 2 ^ 465 < 2 ^ 912 / ell := by rw [ell_lit]; decide +kernel

/-! ## C10, C27: digit expansions -/

theorem C10_scalar_bits (s : Scalar) :
    s.bits.length = 448 ∧ Nat.ofDigits 2 (s.bits.map Bool.toNat) = s.val ∧
      ∀ i, i < 448 → s.bits[i]? = some (s.val.testBit i) := by
  refine ⟨s.bits_len, s.bits_val, ?_⟩
  intro i hi
  have hlen := s.bits_len
  have hi' : i < s.bits.length := by rw [hlen]; exact hi
  rw [List.getElem?_eq_getElem hi', Nat.testBit_eq_decide_div_mod_eq, ← s.bits_val]
  congr 1
  have hsplit := ofDigits_split 2 (s.bits.map Bool.toNat) i (by rw [List.length_map]; omega)
  have hlt : Nat.ofDigits 2 ((s.bits.map Bool.toNat).take i) < 2 ^ i := by
    have h := Nat.ofDigits_lt_base_pow_length (b := 2) (l := (s.bits.map Bool.toNat).take i)
      (by norm_num) (fun x hx => by
        obtain ⟨y, -, rfl⟩ := List.mem_map.mp (List.mem_of_mem_take hx)
        exact Bool.toNat_lt y)
    rwa [List.length_take, List.length_map, min_eq_left (by omega)] at h
  rw [hsplit, Nat.add_mul_div_left _ _ (Nat.two_pow_pos i), Nat.div_eq_of_lt hlt, zero_add,
    List.drop_eq_getElem_cons (by rw [List.length_map]; exact hi'), Nat.ofDigits_cons,
    Nat.add_mul_mod_self_left, List.getElem_map]
  cases s.bits[i] <;> simp

example : Scalar.one.bits[0]? = some true ∧ Scalar.one.bits[447]? = some false := by
  rw [(C10_scalar_bits Scalar.one).2.2 0 (by norm_num),
    (C10_scalar_bits Scalar.one).2.2 447 (by norm_num), one_val]
  decide +kernel

theorem C27_radix16 (s : Scalar) : ∃ r, Scalar.toRadix16 s = some r ∧ r.length = 113 ∧
    (∀ i, i < 112 → -8 ≤ r.getD i 0 ∧ r.getD i 0 < 8) ∧ (r.getD 112 0 = 0 ∨ r.getD 112 0 = 1) ∧
    r.foldr (fun d acc => d + 16 * acc) 0 = (s.val : ℤ) :=
  Scalar.toRadix16_spec s

example : ∃ r, Scalar.toRadix16 allOnes = some r ∧
    r.foldr (fun d acc => d + 16 * acc) 0 = (((2 ^ 32) ^ 14 - 1 : ℕ) : ℤ) := by
  obtain ⟨r, h1, -, -, -, h5⟩ := C27_radix16 allOnes
  exact ⟨r, h1, by rw [h5, allOnes_val]⟩

/-! ## C11: unreduced scalars -/

/-- The claim a user might rely on. It is false, see `C11_unreduced_false`. -/
def C11_claim : Prop := ∀ a b : Scalar,
  (∃ r, Scalar.add a b = some r ∧ r.val ≡ a.val + b.val [MOD ell]) ∧
  (∃ r, Scalar.sub a b = some r ∧ (r.val : ℤ) ≡ (a.val : ℤ) - b.val [ZMOD ell])

/-- `(2^448-1) + (2^448-1)` is computed wrongly (through `from_bytes` any such value can be
built), and so is `0 - (2^448-1)`. -/
theorem C11_unreduced_false : ¬ C11_claim ∧
    (∃ r, Scalar.add allOnes allOnes = some r ∧ ¬ r.val ≡ allOnes.val + allOnes.val [MOD ell]) ∧
    (∃ r, Scalar.sub Scalar.zero allOnes = some r ∧
      ¬ (r.val : ℤ) ≡ (Scalar.zero.val : ℤ) - allOnes.val [ZMOD ell]) := by
  have hA : ∃ r, Scalar.add allOnes allOnes = some r ∧
      ¬ r.val ≡ allOnes.val + allOnes.val [MOD ell] := by
    obtain ⟨r, h1, h2⟩ := Scalar.add_spec allOnes allOnes
    refine ⟨r, h1, ?_⟩
    intro hc
    have hv : (r.val : ℤ) % ell = ((allOnes.val + allOnes.val : ℕ) : ℤ) % ell := by
      exact_mod_cast hc
    rw [h2, allOnes_val, ell_lit] at hv
    revert hv
    decide +kernel
  have hS : ∃ r, Scalar.sub Scalar.zero allOnes = some r ∧
      ¬ (r.val : ℤ) ≡ (Scalar.zero.val : ℤ) - allOnes.val [ZMOD ell] := by
    obtain ⟨r, h1, h2⟩ := subExtra_spec Scalar.zero allOnes 0 (by norm_num)
    refine ⟨r, h1, ?_⟩
    intro hc
    unfold Int.ModEq at hc
    rw [h2, allOnes_val, zero_val, ell_lit] at hc
    revert hc
    decide +kernel
  refine ⟨fun h => ?_, hA, hS⟩
  obtain ⟨r, h1, h2⟩ := hA
  obtain ⟨⟨r', h3, h4⟩, -⟩ := h allOnes allOnes
  rw [h1] at h3
  obtain rfl := Option.some.inj h3
  exact h2 h4

/-- What does hold: `a + b` is right whenever `a + b < 2^448 + l`, and `a - b` whenever
`b ≤ a + l`; neither ever panics. -/
theorem C11_unreduced_partial (a b : Scalar) :
    (∃ r, Scalar.add a b = some r ∧
      (a.val + b.val < RR + ell → r.val ≡ a.val + b.val [MOD ell])) ∧
    (∃ r, Scalar.sub a b = some r ∧
      (b.val ≤ a.val + ell → (r.val : ℤ) ≡ (a.val : ℤ) - b.val [ZMOD ell])) := by
  constructor
  · obtain ⟨r, h1, -⟩ := Scalar.add_spec a b
    refine ⟨r, h1, fun h => ?_⟩
    obtain ⟨r', g1, g2⟩ := add_exact a b h
    rw [h1] at g1
    obtain rfl := Option.some.inj g1
    rw [g2]
    split
    · rfl
    · unfold Nat.ModEq; rw [← Nat.mod_eq_sub_mod (by omega)]
  · obtain ⟨r, h1, h2⟩ := subExtra_spec a b 0 (by norm_num)
    refine ⟨r, h1, fun h => ?_⟩
    have ha := a.val_lt
    have hl := ell_lt_RR
    simp only [if_true] at h2
    rw [h2]
    generalize (RR : ℕ) = M at *
    split
    · rw [Int.emod_eq_of_lt (by omega) (by omega)]
      unfold Int.ModEq
      rw [Int.add_emod_right]
    · rw [add_zero, Int.emod_eq_of_lt (by omega) (by omega)]

/-- Non-vacuity: the guard of the partial statement covers unreduced operands. -/
example : allOnes.val + Scalar.one.val < RR + ell ∧ Scalar.one.val ≤ allOnes.val + ell := by
  rw [allOnes_val, one_val, ell_lit]; decide +kernel

/-! ## C12: field axioms -/

/-- Canonical scalars. -/
def Canon : Type := {s : Scalar // s.val < ell}

/-- The canonical scalars with the API's operations are isomorphic to the field `ZMod l`: there is
a bijection under which `+ - *`, `zero`, `one`, `invert` and `==` are those of the field. -/
theorem C12_scalar_field : ∃ φ : Canon ≃ Fl,
    (∀ a b : Canon, ∃ c : Canon, Scalar.add a.1 b.1 = some c.1 ∧ φ c = φ a + φ b) ∧
    (∀ a b : Canon, ∃ c : Canon, Scalar.sub a.1 b.1 = some c.1 ∧ φ c = φ a - φ b) ∧
    (∀ a b : Canon, ∃ c : Canon, Scalar.mul a.1 b.1 = some c.1 ∧ φ c = φ a * φ b) ∧
    (∀ a : Canon, ∃ c : Canon, Scalar.invert a.1 = some c.1 ∧ φ c = (φ a)⁻¹) ∧
    (∀ a b : Canon, Scalar.eq a.1 b.1 = true ↔ φ a = φ b) ∧
    (∀ a : Canon, a.1 = Scalar.zero ↔ φ a = 0) ∧ (∀ a : Canon, a.1 = Scalar.one ↔ φ a = 1) := by
  have hell : NeZero ell := ⟨ell_pos.ne'⟩
  have hlRR : ell < (2 ^ 32) ^ 14 := by rw [ell_lit]; decide +kernel
  let φ : Canon ≃ Fl := {
    toFun := fun s => (s.1.val : Fl)
    invFun := fun x => ⟨Arr.ofVal 14 (2 ^ 32) (by norm_num) x.val, by
      rw [Arr.ofVal_val _ _ (lt_trans (ZMod.val_lt x) hlRR)]; exact ZMod.val_lt x⟩
    left_inv := fun s => Subtype.ext (Arr.val_inj (by norm_num) (by
      show (Arr.ofVal 14 (2 ^ 32) (by norm_num) (ZMod.val ((s.1.val : ℕ) : Fl))).val = s.1.val
      rw [ZMod.val_natCast_of_lt s.2]
      exact Arr.ofVal_val _ _ (lt_trans s.2 hlRR)))
    right_inv := fun x => by
      show (((Arr.ofVal 14 (2 ^ 32) (by norm_num) (ZMod.val x)).val : ℕ) : Fl) = x
      rw [Arr.ofVal_val _ _ (lt_trans (ZMod.val_lt x) hlRR)]
      exact ZMod.natCast_zmod_val x }
  have inj : ∀ {a b : Canon}, φ a = φ b ↔ a.1.val = b.1.val := by
    intro a b
    exact ⟨fun h => by rw [φ.injective h], fun h => by
      show ((a.1.val : ℕ) : Fl) = b.1.val
      rw [h]⟩
  refine ⟨φ, ?_, ?_, ?_, ?_, ?_, ?_, ?_⟩
  · intro a b
    obtain ⟨r, h1, h2, h3⟩ := C01_scalar_add a.1 b.1 a.2 b.2
    refine ⟨⟨r, h3⟩, h1, ?_⟩
    show ((r.val : ℕ) : Fl) = _
    rw [h2, ZMod.natCast_mod, Nat.cast_add]; rfl
  · intro a b
    obtain ⟨r, h1, h2, h3⟩ := C02_scalar_sub a.1 b.1 a.2 b.2
    refine ⟨⟨r, h3⟩, h1, ?_⟩
    show ((r.val : ℕ) : Fl) = _
    have : ((r.val : ℤ) : Fl) = (((a.1.val : ℤ) - b.1.val : ℤ) : Fl) := by
      rw [h2, ZMod.intCast_mod]
    push_cast at this
    exact this
  · intro a b
    obtain ⟨r, h1, h2, h3⟩ := C03_scalar_mul a.1 b.1
    refine ⟨⟨r, h3⟩, h1, ?_⟩
    show ((r.val : ℕ) : Fl) = _
    rw [h2, ZMod.natCast_mod, Nat.cast_mul]; rfl
  · intro a
    obtain ⟨r, h1, h2, h3⟩ := Scalar.invert_pow a.1
    refine ⟨⟨r, h2⟩, h1, ?_⟩
    show ((r.val : ℕ) : Fl) = (a.1.val : Fl)⁻¹
    have hl2 : 2 < ell := by rw [ell_lit]; decide +kernel
    rw [h3]
    by_cases h0 : (a.1.val : Fl) = 0
    · rw [h0, inv_zero, zero_pow (by omega)]
    · refine eq_inv_of_mul_eq_one_left ?_
      rw [← pow_succ, show ell - 2 + 1 = ell - 1 by omega]
      exact ZMod.pow_card_sub_one_eq_one h0
  · intro a b
    rw [Scalar.eq_iff, inj]
  · intro a
    constructor
    · intro h; show ((a.1.val : ℕ) : Fl) = 0; rw [h, zero_val]; simp
    · intro h
      have : φ a = φ ⟨Scalar.zero, by rw [zero_val]; exact ell_pos⟩ := by
        rw [h]; show (0 : Fl) = ((Scalar.zero.val : ℕ) : Fl); rw [zero_val]; simp
      exact congrArg Subtype.val (φ.injective this)
  · intro a
    constructor
    · intro h; show ((a.1.val : ℕ) : Fl) = 1; rw [h, one_val]; simp
    · intro h
      have : φ a = φ ⟨Scalar.one, by rw [one_val]; exact ell_prime.one_lt⟩ := by
        rw [h]; show (1 : Fl) = ((Scalar.one.val : ℕ) : Fl); rw [one_val]; simp
      exact congrArg Subtype.val (φ.injective this)

example : Nonempty Canon := ⟨⟨lMinusOne, by rw [lMinusOne_val]; have := ell_pos; omega⟩⟩

end Ed448.Props
