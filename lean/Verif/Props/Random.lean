import Verif.Gen.FixRandom
import Verif.Props.RepairLeakage

/-!
# `Scalar::random` on the translated source (C89)

The generator is any state `σ` with a function `fill_bytes` that for a state and a number `n` gives `n`
bytes and the next state.
-/

namespace Ed448.Props
open Ed448.Model Ed448.Edw Ed448.Proofs
open FieldVal (val)
open Leak (Lk Ev Er CT CTT CTP LeakBackend CTBackend)

set_option exponentiation.threshold 1000

/-- A source of random bytes with states `σ`. -/
abbrev Rng (σ : Type) := σ → ℕ → List ℕ × σ

/-- The next 114 numbers the generator gives are 114 bytes. -/
def Gives114 {σ : Type} (x : Rng σ × σ) : Prop := Words 114 256 (x.1 x.2 114).1

theorem random_some {b : List ℕ} (h : Words 114 256 b) :
    ∃ s, Gen.Scalar.from_bytes_mod_order_wide b = some s ∧ Words 14 (2 ^ 32) s ∧
      wval (2 ^ 32) s = wval 256 b % ell := by
  obtain ⟨r, e, hr, -⟩ := C08_wide_reduction h.arr
  exact ⟨r.l, (Source.from_bytes_mod_order_wide h.arr).trans (by rw [e]; rfl), Arr.words r, hr⟩

theorem random_eq {σ : Type} (fill : Rng σ) (rng : σ) : Gen.Scalar.random fill rng =
    (Gen.Scalar.from_bytes_mod_order_wide (fill rng 114).1).bind fun s => some (s, (fill rng 114).2) := rfl

/-- `random` asks the generator once, for 114 bytes, and returns their value modulo `l` as a reduced
scalar, with the generator in the state after these bytes. -/
theorem C89_random {σ : Type} (fill : Rng σ) (rng : σ) (h : Words 114 256 (fill rng 114).1) :
    (∃ s, Gen.Scalar.random fill rng = some (s, (fill rng 114).2) ∧ Words 14 (2 ^ 32) s ∧
      wval (2 ^ 32) s = wval 256 (fill rng 114).1 % ell ∧ wval (2 ^ 32) s < ell) ∧
    ∀ fill' : Rng σ, fill' rng 114 = fill rng 114 → Gen.Scalar.random fill' rng = Gen.Scalar.random fill rng := by
  refine ⟨?_, fun fill' e => by rw [random_eq, random_eq, e]⟩
  obtain ⟨s, e, hs, hv⟩ := random_some h
  exact ⟨s, by rw [random_eq, e]; rfl, hs, hv, hv ▸ Nat.mod_lt _ ell_pos⟩

/-- Residues among the first `N` numbers. -/
theorem count_residues (N l : ℕ) (hl : 0 < l) (hN : 0 < N) (A : Finset ℕ) (hA : ∀ v ∈ A, v < l) :
    |(((Finset.range N).filter fun k => k % l ∈ A).card : ℚ) / N - A.card / l| ≤ l / N := by
  have hc : ∀ v ∈ A, |(((Finset.range N).filter fun k => k % l = v).card : ℚ) * l - N| ≤ l := by
    intro v hv
    have e : ((Finset.range N).filter fun k => k % l = v) = (Finset.range N).filter fun k => k ≡ v [MOD l] := by
      refine Finset.filter_congr fun k _ => ?_
      rw [Nat.ModEq, Nat.mod_eq_of_lt (hA v hv)]
    rw [e, ← Nat.count_eq_card_filter_range, Nat.count_modEq_card _ hl]
    have h1 : ((N / l : ℕ) : ℚ) * l + (N % l : ℕ) = N := by exact_mod_cast Nat.div_add_mod' N l
    have h2 : ((N % l : ℕ) : ℚ) ≤ l := by exact_mod_cast (Nat.mod_lt _ hl).le
    have h3 : (0 : ℚ) ≤ (N % l : ℕ) := Nat.cast_nonneg _
    rw [abs_le]
    split <;> push_cast <;> constructor <;> linarith
  have hs : (((Finset.range N).filter fun k => k % l ∈ A).card : ℚ) =
      ∑ v ∈ A, (((Finset.range N).filter fun k => k % l = v).card : ℚ) := by
    have := Finset.card_eq_sum_card_fiberwise (f := fun k => k % l)
      (s := (Finset.range N).filter fun k => k % l ∈ A) (t := A)
      (fun k hk => (Finset.mem_filter.mp hk).2)
    rw [this, Nat.cast_sum]
    refine Finset.sum_congr rfl fun v hv => ?_
    congr 2
    ext k
    simp only [Finset.mem_filter]
    exact ⟨fun h => ⟨h.1.1, h.2⟩, fun h => ⟨⟨h.1, h.2 ▸ hv⟩, h.2⟩⟩
  have hN' : (0 : ℚ) < N := by exact_mod_cast hN
  have hl' : (0 : ℚ) < l := by exact_mod_cast hl
  have hAl : (A.card : ℚ) ≤ l := by
    have : A ⊆ Finset.range l := fun v hv => Finset.mem_range.mpr (hA v hv)
    exact_mod_cast (Finset.card_le_card this).trans (Finset.card_range l).le
  have key : |(((Finset.range N).filter fun k => k % l ∈ A).card : ℚ) * l - A.card * N| ≤ l * l := by
    rw [hs, Finset.sum_mul]
    have : (A.card : ℚ) * N = ∑ _v ∈ A, (N : ℚ) := by rw [Finset.sum_const, nsmul_eq_mul]
    rw [this, ← Finset.sum_sub_distrib]
    refine (Finset.abs_sum_le_sum_abs _ _).trans ((Finset.sum_le_sum hc).trans ?_)
    rw [Finset.sum_const, nsmul_eq_mul]
    exact mul_le_mul_of_nonneg_right hAl hl'.le
  rw [div_sub_div _ _ hN'.ne' hl'.ne', abs_div, abs_of_pos (mul_pos hN' hl'), div_le_div_iff₀ (mul_pos hN' hl') hN']
  calc _ ≤ (l * l : ℚ) * N := mul_le_mul_of_nonneg_right (by rwa [mul_comm (N : ℚ)]) hN'.le
    _ = _ := by ring

/-- The generator that gives one string. -/
def once (b : Bytes 114) : Rng Unit := fun u _ => (b.l, u)

theorem once_iff (b : Bytes 114) (A : Finset ℕ) :
    (∃ s u, Gen.Scalar.random (once b) () = some (s, u) ∧ wval (2 ^ 32) s ∈ A) ↔ b.val % ell ∈ A := by
  obtain ⟨⟨s, e, -, hv, -⟩, -⟩ := C89_random (once b) () (Arr.words b)
  have hv' : wval (2 ^ 32) s = b.val % ell := hv
  rw [e]
  constructor
  · rintro ⟨s', u, h, hA⟩
    cases h
    rwa [← hv']
  · intro h
    exact ⟨s, _, rfl, hv' ▸ h⟩

/-- If the 114 bytes are uniform, the scalar is almost uniform: for no set of scalars does its probability
differ from the uniform one by more than `2^-466`. -/
theorem C89_uniform (A : Finset ℕ) (hA : ∀ v ∈ A, v < ell) :
    |(Nat.card {b : Bytes 114 // ∃ s u, Gen.Scalar.random (once b) () = some (s, u) ∧
        wval (2 ^ 32) s ∈ A} : ℚ) / 2 ^ 912 - A.card / ell| ≤ 1 / 2 ^ 466 := by
  have e : {b : Bytes 114 // ∃ s u, Gen.Scalar.random (once b) () = some (s, u) ∧ wval (2 ^ 32) s ∈ A} ≃
      {k // k ∈ (Finset.range (256 ^ 114)).filter (fun k => k % ell ∈ A)} := by
    refine ((bytesEquiv 114).subtypeEquiv (q := fun k => k.1 % ell ∈ A) fun b => once_iff b A).trans ?_
    exact {
      toFun := fun k => ⟨k.1.1, Finset.mem_filter.mpr ⟨Finset.mem_range.mpr k.1.2, k.2⟩⟩
      invFun := fun k => ⟨⟨k.1, Finset.mem_range.mp (Finset.mem_filter.mp k.2).1⟩,
        (Finset.mem_filter.mp k.2).2⟩
      left_inv := fun k => rfl
      right_inv := fun k => rfl }
  rw [Nat.card_congr e, Nat.card_eq_fintype_card, Fintype.card_coe]
  have h := count_residues (256 ^ 114) ell ell_pos (by positivity) A hA
  have hp : ((256 ^ 114 : ℕ) : ℚ) = 2 ^ 912 := by rw [pow_912]; push_cast; rfl
  rw [hp] at h
  refine h.trans ?_
  have hl : (ell : ℚ) ≤ 2 ^ 446 := by
    have : ell ≤ 2 ^ 446 := by rw [ell_lit]; decide +kernel
    exact_mod_cast this
  rw [div_le_div_iff₀ (by positivity) (by positivity), one_mul]
  calc (ell : ℚ) * 2 ^ 466 ≤ 2 ^ 446 * 2 ^ 466 := mul_le_mul_of_nonneg_right hl (by positivity)
    _ = 2 ^ 912 := by rw [← pow_add]

/-- How often one residue is hit. -/
theorem count_once {v : ℕ} (hv : v < ell) :
    Nat.card {b : Bytes 114 // b.val % ell = v} = 2 ^ 912 / ell ∨
    Nat.card {b : Bytes 114 // b.val % ell = v} = 2 ^ 912 / ell + 1 := by
  have h : ∀ b : Bytes 114, (∃ r, Scalar.random b = some r ∧ r.val = v) ↔ b.val % ell = v := by
    intro b
    obtain ⟨r, h1, h2, -⟩ := C08_wide_reduction b
    constructor
    · rintro ⟨r', e, h⟩
      have e' : some r = some r' := h1.symm.trans e
      cases e'
      exact h2.symm.trans h
    · intro h
      exact ⟨r, h1, h2.trans h⟩
  rw [← Nat.card_congr (Equiv.subtypeEquivRight h)]
  exact C09_scalar_random.2 v hv

/-- Public keys: if the 114 bytes are uniform, every element of the Decaf group is the public key of a random
scalar for `⌊2^912/l⌋` or `⌊2^912/l⌋ + 1` of them. -/
theorem C89_public_key {F L : Type} [FieldBackend F L] [Lawful F] (P : DecafPt F) (hP : SrcDecaf P) :
    Nat.card {b : Bytes 114 // ∃ s u Q, Gen.Scalar.random (once b) () = some (s, u) ∧
      Gen.DecafPt.op_mul_Scalar Gen.DecafPt.generator s = some Q ∧ Gen.DecafPt.equals Q P = true} =
        2 ^ 912 / ell ∨
    Nat.card {b : Bytes 114 // ∃ s u Q, Gen.Scalar.random (once b) () = some (s, u) ∧
      Gen.DecafPt.op_mul_Scalar Gen.DecafPt.generator s = some Q ∧ Gen.DecafPt.equals Q P = true} =
        2 ^ 912 / ell + 1 := by
  obtain ⟨f, h1, h2, -, hg, -⟩ := C67_source_decaf_group (F := F)
  have key : ∀ b : Bytes 114, (∃ s u Q, Gen.Scalar.random (once b) () = some (s, u) ∧
      Gen.DecafPt.op_mul_Scalar Gen.DecafPt.generator s = some Q ∧ Gen.DecafPt.equals Q P = true) ↔
      b.val % ell = (f P).val := by
    intro b
    obtain ⟨⟨s, e, hs, hv, hl⟩, -⟩ := C89_random (once b) () (Arr.words b)
    obtain ⟨Q, eQ, hQ⟩ := (h2 _ SrcDecaf.generator).2 s hs
    have hv' : b.val % ell = wval (2 ^ 32) s := hv.symm
    have iff : Gen.DecafPt.equals Q P = true ↔ b.val % ell = (f P).val := by
      rw [(h1 Q P (.mul .generator hs eQ) hP).1, hQ, hg, mul_one, hv']
      constructor
      · intro h
        rw [← h, ZMod.val_natCast, Nat.mod_eq_of_lt hl]
      · intro h
        rw [h, ZMod.natCast_val, ZMod.cast_id]
    rw [e]
    constructor
    · rintro ⟨s', u, Q', h, hm, hq⟩
      cases h
      have := eQ.symm.trans hm
      cases this
      exact iff.mp hq
    · intro h
      exact ⟨s, _, Q, rfl, eQ, iff.mpr h⟩
  rw [Nat.card_congr (Equiv.subtypeEquivRight key)]
  exact count_once (ZMod.val_lt _)

/-! ## Several scalars -/

/-- `k` scalars from one generator. -/
def draw {σ : Type} (fill : Rng σ) : ℕ → σ → Option (List (List ℕ) × σ)
  | 0, rng => some ([], rng)
  | k + 1, rng => (Gen.Scalar.random fill rng).bind fun x =>
      (draw fill k x.2).map fun y => (x.1 :: y.1, y.2)

/-- A generator that hands out a given string. -/
def buffer : Rng (List ℕ) := fun s n => (s.take n, s.drop n)

theorem words_append {m n : ℕ} {a b : List ℕ} (ha : Words m 256 a) (hb : Words n 256 b) :
    Words (m + n) 256 (a ++ b) :=
  ⟨by rw [List.length_append, ha.1, hb.1], fun x hx => (List.mem_append.mp hx).elim (ha.2 x) (hb.2 x)⟩

theorem words_take {m n : ℕ} {a : List ℕ} (h : Words (m + n) 256 a) : Words m 256 (a.take m) :=
  ⟨by rw [List.length_take, h.1]; omega, fun x hx => h.2 x (List.mem_of_mem_take hx)⟩

theorem words_drop {m n : ℕ} {a : List ℕ} (h : Words (m + n) 256 a) : Words n 256 (a.drop m) :=
  ⟨by rw [List.length_drop, h.1]; omega, fun x hx => h.2 x (List.mem_of_mem_drop hx)⟩

/-- `k` scalars from `114 k` bytes are the values of the `k` pieces modulo `l`. -/
theorem draw_buffer (k : ℕ) (b : List ℕ) (h : Words (114 * k) 256 b) :
    ∃ ss, draw buffer k b = some (ss, []) ∧ ss.length = k ∧
      ∀ i s, ss[i]? = some s → Words 14 (2 ^ 32) s ∧
        wval (2 ^ 32) s = wval 256 ((b.drop (114 * i)).take 114) % ell := by
  induction k generalizing b with
  | zero => exact ⟨[], by rw [draw, List.length_eq_zero_iff.mp h.1], rfl, by simp⟩
  | succ k ih =>
    rw [Nat.mul_succ, add_comm] at h
    obtain ⟨⟨s, e, hs, hv, -⟩, -⟩ := C89_random buffer b (words_take h)
    obtain ⟨ss, e', hl, hss⟩ := ih (b.drop 114) (words_drop h)
    have e₂ : draw buffer k (buffer b 114).2 = some (ss, []) := e'
    refine ⟨s :: ss, by rw [draw, e, Option.bind_some, e₂]; rfl, by rw [List.length_cons, hl], ?_⟩
    rintro (_ | i) t ht
    · cases ht
      exact ⟨hs, hv⟩
    · obtain ⟨h1, h2⟩ := hss i t ht
      refine ⟨h1, ?_⟩
      rw [h2, List.drop_drop]
      congr 4
      ring

/-- The number of strings of `114 k` bytes that give the scalars `vs` is the product of the
numbers for the single scalars. -/
theorem card_draw (vs : List ℕ) :
    Nat.card {b : List ℕ // Words (114 * vs.length) 256 b ∧
      ∃ ss rest, draw buffer vs.length b = some (ss, rest) ∧ ss.map (wval (2 ^ 32)) = vs} =
    (vs.map fun v => Nat.card {b : List ℕ // Words 114 256 b ∧
      ∃ s rest, Gen.Scalar.random buffer b = some (s, rest) ∧ wval (2 ^ 32) s = v}).prod := by
  induction vs with
  | nil =>
    rw [List.map_nil, List.prod_nil, Nat.card_eq_one_iff_unique]
    refine ⟨⟨fun a b => Subtype.ext ?_⟩, ⟨⟨[], ⟨rfl, by simp⟩, [], [], rfl, rfl⟩⟩⟩
    rw [List.length_eq_zero_iff.mp a.2.1.1, List.length_eq_zero_iff.mp b.2.1.1]
  | cons v vs ih =>
    rw [List.map_cons, List.prod_cons, ← ih, ← Nat.card_prod]
    have one : ∀ a r : List ℕ, Words 114 256 a → Gen.Scalar.random buffer (a ++ r) =
        (Gen.Scalar.random buffer a).map fun x => (x.1, r) := by
      intro a r ha
      rw [random_eq, random_eq]
      have e1 : (buffer (a ++ r) 114).1 = a := List.take_left' ha.1
      have e2 : (buffer (a ++ r) 114).2 = r := List.drop_left' ha.1
      have e3 : (buffer a 114).1 = a := List.take_of_length_le ha.1.le
      rw [e1, e2, e3]
      cases Gen.Scalar.from_bytes_mod_order_wide a <;> rfl
    have iff : ∀ a r : List ℕ, Words 114 256 a →
        ((∃ ss rest, draw buffer (v :: vs).length (a ++ r) = some (ss, rest) ∧ ss.map (wval (2 ^ 32)) = v :: vs) ↔
        (∃ s rest, Gen.Scalar.random buffer a = some (s, rest) ∧ wval (2 ^ 32) s = v) ∧
        ∃ ss rest, draw buffer vs.length r = some (ss, rest) ∧ ss.map (wval (2 ^ 32)) = vs) := by
      intro a r ha
      rw [List.length_cons, draw, one a r ha]
      constructor
      · rintro ⟨ss, rest, h, hm⟩
        obtain ⟨x, hx, h⟩ := Option.bind_eq_some_iff.mp h
        obtain ⟨y, hy, rfl⟩ := Option.map_eq_some_iff.mp hx
        obtain ⟨z, hz, h⟩ := Option.map_eq_some_iff.mp h
        cases h
        obtain ⟨h1, h2⟩ := List.cons_eq_cons.mp hm
        exact ⟨⟨y.1, y.2, hy, h1⟩, z.1, z.2, hz, h2⟩
      · rintro ⟨⟨s, u, hs, h1⟩, ss, rest, hd, h2⟩
        refine ⟨s :: ss, rest, ?_, by rw [List.map_cons, h1, h2]⟩
        rw [hs]
        show Option.map _ (draw buffer vs.length r) = _
        rw [hd]
        rfl
    have hl : 114 * (v :: vs).length = 114 + 114 * vs.length := by rw [List.length_cons]; ring
    refine Nat.card_congr {
      toFun := fun b => (⟨b.1.take 114, ?_⟩, ⟨b.1.drop 114, ?_⟩)
      invFun := fun p => ⟨p.1.1 ++ p.2.1, ?_⟩
      left_inv := fun b => Subtype.ext (List.take_append_drop 114 b.1)
      right_inv := fun p => Prod.ext (Subtype.ext (List.take_left' p.1.2.1.1))
        (Subtype.ext (List.drop_left' p.1.2.1.1)) }
    · have w : Words (114 + 114 * vs.length) 256 b.1 := ⟨b.2.1.1.trans hl, b.2.1.2⟩
      have h := b.2.2
      rw [← List.take_append_drop 114 b.1] at h
      exact ⟨words_take w, ((iff _ _ (words_take w)).mp h).1⟩
    · have w : Words (114 + 114 * vs.length) 256 b.1 := ⟨b.2.1.1.trans hl, b.2.1.2⟩
      have h := b.2.2
      rw [← List.take_append_drop 114 b.1] at h
      exact ⟨words_drop w, ((iff _ _ (words_take w)).mp h).2⟩
    · refine ⟨?_, (iff _ _ p.1.2.1).mpr ⟨p.1.2.2, p.2.2.2⟩⟩
      exact hl ▸ words_append p.1.2.1 p.2.2.1

/-- Independence: the number of strings of `114 k` bytes that give the scalars `vs` is the product of the
numbers for the single scalars, each of which is `⌊2^912/l⌋` or `⌊2^912/l⌋ + 1`. -/
theorem C89_independent (vs : List ℕ) :
    Nat.card {b : List ℕ // Words (114 * vs.length) 256 b ∧
      ∃ ss rest, draw buffer vs.length b = some (ss, rest) ∧ ss.map (wval (2 ^ 32)) = vs} =
    (vs.map fun v => Nat.card {b : List ℕ // Words 114 256 b ∧
      ∃ s rest, Gen.Scalar.random buffer b = some (s, rest) ∧ wval (2 ^ 32) s = v}).prod ∧
    ∀ v < ell, Nat.card {b : List ℕ // Words 114 256 b ∧
      ∃ s rest, Gen.Scalar.random buffer b = some (s, rest) ∧ wval (2 ^ 32) s = v} ∈
        ({2 ^ 912 / ell, 2 ^ 912 / ell + 1} : Set ℕ) := by
  refine ⟨card_draw vs, fun v hv => ?_⟩
  have e : {b : List ℕ // Words 114 256 b ∧
      ∃ s rest, Gen.Scalar.random buffer b = some (s, rest) ∧ wval (2 ^ 32) s = v} ≃
      {b : Bytes 114 // b.val % ell = v} := {
    toFun := fun b => ⟨b.2.1.arr, by
      obtain ⟨b, hb, s, u, h, hv⟩ := b
      have ht : (buffer b 114).1 = b := List.take_of_length_le hb.1.le
      obtain ⟨⟨s', e, -, hs', -⟩, -⟩ := C89_random buffer b (by rwa [ht])
      rw [e] at h
      cases h
      rw [ht] at hs'
      exact hs'.symm.trans hv⟩
    invFun := fun b => ⟨b.1.l, Arr.words b.1, by
      have ht : (buffer b.1.l 114).1 = b.1.l := List.take_of_length_le b.1.len.le
      obtain ⟨⟨s', e, -, hs', -⟩, -⟩ := C89_random buffer b.1.l (by rw [ht]; exact Arr.words b.1)
      rw [ht] at hs'
      exact ⟨s', _, e, hs'.trans b.2⟩⟩
    left_inv := fun b => rfl
    right_inv := fun b => rfl }
  rw [Nat.card_congr e]
  exact count_once hv

/-! ## Observations and release builds -/

instance {σ : Type} {x y : Rng σ × σ} : CTT (Leak.Scalar.random x.1 x.2) (Leak.Scalar.random y.1 y.2) :=
  ⟨by unfold Leak.Scalar.random; ct⟩

instance {σ : Type} {fill : Rng σ} {rng : σ} :
    Er (Leak.Scalar.random fill rng) (Gen.Scalar.random fill rng) := by
  unfold Leak.Scalar.random Gen.Scalar.random; er

instance {σ : Type} {fill : Rng σ} {rng : σ} :
    Rel.Ref (Gen.Scalar.random fill rng) (Rel.Scalar.random fill rng) := by
  unfold Gen.Scalar.random Rel.Scalar.random; ref

/-- `random` shows nothing of the bytes, apart from what the generator itself shows. -/
theorem C89_trace {σ : Type} : SameTrace (Gives114 (σ := σ)) (fun x => Gen.Scalar.random x.1 x.2)
    (fun x => Leak.Scalar.random x.1 x.2) :=
  sameTrace_inst (fun _ _ => inferInstance) (fun _ => inferInstance) fun x hx =>
    (C89_random x.1 x.2 hx).1.elim fun _ h => ⟨_, h.1⟩

/-- The release build of `random` is the same. -/
theorem C89_release {σ : Type} : SameBuild (Gives114 (σ := σ)) (fun x => Gen.Scalar.random x.1 x.2)
    (fun x => Rel.Scalar.random x.1 x.2) :=
  sameBuild (fun _ => inferInstance) fun x hx => (C89_random x.1 x.2 hx).1.elim fun _ h => ⟨_, h.1⟩

/-! ## The repaired source -/

instance {σ : Type} {x y : Rng σ × σ} :
    CTT (Leak.Fix.Scalar.random x.1 x.2) (Leak.Fix.Scalar.random y.1 y.2) :=
  ⟨by unfold Leak.Fix.Scalar.random; ct⟩

instance {σ : Type} {fill : Rng σ} {rng : σ} :
    Er (Leak.Fix.Scalar.random fill rng) (Gen.Fix.Scalar.random fill rng) := by
  unfold Leak.Fix.Scalar.random Gen.Fix.Scalar.random; er

instance {σ : Type} {fill : Rng σ} {rng : σ} :
    Rel.Ref (Gen.Fix.Scalar.random fill rng) (Rel.Fix.Scalar.random fill rng) := by
  unfold Gen.Fix.Scalar.random Rel.Fix.Scalar.random; ref

/-- On the repaired source `random` returns the same scalars, shows nothing of them, and is the same in a
release build. -/
theorem C89_repaired {σ : Type} :
    (∀ x : Rng σ × σ, Gives114 x → Gen.Fix.Scalar.random x.1 x.2 = Gen.Scalar.random x.1 x.2) ∧
    SameTrace (Gives114 (σ := σ)) (fun x => Gen.Fix.Scalar.random x.1 x.2)
      (fun x => Leak.Fix.Scalar.random x.1 x.2) ∧
    SameBuild (Gives114 (σ := σ)) (fun x => Gen.Fix.Scalar.random x.1 x.2)
      (fun x => Rel.Fix.Scalar.random x.1 x.2) := by
  have same : ∀ x : Rng σ × σ, Gives114 x → Gen.Fix.Scalar.random x.1 x.2 = Gen.Scalar.random x.1 x.2 := by
    intro x hx
    obtain ⟨-, -, r, e, hr⟩ := C77_scalars Scalar.zero Scalar.zero (Words.arr hx)
    obtain ⟨s, e', hs, hv⟩ := random_some hx
    have : r = hs.arr := Arr.val_inj (by norm_num) (hr.trans hv.symm)
    have e₂ : Gen.Fix.Scalar.from_bytes_mod_order_wide (x.1 x.2 114).1 = some s := by rw [this] at e; exact e
    have u : Gen.Fix.Scalar.random x.1 x.2 = (Gen.Fix.Scalar.from_bytes_mod_order_wide (x.1 x.2 114).1).bind
        fun s => some (s, (x.1 x.2 114).2) := rfl
    rw [u, random_eq, e₂, e']
  have ex : ∀ x : Rng σ × σ, Gives114 x → ∃ r, Gen.Fix.Scalar.random x.1 x.2 = some r := fun x hx =>
    (C89_random x.1 x.2 hx).1.elim fun _ h => ⟨_, (same x hx).trans h.1⟩
  exact ⟨same, sameTrace_inst (fun _ _ => inferInstance) (fun _ => inferInstance) ex,
    sameBuild (fun _ => inferInstance) ex⟩

/-! ## Examples -/

/-- A generator that gives 114 bytes `0xff`: the scalar is `2^912 - 1` modulo `l`. -/
example : ∃ s, Gen.Scalar.random (fun (u : ℕ) n => (List.replicate n 255, u + n)) 5 = some (s, 119) ∧
    wval (2 ^ 32) s = (2 ^ 912 - 1) % ell := by
  obtain ⟨⟨s, e, -, hv, -⟩, -⟩ := C89_random (fun (u : ℕ) n => (List.replicate n 255, u + n)) 5
    (by unfold Words; decide +kernel)
  refine ⟨s, e, hv.trans ?_⟩
  have : wval 256 (List.replicate 114 255) = 2 ^ 912 - 1 := by decide +kernel
  exact congrArg (· % ell) this

/-- The even scalars have probability one half, up to `2^-466`. -/
example : |(Nat.card {b : Bytes 114 // ∃ s u, Gen.Scalar.random (once b) () = some (s, u) ∧
    wval (2 ^ 32) s ∈ (Finset.range ell).filter Even} : ℚ) / 2 ^ 912 -
      ((Finset.range ell).filter Even).card / ell| ≤ 1 / 2 ^ 466 :=
  C89_uniform _ fun _ hv => Finset.mem_range.mp (Finset.mem_filter.mp hv).1

/-- Two scalars from 228 bytes. -/
example : ∃ s t, draw buffer 2 (List.replicate 114 0 ++ 7 :: List.replicate 113 0) = some ([s, t], []) ∧
    wval (2 ^ 32) s = 0 ∧ wval (2 ^ 32) t = 7 := by
  obtain ⟨ss, e, hl, h⟩ := draw_buffer 2 (List.replicate 114 0 ++ 7 :: List.replicate 113 0)
    (by unfold Words; decide +kernel)
  match ss, hl, e, h with
  | [s, t], _, e, h =>
    refine ⟨s, t, e, (h 0 s rfl).2.trans ?_, (h 1 t rfl).2.trans ?_⟩ <;> rw [ell_lit] <;> decide +kernel

/-- The observer sees the same for all bytes. -/
example : (Leak.Scalar.random buffer (List.replicate 114 255)).tr =
    (Leak.Scalar.random buffer (List.replicate 114 0)).tr := by
  obtain ⟨T, h⟩ := C89_trace (σ := List ℕ)
  obtain ⟨r, -, e⟩ := h (buffer, List.replicate 114 255) (by unfold Gives114 Words; decide +kernel)
  obtain ⟨r', -, e'⟩ := h (buffer, List.replicate 114 0) (by unfold Gives114 Words; decide +kernel)
  exact (congrArg Lk.tr e).trans (congrArg Lk.tr e').symm

end Ed448.Props
