import Verif.Proofs.U32Mul
import Verif.Spec.Curve

/-!
# The 32-bit backend: correctness of Karatsuba multiplication
-/

namespace Ed448.Model.U32

set_option exponentiation.threshold 1000

/-- The value of eight limbs. -/
def half (x : ℕ → ℤ) : ℤ := x 0 + 2 ^ 28 * x 1 + (2 ^ 28) ^ 2 * x 2 + (2 ^ 28) ^ 3 * x 3 + (2 ^ 28) ^ 4 * x 4 + (2 ^ 28) ^ 5 * x 5 + (2 ^ 28) ^ 6 * x 6 + (2 ^ 28) ^ 7 * x 7

theorem conv (x y : ℕ → ℕ) : half (fun i => (x i : ℤ)) * half (fun i => (y i : ℤ)) =
    half (LO x y) + (2 ^ 28) ^ 8 * half (HI x y) := by
  simp only [half, LO, HI, mm]
  ring

theorem LO_nonneg {x y : ℕ → ℕ} (h : ∀ i k, 0 ≤ mm (x i) (y k)) : ∀ k, 0 ≤ LO x y k
  | 0 => by simp only [LO]; linarith [h 0 0]
  | 1 => by simp only [LO]; linarith [h 1 0, h 0 1]
  | 2 => by simp only [LO]; linarith [h 2 0, h 1 1, h 0 2]
  | 3 => by simp only [LO]; linarith [h 3 0, h 2 1, h 1 2, h 0 3]
  | 4 => by simp only [LO]; linarith [h 4 0, h 3 1, h 2 2, h 1 3, h 0 4]
  | 5 => by simp only [LO]; linarith [h 5 0, h 4 1, h 3 2, h 2 3, h 1 4, h 0 5]
  | 6 => by simp only [LO]; linarith [h 6 0, h 5 1, h 4 2, h 3 3, h 2 4, h 1 5, h 0 6]
  | 7 => by simp only [LO]; linarith [h 7 0, h 6 1, h 5 2, h 4 3, h 3 4, h 2 5, h 1 6, h 0 7]
  | _ + 8 => le_refl _

theorem LO_le {x y : ℕ → ℕ} {B : ℤ} (hB : 0 ≤ B) (h : ∀ i k, mm (x i) (y k) ≤ B) :
    ∀ k, LO x y k ≤ (k + 1) * B
  | 0 => by simp only [LO]; push_cast; linarith [h 0 0]
  | 1 => by simp only [LO]; push_cast; linarith [h 1 0, h 0 1]
  | 2 => by simp only [LO]; push_cast; linarith [h 2 0, h 1 1, h 0 2]
  | 3 => by simp only [LO]; push_cast; linarith [h 3 0, h 2 1, h 1 2, h 0 3]
  | 4 => by simp only [LO]; push_cast; linarith [h 4 0, h 3 1, h 2 2, h 1 3, h 0 4]
  | 5 => by simp only [LO]; push_cast; linarith [h 5 0, h 4 1, h 3 2, h 2 3, h 1 4, h 0 5]
  | 6 => by simp only [LO]; push_cast; linarith [h 6 0, h 5 1, h 4 2, h 3 3, h 2 4, h 1 5, h 0 6]
  | 7 => by simp only [LO]; push_cast; linarith [h 7 0, h 6 1, h 5 2, h 4 3, h 3 4, h 2 5, h 1 6, h 0 7]
  | _ + 8 => by simp only [LO]; positivity

theorem LO_mono {x y x' y' : ℕ → ℕ} (h : ∀ i k, mm (x i) (y k) ≤ mm (x' i) (y' k)) :
    ∀ k, LO x y k ≤ LO x' y' k
  | 0 => by simp only [LO]; linarith [h 0 0]
  | 1 => by simp only [LO]; linarith [h 1 0, h 0 1]
  | 2 => by simp only [LO]; linarith [h 2 0, h 1 1, h 0 2]
  | 3 => by simp only [LO]; linarith [h 3 0, h 2 1, h 1 2, h 0 3]
  | 4 => by simp only [LO]; linarith [h 4 0, h 3 1, h 2 2, h 1 3, h 0 4]
  | 5 => by simp only [LO]; linarith [h 5 0, h 4 1, h 3 2, h 2 3, h 1 4, h 0 5]
  | 6 => by simp only [LO]; linarith [h 6 0, h 5 1, h 4 2, h 3 3, h 2 4, h 1 5, h 0 6]
  | 7 => by simp only [LO]; linarith [h 7 0, h 6 1, h 5 2, h 4 3, h 3 4, h 2 5, h 1 6, h 0 7]
  | _ + 8 => le_refl _

theorem HI_nonneg {x y : ℕ → ℕ} (h : ∀ i k, 0 ≤ mm (x i) (y k)) : ∀ k, 0 ≤ HI x y k
  | 0 => by simp only [HI]; linarith [h 7 1, h 6 2, h 5 3, h 4 4, h 3 5, h 2 6, h 1 7]
  | 1 => by simp only [HI]; linarith [h 7 2, h 6 3, h 5 4, h 4 5, h 3 6, h 2 7]
  | 2 => by simp only [HI]; linarith [h 7 3, h 6 4, h 5 5, h 4 6, h 3 7]
  | 3 => by simp only [HI]; linarith [h 7 4, h 6 5, h 5 6, h 4 7]
  | 4 => by simp only [HI]; linarith [h 7 5, h 6 6, h 5 7]
  | 5 => by simp only [HI]; linarith [h 7 6, h 6 7]
  | 6 => by simp only [HI]; linarith [h 7 7]
  | _ + 7 => le_refl _

theorem HI_le {x y : ℕ → ℕ} {B : ℤ} (h : ∀ i k, mm (x i) (y k) ≤ B) :
    ∀ k, k ≤ 7 → HI x y k ≤ (7 - k) * B
  | 0, _ => by simp only [HI]; push_cast; linarith [h 7 1, h 6 2, h 5 3, h 4 4, h 3 5, h 2 6, h 1 7]
  | 1, _ => by simp only [HI]; push_cast; linarith [h 7 2, h 6 3, h 5 4, h 4 5, h 3 6, h 2 7]
  | 2, _ => by simp only [HI]; push_cast; linarith [h 7 3, h 6 4, h 5 5, h 4 6, h 3 7]
  | 3, _ => by simp only [HI]; push_cast; linarith [h 7 4, h 6 5, h 5 6, h 4 7]
  | 4, _ => by simp only [HI]; push_cast; linarith [h 7 5, h 6 6, h 5 7]
  | 5, _ => by simp only [HI]; push_cast; linarith [h 7 6, h 6 7]
  | 6, _ => by simp only [HI]; push_cast; linarith [h 7 7]
  | 7, _ => by simp only [HI]; norm_num
  | _ + 8, hk => by omega

theorem HI_mono {x y x' y' : ℕ → ℕ} (h : ∀ i k, mm (x i) (y k) ≤ mm (x' i) (y' k)) :
    ∀ k, HI x y k ≤ HI x' y' k
  | 0 => by simp only [HI]; linarith [h 7 1, h 6 2, h 5 3, h 4 4, h 3 5, h 2 6, h 1 7]
  | 1 => by simp only [HI]; linarith [h 7 2, h 6 3, h 5 4, h 4 5, h 3 6, h 2 7]
  | 2 => by simp only [HI]; linarith [h 7 3, h 6 4, h 5 5, h 4 6, h 3 7]
  | 3 => by simp only [HI]; linarith [h 7 4, h 6 5, h 5 6, h 4 7]
  | 4 => by simp only [HI]; linarith [h 7 5, h 6 6, h 5 7]
  | 5 => by simp only [HI]; linarith [h 7 6, h 6 7]
  | 6 => by simp only [HI]; linarith [h 7 7]
  | _ + 7 => le_refl _

theorem Lim.S0_bd {a b aa bb : ℕ → ℕ} (h : Lim a b aa bb) (k : ℕ) (hk : k ≤ 7) :
    0 ≤ S0 a b aa bb k ∧ S0 a b aa bb k ≤ 3 * 2 ^ 61 := by
  have h1 := LO_nonneg (fun i j => (h.ab i j).1) k
  have h2 := LO_nonneg (x := fun i => a (i + 8)) (y := fun i => b (i + 8))
    (fun i j => (h.ab _ _).1) k
  have h3 := HI_mono h.le k
  have h4 := LO_le (by norm_num) (fun i j => (h.ab i j).2) k
  have h5 := LO_le (x := fun i => a (i + 8)) (y := fun i => b (i + 8)) (by norm_num)
    (fun i j => (h.ab _ _).2) k
  have h6 := HI_le (fun i j => (h.m i j).2) k hk
  have h7 := HI_nonneg (fun i j => (h.ab i j).1) k
  have hk' : (k : ℤ) ≤ 7 := by exact_mod_cast hk
  have hk0 : (0 : ℤ) ≤ k := by positivity
  unfold S0
  constructor
  · linarith
  · nlinarith

theorem Lim.S1_bd {a b aa bb : ℕ → ℕ} (h : Lim a b aa bb) (k : ℕ) (hk : k ≤ 7) :
    0 ≤ S1 a b aa bb k ∧ S1 a b aa bb k ≤ 3 * 2 ^ 61 := by
  have h1 := LO_nonneg (fun i j => (h.ab i j).1) k
  have h2 := HI_nonneg (x := fun i => a (i + 8)) (y := fun i => b (i + 8))
    (fun i j => (h.ab _ _).1) k
  have h3 := LO_mono h.le k
  have h4 := LO_le (by norm_num) (fun i j => (h.m i j).2) k
  have h5 := HI_le (x := fun i => a (i + 8)) (y := fun i => b (i + 8))
    (fun i j => (h.ab _ _).2) k hk
  have h6 := HI_le (fun i j => (h.m i j).2) k hk
  have h7 := HI_nonneg (fun i j => (h.m i j).1) k
  have hk' : (k : ℤ) ≤ 7 := by exact_mod_cast hk
  have hk0 : (0 : ℤ) ≤ k := by positivity
  unfold S1
  constructor
  · linarith
  · nlinarith

theorem maskI_eq (z : ℤ) : (maskI z : ℤ) = z % 2 ^ 28 := by
  unfold maskI; exact Int.toNat_of_nonneg (Int.emod_nonneg _ (by norm_num))

theorem maskI_lt (z : ℤ) : maskI z < 2 ^ 28 := by
  have := maskI_eq z
  have h := Int.emod_lt_of_pos z (show (0 : ℤ) < 2 ^ 28 by norm_num)
  omega

theorem maskI_add (z : ℤ) : (maskI z : ℤ) + 2 ^ 28 * (z / 2 ^ 28) = z := by
  rw [maskI_eq]; exact Int.emod_add_mul_ediv z _

theorem lim_of_tight {a b : Raw} (ha : Tight a) (hb : Tight b) :
    Lim a.get b.get (fun i => a.get i + a.get (i + 8)) (fun i => b.get i + b.get (i + 8)) := by
  refine ⟨fun i k => ?_, fun i k => ?_, fun i k => ?_⟩
  · have h1 := ha.get i
    have h2 := hb.get k
    unfold mm
    refine ⟨by positivity, ?_⟩
    have : a.get i * b.get k ≤ (2 ^ 28 + 2 ^ 8) * (2 ^ 28 + 2 ^ 8) := Nat.mul_le_mul h1 h2
    exact_mod_cast this.trans (by norm_num)
  · have h1 := ha.get i
    have h2 := hb.get k
    have h3 := ha.get (i + 8)
    have h4 := hb.get (k + 8)
    unfold mm
    refine ⟨by positivity, ?_⟩
    have : (a.get i + a.get (i + 8)) * (b.get k + b.get (k + 8)) ≤
        (2 ^ 29 + 2 ^ 9) * (2 ^ 29 + 2 ^ 9) := Nat.mul_le_mul (by omega) (by omega)
    exact_mod_cast this.trans (by norm_num)
  · unfold mm
    have : a.get i * b.get k ≤ (a.get i + a.get (i + 8)) * (b.get k + b.get (k + 8)) :=
      Nat.mul_le_mul (by omega) (by omega)
    exact_mod_cast this

theorem wrap_half {a : Raw} (ha : Tight a) :
    (fun i => wrapAddU32 (a.get i) (a.get (i + 8))) = fun i => a.get i + a.get (i + 8) := by
  funext i
  have h1 := ha.get i
  have h3 := ha.get (i + 8)
  unfold wrapAddU32
  exact Nat.mod_eq_of_lt (by omega)

theorem V_half (a : Raw) : (V a : ℤ) = half (fun i => (a.get i : ℤ)) +
    (2 ^ 28) ^ 8 * half (fun i => (a.get (i + 8) : ℤ)) := by
  rw [V_eq]; push_cast; simp only [half]; rfl

/-- Reduction of the product, as an identity over the integers. -/
theorem karatsuba_identity (a b aa bb : ℕ → ℕ) (haa : ∀ i, aa i = a i + a (i + 8))
    (hbb : ∀ i, bb i = b i + b (i + 8)) :
    (half (fun i => (a i : ℤ)) + (2 ^ 28) ^ 8 * half (fun i => (a (i + 8) : ℤ))) *
      (half (fun i => (b i : ℤ)) + (2 ^ 28) ^ 8 * half (fun i => (b (i + 8) : ℤ))) =
    half (S0 a b aa bb) + (2 ^ 28) ^ 8 * half (S1 a b aa bb) +
      ((2 ^ 28) ^ 16 - (2 ^ 28) ^ 8 - 1) * (half (HI aa bb) - half (HI a b) +
        half (LO (fun i => a (i + 8)) (fun i => b (i + 8))) +
        (2 ^ 28) ^ 8 * half (HI (fun i => a (i + 8)) (fun i => b (i + 8)))) := by
  have c1 := conv a b
  have c2 := conv (fun i => a (i + 8)) (fun i => b (i + 8))
  have c3 := conv aa bb
  have e1 : half (fun i => (aa i : ℤ)) =
      half (fun i => (a i : ℤ)) + half (fun i => (a (i + 8) : ℤ)) := by
    simp only [half, haa]; push_cast; ring
  have e2 : half (fun i => (bb i : ℤ)) =
      half (fun i => (b i : ℤ)) + half (fun i => (b (i + 8) : ℤ)) := by
    simp only [half, hbb]; push_cast; ring
  have s0 : half (S0 a b aa bb) = half (LO a b) +
      half (LO (fun i => a (i + 8)) (fun i => b (i + 8))) + half (HI aa bb) - half (HI a b) := by
    simp only [half, S0]; ring
  have s1 : half (S1 a b aa bb) = half (LO aa bb) - half (LO a b) +
      half (HI (fun i => a (i + 8)) (fun i => b (i + 8))) + half (HI aa bb) := by
    simp only [half, S1]; ring
  rw [e1, e2] at c3
  rw [s0, s1]
  linear_combination (1 - (2 ^ 28) ^ 8) * c1 + ((2 ^ 28) ^ 16 - (2 ^ 28) ^ 8) * c2 + (2 ^ 28) ^ 8 * c3

/-- The carries. -/
def chain (s : ℕ → ℤ) : ℕ → ℤ
  | 0 => 0 + s 0
  | k + 1 => chain s k / 2 ^ 28 + s (k + 1)

theorem chain_bd {s : ℕ → ℤ} (h : ∀ k, k ≤ 7 → 0 ≤ s k ∧ s k ≤ 3 * 2 ^ 61) :
    ∀ k, k ≤ 7 → 0 ≤ chain s k ∧ chain s k ≤ 2 ^ 63
  | 0, hk => by have := h 0 hk; unfold chain; omega
  | k + 1, hk => by
    have := h (k + 1) hk
    have ih := chain_bd h k (by omega)
    unfold chain
    omega

theorem chain_last {s : ℕ → ℤ} (h : ∀ k, k ≤ 7 → 0 ≤ s k ∧ s k ≤ 3 * 2 ^ 61) :
    0 ≤ chain s 7 / 2 ^ 28 ∧ chain s 7 / 2 ^ 28 ≤ 3 * 2 ^ 33 + 2 ^ 10 := by
  have h6 := chain_bd h 6 (by norm_num)
  have h7 := h 7 (by norm_num)
  have e : chain s 7 = chain s 6 / 2 ^ 28 + s 7 := rfl
  rw [e]
  omega

theorem chain_half (s : ℕ → ℤ) : half (fun k => (maskI (chain s k) : ℤ)) +
    (2 ^ 28) ^ 8 * (chain s 7 / 2 ^ 28) = half s := by
  have e0 := maskI_add (chain s 0)
  have e1 := maskI_add (chain s 1)
  have e2 := maskI_add (chain s 2)
  have e3 := maskI_add (chain s 3)
  have e4 := maskI_add (chain s 4)
  have e5 := maskI_add (chain s 5)
  have e6 := maskI_add (chain s 6)
  have e7 := maskI_add (chain s 7)
  have d0 : chain s 0 = 0 + s 0 := rfl
  have d1 : chain s 1 = chain s 0 / 2 ^ 28 + s 1 := rfl
  have d2 : chain s 2 = chain s 1 / 2 ^ 28 + s 2 := rfl
  have d3 : chain s 3 = chain s 2 / 2 ^ 28 + s 3 := rfl
  have d4 : chain s 4 = chain s 3 / 2 ^ 28 + s 4 := rfl
  have d5 : chain s 5 = chain s 4 / 2 ^ 28 + s 5 := rfl
  have d6 : chain s 6 = chain s 5 / 2 ^ 28 + s 6 := rfl
  have d7 : chain s 7 = chain s 6 / 2 ^ 28 + s 7 := rfl
  simp only [half]
  linear_combination (e0 + d0) + 2 ^ 28 * (e1 + d1) + (2 ^ 28) ^ 2 * (e2 + d2) +
    (2 ^ 28) ^ 3 * (e3 + d3) + (2 ^ 28) ^ 4 * (e4 + d4) + (2 ^ 28) ^ 5 * (e5 + d5) +
    (2 ^ 28) ^ 6 * (e6 + d6) + (2 ^ 28) ^ 7 * (e7 + d7)

theorem mulFinal_spec {c0 c1 c2 c3 c4 c5 c6 c7 c8 c9 c10 c11 c12 c13 c14 c15 : ℕ} {z0 z1 : ℤ}
    (h0 : c0 < 2 ^ 28) (h1 : c1 < 2 ^ 28) (h2 : c2 < 2 ^ 28) (h3 : c3 < 2 ^ 28) (h4 : c4 < 2 ^ 28)
    (h5 : c5 < 2 ^ 28) (h6 : c6 < 2 ^ 28) (h7 : c7 < 2 ^ 28) (h8 : c8 < 2 ^ 28) (h9 : c9 < 2 ^ 28)
    (h10 : c10 < 2 ^ 28) (h11 : c11 < 2 ^ 28) (h12 : c12 < 2 ^ 28) (h13 : c13 < 2 ^ 28)
    (h14 : c14 < 2 ^ 28) (h15 : c15 < 2 ^ 28) (hz0 : 0 ≤ z0) (hz1 : 0 ≤ z1)
    (hz0' : z0 ≤ 3 * 2 ^ 33 + 2 ^ 10) (hz1' : z1 ≤ 3 * 2 ^ 33 + 2 ^ 10) :
    ∃ r, mulFinal c0 c1 c2 c3 c4 c5 c6 c7 c8 c9 c10 c11 c12 c13 c14 c15 z0 z1 = some r ∧ Tight r ∧
      (V r : ℤ) = (c0 + 2 ^ 28 * c1 + (2 ^ 28) ^ 2 * c2 + (2 ^ 28) ^ 3 * c3 + (2 ^ 28) ^ 4 * c4 +
        (2 ^ 28) ^ 5 * c5 + (2 ^ 28) ^ 6 * c6 + (2 ^ 28) ^ 7 * c7) + z1 + (2 ^ 28) ^ 8 *
        (c8 + 2 ^ 28 * c9 + (2 ^ 28) ^ 2 * c10 + (2 ^ 28) ^ 3 * c11 + (2 ^ 28) ^ 4 * c12 +
        (2 ^ 28) ^ 5 * c13 + (2 ^ 28) ^ 6 * c14 + (2 ^ 28) ^ 7 * c15 + z0 + z1) := by
  have m0 := maskI_lt (z0 + [z1, (c8 : ℤ)].sum)
  have m1 := maskI_lt (z1 + c0)
  have a0 := maskI_add (z0 + [z1, (c8 : ℤ)].sum)
  have a1 := maskI_add (z1 + c0)
  have q0 : (maskI (sarZ (z0 + [z1, (c8 : ℤ)].sum) 28) : ℤ) =
      (z0 + [z1, (c8 : ℤ)].sum) / 2 ^ 28 := by
    rw [maskI_eq, sarZ28]; simp only [List.sum_cons, List.sum_nil]; omega
  have q1 : (maskI (sarZ (z1 + c0) 28) : ℤ) = (z1 + c0) / 2 ^ 28 := by
    rw [maskI_eq, sarZ28]; omega
  have b0 : maskI (sarZ (z0 + [z1, (c8 : ℤ)].sum) 28) ≤ 2 ^ 8 := by
    simp only [List.sum_cons, List.sum_nil] at *; omega
  have b1 : maskI (sarZ (z1 + c0) 28) ≤ 2 ^ 8 := by omega
  have ht : ∀ x ∈ [maskI (z1 + c0), c1 + maskI (sarZ (z1 + c0) 28), c2, c3, c4, c5, c6, c7,
      maskI (z0 + [z1, (c8 : ℤ)].sum), c9 + maskI (sarZ (z0 + [z1, (c8 : ℤ)].sum) 28), c10, c11,
      c12, c13, c14, c15], x ≤ 2 ^ 28 + 2 ^ 8 := by
    refine mem16 (P := fun x => x ≤ 2 ^ 28 + 2 ^ 8) ?_ ?_ ?_ ?_ ?_ ?_ ?_ ?_ ?_ ?_ ?_ ?_ ?_ ?_ ?_ ?_
      <;> omega
  refine ⟨⟨_, rfl, fun x hx => (ht x hx).trans_lt (by norm_num)⟩, ?_, ht, ?_⟩
  · unfold mulFinal
    refine ckSum_bind (by simp) (allBd_cons (by omega) (by omega) (allBd_cons (by omega) (by omega)
      allBd_nil)) ?_
    refine ckI128_bind (by bd) (by bd) ?_
    refine ckI128_bind (by omega) (by omega) ?_
    simp only
    rw [ckU32_eq (by omega), Option.bind_some, ckU32_eq (by omega), Option.bind_some]
    exact pack_eq _ _ _
  · rw [V_eq]
    simp only [Arr.get, List.getD_cons_zero, List.getD_cons_succ]
    push_cast
    rw [q0, q1]
    simp only [List.sum_cons, List.sum_nil] at *
    linear_combination a1 + (2 ^ 28) ^ 8 * a0

theorem p_int : (p : ℤ) = (2 ^ 28) ^ 16 - (2 ^ 28) ^ 8 - 1 := by
  have := p_eq
  zify at this
  linarith

/-- From the carried coefficients to the value modulo `p`. -/
theorem combine {a b r : Raw} {s0 s1 : ℕ → ℤ} {z0 z1 k : ℤ}
    (hs : (V a : ℤ) * V b = half s0 + (2 ^ 28) ^ 8 * half s1 + p * k)
    (h0 : half (fun k => (maskI (chain s0 k) : ℤ)) + (2 ^ 28) ^ 8 * z0 = half s0)
    (h1 : half (fun k => (maskI (chain s1 k) : ℤ)) + (2 ^ 28) ^ 8 * z1 = half s1)
    (hr : (V r : ℤ) = half (fun k => (maskI (chain s0 k) : ℤ)) + z1 + (2 ^ 28) ^ 8 *
      (half (fun k => (maskI (chain s1 k) : ℤ)) + z0 + z1)) :
    (V r : Fp) = (V a : Fp) * (V b : Fp) := by
  have e : (V a : ℤ) * V b = V r + p * (k + z1) := by
    have hp := p_int
    rw [hs, hr]
    linear_combination -h0 - (2 ^ 28) ^ 8 * h1 - z1 * hp
  have := congrArg (fun z : ℤ => (z : Fp)) e
  push_cast at this
  rw [ZMod.natCast_self, zero_mul, add_zero] at this
  exact this.symm

theorem bind_of_eq {α β : Type} {x : Option α} {v : α} {f : α → Option β} {r : Option β}
    (h : x = some v) (h' : f v = r) : x.bind f = r := by rw [h]; exact h'

theorem V_mul_identity {a b : Raw} :
    ∃ k, (V a : ℤ) * V b = half (S0 a.get b.get (fun i => a.get i + a.get (i + 8))
      (fun i => b.get i + b.get (i + 8))) + (2 ^ 28) ^ 8 * half (S1 a.get b.get
      (fun i => a.get i + a.get (i + 8)) (fun i => b.get i + b.get (i + 8))) + p * k := by
  rw [V_half a, V_half b, p_int]
  exact ⟨_, karatsuba_identity a.get b.get _ _ (fun _ => rfl) (fun _ => rfl)⟩

theorem mul_spec {a b : Raw} (ha : Tight a) (hb : Tight b) :
    ∃ r, mul a b = some r ∧ Tight r ∧ (V r : Fp) = (V a : Fp) * (V b : Fp) := by
  obtain ⟨k, hk⟩ := V_mul_identity (a := a) (b := b)
  have hl := lim_of_tight ha hb
  have e : mul a b = (fun (a b aa bb : ℕ → ℕ) =>
      (mulJ0 a b aa bb 0).bind fun (c0, c8, z0, z1) =>
      (mulJ1 a b aa bb z0 z1).bind fun (c1, c9, z0, z1) =>
      (mulJ2 a b aa bb z0 z1).bind fun (c2, c10, z0, z1) =>
      (mulJ3 a b aa bb z0 z1).bind fun (c3, c11, z0, z1) =>
      (mulJ4 a b aa bb z0 z1).bind fun (c4, c12, z0, z1) =>
      (mulJ5 a b aa bb z0 z1).bind fun (c5, c13, z0, z1) =>
      (mulJ6 a b aa bb z0 z1).bind fun (c6, c14, z0, z1) =>
      (mulJ7 a b aa bb z0 z1).bind fun (c7, c15, z0, z1) =>
      mulFinal c0 c1 c2 c3 c4 c5 c6 c7 c8 c9 c10 c11 c12 c13 c14 c15 z0 z1)
      a.get b.get (fun i => a.get i + a.get (i + 8)) (fun i => b.get i + b.get (i + 8)) := by
    rw [← wrap_half ha, ← wrap_half hb]; rfl
  rw [e]
  generalize (fun i => a.get i + a.get (i + 8)) = aa at *
  generalize (fun i => b.get i + b.get (i + 8)) = bb at *
  have b0 := fun k hk => hl.S0_bd k hk
  have b1 := fun k hk => hl.S1_bd k hk
  have n0 : ∀ k, k ≤ 7 → 0 ≤ chain (S0 a.get b.get aa bb) k / 2 ^ 28 ∧
      chain (S0 a.get b.get aa bb) k / 2 ^ 28 ≤ 2 ^ 40 := fun k hk => by
    have := chain_bd b0 k hk; omega
  have n1 : ∀ k, k ≤ 7 → 0 ≤ chain (S1 a.get b.get aa bb) k / 2 ^ 28 ∧
      chain (S1 a.get b.get aa bb) k / 2 ^ 28 ≤ 2 ^ 40 := fun k hk => by
    have := chain_bd b1 k hk; omega
  have l0 := chain_last b0
  have l1 := chain_last b1
  obtain ⟨r, r1, r2, r3⟩ := mulFinal_spec
    (maskI_lt (chain (S0 a.get b.get aa bb) 0))
    (maskI_lt (chain (S0 a.get b.get aa bb) 1))
    (maskI_lt (chain (S0 a.get b.get aa bb) 2))
    (maskI_lt (chain (S0 a.get b.get aa bb) 3))
    (maskI_lt (chain (S0 a.get b.get aa bb) 4))
    (maskI_lt (chain (S0 a.get b.get aa bb) 5))
    (maskI_lt (chain (S0 a.get b.get aa bb) 6))
    (maskI_lt (chain (S0 a.get b.get aa bb) 7))
    (maskI_lt (chain (S1 a.get b.get aa bb) 0))
    (maskI_lt (chain (S1 a.get b.get aa bb) 1))
    (maskI_lt (chain (S1 a.get b.get aa bb) 2))
    (maskI_lt (chain (S1 a.get b.get aa bb) 3))
    (maskI_lt (chain (S1 a.get b.get aa bb) 4))
    (maskI_lt (chain (S1 a.get b.get aa bb) 5))
    (maskI_lt (chain (S1 a.get b.get aa bb) 6))
    (maskI_lt (chain (S1 a.get b.get aa bb) 7))
    l0.1 l1.1 l0.2 l1.2
  refine ⟨r, ?_, r2, combine hk (chain_half _) (chain_half _) ?_⟩
  · rw [← r1]
    refine bind_of_eq (mulJ0_eq hl) ?_
    refine bind_of_eq (mulJ1_eq (z0 := chain (S0 a.get b.get aa bb) 0 / 2 ^ 28)
      (z1 := chain (S1 a.get b.get aa bb) 0 / 2 ^ 28) hl (n0 0 (by norm_num)).1
      (n0 0 (by norm_num)).2 (n1 0 (by norm_num)).1 (n1 0 (by norm_num)).2) ?_
    refine bind_of_eq (mulJ2_eq (z0 := chain (S0 a.get b.get aa bb) 1 / 2 ^ 28)
      (z1 := chain (S1 a.get b.get aa bb) 1 / 2 ^ 28) hl (n0 1 (by norm_num)).1
      (n0 1 (by norm_num)).2 (n1 1 (by norm_num)).1 (n1 1 (by norm_num)).2) ?_
    refine bind_of_eq (mulJ3_eq (z0 := chain (S0 a.get b.get aa bb) 2 / 2 ^ 28)
      (z1 := chain (S1 a.get b.get aa bb) 2 / 2 ^ 28) hl (n0 2 (by norm_num)).1
      (n0 2 (by norm_num)).2 (n1 2 (by norm_num)).1 (n1 2 (by norm_num)).2) ?_
    refine bind_of_eq (mulJ4_eq (z0 := chain (S0 a.get b.get aa bb) 3 / 2 ^ 28)
      (z1 := chain (S1 a.get b.get aa bb) 3 / 2 ^ 28) hl (n0 3 (by norm_num)).1
      (n0 3 (by norm_num)).2 (n1 3 (by norm_num)).1 (n1 3 (by norm_num)).2) ?_
    refine bind_of_eq (mulJ5_eq (z0 := chain (S0 a.get b.get aa bb) 4 / 2 ^ 28)
      (z1 := chain (S1 a.get b.get aa bb) 4 / 2 ^ 28) hl (n0 4 (by norm_num)).1
      (n0 4 (by norm_num)).2 (n1 4 (by norm_num)).1 (n1 4 (by norm_num)).2) ?_
    refine bind_of_eq (mulJ6_eq (z0 := chain (S0 a.get b.get aa bb) 5 / 2 ^ 28)
      (z1 := chain (S1 a.get b.get aa bb) 5 / 2 ^ 28) hl (n0 5 (by norm_num)).1
      (n0 5 (by norm_num)).2 (n1 5 (by norm_num)).1 (n1 5 (by norm_num)).2) ?_
    refine bind_of_eq (mulJ7_eq (z0 := chain (S0 a.get b.get aa bb) 6 / 2 ^ 28)
      (z1 := chain (S1 a.get b.get aa bb) 6 / 2 ^ 28) hl (n0 6 (by norm_num)).1
      (n0 6 (by norm_num)).2 (n1 6 (by norm_num)).1 (n1 6 (by norm_num)).2) ?_
    rfl
  · rw [r3]
    rfl

end Ed448.Model.U32