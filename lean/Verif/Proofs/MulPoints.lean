import Verif.Proofs.TwPoints
import Verif.Proofs.ScalarMisc

/-!
# Scalar multiplication routines
-/

namespace Ed448.Model

set_option exponentiation.threshold 1000
open FieldBackend FieldVal Edw Iso
variable {F L : Type} [FieldBackend F L] [Lawful F]

theorem pow_parity {e : Fp} (h : e ^ 2 = 1) {a b : ℕ} (hab : a % 2 = b % 2) : e ^ a = e ^ b := by
  rw [← Nat.mod_add_div a 2, ← Nat.mod_add_div b 2, hab, pow_add, pow_add, pow_mul, pow_mul, h,
    one_pow, one_pow]

theorem tableEntry_rep {e : Fp} {Q : TwPt F} {R : E} (h : RepT e Q R) :
    ∀ i, RepN (e ^ (i + 1)) (tableEntry Q.toExtensible i) ((i + 1) • R)
  | 0 => by rw [zero_add, one_smul, pow_one]; exact h.toX.toN
  | i + 1 => by
    have ih := tableEntry_rep h i
    have := (h.toX.addProjectiveNiels ih).toN
    rw [← succ_nsmul', ← pow_succ'] at this
    exact this

theorem RepN.select1 {e : Fp} {P Q : PNiels F} {R : E} {i j : ℕ} (h : RepN (e ^ i) P (i • R))
    (k : RepN (e ^ j) Q (j • R)) (c : Bool) :
    RepN (e ^ (if c then j else i)) (P.select Q c) ((if c then j else i) • R) := by
  have := h.select k c
  cases c <;> simpa using this

/-- The window table contains the multiples `1..8`; other indices select the identity. -/
theorem tableSelect_rep {e : Fp} {Q : TwPt F} {R : E} (h : RepT e Q R) (i : ℕ) :
    RepN (e ^ (if i ≤ 8 then i else 0)) (tableSelect (lookupTable Q) i)
      ((if i ≤ 8 then i else 0) • R) := by
  have s0 : RepN (e ^ 0) (PNiels.identity : PNiels F) (0 • R) := by
    rw [pow_zero, zero_nsmul]; exact repN_identity
  have s1 := s0.select1 (tableEntry_rep h 0) (i == 0 + 1)
  have s2 := s1.select1 (tableEntry_rep h 1) (i == 1 + 1)
  have s3 := s2.select1 (tableEntry_rep h 2) (i == 2 + 1)
  have s4 := s3.select1 (tableEntry_rep h 3) (i == 3 + 1)
  have s5 := s4.select1 (tableEntry_rep h 4) (i == 4 + 1)
  have s6 := s5.select1 (tableEntry_rep h 5) (i == 5 + 1)
  have s7 := s6.select1 (tableEntry_rep h 6) (i == 6 + 1)
  have s8 := s7.select1 (tableEntry_rep h 7) (i == 7 + 1)
  have key : (if i ≤ 8 then i else 0) = (if (i == 7 + 1) then 7 + 1 else
    if (i == 6 + 1) then 6 + 1 else if (i == 5 + 1) then 5 + 1 else if (i == 4 + 1) then 4 + 1 else
    if (i == 3 + 1) then 3 + 1 else if (i == 2 + 1) then 2 + 1 else if (i == 1 + 1) then 1 + 1 else
    if (i == 0 + 1) then 0 + 1 else 0) := by
    by_cases hi : i ≤ 8
    · rw [if_pos hi]
      interval_cases i <;> simp
    · rw [if_neg hi]
      have : ∀ k, k ≤ 8 → (i == k) = false := fun k hk => by
        rw [beq_eq_false_iff_ne]; omega
      simp [this]
  rw [key]
  exact s8

theorem digitAbs_eq (s : ℤ) (h1 : -8 ≤ s) (h2 : s ≤ 8) :
    digitAbs s = some (decide (s < 0), s.natAbs) := by
  interval_cases s <;> rfl

theorem vbStep_rep {e f : Fp} {Q : TwPt F} {R : E} (h : RepT e Q R) {r : TwExt F} {n : ℤ}
    (hr : RepX f r (n • R)) (s : ℤ) (h1 : -8 ≤ s) (h2 : s ≤ 8) :
    RepX (e ^ (s + 16 * n).natAbs) (vbStep (lookupTable Q) r (decide (s < 0)) s.natAbs)
      ((s + 16 * n) • R) := by
  have hd := hr.double.double.double.double
  have ht := tableSelect_rep h s.natAbs
  rw [if_pos (by omega)] at ht
  have hs := ht.condNegate (decide (s < 0))
  have ha := hd.addProjectiveNiels hs
  rw [one_mul, pow_parity h.s (show s.natAbs % 2 = (s + 16 * n).natAbs % 2 by omega)] at ha
  unfold vbStep
  convert ha using 1
  rw [add_zsmul, add_comm]
  congr 1
  · simp only [← two_zsmul, smul_smul]
    congr 1
    ring
  · by_cases hneg : s < 0
    · simp only [hneg, decide_true, if_true]
      rw [← natCast_zsmul, ← neg_zsmul]
      congr 1; omega
    · simp only [hneg, decide_false, Bool.false_eq_true, if_false]
      rw [← natCast_zsmul]
      congr 1; omega

theorem vbLoop_rep {e : Fp} {Q : TwPt F} {R : E} (h : RepT e Q R) :
    ∀ (l : List ℤ) (r : TwExt F) (n : ℤ),
    (∀ s ∈ l, -8 ≤ s ∧ s ≤ 8) → RepX (e ^ n.natAbs) r (n • R) →
    ∃ r', vbLoop (lookupTable Q) l r = some r' ∧
      RepX (e ^ (l.foldl (fun acc s => s + 16 * acc) n).natAbs) r'
        ((l.foldl (fun acc s => s + 16 * acc) n) • R)
  | [], r, n, _, hr => ⟨r, rfl, hr⟩
  | s :: l, r, n, hl, hr => by
    have h0 := hl s (by simp)
    have hs := vbStep_rep h hr s h0.1 h0.2
    obtain ⟨r', e, hr'⟩ := vbLoop_rep h l _ _ (fun x hx => hl x (by simp [hx])) hs
    exact ⟨r', by rw [vbLoop, digitAbs_eq s h0.1 h0.2]; exact e, hr'⟩

/-- `variable_base` on any point `± φ(R)`, with the sign of the result. -/
theorem variableBase_rep' {e : Fp} {Q : TwPt F} {R : E} (h : RepT e Q R) (s : Scalar) :
    ∃ r, variableBase Q s = some r ∧ RepT (e ^ s.val) r (s.val • R) := by
  obtain ⟨ds, e, hlen, hd, hlast, hv⟩ := s.toRadix16_spec
  have hb : ∀ x ∈ ds.reverse, -8 ≤ x ∧ x ≤ 8 := by
    intro x hx
    rw [List.mem_reverse] at hx
    obtain ⟨i, hi, rfl⟩ := List.getElem_of_mem hx
    have hg : ds.getD i 0 = ds[i] := by
      rw [List.getD_eq_getElem?_getD, List.getElem?_eq_getElem hi]; rfl
    rw [← hg]
    by_cases h' : i < 112
    · have := hd i h'; omega
    · have : i = 112 := by omega
      subst this
      rcases hlast with h0 | h0 <;> rw [h0] <;> norm_num
  have h0 : RepX (‹Fp› ^ (0 : ℤ).natAbs) (TwExt.identity : TwExt F) ((0 : ℤ) • R) := by
    rw [zero_zsmul, Int.natAbs_zero, pow_zero]; exact repX_identity
  obtain ⟨r', e', hr'⟩ := vbLoop_rep h ds.reverse _ 0 hb h0
  refine ⟨r'.toExtended, ?_, ?_⟩
  · rw [variableBase, e, Option.bind_some, e', Option.map_some]
  · rw [List.foldl_reverse, hv, natCast_zsmul, Int.natAbs_natCast] at hr'
    exact hr'.toT

theorem variableBase_rep {Q : TwPt F} {R : E} (h : RepT 1 Q R) (s : Scalar) :
    ∃ r, variableBase Q s = some r ∧ RepT 1 r (s.val • R) := by
  obtain ⟨r, e, hr⟩ := variableBase_rep' h s
  rw [one_pow] at hr
  exact ⟨r, e, hr⟩

theorem daStep_rep {e f : Fp} {Q r : TwPt F} {R S : E} (h : RepT e Q R) (hr : RepT f r S)
    (b : Bool) : RepT (if b then e else 1) (daStep Q r b) (S + S + (if b then R else 0)) := by
  have h1 := repT_identity.select h b
  have := hr.double.add h1
  rwa [one_mul] at this

theorem daLoop_rep {e : Fp} {Q : TwPt F} {R : E} (h : RepT e Q R) :
    ∀ (l : List Bool) (r : TwPt F) (n : ℕ), RepT (e ^ n) r (n • R) →
      RepT (e ^ (l.foldl (fun n b => b.toNat + 2 * n) n)) (l.foldl (daStep Q) r)
        ((l.foldl (fun n b => b.toNat + 2 * n) n) • R)
  | [], r, n, hr => hr
  | b :: l, r, n, hr => by
    have hs := daStep_rep h hr b
    have e1 : n • R + n • R + (if b then R else 0) = (b.toNat + 2 * n) • R := by
      rw [← two_nsmul, smul_smul, add_comm, add_nsmul]
      cases b <;> simp
    have e2 : (if b then e else 1) = e ^ (b.toNat + 2 * n) := by
      rw [pow_parity h.s (show (b.toNat + 2 * n) % 2 = b.toNat % 2 by omega)]
      cases b <;> simp
    rw [e1, e2] at hs
    exact daLoop_rep h l _ _ hs

theorem foldl_bits (l : List Bool) :
    l.reverse.foldl (fun n b => b.toNat + 2 * n) 0 = Nat.ofDigits 2 (l.map Bool.toNat) := by
  rw [List.foldl_reverse]
  induction l with
  | nil => simp
  | cons b l ih => rw [List.foldr_cons, ih, List.map_cons, Nat.ofDigits_cons]

/-- `double_and_add` on any point `± φ(R)`, with the sign of the result. -/
theorem doubleAndAdd_rep {e : Fp} {Q : TwPt F} {R : E} (h : RepT e Q R) (s : Scalar) :
    RepT (e ^ s.val) (doubleAndAdd Q s) (s.val • R) := by
  have h0 : RepT (e ^ 0) (TwPt.identity : TwPt F) (0 • R) := by
    rw [zero_nsmul, pow_zero]; exact repT_identity
  have hr := daLoop_rep h s.bits.reverse _ 0 h0
  rw [foldl_bits, s.bits_val] at hr
  exact hr

/-- `scalar_mul` never panics and computes the multiple. -/
theorem rep_scalarMul {P : EdPt F} {R : E} (h : Rep P R) (s : Scalar) :
    ∃ r, P.scalarMul s = some r ∧ Rep r (s.val • R) := by
  obtain ⟨q, e, hq⟩ := s.divByFour_spec
  obtain ⟨r, e', hr⟩ := variableBase_rep (rep_toTwisted h) q
  refine ⟨_, by rw [EdPt.scalarMul, e, Option.bind_some, e', Option.map_some], ?_⟩
  have := rep_add hr.toUntwisted (rep_scalarModFour h s)
  convert this using 1
  rw [smul_smul, ← add_nsmul, hq]
  congr 1
  omega

end Ed448.Model
