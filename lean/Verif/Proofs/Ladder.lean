import Verif.Proofs.XOnly
import Verif.Proofs.MulPoints
import Verif.Proofs.Compress

/-!
# The Montgomery ladder
-/

namespace Ed448.Model

set_option exponentiation.threshold 1000
open FieldBackend FieldVal Edw
variable {F L : Type} [FieldBackend F L] [Lawful F]
variable {G K : Type} [AddCommGroup G] [Field K] [Algebra Fp K]

/-- `P` is a projective representative of `(U g : W g)`. -/
def XRep (M : XMap G K) (P : ProjMont F) (g : G) : Prop :=
  ∃ c, c ≠ 0 ∧ algebraMap Fp K (val P.U) = c * M.U g ∧ algebraMap Fp K (val P.W) = c * M.W g

theorem select_proj (a b : ProjMont F) (c : Bool) :
    val (a.select b c).U = (if c then val b.U else val a.U) ∧
    val (a.select b c).W = (if c then val b.W else val a.W) := by
  unfold ProjMont.select
  exact ⟨Lawful.val_select _ _ _, Lawful.val_select _ _ _⟩

theorem diff_vals (P Q : ProjMont F) (u : F) :
    val (diffAddDouble P Q u).1.U = (val P.U ^ 2 - val P.W ^ 2) ^ 2 ∧
    val (diffAddDouble P Q u).1.W = 4 * val P.U * val P.W *
      (val P.U ^ 2 + 156326 * val P.U * val P.W + val P.W ^ 2) ∧
    val (diffAddDouble P Q u).2.U = 4 * (val P.U * val Q.U - val P.W * val Q.W) ^ 2 ∧
    val (diffAddDouble P Q u).2.W = val u * (4 * (val P.W * val Q.U - val P.U * val Q.W) ^ 2) := by
  refine ⟨?_, ?_, ?_, ?_⟩ <;>
    simp only [diffAddDouble, val_mul, val_square, Lawful.val_add, Lawful.val_sub,
      Lawful.val_A_PLUS_TWO_OVER_FOUR] <;> ring

/-- One combined step: doubling of `g`, and the sum `g + h` given the difference `±D`. -/
theorem diff_rep (M : XMap G K) {P Q : ProjMont F} {g h D : G} {u : F}
    (hP : XRep M P g) (hQ : XRep M Q h) (hD : g - h = D ∨ g - h = -D)
    (hu : algebraMap Fp K (val u) * M.W D = M.U D) (hU : M.U D ≠ 0) :
    XRep M (diffAddDouble P Q u).1 (g + g) ∧ XRep M (diffAddDouble P Q u).2 (g + h) := by
  obtain ⟨a, ha, aU, aW⟩ := hP
  obtain ⟨b, hb, bU, bW⟩ := hQ
  obtain ⟨v1, v2, v3, v4⟩ := diff_vals P Q u
  constructor
  · obtain ⟨c, hc, cU, cW⟩ := M.dbl g
    refine ⟨a ^ 4 / c, div_ne_zero (pow_ne_zero 4 ha) hc, ?_, ?_⟩
    · rw [v1, cU]
      simp only [map_pow, map_sub, aU, aW]
      field_simp
    · rw [v2, cW]
      simp only [map_pow, map_mul, map_add, map_ofNat, aU, aW]
      field_simp
  · obtain ⟨c, hc, cU, cW⟩ := M.add g h
    have eU : M.U (g - h) = M.U D := by rcases hD with e | e <;> rw [e]; exact M.neg_U D
    have eW : M.W (g - h) = M.W D := by rcases hD with e | e <;> rw [e]; exact M.neg_W D
    rw [eU] at cU
    rw [eW] at cW
    have h4 := K_four (K := K)
    refine ⟨4 * a ^ 2 * b ^ 2 * M.U D / c, ?_, ?_, ?_⟩
    · exact div_ne_zero (mul_ne_zero (mul_ne_zero (mul_ne_zero h4 (pow_ne_zero 2 ha))
        (pow_ne_zero 2 hb)) hU) hc
    · rw [v3]
      simp only [map_pow, map_sub, map_mul, map_ofNat, aU, aW, bU, bW]
      rw [div_mul_eq_mul_div, eq_div_iff hc]
      linear_combination (-4 * a ^ 2 * b ^ 2) * cU
    · rw [v4]
      simp only [map_pow, map_sub, map_mul, map_ofNat, aU, aW, bU, bW]
      rw [div_mul_eq_mul_div, eq_div_iff hc, ← hu]
      linear_combination (-4 * a ^ 2 * b ^ 2 * algebraMap Fp K (val u)) * cW

/-- The state after consuming the prefix `m`. -/
def LadderInv (M : XMap G K) (D : G) (st : ProjMont F × ProjMont F × Bool) (m : ℕ) : Prop :=
  if st.2.2 then XRep M st.1 ((m + 1) • D) ∧ XRep M st.2.1 (m • D)
  else XRep M st.1 (m • D) ∧ XRep M st.2.1 ((m + 1) • D)

theorem XRep.congr (M : XMap G K) {P Q : ProjMont F} {g : G} (h : XRep M P g)
    (hU : val Q.U = val P.U) (hW : val Q.W = val P.W) : XRep M Q g := by
  unfold XRep at *
  rw [hU, hW]; exact h

theorem ladderStep_inv (M : XMap G K) {D : G} {u : F}
    (hu : algebraMap Fp K (val u) * M.W D = M.U D) (hU : M.U D ≠ 0)
    (st : ProjMont F × ProjMont F × Bool) (m : ℕ) (h : LadderInv M D st m) (b : Bool) :
    LadderInv M D (ladderStep u st b) (b.toNat + 2 * m) ∧ (ladderStep u st b).2.2 = b := by
  refine ⟨?_, rfl⟩
  obtain ⟨x0, x1, sw⟩ := st
  -- after the swap the pair is (m, m+1), exchanged iff the bit is set
  have key : if b then XRep M (x0.select x1 (xor sw b)) ((m + 1) • D) ∧
        XRep M (x1.select x0 (xor sw b)) (m • D)
      else XRep M (x0.select x1 (xor sw b)) (m • D) ∧
        XRep M (x1.select x0 (xor sw b)) ((m + 1) • D) := by
    have s1 := select_proj x0 x1 (xor sw b)
    have s2 := select_proj x1 x0 (xor sw b)
    unfold LadderInv at h
    cases sw <;> cases b <;> simp at h s1 s2 ⊢
    · exact ⟨h.1.congr M s1.1 s1.2, h.2.congr M s2.1 s2.2⟩
    · exact ⟨h.2.congr M s1.1 s1.2, h.1.congr M s2.1 s2.2⟩
    · exact ⟨h.2.congr M s1.1 s1.2, h.1.congr M s2.1 s2.2⟩
    · exact ⟨h.1.congr M s1.1 s1.2, h.2.congr M s2.1 s2.2⟩
  unfold LadderInv ladderStep
  cases b with
  | true =>
    rw [if_pos rfl] at key ⊢
    have := diff_rep M key.1 key.2 (Or.inl (by rw [add_nsmul, one_nsmul]; abel)) hu hU
    refine ⟨?_, ?_⟩
    · convert this.1 using 1; rw [← add_nsmul]; congr 1; simp; omega
    · convert this.2 using 1; rw [← add_nsmul]; congr 1; simp; omega
  | false =>
    have key := key
    rw [if_neg Bool.false_ne_true] at key ⊢
    have := diff_rep M key.1 key.2 (Or.inr (by rw [add_nsmul, one_nsmul]; abel)) hu hU
    refine ⟨?_, ?_⟩
    · convert this.1 using 1; rw [← add_nsmul]; congr 1; simp; omega
    · convert this.2 using 1; rw [← add_nsmul]; congr 1; simp; omega

theorem ladder_fold (M : XMap G K) {D : G} {u : F}
    (hu : algebraMap Fp K (val u) * M.W D = M.U D) (hU : M.U D ≠ 0)
    (l : List Bool) (st : ProjMont F × ProjMont F × Bool) (m : ℕ) (h : LadderInv M D st m)
    (hb : st.2.2 = decide (m % 2 = 1)) :
    LadderInv M D (l.foldl (ladderStep u) st) (l.foldl (fun n b => b.toNat + 2 * n) m) ∧
    (l.foldl (ladderStep u) st).2.2 =
      decide (l.foldl (fun n b => b.toNat + 2 * n) m % 2 = 1) := by
  induction l generalizing st m with
  | nil => exact ⟨h, hb⟩
  | cons b l ih =>
    obtain ⟨h1, h2⟩ := ladderStep_inv M hu hU st m h b
    refine ih _ _ h1 ?_
    rw [h2]
    cases b <;> simp

/-- Over `u = 0` every `W` vanishes after the first step. -/
theorem ladder_zero {u : F} (hu : val u = 0) (l : List Bool)
    (st : ProjMont F × ProjMont F × Bool) (h0 : val st.1.W = 0)
    (h1 : val st.2.1.U * val st.2.1.W = 0) :
    val (l.foldl (ladderStep u) st).1.W = 0 := by
  induction l generalizing st with
  | nil => exact h0
  | cons b l ih =>
    obtain ⟨x0, x1, sw⟩ := st
    simp only at h0 h1
    obtain ⟨-, v2, -, v4⟩ := diff_vals (x0.select x1 (xor sw b)) (x1.select x0 (xor sw b)) u
    have s1 := select_proj x0 x1 (xor sw b)
    refine ih _ ?_ ?_
    · show val (diffAddDouble (x0.select x1 (xor sw b)) (x1.select x0 (xor sw b)) u).1.W = 0
      rw [v2, s1.1, s1.2]
      cases xor sw b
      · simp [h0]
      · simp only [if_true]
        linear_combination (4 * (val x1.U ^ 2 + 156326 * val x1.U * val x1.W + val x1.W ^ 2)) * h1
    · show val (diffAddDouble (x0.select x1 (xor sw b)) (x1.select x0 (xor sw b)) u).2.U *
        val (diffAddDouble (x0.select x1 (xor sw b)) (x1.select x0 (xor sw b)) u).2.W = 0
      rw [v4, hu]; ring

omit [Algebra Fp K] in
theorem ker_nsmul (M : XMap G K) {g : G} (h : M.W g = 0) (n : ℕ) : M.W (n • g) = 0 := by
  induction n with
  | zero => rw [zero_nsmul]; exact M.zero
  | succ n ih => rw [add_nsmul, one_nsmul]; exact M.ker _ _ ih h

theorem toAffine_val (P : ProjMont F) : (P.toAffine.val : Fp) = val P.U * (val P.W)⁻¹ := by
  unfold ProjMont.toAffine
  rw [Lawful.toBytes_val, ZMod.natCast_zmod_val]
  simp [val_invert]

/-- `MontgomeryPoint * Scalar` computes the `u`-coordinate of `[n + n mod 2] D`. -/
theorem montMul_rep (M : XMap G K) (D : G) (u : Bytes 56)
    (hu : algebraMap Fp K (u.val : Fp) = M.U D / M.W D) (s : Scalar) :
    algebraMap Fp K ((montMulScalar F u s).val : Fp) =
      M.U ((s.val + s.val % 2) • D) / M.W ((s.val + s.val % 2) • D) := by
  unfold montMulScalar
  rw [toAffine_val]
  have hv : val (fromBytes u : F) = (u.val : Fp) := Lawful.val_fromBytes u
  have hev : (s.val + s.val % 2) • D = ((s.val + 1) / 2) • (D + D) := by
    rw [← two_nsmul, smul_smul]; congr 1; omega
  by_cases h0 : M.W D = 0 ∨ M.U D = 0
  · have hu0 : (u.val : Fp) = 0 := by
      have : algebraMap Fp K (u.val : Fp) = 0 := by
        rcases h0 with h | h <;> rw [hu, h] <;> simp
      exact (map_eq_zero _).1 this
    have hW2 : M.W (D + D) = 0 := by
      obtain ⟨c, -, -, e⟩ := M.dbl D
      rcases h0 with h | h <;> rw [e, h] <;> ring
    rw [ladder_zero (hv.trans hu0) _ _ (by simp [ProjMont.identity]) (by simp [hu0]), hev,
      ker_nsmul M hW2]
    simp
  · push Not at h0
    have hu' : algebraMap Fp K (val (fromBytes u : F)) * M.W D = M.U D := by
      rw [hv, hu, div_mul_cancel₀ _ h0.1]
    have hU0 : M.U 0 ≠ 0 := fun e => M.ne 0 ⟨e, M.zero⟩
    have init : LadderInv M D ((ProjMont.identity : ProjMont F), ⟨fromBytes u, one⟩, false) 0 := by
      unfold LadderInv
      rw [if_neg Bool.false_ne_true]
      constructor
      · refine ⟨1 / M.U 0, div_ne_zero one_ne_zero hU0, ?_, ?_⟩
        · rw [zero_nsmul]; simp [ProjMont.identity]; rw [inv_mul_cancel₀ hU0]
        · rw [zero_nsmul, M.zero]; simp [ProjMont.identity]
      · refine ⟨1 / M.W D, div_ne_zero one_ne_zero h0.1, ?_, ?_⟩
        · rw [zero_add, one_nsmul, ← hu']
          have := h0.1
          field_simp
        · rw [zero_add, one_nsmul]
          have := h0.1
          simp [this]
    obtain ⟨h1, h2⟩ := ladder_fold M hu' h0.2 s.bits.reverse _ 0 init (by simp)
    rw [foldl_bits, s.bits_val] at h1 h2
    have hr : XRep M (s.bits.reverse.foldl (ladderStep (fromBytes u : F))
        (ProjMont.identity, ⟨fromBytes u, one⟩, false)).1 ((s.val + s.val % 2) • D) := by
      unfold LadderInv at h1
      rw [h2] at h1
      rcases Nat.mod_two_eq_zero_or_one s.val with e | e
      · rw [e] at h1 ⊢; exact h1.1
      · rw [e] at h1 ⊢; exact h1.1
    obtain ⟨c, hc, e1, e2⟩ := hr
    rw [map_mul, map_inv₀, e1, e2, ← div_eq_mul_inv, mul_div_mul_left _ _ hc]

theorem toBytes_val_lt (x : F) : (toBytes x).val < p := by
  rw [Lawful.toBytes_val]; exact ZMod.val_lt _

theorem montMul_lt (u : Bytes 56) (s : Scalar) : (montMulScalar F u s).val < p := by
  unfold montMulScalar ProjMont.toAffine
  exact toBytes_val_lt _

/-! ## The map from Edwards points -/

theorem toMontgomery_val {P : EdPt F} {R : E} (h : Rep P R) :
    (P.toMontgomery.val : Fp) = R.y ^ 2 / R.x ^ 2 := by
  unfold EdPt.toMontgomery
  rw [Lawful.toBytes_val, ZMod.natCast_zmod_val]
  obtain ⟨hx, hy⟩ := rep_toAffine h
  simp only [val_mul, val_square, Lawful.val_sub, Lawful.val_one, val_mulC, Lawful.lval_EDWARDS_D,
    val_invert, hy]
  have ho := R.on
  unfold OnCurve at ho
  have e : 1 - R.y ^ 2 = R.x ^ 2 * (1 - d * R.y ^ 2) := by linear_combination -ho
  have hd := one_sub_dy_ne R.y
  rw [e]
  generalize 1 - d * R.y ^ 2 = A at hd
  by_cases hx0 : R.x = 0
  · simp [hx0]
  · field_simp

end Ed448.Model
