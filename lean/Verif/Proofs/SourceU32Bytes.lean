import Verif.Proofs.SourceU32Square
import Verif.Model.U32Const
import Verif.Proofs.U32Bytes

/-!
# The translated 32-bit backend: encodings, wrappers and constants
-/

namespace Ed448.Proofs.Source
open Ed448.Model Ed448.Gen
open Ed448.Model.U32

theorem shl28 {y : ℕ} (h : y < 2 ^ 32) : Rt.shlU 64 y 28 = y <<< 28 := by
  rw [Rt.shlU, Nat.mod_eq_of_lt]
  rw [Nat.shiftLeft_eq]
  omega

theorem store_loop {F : List ℕ × ℕ → ℕ → Option (List ℕ × ℕ)} {i : ℕ}
    (hF : ∀ r l j, j < 7 → F (r, l) j = (Rt.put r (7 * i + j) (asU8 l)).map (·, l >>> 8)) :
    ∀ (n j : ℕ) (pre zs rest : List ℕ) (l : ℕ),
    pre.length = 7 * i + j → j + n ≤ 7 → zs.length = n →
    ∃ l', (List.range' j n).foldlM F (pre ++ (zs ++ rest), l) =
      some (pre ++ (storeBytes n l ++ rest), l')
  | 0, j, pre, [], rest, l, _, _, _ => ⟨l, rfl⟩
  | n + 1, j, pre, z :: zs, rest, l, hp, hj, hz => by
    obtain ⟨l', ih⟩ := store_loop hF n (j + 1) (pre ++ [asU8 l]) zs rest (l >>> 8)
      (by simp [hp]; omega) (by omega) (by simpa using hz)
    refine ⟨l', ?_⟩
    rw [List.range'_succ, List.foldlM_cons, hF _ _ _ (by omega),
      put_eq (pre := pre) (x := z) (post := zs ++ rest) (by simp) hp.symm]
    simp only [List.append_assoc, List.cons_append, List.nil_append] at ih
    rw [storeBytes]
    exact ih
  | 0, _, _, _ :: _, _, _, _, _, h => by simp at h
  | _ + 1, _, _, [], _, _, _, _, h => by simp at h

theorem block_loop {G : List ℕ → ℕ → Option (List ℕ)} {self : List ℕ}
    (hG : ∀ k x y pre zs rest, k < 8 → Rt.idx self (2 * k) = some x →
      Rt.idx self (2 * k + 1) = some y →
      pre.length = 7 * k → zs.length = 7 → G (pre ++ (zs ++ rest)) k =
        (ckU64 (x + y <<< 28)).bind fun l => some (pre ++ (storeBytes 7 l ++ rest))) :
    ∀ (n k : ℕ) (ls lpre pre zs : List ℕ), k + n ≤ 8 → self = lpre ++ ls → lpre.length = 2 * k →
      ls.length = 2 * n → pre.length = 7 * k → zs.length = 7 * n →
      (List.range' k n).foldlM G (pre ++ zs) = (toBytesLoop ls).map (pre ++ ·)
  | 0, k, [], lpre, pre, [], _, _, _, _, _, _ => by simp [toBytesLoop]
  | n + 1, k, x :: y :: ls, lpre, pre, zs, hk, hs, hl, hls, hp, hz => by
    have e : zs = zs.take 7 ++ zs.drop 7 := (List.take_append_drop 7 zs).symm
    have hs2 : self = (lpre ++ [x]) ++ y :: ls := by simp [hs]
    rw [List.range'_succ, List.foldlM_cons, e, hG k x y pre _ _ (by omega)
      (idx_eq hs hl.symm) (idx_eq hs2 (by simp [hl])) hp
      (by rw [List.length_take]; omega)]
    rw [toBytesLoop]
    cases hc : ckU64 (x + y <<< 28) with
    | none => rfl
    | some l =>
      have h7 : ∀ l, (storeBytes 7 l).length = 7 := fun _ => rfl
      have ih := block_loop hG n (k + 1) ls (lpre ++ [x, y]) (pre ++ storeBytes 7 l) (zs.drop 7)
        (by omega) (by simp [hs]) (by simp [hl]; omega) (by simp at hls; omega)
        (by rw [List.length_append, h7]; omega) (by rw [List.length_drop]; omega)
      rw [List.append_assoc] at ih
      refine ih.trans ?_
      change _ = Option.map _ ((toBytesLoop ls).bind _)
      cases toBytesLoop ls with
      | none => rfl
      | some r => exact congrArg some (List.append_assoc _ _ _)
  | 0, _, _ :: _, _, _, _, _, _, _, h, _, _ => by simp at h
  | 0, _, [], _, _, _ :: _, _, _, _, _, _, h => by simp at h
  | _ + 1, _, [], _, _, _, _, _, _, h, _, _ => by simp at h
  | _ + 1, _, [_], _, _, _, _, _, _, h, _, _ => by simp at h; omega

/-- The outer loop of `to_bytes`. -/
theorem fe_toBytes_loop (x : Raw) :
    (Rt.range 0 8).foldlM (fun (τ2 : (List ℕ)) (i : ℕ) =>
      (Rt.ckUsize ((2 : ℕ) * i)).bind fun τ3 =>
      (Rt.idx x.l τ3).bind fun τ4 =>
      (Rt.ckUsize ((2 : ℕ) * i)).bind fun τ5 =>
      (Rt.ckUsize (τ5 + (1 : ℕ))).bind fun τ6 =>
      (Rt.idx x.l τ6).bind fun τ7 =>
      (ckU64 (τ4 + (Rt.shlU 64 τ7 28))).bind fun τ8 =>
      (List.foldlM (fun (τ9 : (List ℕ) × (ℕ)) (j : ℕ) =>
      (Rt.ckUsize ((7 : ℕ) * i)).bind fun τ10 =>
      (Rt.ckUsize (τ10 + j)).bind fun τ11 =>
      (Rt.put τ9.1 τ11 (τ9.2 % 2 ^ 8)).bind fun τ12 =>
      some (τ12, (τ9.2 >>> 8))) (τ2, τ8) (Rt.range (0 : ℕ) (7 : ℕ))).bind fun τ13 =>
      some τ13.1) (List.replicate 56 0) = toBytesLoop x.l := by
  refine (block_loop (self := x.l) ?_ 8 0 x.l [] [] (List.replicate 56 0)
    (by norm_num) rfl rfl (by simp [x.len]) rfl (by simp)).trans ?_
  · intro k a b pre zs rest hk ha hb hp hz
    have hbl : b < 2 ^ 32 := by
      rw [Rt.idx] at hb
      exact x.lt _ (List.mem_of_getElem? hb)
    refine (bind_of_eq (v := 2 * k) (ckUsize_eq (by omega)) _).trans ?_
    refine (bind_of_eq ha _).trans ?_
    refine (bind_of_eq (v := 2 * k) (ckUsize_eq (by omega)) _).trans ?_
    refine (bind_of_eq (v := 2 * k + 1) (ckUsize_eq (by omega)) _).trans ?_
    refine (bind_of_eq hb _).trans ?_
    rw [shl28 hbl]
    congr 1
    funext l
    refine Exists.elim (store_loop (i := k) ?_ 7 0 pre zs rest l hp (by norm_num) hz) fun l' e =>
      (bind_of_eq e _).trans rfl
    intro r l j hj
    refine (bind_of_eq (v := 7 * k) (ckUsize_eq (by omega)) _).trans ?_
    refine (bind_of_eq (v := 7 * k + j) (ckUsize_eq (by omega)) _).trans ?_
    rw [← mod_8]
    exact (Option.map_eq_bind (f := (·, l >>> 8))).symm
  · cases toBytesLoop x.l <;> rfl

theorem toBytesLoop_props (n : ℕ) : ∀ (l r : List ℕ), l.length = 2 * n → toBytesLoop l = some r →
    r.length = 7 * n ∧ ∀ x ∈ r, x < 256 := by
  induction n with
  | zero =>
    intro l r hl h
    obtain rfl : l = [] := List.eq_nil_of_length_eq_zero (by omega)
    rw [toBytesLoop, Option.some.injEq] at h
    · subst h
      simp
    · simp
  | succ n ih =>
    intro l r hl h
    rcases l with _ | ⟨x, _ | ⟨y, l⟩⟩
    · simp at hl
    · simp at hl
      omega
    · rw [toBytesLoop] at h
      generalize ckU64 (x + y <<< 28) = o at h
      obtain ⟨v, hv, h⟩ := Option.bind_eq_some_iff.1 h
      obtain ⟨r', hr, h⟩ := Option.bind_eq_some_iff.1 h
      have ih := ih l r' (by simp at hl; omega) hr
      obtain ⟨s1, s2, -⟩ := storeBytes_spec 7 v
      rw [Option.some.injEq] at h
      subst h
      refine ⟨by rw [List.length_append, s1, ih.1]; omega, fun z hz => ?_⟩
      rcases List.mem_append.1 hz with hz | hz
      · exact s2 z hz
      · exact ih.2 z hz

/-- `to_bytes`. -/
theorem fe_to_bytes (x : Raw) :
    FieldElement28.to_bytes x.l = (Model.U32.toBytes x).map (·.l) := by
  unfold FieldElement28.to_bytes Model.U32.toBytes
  dsimp only
  rw [strong_reduce]
  change _ = Option.map _ ((strongReduce x).bind _)
  cases strongReduce x with
  | none => rfl
  | some r =>
    rw [Option.map_some, bsome, bsome, bind_id, fe_toBytes_loop]
    change _ = Option.map _ ((toBytesLoop r.l).bind _)
    cases hr : toBytesLoop r.l with
    | none => rfl
    | some b =>
      have h := toBytesLoop_props 8 r.l b r.len hr
      rw [bsome, Arr.ofList?, dif_pos ⟨h.1, h.2⟩]
      rfl

/-- `is_negative`. -/
theorem fe_is_negative (x : Raw) : FieldElement28.is_negative x.l =
    (Model.U32.toBytes x).map fun b => b.l.headD 0 &&& 1 == 1 := by
  unfold FieldElement28.is_negative
  dsimp only
  rw [fe_to_bytes]
  cases Model.U32.toBytes x with
  | none => rfl
  | some b =>
    rw [Option.map_some, bsome, bind_id, Option.map_some]
    have e : b.l.getD 0 0 = b.l.headD 0 := by cases b.l <;> rfl
    rw [e, Nat.and_one_is_mod]
    rcases Nat.mod_two_eq_zero_or_one (b.l.headD 0) with h | h <;> rw [h] <;> rfl

theorem from_loop {G : List ℕ → ℕ → Option (List ℕ)} {bs : List ℕ}
    (hG : ∀ k b0 b1 b2 b3 b4 b5 b6 bpre post pre z0 z1 zs, k < 8 →
      bs = bpre ++ b0 :: b1 :: b2 :: b3 :: b4 :: b5 :: b6 :: post → bpre.length = 7 * k →
      pre.length = 2 * k → G (pre ++ z0 :: z1 :: zs) k =
        some (pre ++ (asU32 (load7 b0 b1 b2 b3 b4 b5 b6) &&& MASK) ::
          asU32 (load7 b0 b1 b2 b3 b4 b5 b6 >>> 28) :: zs)) :
    ∀ (n k : ℕ) (ls bpre pre zs : List ℕ), k + n ≤ 8 → bs = bpre ++ ls → bpre.length = 7 * k →
      ls.length = 7 * n → pre.length = 2 * k → zs.length = 2 * n →
      (List.range' k n).foldlM G (pre ++ zs) = some (pre ++ fromBytesLoop ls)
  | 0, k, [], lpre, pre, [], _, _, _, _, _, _ => by simp [fromBytesLoop]
  | n + 1, k, b0 :: b1 :: b2 :: b3 :: b4 :: b5 :: b6 :: ls, bpre, pre, z0 :: z1 :: zs,
      hk, hs, hb, hls, hp, hz => by
    rw [List.range'_succ, List.foldlM_cons, hG k b0 b1 b2 b3 b4 b5 b6 bpre ls pre z0 z1 zs (by omega)
      hs hb hp]
    have ih := from_loop hG n (k + 1) ls (bpre ++ [b0, b1, b2, b3, b4, b5, b6])
      (pre ++ [asU32 (load7 b0 b1 b2 b3 b4 b5 b6) &&& MASK,
        asU32 (load7 b0 b1 b2 b3 b4 b5 b6 >>> 28)]) zs
        (by omega) (by simp [hs]) (by simp [hb]; omega) (by simp at hls; omega)
        (by simp [hp]; omega) (by simp at hz; omega)
    simp only [List.append_assoc, List.cons_append, List.nil_append] at ih
    rw [fromBytesLoop]
    exact ih
  | 0, _, _ :: _, _, _, _, _, _, _, h, _, _ => by simp at h
  | 0, _, [], _, _, _ :: _, _, _, _, _, _, h => by simp at h
  | _ + 1, _, [], _, _, _, _, _, _, h, _, _ => by simp at h
  | _ + 1, _, [_], _, _, _, _, _, _, h, _, _ => by simp at h; omega
  | _ + 1, _, [_, _], _, _, _, _, _, _, h, _, _ => by simp at h; omega
  | _ + 1, _, [_, _, _], _, _, _, _, _, _, h, _, _ => by simp at h; omega
  | _ + 1, _, [_, _, _, _], _, _, _, _, _, _, h, _, _ => by simp at h; omega
  | _ + 1, _, [_, _, _, _, _], _, _, _, _, _, _, h, _, _ => by simp at h; omega
  | _ + 1, _, [_, _, _, _, _, _], _, _, _, _, _, _, h, _, _ => by simp at h; omega
  | _ + 1, _, _ :: _ :: _ :: _ :: _ :: _ :: _ :: _, _, _, [], _, _, _, _, _, h => by simp at h
  | _ + 1, _, _ :: _ :: _ :: _ :: _ :: _ :: _ :: _, _, _, [_], _, _, _, _, _, h => by
    simp at h; omega

theorem shlB {b k : ℕ} (hb : b < 256) (hk : k ≤ 48) : Rt.shlU 64 b k = b <<< k := by
  rw [Rt.shlU, Nat.mod_eq_of_lt]
  rw [Nat.shiftLeft_eq]
  have : 2 ^ k ≤ 2 ^ 48 := Nat.pow_le_pow_right (by norm_num) hk
  nlinarith

/-- `from_bytes`. -/
theorem fe_from_bytes (b : Bytes 56) :
    FieldElement28.from_bytes b.l = (Model.U32.fromBytes b).map (·.l) := by
  unfold FieldElement28.from_bytes Model.U32.fromBytes
  dsimp only
  obtain ⟨h1, h2, -⟩ := fromBytesLoop_spec 8 b.l b.len b.lt
  rw [pack_map h1 fun x hx => (h2 x hx).trans (by norm_num), bind_id]
  refine from_loop (bs := b.l) ?_ 8 0 b.l [] [] FieldElement28.zero (by norm_num) rfl rfl
    b.len rfl rfl
  intro k b0 b1 b2 b3 b4 b5 b6 bpre post pre z0 z1 zs hk hs hb hp
  have hl : ∀ x ∈ [b0, b1, b2, b3, b4, b5, b6], x < 256 := by
    intro x hx
    refine b.lt x ?_
    rw [hs]
    simp only [List.mem_append, List.mem_cons, List.not_mem_nil, or_false] at hx ⊢
    tauto
  simp only [List.mem_cons, List.not_mem_nil, or_false, forall_eq_or_imp, forall_eq] at hl
  have e : Rt.sliceFrom b.l (k * 7) = some (b0 :: b1 :: b2 :: b3 :: b4 :: b5 :: b6 :: post) := by
    rw [Rt.sliceFrom, if_pos (by rw [b.len]; omega), hs,
      show k * 7 = bpre.length by omega, List.drop_left]
  refine (bind_of_eq (v := k * 7) (ckUsize_eq (by omega)) _).trans ?_
  refine (bind_of_eq e _).trans ?_
  refine (bind_of_eq (v := load7 b0 b1 b2 b3 b4 b5 b6) ?_ _).trans ?_
  · change some (b0 ||| Rt.shlU 64 b1 8 ||| Rt.shlU 64 b2 16 ||| Rt.shlU 64 b3 24 |||
      Rt.shlU 64 b4 32 ||| Rt.shlU 64 b5 40 ||| Rt.shlU 64 b6 48) = _
    rw [shlB hl.2.1 (by norm_num), shlB hl.2.2.1 (by norm_num), shlB hl.2.2.2.1 (by norm_num),
      shlB hl.2.2.2.2.1 (by norm_num), shlB hl.2.2.2.2.2.1 (by norm_num),
      shlB hl.2.2.2.2.2.2 (by norm_num)]
    rfl
  generalize load7 b0 b1 b2 b3 b4 b5 b6 = out
  refine (bind_of_eq (v := 2 * k) (ckUsize_eq (by omega)) _).trans ?_
  refine (bind_of_eq (put_eq (pre := pre) rfl hp.symm) _).trans ?_
  refine (bind_of_eq (v := 2 * k) (ckUsize_eq (by omega)) _).trans ?_
  refine (bind_of_eq (v := 2 * k + 1) (ckUsize_eq (by omega)) _).trans ?_
  refine (bind_of_eq (put_eq (pre := pre ++ [asU32 out &&& MASK]) (x := z1) (post := zs) ?_
    (by simp [hp])) _).trans ?_
  · simp only [List.append_assoc, List.cons_append, List.nil_append, mod_32]
    rfl
  · simp only [List.append_assoc, List.cons_append, List.nil_append, mod_32]

/-- `from_raw_slice`. -/
theorem fe_from_raw_slice (x : Raw) : FieldElement28.from_raw_slice x.l = x.l := rfl

/-- `Mul`. -/
theorem fe_mul (x y : Raw) : FieldElement28.op_mul x.l y.l = (Model.U32.mul x y).map (·.l) := by
  rw [FieldElement28.op_mul, karatsuba_mul, bind_id]

/-- `Mul` of references. -/
theorem fe_mul2 (x y : Raw) : FieldElement28.op_mul2 x.l y.l = (Model.U32.mul x y).map (·.l) := by
  rw [FieldElement28.op_mul2, karatsuba_mul, bind_id]

/-- `square`. -/
theorem fe_square (x : Raw) : FieldElement28.square x.l = (Model.U32.square x).map (·.l) := by
  rw [FieldElement28.square, karatsuba_square, bind_id]

/-! ## Constants -/

theorem const_NEG_FOUR_TIMES_TWISTED_D : C.NEG_FOUR_TIMES_TWISTED_D = NEG_FOUR_TIMES_TWISTED_D.l := rfl
theorem const_EDWARDS_D : C.EDWARDS_D = EDWARDS_D.l := rfl
theorem const_NEG_EDWARDS_D : C.NEG_EDWARDS_D = NEG_EDWARDS_D.l := rfl
theorem const_TWISTED_D : C.TWISTED_D = TWISTED_D.l := rfl
theorem const_TWO_TIMES_TWISTED_D : C.TWO_TIMES_TWISTED_D = TWO_TIMES_TWISTED_D.l := rfl
theorem const_DECAF_FACTOR : C.DECAF_FACTOR = DECAF_FACTOR.l := rfl
theorem const_A_PLUS_TWO_OVER_FOUR : C.A_PLUS_TWO_OVER_FOUR = A_PLUS_TWO_OVER_FOUR.l := rfl

end Ed448.Proofs.Source
