import Verif.Gen.Scalar
import Verif.Proofs.SourceLoop

/-!
# The model of the scalars is the translated code

Each theorem states that the translation of a function of src/field/scalar.rs and the function of
`Verif.Model.Scalar` agree on all inputs, panics included.
-/

namespace Ed448.Proofs.Source
open Ed448 Ed448.Model Ed448.Gen

/-! ## Words -/

theorem shr32 (x : ℕ) : x >>> 32 = x / 2 ^ 32 := Nat.shiftRight_eq_div_pow x 32

theorem land_lt_left {m b : ℕ} {n : ℕ} (h : m < 2 ^ n) : m &&& b < 2 ^ n :=
  lt_of_le_of_lt Nat.and_le_left h

theorem andZ64 {m : ℕ} (hm : m < 2 ^ 32) (b : ℤ) : Rt.andZ 64 (m : ℤ) b = landI64 m b := by
  have h1 : (BitVec.ofInt 64 (m : ℤ)).toNat = m := by
    rw [BitVec.toNat_ofInt]
    omega
  have h2 : (BitVec.ofInt 64 b).toNat = (b % 2 ^ 64).toNat := by
    rw [BitVec.toNat_ofInt]
    norm_num
  have h3 : (BitVec.ofInt 64 (m : ℤ) &&& BitVec.ofInt 64 b).toNat = m &&& (b % 2 ^ 64).toNat := by
    rw [BitVec.toNat_and, h1, h2]
  have h4 : m &&& (b % 2 ^ 64).toNat < 2 ^ 32 := land_lt_left hm
  rw [Rt.andZ, landI64, BitVec.toInt_eq_toNat_of_lt (by rw [h3]; omega), h3]

theorem ofList_map {n B : ℕ} {l : List ℕ} (h : l.length = n) (h' : ∀ x ∈ l, x < B) :
    (Arr.ofList? n B l).map (·.l) = some l := by
  unfold Arr.ofList?
  rw [dif_pos ⟨h, h'⟩]
  rfl

theorem asU_32 (x : ℤ) : Rt.asU 32 x = asU32Z x := by
  rw [Rt.asU, asU32Z]

theorem mod_32 (x : ℕ) : x % 2 ^ 32 = asU32 x := by
  rw [asU32]

/-! ## Addition and subtraction -/

/-- Body of the loop of `add`. -/
def addBody (c x y _z : ℕ) : Option (ℕ × ℕ) :=
  (ckU64 (x + y)).bind fun t => (ckU64 (c + t)).bind fun ch => some (asU32 ch, ch / 2 ^ 32)

/-- Body of the first loop of `sub_extra`. -/
def subBody (c : ℤ) (x y _z : ℕ) : Option (ℕ × ℤ) :=
  (ckI64 ((x : ℤ) - y)).bind fun t => (ckI64 (c + t)).bind fun ch => some (asU32Z ch, sarZ ch 32)

/-- Body of the second loop of `sub_extra`. -/
def addMaskBody (borrow : ℤ) (c : ℤ) (_x y z : ℕ) : Option (ℕ × ℤ) :=
  (ckI64 ((z : ℤ) + landI64 y borrow)).bind fun t =>
    (ckI64 (c + t)).bind fun ch => some (asU32Z ch, sarZ ch 32)

theorem addLoop_cons (c x : ℕ) (xs : List ℕ) (y : ℕ) (ys : List ℕ) (z : ℕ) (zs : List ℕ) :
    (fun c a b (_ : List ℕ) => addLoop c a b) c (x :: xs) (y :: ys) (z :: zs) =
      (addBody c x y z).bind fun vc =>
        ((fun c a b (_ : List ℕ) => addLoop c a b) vc.2 xs ys zs).bind fun rc =>
          some (vc.1 :: rc.1, rc.2) := by
  simp only [addLoop, addBody, bind, Option.bind_assoc, bsome]

theorem subLoop_cons (c : ℤ) (x : ℕ) (xs : List ℕ) (y : ℕ) (ys : List ℕ) (z : ℕ) (zs : List ℕ) :
    (fun c a b (_ : List ℕ) => subLoop c a b) c (x :: xs) (y :: ys) (z :: zs) =
      (subBody c x y z).bind fun vc =>
        ((fun c a b (_ : List ℕ) => subLoop c a b) vc.2 xs ys zs).bind fun rc =>
          some (vc.1 :: rc.1, rc.2) := by
  simp only [subLoop, subBody, bind, Option.bind_assoc, bsome]

theorem addMaskLoop_cons (bw c : ℤ) (x : ℕ) (xs : List ℕ) (y : ℕ) (ys : List ℕ) (z : ℕ)
    (zs : List ℕ) :
    (fun c (_ : List ℕ) b r => addMaskLoop bw c r b) c (x :: xs) (y :: ys) (z :: zs) =
      (addMaskBody bw c x y z).bind fun vc =>
        ((fun c (_ : List ℕ) b r => addMaskLoop bw c r b) vc.2 xs ys zs).bind fun rc =>
          some (vc.1 :: rc.1, rc.2) := by
  simp only [addMaskLoop, addMaskBody, bind, Option.bind_assoc, bsome]

theorem asU32Z_lt (x : ℤ) : asU32Z x < 2 ^ 32 := by
  unfold asU32Z
  have := Int.emod_nonneg x (b := 2 ^ 32) (by norm_num)
  have := Int.emod_lt_of_pos x (b := 2 ^ 32) (by norm_num)
  omega

theorem subLoop_len {a b : List ℕ} {c : ℤ} {r : List ℕ × ℤ} (hl : a.length = b.length)
    (h : subLoop c a b = some r) : r.1.length = a.length :=
  (carry_len (fun _ => True) (fun c a b (_ : List ℕ) => subLoop c a b) subBody (fun _ => rfl)
    subLoop_cons (fun _ _ _ _ _ _ => trivial) a b a c r rfl hl.symm h).1

theorem addLoop_len {a b : List ℕ} {c : ℕ} {r : List ℕ × ℕ} (hl : a.length = b.length)
    (h : addLoop c a b = some r) : r.1.length = a.length :=
  (carry_len (fun _ => True) (fun c a b (_ : List ℕ) => addLoop c a b) addBody (fun _ => rfl)
    addLoop_cons (fun _ _ _ _ _ _ => trivial) a b a c r rfl hl.symm h).1

theorem addMaskLoop_len {bw : ℤ} {a b : List ℕ} {c : ℤ} {r : List ℕ × ℤ}
    (hl : a.length = b.length) (h : addMaskLoop bw c a b = some r) :
    r.1.length = a.length ∧ ∀ x ∈ r.1, x < 2 ^ 32 :=
  carry_len (fun x => x < 2 ^ 32) (fun c (_ : List ℕ) b r => addMaskLoop bw c r b)
    (addMaskBody bw) (fun _ => rfl) (addMaskLoop_cons bw) (fun c x y z v hv => by
      simp only [addMaskBody, Option.bind_eq_some_iff, Option.some.injEq] at hv
      obtain ⟨_, _, _, _, rfl⟩ := hv
      exact asU32Z_lt _) a b a c r rfl hl.symm h

theorem modulus_eq : C.MODULUS = modulusLimbs := rfl

theorem modulus_idx {i y : ℕ} (h : Rt.idx C.MODULUS i = some y) : y < 2 ^ 32 := by
  exact MODULUS.lt y (List.mem_of_getElem? h)

/-- `sub_extra` on limb lists. -/
theorem sub_extra_raw {a b : List ℕ} (carry : ℕ) (ha : a.length = 14) (hb : b.length = 14) :
    Gen.scalar.sub_extra a b carry = subExtraRaw a b carry := by
  unfold Gen.scalar.sub_extra subExtraRaw
  dsimp only
  rw [carry_loop0 (fun c a b (_ : List ℕ) => subLoop c a b) subBody (fun _ => rfl) subLoop_cons
    _ ha hb rfl]
  · cases h : subLoop 0 a b with
    | none => rfl
    | some rc =>
      have hl := subLoop_len (by omega) h
      simp only [Option.map_some, bsome, bind]
      congr 1
      funext borrow
      rw [carry_loop0 (a := C.MODULUS) (b := C.MODULUS)
        (fun c (_ : List ℕ) b r => addMaskLoop borrow c r b) (addMaskBody borrow) (fun _ => rfl)
        (addMaskLoop_cons borrow) (n := 14) _ rfl rfl (by omega), modulus_eq]
      · cases addMaskLoop borrow 0 rc.1 modulusLimbs <;> rfl
      · intro c r i _ y z _ hy hz
        simp only [hy, hz, bsome, andZ64 (modulus_idx hy), Option.bind_assoc,
          addMaskBody, asU_32]
  · intro c r i x y z hx hy _
    simp only [hx, hy, bsome, Option.bind_assoc, subBody, asU_32]

theorem subExtraRaw_arr {a b : List ℕ} {carry : ℕ} (ha : a.length = 14) (hb : b.length = 14) :
    ((subExtraRaw a b carry).bind (Arr.ofList? 14 (2 ^ 32))).map (·.l) =
      subExtraRaw a b carry := by
  cases h : subExtraRaw a b carry with
  | none => rfl
  | some r =>
    unfold subExtraRaw at h
    simp only [bind, Option.bind_eq_some_iff, Option.some.injEq] at h
    obtain ⟨rc, h1, bw, _, out, h3, rfl⟩ := h
    have l1 := subLoop_len (by omega) h1
    have l2 := addMaskLoop_len (by rw [l1, ha]; rfl) h3
    rw [bsome, ofList_map (by omega) l2.2]

/-- `sub_extra`. -/
theorem sub_extra (a b : Scalar) (carry : ℕ) :
    Gen.scalar.sub_extra a.l b.l carry = (subExtra a b carry).map (·.l) := by
  rw [sub_extra_raw carry a.len b.len, subExtra, subExtraRaw_arr a.len b.len]

theorem bind_id {α : Type} (x : Option α) : (x.bind fun y => some y) = x := Option.bind_fun_some x

/-- `add`. -/
theorem scalar_add (a b : Scalar) : Gen.scalar.add a.l b.l = (Scalar.add a b).map (·.l) := by
  unfold Gen.scalar.add Scalar.add
  dsimp only
  rw [carry_loop0 (fun c a b (_ : List ℕ) => addLoop c a b) addBody (fun _ => rfl) addLoop_cons
    _ a.len b.len rfl]
  · cases h : addLoop 0 a.l b.l with
    | none => rfl
    | some rc =>
      have hl := addLoop_len (by rw [a.len, b.len]) h
      simp only [Option.map_some, bsome, bind, modulus_eq, bind_id]
      rw [sub_extra_raw _ (by rw [hl, a.len]) rfl, subExtraRaw_arr (by rw [hl, a.len]) rfl]
      rfl
  · intro c r i x y z hx hy _
    simp only [hx, hy, bsome, Option.bind_assoc, shr32, addBody, mod_32]

theorem op_add (a b : Scalar) : Gen.Scalar.op_add a.l b.l = (Scalar.add a b).map (·.l) := by
  rw [Gen.Scalar.op_add, bind_id, scalar_add]

theorem op_sub (a b : Scalar) : Gen.Scalar.op_sub a.l b.l = (Scalar.sub a b).map (·.l) := by
  rw [Gen.Scalar.op_sub, bind_id, sub_extra]; rfl

/-! ## Montgomery multiplication -/

/-- Body of the first inner loop of `montgomery_multiply`. -/
def rowBody (a c _x y z : ℕ) : Option (ℕ × ℕ) :=
  (mulAdd a y z).bind fun t => (ckU64 (c + t)).bind fun ch => some (asU32 ch, ch / 2 ^ 32)

theorem mulAddLoop_cons (a c x : ℕ) (xs : List ℕ) (y : ℕ) (ys : List ℕ) (z : ℕ) (zs : List ℕ) :
    (fun c (_ : List ℕ) b r => mulAddLoop a c b r) c (x :: xs) (y :: ys) (z :: zs) =
      (rowBody a c x y z).bind fun vc =>
        ((fun c (_ : List ℕ) b r => mulAddLoop a c b r) vc.2 xs ys zs).bind fun rc =>
          some (vc.1 :: rc.1, rc.2) := by
  simp only [mulAddLoop, rowBody, bind, Option.bind_assoc, bsome]

theorem mulAddLoop_len {a c : ℕ} {ys rs : List ℕ} {r : List ℕ × ℕ} (hl : ys.length = rs.length)
    (h : mulAddLoop a c ys rs = some r) : r.1.length = rs.length :=
  (carry_len (fun _ => True) (fun c (_ : List ℕ) b r => mulAddLoop a c b r) (rowBody a)
    (fun _ => rfl) (mulAddLoop_cons a) (fun _ _ _ _ _ _ => trivial) ys ys rs c r hl hl h).1

/-- The second inner loop from index 1 on: limb `j` is stored at `j - 1`. The stored limbs are
`pre`, the limb that is overwritten next is `g`. -/
theorem shift_loop {G : ℕ × List ℕ → ℕ → Option (ℕ × List ℕ)} {a : ℕ} {b : List ℕ}
    (hG : ∀ c r j y z, 0 < j → Rt.idx b j = some y → Rt.idx r j = some z →
      G (c, r) j = (rowBody a c 0 y z).bind fun vc =>
        (Rt.put r (j - 1) vc.1).bind fun r' => some (vc.2, r')) :
    ∀ (ys bpre pre : List ℕ) (g : ℕ) (zs : List ℕ) (c : ℕ), b = bpre ++ ys →
      bpre.length = pre.length + 1 → ys.length = zs.length →
      (List.range' (pre.length + 1) zs.length).foldlM G (c, pre ++ g :: zs) =
        (mulAddLoop a c ys zs).map fun rc => (rc.2, pre ++ rc.1 ++ [(g :: zs).getLastD 0])
  | [], _, pre, g, [], c, _, _, _ => by simp [mulAddLoop]
  | y :: ys, bpre, pre, g, z :: zs, c, hb, hbl, hl => by
    have h2 : Rt.idx b (pre.length + 1) = some y := idx_eq hb hbl.symm
    have h3 : Rt.idx (pre ++ g :: z :: zs) (pre.length + 1) = some z :=
      idx_eq (pre := pre ++ [g]) (post := zs) (by simp) (by simp)
    rw [List.length_cons, List.range'_succ, List.foldlM_cons,
      hG c _ _ y z (by omega) h2 h3]
    have hc := mulAddLoop_cons a c 0 [] y ys z zs
    dsimp only at hc
    rw [hc]
    cases hf : rowBody a c 0 y z with
    | none => rfl
    | some vc =>
      simp only [bsome, Nat.add_sub_cancel, put_append, bind]
      have ih := shift_loop hG ys (bpre ++ [y]) (pre ++ [vc.1]) z zs vc.2 (by simp [hb])
        (by simp [hbl]) (by simpa using hl)
      simp only [List.length_append, List.length_cons, List.length_nil, zero_add,
        List.append_assoc, List.cons_append, List.nil_append] at ih
      rw [ih]
      cases mulAddLoop a vc.2 ys zs <;> simp [List.getLastD]
  | [], _, _, _, _ :: _, _, _, _, h => by simp at h
  | _ :: _, _, _, _, [], _, _, _, h => by simp at h

theorem second_loop {G : ℕ × List ℕ → ℕ → Option (ℕ × List ℕ)} (a : ℕ) {b r : List ℕ}
    (h0 : ∀ c r y z, Rt.idx b 0 = some y → Rt.idx r 0 = some z →
      G (c, r) 0 = (rowBody a c 0 y z).bind fun vc => some (vc.2, r))
    (hG : ∀ c r j y z, 0 < j → Rt.idx b j = some y → Rt.idx r j = some z →
      G (c, r) j = (rowBody a c 0 y z).bind fun vc =>
        (Rt.put r (j - 1) vc.1).bind fun r' => some (vc.2, r'))
    (hb : b.length = 14) (hr : r.length = 14) :
    (Rt.range 0 14).foldlM G (0, r) =
      (mulAddLoop a 0 b r).map fun rc => (rc.2, rc.1.tail ++ [r.getLastD 0]) := by
  obtain ⟨y, ys, rfl⟩ : ∃ y ys, b = y :: ys := List.exists_cons_of_length_eq_add_one hb
  obtain ⟨z, zs, rfl⟩ : ∃ z zs, r = z :: zs := List.exists_cons_of_length_eq_add_one hr
  have e2 : Rt.range 0 14 = 0 :: List.range' 1 13 := rfl
  have hc := mulAddLoop_cons a 0 0 [] y ys z zs
  dsimp only at hc
  have hz : zs.length = 13 := by simpa using hr
  rw [e2, List.foldlM_cons, h0 0 _ y z rfl rfl, hc]
  cases hf : rowBody a 0 0 y z with
  | none => rfl
  | some vc =>
    have ih := shift_loop hG ys [y] [] z zs vc.2 rfl rfl
      (by simp only [List.length_cons] at hb hr; omega)
    simp only [List.length_nil, zero_add, List.nil_append, hz] at ih
    simp only [bsome, bind, ih]
    cases mulAddLoop a vc.2 ys zs <;> rfl

theorem montStep_len {y : List ℕ} {st st' : List ℕ × ℕ} {xi : ℕ} (hy : y.length = 14)
    (hs : st.1.length = 14) (h : montStep y st xi = some st') : st'.1.length = 14 := by
  unfold montStep montReduce montFinish at h
  simp only [bind, Option.bind_eq_some_iff, Option.some.injEq] at h
  obtain ⟨rc, h1, sc, h2, _, _, _, _, rfl⟩ := h
  have l1 := mulAddLoop_len (by omega) h1
  have l2 := mulAddLoop_len (by rw [l1, hs]; rfl) h2
  simp [l2, l1, hs]

/-- `montgomery_multiply`. -/
theorem montgomery_multiply (x y : Scalar) :
    Gen.scalar.montgomery_multiply x.l y.l = (montMul x y).map (·.l) := by
  unfold Gen.scalar.montgomery_multiply montMul
  dsimp only
  rw [foldlM_idxP0 (l := x.l) (g := montStep y.l) (fun st => st.1.length = 14) rfl x.len]
  · cases h : x.l.foldlM (montStep y.l) (Scalar.zero.l, 0) with
    | none =>
      have h : x.l.foldlM (montStep y.l) (Gen.Scalar.zero, 0) = none := h
      rw [h]; rfl
    | some rc =>
      have hl := foldlM_inv (fun st => st.1.length = 14)
        (fun s x s' hs h => montStep_len y.len hs h) _ _ _ rfl h
      have h : x.l.foldlM (montStep y.l) (Gen.Scalar.zero, 0) = some rc := h
      rw [h]
      simp only [bsome, bind, modulus_eq, bind_id]
      rw [sub_extra_raw _ hl rfl, subExtraRaw_arr hl rfl]
  · rintro ⟨r, carry⟩ i xi hr hx
    have hr : r.length = 14 := hr
    dsimp only
    rw [carry_loop0 (a := y.l) (b := y.l) (fun c (_ : List ℕ) b r => mulAddLoop xi c b r)
      (rowBody xi) (fun _ => rfl) (mulAddLoop_cons xi) (n := 14) _ y.len y.len hr]
    · unfold montStep
      dsimp only
      cases h : mulAddLoop xi 0 y.l r with
      | none => rfl
      | some rc =>
        have hl := mulAddLoop_len (by rw [y.len, hr]) h
        simp only [Option.map_some, bsome]
        have hl : rc.1.length = 14 := hl.trans hr
        unfold montReduce
        have e0 : rc.1.getD 0 0 = rc.1.headD 0 := by cases rc.1 <;> rfl
        have e1 : Rt.wmulU 32 (rc.1.getD 0 0) 2928774085 =
            wrapMulU32 (rc.1.headD 0) MONTGOMERY_FACTOR := by
          rw [e0, Rt.wmulU, wrapMulU32, MONTGOMERY_FACTOR]
        rw [e1]
        generalize wrapMulU32 (rc.1.headD 0) MONTGOMERY_FACTOR = m
        rw [second_loop m (b := C.MODULUS) _ _ rfl hl, modulus_eq]
        · cases hs : mulAddLoop m 0 modulusLimbs rc.1 with
          | none => rfl
          | some sc =>
            have hl2 := mulAddLoop_len (by rw [hl]; rfl) hs
            have hset : ∀ v, (sc.1.tail ++ [rc.1.getLastD 0]).set 13 v = sc.1.tail ++ [v] := by
              intro v
              rw [List.set_append, if_neg (by simp [hl2, hl])]
              simp [hl2, hl]
            simp only [Option.map_some, bsome, montFinish, hset, bind, mod_32, shr32]
        · intro c r' y z hy hz
          simp only [hy, hz, bsome, Option.bind_assoc, rowBody, mulAdd, bind, shr32,
            gt_iff_lt, lt_irrefl, decide_false, Bool.false_eq_true, if_false]
        · intro c r' j y z hj hy hz
          have hs : ckSub j 1 = some (j - 1) := ckSub_eq hj
          simp only [hy, hz, bsome, Option.bind_assoc, rowBody, mulAdd, bind, shr32,
            gt_iff_lt, hj, decide_true, if_true, hs, mod_32]
    · intro c r' i' _ y' z _ hy hz
      simp only [hx, hy, hz, bsome, Option.bind_assoc, rowBody, mulAdd, bind, shr32,
        mod_32]
  · intro s x s' hs h
    exact montStep_len y.len hs h

theorem op_mul (a b : Scalar) : Gen.Scalar.op_mul a.l b.l = (Scalar.mul a b).map (·.l) := by
  unfold Gen.Scalar.op_mul Scalar.mul
  dsimp only
  rw [montgomery_multiply]
  cases h : montMul a b with
  | none => rfl
  | some u =>
    simp only [Option.map_some, bsome, bind, bind_id]
    exact montgomery_multiply u R2

theorem scalar_square (a : Scalar) : Gen.Scalar.square a.l = (Scalar.square a).map (·.l) := by
  rw [Gen.Scalar.square, bind_id, montgomery_multiply, Model.Scalar.square]

/-! ## Constants -/

theorem scalar_zero : Gen.Scalar.zero = Scalar.zero.l := rfl

theorem scalar_one : Gen.Scalar.one = Scalar.one.l := rfl

theorem scalar_default : Gen.Scalar.default = Scalar.zero.l := rfl

theorem scalar_from (a : ℕ) (h : a < 2 ^ 32) : Gen.Scalar.from a = (Scalar.ofU32 a h).l := rfl

theorem const_R2 : C.R2 = R2.l := rfl

theorem const_R : C.R = Rconst.l := rfl

/-! ## Codecs -/

theorem ckUsize_eq {x : ℕ} (h : x < 2 ^ 32) : Rt.ckUsize x = some x := if_pos h

theorem toBytes_loop {G : List ℕ → ℕ → Option (List ℕ)} {self : List ℕ}
    (hG : ∀ i l pre z0 z1 z2 z3 zs, Rt.idx self i = some l → pre.length = 4 * i →
      G (pre ++ z0 :: z1 :: z2 :: z3 :: zs) i = some (pre ++ asU8 l :: asU8 (l >>> 8) ::
        asU8 (l >>> 8 >>> 8) :: asU8 (l >>> 8 >>> 8 >>> 8) :: zs)) :
    ∀ (ls lpre pre zs : List ℕ), self = lpre ++ ls → pre.length = 4 * lpre.length →
      zs.length = 4 * ls.length →
      (List.range' lpre.length ls.length).foldlM G (pre ++ zs) = some (pre ++ toBytesRaw ls)
  | [], _, pre, [], _, _, _ => by simp [toBytesRaw]
  | l :: ls, lpre, pre, z0 :: z1 :: z2 :: z3 :: zs, hs, hp, hz => by
    rw [List.length_cons, List.range'_succ, List.foldlM_cons,
      hG _ l pre z0 z1 z2 z3 zs (idx_eq hs rfl) hp]
    have ih := toBytes_loop hG ls (lpre ++ [l]) (pre ++ [asU8 l, asU8 (l >>> 8),
      asU8 (l >>> 8 >>> 8), asU8 (l >>> 8 >>> 8 >>> 8)]) zs (by simp [hs]) (by simp [hp]; omega)
      (by simp at hz; omega)
    simp only [List.length_append, List.length_cons, List.length_nil, zero_add,
      List.append_assoc, List.cons_append, List.nil_append] at ih
    simp only [bind, bsome, ih, toBytesRaw]
  | [], _, _, _ :: _, _, _, h => by simp at h
  | _ :: _, _, _, [], _, _, h => by simp at h
  | _ :: _, _, _, [_], _, _, h => by simp at h; omega
  | _ :: _, _, _, [_, _], _, _, h => by simp at h; omega
  | _ :: _, _, _, [_, _, _], _, _, h => by simp at h; omega

theorem mod_8 (x : ℕ) : x % 2 ^ 8 = asU8 x := by rw [asU8]

/-- `to_bytes`. -/
theorem to_bytes (s : Scalar) : Gen.Scalar.to_bytes s.l = some s.toBytes.l := by
  unfold Gen.Scalar.to_bytes
  dsimp only
  have h := toBytes_loop (self := s.l) (G := fun (τ1 : (List ℕ)) (i : ℕ) =>
      (Rt.idx s.l i).bind fun τ2 =>
      (List.foldlM (fun (τ3 : (List ℕ) × (ℕ)) (j : ℕ) =>
      (Rt.ckUsize ((4 : ℕ) * i)).bind fun τ4 =>
      (Rt.ckUsize (τ4 + j)).bind fun τ5 =>
      (Rt.put τ3.1 τ5 (τ3.2 % 2 ^ 8)).bind fun τ6 =>
      some (τ6, (τ3.2 >>> 8))) (τ1, τ2) (Rt.range (0 : ℕ) (4 : ℕ))).bind fun τ7 =>
      some τ7.1) ?_ s.l [] [] (List.replicate 56 0) rfl rfl (by simp [s.len])
  · simp only [List.length_nil, List.nil_append, s.len] at h
    rw [bind_id]
    exact h
  · intro i l pre z0 z1 z2 z3 zs hl hp
    have hi : i < 14 := by
      have := List.getElem?_eq_some_iff.mp hl
      rw [← s.len]
      exact this.1
    have hr : Rt.range 0 4 = [0, 1, 2, 3] := rfl
    have p0 : ∀ v z0 zs, Rt.put (pre ++ z0 :: zs) (4 * i) v = some (pre ++ v :: zs) :=
      fun v z0 zs => put_eq rfl (by omega)
    have p1 : ∀ v y0 z0 zs, Rt.put (pre ++ y0 :: z0 :: zs) (4 * i + 1) v =
        some (pre ++ y0 :: v :: zs) := fun v y0 z0 zs => by
      rw [put_eq (pre := pre ++ [y0]) (x := z0) (post := zs) (by simp) (by simp [hp])]; simp
    have p2 : ∀ v y0 y1 z0 zs, Rt.put (pre ++ y0 :: y1 :: z0 :: zs) (4 * i + 2) v =
        some (pre ++ y0 :: y1 :: v :: zs) := fun v y0 y1 z0 zs => by
      rw [put_eq (pre := pre ++ [y0, y1]) (x := z0) (post := zs) (by simp) (by simp [hp])]; simp
    have p3 : ∀ v y0 y1 y2 z0 zs, Rt.put (pre ++ y0 :: y1 :: y2 :: z0 :: zs) (4 * i + 3) v =
        some (pre ++ y0 :: y1 :: y2 :: v :: zs) := fun v y0 y1 y2 z0 zs => by
      rw [put_eq (pre := pre ++ [y0, y1, y2]) (x := z0) (post := zs) (by simp)
        (by simp [hp])]; simp
    have c : ∀ j, j < 4 → Rt.ckUsize (4 * i + j) = some (4 * i + j) := fun j hj =>
      ckUsize_eq (by omega)
    have c' : Rt.ckUsize (4 * i) = some (4 * i) := ckUsize_eq (by omega)
    simp only [hl, bsome, hr, List.foldlM_cons, List.foldlM_nil, bind, pure, c', add_zero, p0,
      c 1 (by norm_num), p1, c 2 (by norm_num), p2, c 3 (by norm_num), p3, mod_8]

/-- `ct_eq`, `eq`. -/
theorem scalar_ct_eq (a b : Scalar) : Gen.Scalar.ct_eq a.l b.l = some (Scalar.eq a b) := by
  rw [Gen.Scalar.ct_eq, to_bytes, to_bytes, bsome, bsome, Model.Scalar.eq]
  congr 1
  rw [Bool.eq_iff_iff]
  simp [Arr.ext_iff]

theorem scalar_eq (a b : Scalar) : Gen.Scalar.eq a.l b.l = some (Scalar.eq a b) := by
  rw [Gen.Scalar.eq, bind_id, scalar_ct_eq]

/-- Limb `i` read from a byte list. -/
def loadLimb (b : List ℕ) (i : ℕ) : ℕ :=
  asU32 (b.getD (4 * i) 0 ||| (b.getD (4 * i + 1) 0 <<< 8) ||| (b.getD (4 * i + 2) 0 <<< 16) |||
    (b.getD (4 * i + 3) 0 <<< 24))

theorem loadLimb_eq : ∀ (n : ℕ) (b : List ℕ), b.length = 4 * n →
    (List.range n).map (loadLimb b) = fromBytesRaw b
  | 0, [], _ => rfl
  | n + 1, b0 :: b1 :: b2 :: b3 :: rest, h => by
    rw [List.range_succ_eq_map, List.map_cons, List.map_map, fromBytesRaw,
      ← loadLimb_eq n rest (by simp at h; omega)]
    congr 1
  | 0, _ :: _, h => by simp at h
  | n + 1, [], h => by simp at h
  | n + 1, [_], h => by simp at h; omega
  | n + 1, [_, _], h => by simp at h; omega
  | n + 1, [_, _, _], h => by simp at h; omega

theorem shlU64 {b k : ℕ} (hb : b < 256) (hk : k ≤ 32) : Rt.shlU 64 b k = b <<< k := by
  rw [Rt.shlU, Nat.mod_eq_of_lt]
  rw [Nat.shiftLeft_eq]
  calc b * 2 ^ k < 256 * 2 ^ k := Nat.mul_lt_mul_of_pos_right hb (by positivity)
    _ ≤ 256 * 2 ^ 32 := Nat.mul_le_mul_left _ (Nat.pow_le_pow_right (by norm_num) hk)
    _ < 2 ^ 64 := by norm_num

theorem getD_lt_of {b : List ℕ} {B : ℕ} (h : ∀ x ∈ b, x < B) (hB : 0 < B) (i : ℕ) :
    b.getD i 0 < B := by
  rw [List.getD]
  cases h' : b[i]? with
  | none => exact hB
  | some x => exact h x (List.mem_of_getElem? h')

/-- `from_bytes`. -/
theorem from_bytes (b : Bytes 56) : Gen.Scalar.from_bytes b.l = some (Scalar.fromBytes b).l := by
  unfold Gen.Scalar.from_bytes
  dsimp only
  rw [fill_loop0 (loadLimb b.l) (by rfl), loadLimb_eq 14 b.l b.len, bsome]
  · rfl
  · intro r i hi
    have hb := b.len
    have c : Rt.ckUsize (i * 4) = some (4 * i) := by
      rw [ckUsize_eq (by omega)]; congr 1; omega
    have hs : Rt.sliceFrom b.l (4 * i) = some (b.l.drop (4 * i)) := if_pos (by omega)
    have hd : ∀ j, j < 4 → Rt.idx (b.l.drop (4 * i)) j = some (b.l.getD (4 * i + j) 0) := by
      intro j hj
      rw [idx_lt (by simp; omega)]
      simp [List.getD, List.getElem?_drop]
    have hl := getD_lt_of b.lt (by norm_num)
    simp only [c, bsome, hs, hd 0 (by norm_num), hd 1 (by norm_num), hd 2 (by norm_num),
      hd 3 (by norm_num), bind_id, shlU64 (hl _) (show 8 ≤ 32 by norm_num),
      shlU64 (hl _) (show 16 ≤ 32 by norm_num), shlU64 (hl _) (show 24 ≤ 32 by norm_num),
      mod_32, add_zero, loadLimb]

/-! ## Shifts -/

theorem list14 {α : Type} (l : List α) (h : l.length = 14) :
    ∃ a0 a1 a2 a3 a4 a5 a6 a7 a8 a9 a10 a11 a12 a13,
      l = [a0, a1, a2, a3, a4, a5, a6, a7, a8, a9, a10, a11, a12, a13] := by
  match l, h with
  | [a0, a1, a2, a3, a4, a5, a6, a7, a8, a9, a10, a11, a12, a13], _ =>
    exact ⟨a0, a1, a2, a3, a4, a5, a6, a7, a8, a9, a10, a11, a12, a13, rfl⟩

theorem pair_loop14 {G : List ℕ → ℕ → Option (List ℕ)} (h : ℕ → ℕ → ℕ) {l : List ℕ}
    (hl : l.length = 14)
    (hG : ∀ r i x y, i < 13 → Rt.idx r i = some x → Rt.idx r (i + 1) = some y →
      G r i = Rt.put r i (h x y)) :
    (List.range' 0 13).foldlM G l = some (pairLoop h l) := by
  obtain ⟨x, ys, rfl⟩ : ∃ y ys, l = y :: ys := List.exists_cons_of_length_eq_add_one hl
  have hy : ys.length = 13 := by simpa using hl
  have h1 : (List.range' 0 13).foldlM G (x :: ys) =
      (List.range' 0 13).foldlM (fun r i => if i < 13 then G r i else
        (Rt.idx r i).bind fun x => (Rt.idx r (i + 1)).bind fun y => Rt.put r i (h x y))
        (x :: ys) := by
    have : ∀ (k n : ℕ) (s : List ℕ), k + n = 13 → (List.range' k n).foldlM G s =
        (List.range' k n).foldlM (fun r i => if i < 13 then G r i else
          (Rt.idx r i).bind fun x => (Rt.idx r (i + 1)).bind fun y => Rt.put r i (h x y)) s := by
      intro k n
      induction n generalizing k with
      | zero => intro s _; rfl
      | succ n ih =>
        intro s hk
        rw [List.range'_succ, List.foldlM_cons, List.foldlM_cons, if_pos (by omega)]
        congr 1
        funext s'
        exact ih (k + 1) s' (by omega)
    exact this 0 13 _ rfl
  rw [h1]
  have := pair_loop (G := fun r i => if i < 13 then G r i else
        (Rt.idx r i).bind fun x => (Rt.idx r (i + 1)).bind fun y => Rt.put r i (h x y)) (h := h)
    (fun r i x y _ hx hy => by
      split
      · exact hG r i x y (by assumption) hx hy
      · rw [hx, bsome, hy, bsome]) ys [] x
  simpa [hy] using this

theorem shlU32 (x k : ℕ) : Rt.shlU 32 x k = asU32 (x <<< k) := by rw [Rt.shlU, asU32]

theorem shr2Loop_lt : ∀ l : List ℕ, (∀ x ∈ l, x < 2 ^ 32) → ∀ x ∈ shr2Loop l, x < 2 ^ 32
  | [], _ => by simp [shr2Loop]
  | [x], h => by
    intro z hz
    rw [shr2Loop, List.mem_singleton] at hz
    have := h x (by simp)
    rw [hz, Nat.shiftRight_eq_div_pow]
    omega
  | x :: y :: rest, h => by
    intro z hz
    rw [shr2Loop] at hz
    rcases List.mem_cons.mp hz with rfl | hz
    · apply Nat.or_lt_two_pow
      · exact Nat.mod_lt _ (by norm_num)
      · have := h x (by simp)
        rw [Nat.shiftRight_eq_div_pow]
        omega
    · exact shr2Loop_lt (y :: rest) (fun x hx => h x (by simp at hx ⊢; tauto)) z hz

theorem shr2Loop_len : ∀ l : List ℕ, (shr2Loop l).length = l.length
  | [] => rfl
  | [_] => rfl
  | _ :: y :: rest => by simp [shr2Loop, shr2Loop_len (y :: rest)]

/-- `div_by_four`. -/
theorem div_by_four (s : Scalar) : Gen.Scalar.div_by_four s.l = (s.divByFour).map (·.l) := by
  unfold Gen.Scalar.div_by_four Scalar.divByFour
  dsimp only
  have hr : Rt.rangeIncl 0 12 = List.range' 0 13 := rfl
  rw [hr, pair_loop14 (fun x y => asU32 (y <<< 30) ||| (x >>> 2)) s.len,
    ofList_map (by rw [shr2Loop_len, s.len]) (shr2Loop_lt _ s.lt), bsome]
  · obtain ⟨a0, a1, a2, a3, a4, a5, a6, a7, a8, a9, a10, a11, a12, a13, h⟩ := list14 s.l s.len
    rw [h]
    rfl
  · intro r i x y hi hx hy
    simp only [ckUsize_eq (show i + 1 < 2 ^ 32 by omega), bsome, hx, hy, bind_id, shlU32]

/-- Body of the loop of `halve`. -/
def halveBody (mask c x y _z : ℕ) : Option (ℕ × ℕ) :=
  (ckU64 (x + (y &&& mask))).bind fun t =>
    (ckU64 (c + t)).bind fun ch => some (asU32 ch, ch / 2 ^ 32)

theorem halveLoop_cons (mask c x : ℕ) (xs : List ℕ) (y : ℕ) (ys : List ℕ) (z : ℕ) (zs : List ℕ) :
    (fun c a b (_ : List ℕ) => halveLoop mask c a b) c (x :: xs) (y :: ys) (z :: zs) =
      (halveBody mask c x y z).bind fun vc =>
        ((fun c a b (_ : List ℕ) => halveLoop mask c a b) vc.2 xs ys zs).bind fun rc =>
          some (vc.1 :: rc.1, rc.2) := by
  simp only [halveLoop, halveBody, bind, Option.bind_assoc, bsome]

theorem halveLoop_len {mask : ℕ} {a b : List ℕ} {c : ℕ} {r : List ℕ × ℕ}
    (hl : a.length = b.length) (h : halveLoop mask c a b = some r) :
    r.1.length = a.length ∧ ∀ x ∈ r.1, x < 2 ^ 32 :=
  carry_len (fun x => x < 2 ^ 32) (fun c a b (_ : List ℕ) => halveLoop mask c a b)
    (halveBody mask) (fun _ => rfl) (halveLoop_cons mask) (fun c x y z v hv => by
      simp only [halveBody, Option.bind_eq_some_iff, Option.some.injEq] at hv
      obtain ⟨_, _, _, _, rfl⟩ := hv
      exact Nat.mod_lt _ (by norm_num)) a b a c r rfl hl.symm h

theorem shr1Loop_lt (c : ℕ) : ∀ l : List ℕ, (∀ x ∈ l, x < 2 ^ 32) →
    ∀ x ∈ shr1Loop c l, x < 2 ^ 32
  | [], _ => by simp [shr1Loop]
  | [x], h => by
    intro z hz
    rw [shr1Loop, List.mem_singleton] at hz
    have := h x (by simp)
    rw [hz]
    apply Nat.or_lt_two_pow
    · rw [Nat.shiftRight_eq_div_pow]
      omega
    · exact Nat.mod_lt _ (by norm_num)
  | x :: y :: rest, h => by
    intro z hz
    rw [shr1Loop] at hz
    rcases List.mem_cons.mp hz with rfl | hz
    · apply Nat.or_lt_two_pow
      · have := h x (by simp)
        rw [Nat.shiftRight_eq_div_pow]
        omega
      · exact Nat.mod_lt _ (by norm_num)
    · exact shr1Loop_lt c (y :: rest) (fun x hx => h x (by simp at hx ⊢; tauto)) z hz

theorem shr1Loop_len (c : ℕ) : ∀ l : List ℕ, (shr1Loop c l).length = l.length
  | [] => rfl
  | [_] => rfl
  | _ :: y :: rest => by simp [shr1Loop, shr1Loop_len c (y :: rest)]

theorem halveMask_eq (l0 : ℕ) : Rt.wsubU 32 0 (l0 &&& 1) = halveMask l0 := by
  have h : l0 &&& 1 = l0 % 2 := Nat.and_one_is_mod l0
  unfold Rt.wsubU halveMask
  rw [h]
  rcases Nat.mod_two_eq_zero_or_one l0 with h | h <;> rw [h] <;> norm_num

/-- `halve`. -/
theorem halve (s : Scalar) : Gen.Scalar.halve s.l = (s.halve).map (·.l) := by
  unfold Gen.Scalar.halve Model.Scalar.halve
  dsimp only
  have e0 : s.l.getD 0 0 = s.l.headD 0 := by cases s.l <;> rfl
  rw [halveMask_eq, e0, carry_loop0 (fun c a b (_ : List ℕ) => halveLoop _ c a b)
    (halveBody (halveMask (s.l.headD 0))) (fun _ => rfl) (halveLoop_cons _) (n := 14) (a := s.l)
    (b := C.MODULUS) _ s.len rfl rfl, modulus_eq]
  · cases h : halveLoop (halveMask (s.l.headD 0)) 0 s.l modulusLimbs with
    | none => rfl
    | some rc =>
      obtain ⟨hl, hlt⟩ := halveLoop_len (by rw [s.len]; rfl) h
      have hl : rc.1.length = 14 := hl.trans s.len
      have hr : Rt.range 0 13 = List.range' 0 13 := rfl
      simp only [Option.map_some, bsome]
      rw [hr, pair_loop14 (fun x y => (x >>> 1) ||| asU32 (y <<< 31)) hl, bsome,
        ofList_map (by rw [shr1Loop_len, hl]) (shr1Loop_lt _ _ hlt)]
      · obtain ⟨a0, a1, a2, a3, a4, a5, a6, a7, a8, a9, a10, a11, a12, a13, h⟩ := list14 rc.1 hl
        rw [h]
        rfl
      · intro r i x y hi hx hy
        simp only [ckUsize_eq (show i + 1 < 2 ^ 32 by omega), bsome, hx, hy, bind_id, shlU32]
  · intro c r i x y z hx hy _
    simp only [hx, hy, bsome, Option.bind_assoc, shr32, halveBody, mod_32]

/-! ## Digits -/

/-- `bits`. -/
theorem bits (s : Scalar) : Gen.Scalar.bits s.l = some s.bits := by
  unfold Gen.Scalar.bits Model.Scalar.bits
  dsimp only
  rw [append_loop (g := fun limb => (List.range 32).map fun j => decide (limb &&& (1 <<< j) ≠ 0)),
    bsome, List.nil_append]
  intro st limb _
  have hr : Rt.rangeZ 0 32 = (List.range 32).map fun k : ℕ => (k : ℤ) := by decide +kernel
  rw [hr, foldlM_map_list, append_loop (g := fun j => [decide (limb &&& (1 <<< j) ≠ 0)])]
  · simp only [bsome]
    congr 2
  · intro st j hj
    have hj : j < 32 := List.mem_range.mp hj
    have h1 : Rt.shiftAmountZ 32 (j : ℤ) = some j := by
      rw [Rt.shiftAmountZ, if_pos (by constructor <;> [omega; exact_mod_cast hj])]
      rfl
    have h2 : Rt.shlU 32 1 j = 1 <<< j := by
      rw [Rt.shlU, Nat.mod_eq_of_lt]
      rw [Nat.shiftLeft_eq, one_mul]
      exact Nat.pow_lt_pow_right (by norm_num) hj
    rw [h1, bsome, h2]
    congr 3
    rw [Bool.eq_iff_iff]
    simp

theorem nibble_loop {G : List ℤ → ℕ → Option (List ℤ)} {self : List ℕ}
    (hG : ∀ i l pre z0 z1 zs, Rt.idx self i = some l → pre.length = 2 * i →
      G (pre ++ z0 :: z1 :: zs) i =
        some (pre ++ ((l >>> 0 &&& 15 : ℕ) : ℤ) :: ((l >>> 4 &&& 15 : ℕ) : ℤ) :: zs)) :
    ∀ (ls lpre : List ℕ) (pre zs : List ℤ) (last : ℤ), self = lpre ++ ls →
      pre.length = 2 * lpre.length → zs.length = 2 * ls.length →
      (List.range' lpre.length ls.length).foldlM G (pre ++ (zs ++ [last])) =
        some (pre ++ nibbles ls ++ [last])
  | [], _, pre, [], _, _, _, _ => by simp [nibbles]
  | l :: ls, lpre, pre, z0 :: z1 :: zs, last, hs, hp, hz => by
    rw [List.length_cons, List.range'_succ, List.foldlM_cons, List.cons_append, List.cons_append,
      hG _ l pre z0 z1 _ (idx_eq hs rfl) hp]
    have ih := nibble_loop hG ls (lpre ++ [l])
      (pre ++ [((l >>> 0 &&& 15 : ℕ) : ℤ), ((l >>> 4 &&& 15 : ℕ) : ℤ)]) zs last
      (by simp [hs]) (by simp [hp]; omega) (by simp at hz; omega)
    simp only [List.length_append, List.length_cons, List.length_nil, zero_add,
      List.append_assoc, List.cons_append, List.nil_append] at ih
    simp only [bind, bsome, ih, nibbles, List.append_assoc, List.cons_append]
  | [], _, _, _ :: _, _, _, _, h => by simp at h
  | _ :: _, _, _, [], _, _, _, h => by simp at h
  | _ :: _, _, _, [_], _, _, _, h => by simp at h; omega

theorem ckI8_idem {x v : ℤ} (h : ckI8 x = some v) : v = x ∧ ckI8 v = some v := by
  unfold ckI8 at h
  split at h
  · rename_i hx
    rw [Option.some.injEq] at h
    subst h
    exact ⟨rfl, if_pos hx⟩
  · simp at h

theorem recenter_carry (c y : ℤ) (ys : List ℤ) :
    recenter c (y :: ys) = (ckI8 (y + c)).bind fun y' => recenter 0 (y' :: ys) := by
  cases h : ckI8 (y + c) with
  | none => rw [recenter, h]; rfl
  | some v =>
    obtain ⟨_, h2⟩ := ckI8_idem h
    rw [bsome, recenter, recenter, h, add_zero, h2]

theorem recenter_loop {G : List ℤ → ℕ → Option (List ℤ)}
    (hG : ∀ i pre x y zs, i < 112 → pre.length = i → G (pre ++ x :: y :: zs) i =
      (ckI8 (x + 8)).bind fun t => (ckI8 (x - sarZ t 4 * 16)).bind fun x' =>
        (ckI8 (y + sarZ t 4)).bind fun y' => some (pre ++ x' :: y' :: zs)) :
    ∀ (ys pre : List ℤ) (x : ℤ), pre.length + ys.length ≤ 112 → ckI8 x = some x →
      (List.range' pre.length ys.length).foldlM G (pre ++ x :: ys) =
        (recenter 0 (x :: ys)).map (pre ++ ·)
  | [], pre, x, _, hx => by
    simp [recenter, hx]
  | y :: ys, pre, x, hl, hx => by
    rw [List.length_cons] at hl
    rw [List.length_cons, List.range'_succ, List.foldlM_cons, hG _ pre x y ys (by omega) rfl,
      recenter]
    simp only [add_zero, hx, bsome, bind, List.isEmpty_cons, Bool.false_eq_true, if_false]
    cases ckI8 (x + 8) with
    | none => rfl
    | some t =>
      simp only [bsome]
      cases ckI8 (x - sarZ t 4 * 16) with
      | none => rfl
      | some x' =>
        simp only [bsome]
        rw [recenter_carry]
        cases h : ckI8 (y + sarZ t 4) with
        | none => rfl
        | some y' =>
          have ih := recenter_loop hG ys (pre ++ [x']) y' (by simp; omega) (ckI8_idem h).2
          simp only [List.length_append, List.length_cons, List.length_nil, zero_add,
            List.append_assoc, List.cons_append, List.nil_append] at ih
          simp only [bsome, ih]
          cases recenter 0 (y' :: ys) <;> rfl

theorem nibbles_len : ∀ l : List ℕ, (nibbles l).length = 2 * l.length
  | [] => rfl
  | _ :: ls => by simp [nibbles, nibbles_len ls]; omega

theorem nibble_bmod (x : ℕ) : Int.bmod ((x &&& 15 : ℕ) : ℤ) (2 ^ 8) = ((x &&& 15 : ℕ) : ℤ) := by
  have h : x &&& 15 ≤ 15 := Nat.and_le_right
  apply Int.bmod_eq_of_le
  · norm_num
  · norm_num
    omega

theorem sar_shl {t v : ℤ} (h : ckI8 t = some v) : Rt.shlZ 8 (sarZ v 4) 4 = sarZ v 4 * 16 := by
  obtain ⟨rfl, h⟩ := ckI8_idem h
  unfold ckI8 at h
  split at h
  · rename_i hx
    unfold Rt.shlZ sarZ
    norm_num at hx ⊢
    apply Int.bmod_eq_of_le <;> norm_num <;> omega
  · simp at h

/-- `to_radix_16`. -/
theorem to_radix_16 (s : Scalar) : Gen.Scalar.to_radix_16 s.l = s.toRadix16 := by
  unfold Gen.Scalar.to_radix_16 Scalar.toRadix16
  rw [to_bytes, bsome]
  dsimp only
  have hb := s.toBytes.len
  have h1 := nibble_loop (self := s.toBytes.l) (G := fun (τ2 : (List ℤ)) (i : ℕ) =>
      (Rt.idx s.toBytes.l i).bind fun τ3 =>
      (Rt.ckUsize ((2 : ℕ) * i)).bind fun τ4 =>
      (Rt.put τ2 τ4 (Int.bmod ((τ3 >>> 0 &&& 15 : ℕ) : ℤ) (2 ^ 8))).bind fun τ5 =>
      (Rt.idx s.toBytes.l i).bind fun τ6 =>
      (Rt.ckUsize ((2 : ℕ) * i)).bind fun τ7 =>
      (Rt.ckUsize (τ7 + (1 : ℕ))).bind fun τ8 =>
      (Rt.put τ5 τ8 (Int.bmod ((τ6 >>> 4 &&& 15 : ℕ) : ℤ) (2 ^ 8))).bind fun τ9 =>
      some τ9) ?_ s.toBytes.l [] [] (List.replicate 112 0) 0 rfl rfl (by simp [hb])
  · simp only [List.length_nil, List.nil_append, hb] at h1
    have hz : (List.replicate 112 (0 : ℤ)) ++ [0] = List.replicate 113 0 := by decide +kernel
    rw [hz] at h1
    have hr : Rt.range 0 56 = List.range' 0 56 := rfl
    rw [hr, h1, bsome]
    obtain ⟨x, ys, hx⟩ : ∃ y ys, nibbles s.toBytes.l ++ [0] = y :: ys :=
      List.exists_cons_of_length_eq_add_one (n := 112) (by simp [nibbles_len, hb])
    have hl : ys.length = 112 := by
      have := congrArg List.length hx
      simp [nibbles_len, hb] at this
      omega
    have hx0 : ckI8 x = some x := by
      obtain ⟨b, bs, hbs⟩ : ∃ y ys, s.toBytes.l = y :: ys :=
        List.exists_cons_of_length_eq_add_one (n := 55) hb
      rw [hbs, nibbles] at hx
      simp only [List.cons_append, List.cons.injEq] at hx
      have : b >>> 0 &&& 15 ≤ 15 := Nat.and_le_right
      rw [← hx.1]
      generalize b >>> 0 &&& 15 = w at this
      exact ckI8_eq (by omega) (by omega)
    have h2 := recenter_loop (G := fun (τ11 : (List ℤ)) (i : ℕ) =>
      (Rt.idx τ11 i).bind fun τ12 =>
      (ckI8 (τ12 + (8 : ℤ))).bind fun τ13 =>
      (Rt.idx τ11 i).bind fun τ14 =>
      (ckI8 (τ14 - (Rt.shlZ 8 (sarZ τ13 4) 4))).bind fun τ15 =>
      (Rt.put τ11 i τ15).bind fun τ16 =>
      (Rt.ckUsize (i + (1 : ℕ))).bind fun τ17 =>
      (Rt.idx τ16 τ17).bind fun τ18 =>
      (ckI8 (τ18 + (sarZ τ13 4))).bind fun τ19 =>
      (Rt.ckUsize (i + (1 : ℕ))).bind fun τ20 =>
      (Rt.put τ16 τ20 τ19).bind fun τ21 =>
      some τ21) ?_ ys [] x (by simp [hl]) hx0
    · simp only [List.length_nil, List.nil_append, hl] at h2
      have hr : Rt.range 0 112 = List.range' 0 112 := rfl
      rw [hx, hr, h2]
      cases recenter 0 (x :: ys) <;> rfl
    · intro i pre x y zs hi hp
      have e1 : Rt.idx (pre ++ x :: y :: zs) i = some x := idx_eq rfl hp.symm
      have e2 : ∀ v, Rt.put (pre ++ x :: y :: zs) i v = some (pre ++ v :: y :: zs) :=
        fun v => put_eq rfl hp.symm
      have e3 : ∀ v, Rt.idx (pre ++ v :: y :: zs) (i + 1) = some y := fun v =>
        idx_eq (pre := pre ++ [v]) (post := zs) (by simp) (by simp [hp])
      have e4 : ∀ v w, Rt.put (pre ++ v :: y :: zs) (i + 1) w = some (pre ++ v :: w :: zs) :=
        fun v w => by
          rw [put_eq (pre := pre ++ [v]) (x := y) (post := zs) (by simp) (by simp [hp])]; simp
      have e5 : Rt.ckUsize (i + 1) = some (i + 1) := ckUsize_eq (by omega)
      simp only [e1, bsome, e2, e3, e4, e5]
      cases h : ckI8 (x + 8) with
      | none => rfl
      | some t => simp only [bsome, sar_shl h]
  · intro i l pre z0 z1 zs hl hp
    have hi : i < 56 := by
      have := List.getElem?_eq_some_iff.mp hl
      rw [← hb]
      exact this.1
    have e2 : ∀ v, Rt.put (pre ++ z0 :: z1 :: zs) (2 * i) v = some (pre ++ v :: z1 :: zs) :=
      fun v => put_eq rfl hp.symm
    have e4 : ∀ v w, Rt.put (pre ++ v :: z1 :: zs) (2 * i + 1) w = some (pre ++ v :: w :: zs) :=
      fun v w => by
        rw [put_eq (pre := pre ++ [v]) (x := z1) (post := zs) (by simp) (by simp [hp])]; simp
    have e5 : Rt.ckUsize (2 * i) = some (2 * i) := ckUsize_eq (by omega)
    have e6 : Rt.ckUsize (2 * i + 1) = some (2 * i + 1) := ckUsize_eq (by omega)
    simp only [hl, bsome, e2, e4, e5, e6, nibble_bmod]

/-! ## Wide codecs -/

theorem mapM_idx {b : List ℕ} {n : ℕ} (h : n ≤ b.length) :
    ((List.range n).mapM fun i => (Rt.idx b i).bind fun x => some x) = some (b.take n) := by
  rw [mapM_some (g := fun i => b.getD i 0)]
  · congr 1
    apply List.ext_getElem
    · simp; omega
    · intro i h1 h2
      simp at h1
      have : i < b.length := by omega
      simp [List.getD, this]
  · intro i hi
    rw [bind_id, idx_lt (by have := List.mem_range.mp hi; omega)]

theorem mapM_idx_off {b : List ℕ} {off n : ℕ} (h : off + n ≤ b.length) (h' : b.length < 2 ^ 32) :
    ((List.range n).mapM fun i => (Rt.ckUsize (i + off)).bind fun j =>
      (Rt.idx b j).bind fun x => some x) = some ((b.drop off).take n) := by
  rw [← mapM_idx (b := b.drop off) (by simp; omega)]
  have : ∀ i ∈ List.range n, ((Rt.ckUsize (i + off)).bind fun j =>
      (Rt.idx b j).bind fun x => some x) = some (b.getD (i + off) 0) := by
    intro i hi
    have hi := List.mem_range.mp hi
    rw [ckUsize_eq (by omega), bsome, bind_id, idx_lt (by omega)]
  rw [mapM_some this, mapM_some (g := fun i => b.getD (i + off) 0)]
  intro i hi
  have hi := List.mem_range.mp hi
  rw [bind_id, idx_lt (by simp; omega)]
  simp [List.getD, List.getElem?_drop, add_comm]

/-- `from_canonical_bytes`. -/
theorem from_canonical_bytes (b : Bytes 57) : Gen.Scalar.from_canonical_bytes b.l =
    (Scalar.fromCanonicalBytes b).map (Option.map (·.l)) := by
  unfold Gen.Scalar.from_canonical_bytes Scalar.fromCanonicalBytes
  dsimp only
  have hc : ((!(b.l.getD 56 0 == 0)) || (!(b.l.getD 55 0 >>> 6 == 0))) = true ↔
      (Arr.get b 56 ≠ 0 ∨ Arr.get b 55 >>> 6 ≠ 0) := by
    simp [Arr.get]
  by_cases h : Arr.get b 56 ≠ 0 ∨ Arr.get b 55 >>> 6 ≠ 0
  · rw [if_pos (hc.mpr h), if_pos h]
    rfl
  · rw [if_neg (fun h' => h (hc.mp h')), if_neg h, mapM_idx (by rw [b.len]; norm_num), bsome]
    have e := from_bytes (Bytes.slice b 0 56 (by norm_num))
    have e' : (Bytes.slice b 0 56 (by norm_num)).l = b.l.take 56 := rfl
    rw [e'] at e
    rw [e, bsome]
    have e2 : C.MODULUS = MODULUS.l := rfl
    rw [e2, sub_extra]
    cases hs : subExtra (Scalar.fromBytes (Bytes.slice b 0 56 (by norm_num))) MODULUS 0 with
    | none => rfl
    | some r =>
      simp only [Option.map_some, bsome, scalar_eq, bind]
      split <;> rfl

/-- `to_bytes_rfc_8032`. -/
theorem to_bytes_rfc_8032 (s : Scalar) :
    Gen.Scalar.to_bytes_rfc_8032 s.l = some s.toBytesRfc8032.l := by
  unfold Gen.Scalar.to_bytes_rfc_8032
  dsimp only
  rw [to_bytes, bsome, bind_id, mapM_some (g := fun i => s.toBytes.l.getD i 0)]
  · congr 1
    have hb := s.toBytes.len
    have e : s.toBytesRfc8032.l = s.toBytes.l ++ [0] := rfl
    rw [e]
    apply List.ext_getElem
    · simp [hb]
    · intro i h1 h2
      simp at h1
      simp only [List.getElem_map, List.getElem_range, List.getElem_append]
      split
      · rename_i h
        simp [List.getD, h]
      · rename_i h
        simp [List.getD, h]
  · intro i hi
    have hb := s.toBytes.len
    rw [bind_id]
    by_cases h : i < 56
    · rw [if_pos (by simpa using h), bind_id, idx_lt (by omega)]
    · rw [if_neg (by simpa using h)]
      simp [List.getD, List.getElem?_eq_none (by omega : s.toBytes.l.length ≤ i)]

theorem wide_top (b : Bytes 114) :
    ((List.range 56).mapM fun (i : ℕ) =>
      (if (decide (i < (2 : ℕ))) then
      (Rt.ckUsize (i + (112 : ℕ))).bind fun τ10 =>
      (Rt.idx b.l τ10).bind fun τ11 =>
      some τ11
      else
      some (0 : ℕ)).bind fun τ12 =>
      some τ12) = some (wideTop b).l := by
  have hb := b.len
  rw [mapM_some (g := fun i => b.l.getD (i + 112) 0)]
  · congr 1
    have e : (wideTop b).l = b.l.drop 112 ++ List.replicate 54 0 := rfl
    rw [e]
    apply List.ext_getElem
    · simp [hb]
    · intro i h1 h2
      simp at h1
      simp only [List.getElem_map, List.getElem_range, List.getElem_append]
      split
      · rename_i h
        simp [hb] at h
        have : i + 112 < b.l.length := by omega
        simp [List.getD, this, add_comm 112 i]
      · rename_i h
        simp [hb] at h
        rw [List.getElem_replicate]
        have : ¬ i + 112 < b.l.length := by omega
        simp [List.getD, this]
  · intro i hi
    have hi := List.mem_range.mp hi
    rw [bind_id]
    by_cases h : i < 2
    · rw [if_pos (by simpa using h), ckUsize_eq (by omega), bsome, bind_id, idx_lt (by omega)]
    · rw [if_neg (by simpa using h)]
      simp [List.getD, List.getElem?_eq_none (by omega : b.l.length ≤ i + 112)]

/-- `from_bytes_mod_order_wide`. -/
theorem from_bytes_mod_order_wide (b : Bytes 114) : Gen.Scalar.from_bytes_mod_order_wide b.l =
    (Scalar.fromBytesModOrderWide b).map (·.l) := by
  unfold Gen.Scalar.from_bytes_mod_order_wide Scalar.fromBytesModOrderWide
  dsimp only
  have hb := b.len
  rw [wide_top, mapM_idx (by omega), mapM_idx_off (by omega) (by omega)]
  have e1 := from_bytes (Bytes.slice b 0 56 (by norm_num))
  have e1' : (Bytes.slice b 0 56 (by norm_num)).l = b.l.take 56 := rfl
  have e2 := from_bytes (Bytes.slice b 56 56 (by norm_num))
  have e2' : (Bytes.slice b 56 56 (by norm_num)).l = (b.l.drop 56).take 56 := rfl
  rw [e1'] at e1
  rw [e2'] at e2
  simp only [bsome, e1, e2, const_R, const_R2, montgomery_multiply, bind, bind_id]
  cases h1 : montMul (Scalar.fromBytes (Bytes.slice b 0 56 (by norm_num))) Rconst with
  | none => rfl
  | some lo =>
    simp only [Option.map_some, bsome]
    cases h2 : montMul (Scalar.fromBytes (Bytes.slice b 56 56 (by norm_num))) R2 with
    | none => rfl
    | some hi =>
      simp only [Option.map_some, bsome, from_bytes, montgomery_multiply]
      cases h3 : montMul (Scalar.fromBytes (wideTop b)) R2 with
      | none => rfl
      | some t =>
        simp only [Option.map_some, bsome, montgomery_multiply]
        cases h4 : montMul t R2 with
        | none => rfl
        | some t2 =>
          simp only [Option.map_some, bsome, scalar_add]
          cases h5 : Scalar.add lo hi with
          | none => rfl
          | some u => simp only [Option.map_some, bsome, op_add]

/-! ## Inversion -/

theorem bind_map_l {α β γ : Type} (x : Option α) (f : α → β) (g : β → Option γ) :
    (x.map f).bind g = x.bind fun a => g (f a) := by
  cases x <;> rfl

/-- The loop state of the translation for a state of the model. -/
abbrev invPhi (st : InvState Scalar) : List ℕ × ℕ × ℕ × ℕ :=
  (st.result.l, st.residue, st.trailing, if st.started then 1 else 0)

/-- Bounds of `residue` and `trailing`. -/
def InvBound (st : InvState Scalar) : Prop :=
  st.residue < 8 ∧ st.trailing < 128 ∧ (16 ≤ st.trailing → st.trailing % 2 = 0) ∧
    (32 ≤ st.trailing → st.trailing % 4 = 0) ∧ (64 ≤ st.trailing → st.trailing % 8 = 0)

theorem invIndices_eq : (Rt.rangeInclZ (-3) 445).reverse = invIndices := by decide +kernel

theorem invIndices_mem {i : ℤ} (h : i ∈ invIndices) : -3 ≤ i ∧ i ≤ 445 := by
  unfold invIndices at h
  simp at h
  omega

theorem invWindow_bound {i : ℤ} {w residue trailing : ℕ} (hr : residue < 8) :
    (invWindow i w residue trailing).2 < 8 ∧ ((invWindow i w residue trailing).1 = trailing ∨
      (invWindow i w residue trailing).1 < 16) := by
  have h : asU32 (residue * 2) ||| ((w >>> (asU32Z i % 32)) &&& 1) < 2 ^ 4 := by
    apply Nat.or_lt_two_pow
    · unfold asU32; omega
    · exact lt_of_le_of_lt Nat.and_le_right (by norm_num)
  unfold invWindow
  dsimp only
  split
  · exact ⟨by norm_num, Or.inr h⟩
  · rename_i h0
    refine ⟨?_, Or.inl rfl⟩
    have h0 := not_not.mp h0
    rw [Nat.shiftRight_eq_div_pow] at h0
    omega

theorem and7 (x : ℕ) : x &&& 7 = x % 8 := Nat.and_two_pow_sub_one_eq_mod x 3

theorem invStep_bound {pre : List Scalar} {st st' : InvState Scalar} {i : ℤ} (hb : InvBound st)
    (h : invStep montMul pre st i = some st') : InvBound st' := by
  obtain ⟨b1, b2, b3, b4, b5⟩ := hb
  unfold invStep invApply at h
  simp only [Option.bind_eq_some_iff] at h
  obtain ⟨result, _, w, _, h⟩ := h
  obtain ⟨c1, c2⟩ := invWindow_bound (i := i) (w := w) (trailing := st.trailing) b1
  generalize invWindow i w st.residue st.trailing = tr at *
  split at h
  · simp only [Option.bind_eq_some_iff, Option.some.injEq] at h
    obtain ⟨_, _, _, _, rfl⟩ := h
    exact ⟨c1, by norm_num, by norm_num, by norm_num, by norm_num⟩
  · rename_i hn
    rw [Option.some.injEq] at h
    subst h
    rw [and7] at hn
    unfold InvBound
    dsimp only
    rcases c2 with c2 | c2 <;> refine ⟨c1, ?_, ?_, ?_, ?_⟩ <;> omega

theorem shl1_32 (r : ℕ) : Rt.shlU 32 (r % 2 ^ 32) 1 = asU32 (r * 2) := by
  unfold Rt.shlU asU32
  rw [Nat.shiftLeft_eq]
  omega

theorem shl1_64 {r : ℕ} (h : r < 2 ^ 63) : Rt.shlU 64 r 1 = r * 2 := by
  unfold Rt.shlU
  rw [Nat.shiftLeft_eq]
  omega

theorem invPre_eq {S : Type} {mm : S → S → Option S} {a : S} {pre : List S}
    (h : invPre mm a = some pre) : pre.length = 8 := by
  unfold invPre at h
  simp only [bind, Option.bind_eq_some_iff, Option.some.injEq] at h
  obtain ⟨_, _, _, _, _, _, _, _, _, _, _, _, _, _, _, _, rfl⟩ := h
  rfl

/-- One step of the loop that fills the table of `invert`. -/
def tabStep (t : List (List ℕ)) (i : ℕ) : Option (List (List ℕ)) :=
  (ckSub i (1 : ℕ)).bind fun τ11 =>
  (Rt.idx t τ11).bind fun τ12 =>
  (Rt.idx t 7).bind fun τ13 =>
  (Gen.scalar.montgomery_multiply τ12 τ13).bind fun τ14 =>
  (Rt.put t i τ14).bind fun τ15 =>
  some (τ15)

theorem tabStep1 (p sq : Scalar) (x1 x2 x3 x4 x5 x6 : List ℕ) :
    tabStep [p.l, x1, x2, x3, x4, x5, x6, sq.l] 1 =
      (montMul p sq).map fun q => [p.l, q.l, x2, x3, x4, x5, x6, sq.l] := by
  have h0 : ckSub 1 1 = some 0 := rfl
  have h1 : ∀ x0 x1 x2 x3 x4 x5 x6 x7 : List ℕ,
    Rt.idx [x0, x1, x2, x3, x4, x5, x6, x7] 0 = some x0 := fun _ _ _ _ _ _ _ _ => rfl
  have h2 : ∀ x0 x1 x2 x3 x4 x5 x6 x7 : List ℕ,
    Rt.idx [x0, x1, x2, x3, x4, x5, x6, x7] 7 = some x7 := fun _ _ _ _ _ _ _ _ => rfl
  rw [tabStep, h0, bsome, h1, bsome, h2, bsome, montgomery_multiply]
  cases montMul p sq <;> rfl

theorem tabStep2 (p sq : Scalar) (x0 x2 x3 x4 x5 x6 : List ℕ) :
    tabStep [x0, p.l, x2, x3, x4, x5, x6, sq.l] 2 =
      (montMul p sq).map fun q => [x0, p.l, q.l, x3, x4, x5, x6, sq.l] := by
  have h0 : ckSub 2 1 = some 1 := rfl
  have h1 : ∀ x0 x1 x2 x3 x4 x5 x6 x7 : List ℕ,
    Rt.idx [x0, x1, x2, x3, x4, x5, x6, x7] 1 = some x1 := fun _ _ _ _ _ _ _ _ => rfl
  have h2 : ∀ x0 x1 x2 x3 x4 x5 x6 x7 : List ℕ,
    Rt.idx [x0, x1, x2, x3, x4, x5, x6, x7] 7 = some x7 := fun _ _ _ _ _ _ _ _ => rfl
  rw [tabStep, h0, bsome, h1, bsome, h2, bsome, montgomery_multiply]
  cases montMul p sq <;> rfl

theorem tabStep3 (p sq : Scalar) (x0 x1 x3 x4 x5 x6 : List ℕ) :
    tabStep [x0, x1, p.l, x3, x4, x5, x6, sq.l] 3 =
      (montMul p sq).map fun q => [x0, x1, p.l, q.l, x4, x5, x6, sq.l] := by
  have h0 : ckSub 3 1 = some 2 := rfl
  have h1 : ∀ x0 x1 x2 x3 x4 x5 x6 x7 : List ℕ,
    Rt.idx [x0, x1, x2, x3, x4, x5, x6, x7] 2 = some x2 := fun _ _ _ _ _ _ _ _ => rfl
  have h2 : ∀ x0 x1 x2 x3 x4 x5 x6 x7 : List ℕ,
    Rt.idx [x0, x1, x2, x3, x4, x5, x6, x7] 7 = some x7 := fun _ _ _ _ _ _ _ _ => rfl
  rw [tabStep, h0, bsome, h1, bsome, h2, bsome, montgomery_multiply]
  cases montMul p sq <;> rfl

theorem tabStep4 (p sq : Scalar) (x0 x1 x2 x4 x5 x6 : List ℕ) :
    tabStep [x0, x1, x2, p.l, x4, x5, x6, sq.l] 4 =
      (montMul p sq).map fun q => [x0, x1, x2, p.l, q.l, x5, x6, sq.l] := by
  have h0 : ckSub 4 1 = some 3 := rfl
  have h1 : ∀ x0 x1 x2 x3 x4 x5 x6 x7 : List ℕ,
    Rt.idx [x0, x1, x2, x3, x4, x5, x6, x7] 3 = some x3 := fun _ _ _ _ _ _ _ _ => rfl
  have h2 : ∀ x0 x1 x2 x3 x4 x5 x6 x7 : List ℕ,
    Rt.idx [x0, x1, x2, x3, x4, x5, x6, x7] 7 = some x7 := fun _ _ _ _ _ _ _ _ => rfl
  rw [tabStep, h0, bsome, h1, bsome, h2, bsome, montgomery_multiply]
  cases montMul p sq <;> rfl

theorem tabStep5 (p sq : Scalar) (x0 x1 x2 x3 x5 x6 : List ℕ) :
    tabStep [x0, x1, x2, x3, p.l, x5, x6, sq.l] 5 =
      (montMul p sq).map fun q => [x0, x1, x2, x3, p.l, q.l, x6, sq.l] := by
  have h0 : ckSub 5 1 = some 4 := rfl
  have h1 : ∀ x0 x1 x2 x3 x4 x5 x6 x7 : List ℕ,
    Rt.idx [x0, x1, x2, x3, x4, x5, x6, x7] 4 = some x4 := fun _ _ _ _ _ _ _ _ => rfl
  have h2 : ∀ x0 x1 x2 x3 x4 x5 x6 x7 : List ℕ,
    Rt.idx [x0, x1, x2, x3, x4, x5, x6, x7] 7 = some x7 := fun _ _ _ _ _ _ _ _ => rfl
  rw [tabStep, h0, bsome, h1, bsome, h2, bsome, montgomery_multiply]
  cases montMul p sq <;> rfl

theorem tabStep6 (p sq : Scalar) (x0 x1 x2 x3 x4 x6 : List ℕ) :
    tabStep [x0, x1, x2, x3, x4, p.l, x6, sq.l] 6 =
      (montMul p sq).map fun q => [x0, x1, x2, x3, x4, p.l, q.l, sq.l] := by
  have h0 : ckSub 6 1 = some 5 := rfl
  have h1 : ∀ x0 x1 x2 x3 x4 x5 x6 x7 : List ℕ,
    Rt.idx [x0, x1, x2, x3, x4, x5, x6, x7] 5 = some x5 := fun _ _ _ _ _ _ _ _ => rfl
  have h2 : ∀ x0 x1 x2 x3 x4 x5 x6 x7 : List ℕ,
    Rt.idx [x0, x1, x2, x3, x4, x5, x6, x7] 7 = some x7 := fun _ _ _ _ _ _ _ _ => rfl
  rw [tabStep, h0, bsome, h1, bsome, h2, bsome, montgomery_multiply]
  cases montMul p sq <;> rfl

theorem tabStep7 (p sq : Scalar) (x0 x1 x2 x3 x4 x5 : List ℕ) :
    tabStep [x0, x1, x2, x3, x4, x5, p.l, sq.l] 7 =
      (montMul p sq).map fun q => [x0, x1, x2, x3, x4, x5, p.l, q.l] := by
  have h0 : ckSub 7 1 = some 6 := rfl
  have h1 : ∀ x0 x1 x2 x3 x4 x5 x6 x7 : List ℕ,
    Rt.idx [x0, x1, x2, x3, x4, x5, x6, x7] 6 = some x6 := fun _ _ _ _ _ _ _ _ => rfl
  have h2 : ∀ x0 x1 x2 x3 x4 x5 x6 x7 : List ℕ,
    Rt.idx [x0, x1, x2, x3, x4, x5, x6, x7] 7 = some x7 := fun _ _ _ _ _ _ _ _ => rfl
  rw [tabStep, h0, bsome, h1, bsome, h2, bsome, montgomery_multiply]
  cases montMul p sq <;> rfl

/-- The table of `invert`. -/
theorem invert_table (am sq : Scalar) (x1 x2 x3 x4 x5 x6 : List ℕ) (h : montMul am am = some sq) :
    (Rt.rangeIncl 1 7).foldlM tabStep [am.l, x1, x2, x3, x4, x5, x6, sq.l] =
      (invPre montMul am).map (List.map (·.l)) := by
  have hr : Rt.rangeIncl 1 7 = [1, 2, 3, 4, 5, 6, 7] := rfl
  unfold invPre
  rw [hr, h]
  simp only [bsome, bind]
  rw [List.foldlM_cons, tabStep1]
  cases h1 : montMul am sq with
  | none => simp only [Option.map_none, Option.bind_none, bind]
  | some p1 =>
    simp only [Option.map_some, bsome, bind]
    rw [List.foldlM_cons, tabStep2]
    cases h2 : montMul p1 sq with
    | none => simp only [Option.map_none, Option.bind_none, bind]
    | some p2 =>
      simp only [Option.map_some, bsome, bind]
      rw [List.foldlM_cons, tabStep3]
      cases h3 : montMul p2 sq with
      | none => simp only [Option.map_none, Option.bind_none, bind]
      | some p3 =>
        simp only [Option.map_some, bsome, bind]
        rw [List.foldlM_cons, tabStep4]
        cases h4 : montMul p3 sq with
        | none => simp only [Option.map_none, Option.bind_none, bind]
        | some p4 =>
          simp only [Option.map_some, bsome, bind]
          rw [List.foldlM_cons, tabStep5]
          cases h5 : montMul p4 sq with
          | none => simp only [Option.map_none, Option.bind_none, bind]
          | some p5 =>
            simp only [Option.map_some, bsome, bind]
            rw [List.foldlM_cons, tabStep6]
            cases h6 : montMul p5 sq with
            | none => simp only [Option.map_none, Option.bind_none, bind]
            | some p6 =>
              simp only [Option.map_some, bsome, bind]
              rw [List.foldlM_cons, tabStep7]
              cases h7 : montMul p6 sq with
              | none => simp only [Option.map_none, Option.bind_none, bind]
              | some p7 =>
                simp only [Option.map_some, bsome, bind]
                rfl

theorem invWord_eq {i : ℤ} (h : -3 ≤ i ∧ i ≤ 445) :
    ((if (decide (i ≥ (0 : ℤ))) then
      (Rt.idx C.MODULUS (Rt.asU 64 (Int.tdiv i (32 : ℤ)))).bind fun τ21 => some τ21
      else some 0).bind fun τ22 =>
      if ((decide (i ≥ (0 : ℤ))) && (decide (i < (32 : ℤ)))) then
      (ckSub τ22 (2 : ℕ)).bind fun τ23 => some τ23
      else some τ22) = invWord i := by
  unfold invWord
  dsimp only
  by_cases h0 : 0 ≤ i
  · have e : Rt.asU 64 (Int.tdiv i 32) = (i / 32).toNat := by
      unfold Rt.asU
      rw [Int.tdiv_eq_ediv_of_nonneg h0]
      omega
    have e' : (i / 32).toNat < modulusLimbs.length := by
      have : modulusLimbs.length = 14 := rfl
      omega
    rw [if_pos (by simpa using h0), bind_id, e, modulus_eq, idx_lt e', bsome, if_pos h0]
    by_cases h1 : i < 32
    · rw [if_pos (by simp [h0, h1]), if_pos ⟨h0, h1⟩, bind_id]
    · rw [if_neg (by simp [h1]), if_neg (by tauto)]
  · rw [if_neg (by simpa using h0), bsome, if_neg (by simp [h0]), if_neg h0, if_neg (by tauto)]

/-- `invert`. -/
theorem invert (a : Scalar) : Gen.Scalar.invert a.l = (a.invert).map (·.l) := by
  have z3 : Rt.shiftAmountZ 64 3 = some 3 := rfl
  have z4 : Rt.shiftAmountZ 64 4 = some 4 := rfl
  have s7 : ckSub (Rt.shlU 64 1 3) 1 = some 7 := by decide +kernel
  have n3 : Rt.ckI32 (-3) = some (-3) := by decide +kernel
  have n4 : Rt.ckI32 (3 + 1) = some 4 := by decide +kernel
  unfold Gen.Scalar.invert Model.Scalar.invert invLoop
  dsimp only
  rw [z3, bsome, s7, bsome, const_R2, montgomery_multiply]
  cases h1 : montMul a R2 with
  | none => rfl
  | some am =>
    have p0 : Rt.put (List.replicate 8 Gen.Scalar.zero) 0 am.l =
      some [am.l, Gen.Scalar.zero, Gen.Scalar.zero, Gen.Scalar.zero, Gen.Scalar.zero,
        Gen.Scalar.zero, Gen.Scalar.zero, Gen.Scalar.zero] := rfl
    have i0 : ∀ x0 x1 x2 x3 x4 x5 x6 x7 : List ℕ,
      Rt.idx [x0, x1, x2, x3, x4, x5, x6, x7] 0 = some x0 := fun _ _ _ _ _ _ _ _ => rfl
    have p7 : ∀ x0 x1 x2 x3 x4 x5 x6 x7 v : List ℕ,
      Rt.put [x0, x1, x2, x3, x4, x5, x6, x7] 7 v = some [x0, x1, x2, x3, x4, x5, x6, v] :=
      fun _ _ _ _ _ _ _ _ _ => rfl
    rw [Option.map_some, bsome, p0, bsome, if_pos (by decide), i0, bsome, bsome,
      montgomery_multiply]
    simp only [bind, bsome]
    cases h2 : montMul am am with
    | none =>
      have : invPre montMul am = none := by
        unfold invPre
        rw [h2]
        rfl
      rw [this]
      rfl
    | some sq =>
      have ht := invert_table am sq Gen.Scalar.zero Gen.Scalar.zero Gen.Scalar.zero
        Gen.Scalar.zero Gen.Scalar.zero Gen.Scalar.zero h2
      unfold tabStep at ht
      rw [Option.map_some, bsome, p7, bsome, bsome, ht]
      cases hp : invPre montMul am with
      | none => rfl
      | some pre =>
        have hpl := invPre_eq hp
        rw [Option.map_some, bsome, n3, bsome, bsome]
        have hinit : (Gen.Scalar.zero, (0 : ℕ), (0 : ℕ), (0 : ℕ)) =
          invPhi ⟨Scalar.zero, 0, 0, false⟩ := rfl
        rw [invIndices_eq, hinit, foldlM_relP (g := invStep montMul pre) invPhi InvBound
          ⟨by norm_num, by norm_num, by norm_num, by norm_num, by norm_num⟩]
        · cases invIndices.foldlM (invStep montMul pre) ⟨Scalar.zero, 0, 0, false⟩ with
          | none => rfl
          | some st =>
            rw [Option.map_some, bsome, bsome, bsome, bind_id]
            exact montgomery_multiply st.result Scalar.one
        · rintro ⟨result, residue, trailing, started⟩ ⟨b1, b2, b3, b4, b5⟩ i hi
          have hi := invIndices_mem hi
          simp only at b1 b2 b3 b4 b5
          have hsq : (if (!((if started then 1 else 0) == (0 : ℕ))) then
              (Gen.Scalar.square result.l).bind fun τ19 => some τ19
              else some result.l) = (invSquare montMul started result).map (·.l) := by
            cases started
            · rfl
            · rw [if_pos (by rfl), bind_id, scalar_square]
              rfl
          have hsh : Rt.shiftAmount 32 (Rt.asU 32 i % 32) = some (asU32Z i % 32) := by
            rw [asU_32]
            exact if_pos (Nat.mod_lt _ (by norm_num))
          unfold invStep
          simp only
          rw [hsq, bind_map_l, Option.map_bind]
          congr 1
          funext r
          rw [← Option.bind_assoc, invWord_eq hi, Function.comp_apply, Option.map_bind]
          congr 1
          funext w
          have hw : (if (!((asU32 (residue * 2) ||| ((w >>> (asU32Z i % 32)) &&& 1)) >>> 3 == 0))
              = true then (asU32 (residue * 2) ||| ((w >>> (asU32Z i % 32)) &&& 1), 0)
              else (trailing, asU32 (residue * 2) ||| ((w >>> (asU32Z i % 32)) &&& 1))) =
              invWindow i w residue trailing := by
            unfold invWindow
            dsimp only
            split <;> split <;> simp_all
          rw [hsh, bsome, shl1_32, Function.comp_apply, hw]
          obtain ⟨c1, c2⟩ := invWindow_bound (i := i) (w := w) (trailing := trailing) b1
          generalize invWindow i w residue trailing = tr at *
          have ht64 : Rt.shlU 64 tr.1 1 = tr.1 * 2 := shl1_64 (by omega)
          have ht0 : Rt.shlU 64 0 1 = 0 := rfl
          have hcond : (if (decide (tr.1 > 0)) = true then
              (ckSub (Rt.shlU 64 1 3) 1).bind fun τ29 => some (tr.1 &&& τ29 == 0) else some false) =
              some (decide (0 < tr.1 ∧ tr.1 &&& 7 = 0)) := by
            rw [s7, bsome]
            by_cases h : 0 < tr.1
            · rw [if_pos (by simpa using h)]
              congr 1
              rw [Bool.eq_iff_iff]
              simp [h]
            · rw [if_neg (by simpa using h)]
              simp [h]
          rw [hcond, bsome]
          unfold invApply invMul
          by_cases h : 0 < tr.1 ∧ tr.1 &&& 7 = 0
          · rw [if_pos h, if_pos (by simpa using h), n4]
            simp only [bsome, z4]
            have hidx : Rt.idx (List.map (fun x => x.l) pre) (tr.1 >>> 4) =
              (pre[tr.1 >>> 4]?).map (·.l) := by rw [Rt.idx, List.getElem?_map]
            rw [hidx]
            cases pre[tr.1 >>> 4]? with
            | none => cases started <;> rfl
            | some e =>
              rw [Option.map_some, bsome, bsome, montgomery_multiply]
              cases started with
              | false => rfl
              | true =>
                rw [if_pos (by rfl), if_pos rfl, bsome]
                cases montMul r e <;> rfl
          · rw [if_neg h, if_neg (by simpa using h), bsome, ht64]
            rfl
        · intro t ht i _ t' h
          exact invStep_bound ht h

end Ed448.Proofs.Source
