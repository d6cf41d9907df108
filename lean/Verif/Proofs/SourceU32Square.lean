import Verif.Proofs.SourceU32

/-!
# The translated 32-bit squaring is the model
-/

set_option maxRecDepth 10000

namespace Ed448.Proofs.Source
open Ed448 Ed448.Model Ed448.Model.U32 Ed448.Gen

theorem waddU_64 (x y : ℕ) : Rt.waddU 64 x y = wrapAddU64 x y := by rw [Rt.waddU, wrapAddU64]
theorem wsubU_64 (x y : ℕ) : Rt.wsubU 64 x y = wrapSubU64 x y := by rw [Rt.wsubU, wrapSubU64]
theorem wmulU_64 (x y : ℕ) : Rt.wmulU 64 x y = wrapMulU64 x y := by rw [Rt.wmulU, wrapMulU64]
theorem shlU_64 (x : ℕ) : Rt.shlU 64 x 1 = shl1U64 x := by
  rw [Rt.shlU, shl1U64, Nat.shiftLeft_eq, pow_one]
theorem kmask (x : ℕ) : (x % 2 ^ 32) &&& C.karatsuba_MASK = maskU x := by
  have : C.karatsuba_MASK = MASK := by decide
  rw [maskU, asU32, this]

theorem wide_ok {x y : ℕ} (hx : x < 2 ^ 32) (hy : y < 2 ^ 32) :
    ((ckU64 (x * y)).bind fun τ => some τ) = some (widemul x y) := by
  have h : x * y < 2 ^ 32 * 2 ^ 32 := Nat.mul_lt_mul'' hx hy
  rw [bind_id, ckU64, if_pos (by omega), widemul]

theorem ckSub_ok {x y : ℕ} (h : y ≤ x) : ckSub x y = some (x - y) := if_pos h

/-- The loop state of the translation for the accumulators of the model. -/
abbrev accPhi (t : Acc) : ℕ × ℕ × ℕ := (t.2.2, t.2.1, t.1)

theorem acc_loop {f : ℕ × ℕ × ℕ → ℕ → Option (ℕ × ℕ × ℕ)} (g : Acc → ℕ → Acc) {l : List ℕ}
    {s : ℕ × ℕ × ℕ} (t : Acc) (hs : s = accPhi t)
    (h : ∀ t, ∀ i ∈ l, f (accPhi t) i = some (accPhi (g t i))) :
    l.foldlM f s = some (accPhi (l.foldl g t)) := by
  subst hs
  rw [foldlM_rel accPhi (g := fun t i => some (g t i)) (fun t i hi => by rw [h t i hi]; rfl),
    foldlM_some (g := g) fun _ _ _ => rfl]
  rfl

theorem ckSub_b {β : Type} {x y : ℕ} (f : ℕ → Option β) (h : y ≤ x) :
    (ckSub x y).bind f = f (x - y) := by
  rw [ckSub, if_pos h, bsome]

theorem ckUsize_b {β : Type} {x : ℕ} (f : ℕ → Option β) (h : x < 2 ^ 32) :
    (Rt.ckUsize x).bind f = f x := by
  rw [ckUsize_eq h, bsome]

theorem bind_of_eq {α β : Type} {x : Option α} {v : α} (h : x = some v) (f : α → Option β) :
    x.bind f = f v := by
  rw [h, bsome]

section Square
variable {a aa : List ℕ} {A AA : ℕ → ℕ}

theorem square_part2 {γ : Type} (ha' : ∀ i, i < 16 → a.getD i 0 = A i)
    (haa' : ∀ i, i < 8 → aa.getD i 0 = AA i)
    (hw : ∀ i j, i < 16 → j < 16 → ((ckU64 (A i * A j)).bind fun τ => some τ) =
      some (widemul (A i) (A j)))
    (ha : ∀ i, i < 16 → Rt.idx a i = some (A i)) (haa : ∀ i, i < 8 → Rt.idx aa i = some (AA i))
    {x : ℕ} {c : List ℕ} {k : ℕ × ℕ × ℕ × List ℕ → Option γ} {R : Option γ}
    (hk : ∀ w, k ((sqJ0 A AA).1 >>> 28, (sqJ0 A AA).2 >>> 28, w,
        (c.set 0 (maskU (sqJ0 A AA).1)).set 8 (maskU (sqJ0 A AA).2)) = R) :
    (karatsuba.square.part2 a 0 0 x c aa).bind k = R := by
  unfold karatsuba.square.part2
  lift_lets
  intro w
  have hw : ∀ i j, i < 16 → j < 16 → w (A i) (A j) = some (widemul (A i) (A j)) := hw
  clear_value w
  rw [ha' 0 (by decide), ha' 8 (by decide), ha' 12 (by decide), ha' 4 (by decide),
    haa' 0 (by decide), haa' 4 (by decide)]
  refine peel_m (hw 0 0 (by decide) (by decide)) ?_
  refine peel_m (hw 8 8 (by decide) (by decide)) ?_
  refine peel_m (acc_loop (sq0Body A AA) (sqMid (wrapAddU64 0 (widemul (A 8) (A 8)),
    wrapAddU64 0 (wrapMulU64 (AA 0) (AA 0)), wrapAddU64 0 (widemul (A 0) (A 0)))) rfl ?_) ?_
  · rintro ⟨a0, a1, a2⟩ i hi
    have hi : 1 ≤ i ∧ i < 4 := by
      simp only [Rt.range, List.mem_range'_1] at hi
      omega
    simp (disch := omega) only [↓bind_of_eq (ha _ _), ↓bind_of_eq (haa _ _),
      ↓bind_of_eq (hw _ _ _ _), ↓ckSub_b, ↓ckUsize_b, waddU_64, wmulU_64,
      wsubU_64, shlU_64, sq0Body]
  refine peel_m (hw 12 12 (by decide) (by decide)) ?_
  refine peel_m (hw 4 4 (by decide) (by decide)) ?_
  rw [bsome, kmask, kmask]
  exact hk _

/-- One iteration of the loop over `j`, with the dead accumulator. -/
def sqT (A AA : ℕ → ℕ) (t : ℕ × ℕ × ℕ × List ℕ) (j : ℕ) : ℕ × ℕ × ℕ × List ℕ :=
  let st := (List.range' 0 (j / 2 + 1)).foldl (sqFirst A AA j) (t.2.2.1, t.2.1, 0)
  let st := sqMid st
  let st := (List.range' 1 ((8 - j) / 2)).foldl (sqSecond A AA j) st
  let b := (wrapAddU64 st.1 st.2.2, wrapAddU64 st.2.1 st.2.2)
  (st.2.2, b.2 >>> 28, b.1 >>> 28, (t.2.2.2.set j (maskU b.1)).set (j + 8) (maskU b.2))

theorem sqT_loop {F : ℕ × ℕ × ℕ × List ℕ → ℕ → Option (ℕ × ℕ × ℕ × List ℕ)}
    {t : ℕ × ℕ × ℕ × List ℕ} (ht : t.2.2.2.length = 16)
    (h : ∀ t : ℕ × ℕ × ℕ × List ℕ, t.2.2.2.length = 16 → ∀ j, 1 ≤ j → j < 7 →
      F t j = some (sqT A AA t j)) :
    (Rt.range 1 7).foldlM F t = some ([1, 2, 3, 4, 5, 6].foldl (sqT A AA) t) := by
  have hr : Rt.range 1 7 = [1, 2, 3, 4, 5, 6] := rfl
  have hl : ∀ t j, (sqT A AA t j).2.2.2.length = t.2.2.2.length := by
    intro t j
    simp [sqT]
  have : ∀ (l : List ℕ) (t : ℕ × ℕ × ℕ × List ℕ), t.2.2.2.length = 16 →
      (∀ j ∈ l, 1 ≤ j ∧ j < 7) → l.foldlM F t = some (l.foldl (sqT A AA) t) := by
    intro l
    induction l with
    | nil => intro t _ _; rfl
    | cons j l ih =>
      intro t ht hj
      rw [List.foldlM_cons, h t ht j (hj j (by simp)).1 (hj j (by simp)).2]
      exact ih _ (by rw [hl, ht]) fun i hi => hj i (by simp [hi])
  rw [hr]
  exact this _ _ ht (by decide)

theorem square_part3 {γ : Type}
    (hw : ∀ i j, i < 16 → j < 16 → ((ckU64 (A i * A j)).bind fun τ => some τ) =
      some (widemul (A i) (A j)))
    (ha : ∀ i, i < 16 → Rt.idx a i = some (A i)) (haa : ∀ i, i < 8 → Rt.idx aa i = some (AA i))
    {x0 x1 x2 : ℕ} {c : List ℕ} (hc : c.length = 16)
    {k : ℕ × ℕ × ℕ × List ℕ → Option γ} {R : Option γ}
    (hk : ∀ r, r = [1, 2, 3, 4, 5, 6].foldl (sqT A AA) (x2, x1, x0, c) →
      k (r.2.2.1, r.2.1, r.1, r.2.2.2) = R) :
    (karatsuba.square.part3 a x0 x1 x2 c aa).bind k = R := by
  unfold karatsuba.square.part3
  lift_lets
  intro w
  have hw : ∀ i j, i < 16 → j < 16 → w (A i) (A j) = some (widemul (A i) (A j)) := hw
  clear_value w
  refine peel_m (sqT_loop hc ?_) (hk _ rfl)
  rintro ⟨a2, a1, a0, c⟩ hc j hj hj'
  have hc : c.length = 16 := hc
  refine (bind_of_eq (v := j / 2 + 1) (ckUsize_eq (by omega)) _).trans ?_
  refine (bind_of_eq (acc_loop (sqFirst A AA j) (a0, a1, 0) rfl ?_) _).trans ?_
  · rintro ⟨a0, a1, a2⟩ i hi
    have hi : i < j / 2 + 1 := by
      simp only [Rt.range, List.mem_range'_1] at hi
      omega
    rw [sqFirst]
    by_cases h : i = j - i
    · have h' : (!(i == j - i)) = false := by simpa using h
      rw [if_neg (by simpa using h)]
      simp (disch := omega) only [↓bind_of_eq (ha _ _), ↓bind_of_eq (haa _ _),
        ↓bind_of_eq (hw _ _ _ _), ↓ckSub_b, ↓ckUsize_b, h', ↓reduceIte, Bool.false_eq_true,
        ↓bsome, waddU_64, wmulU_64]
    · have h' : (!(i == j - i)) = true := by simpa using h
      rw [if_pos h]
      simp (disch := omega) only [↓bind_of_eq (ha _ _), ↓bind_of_eq (haa _ _),
        ↓bind_of_eq (hw _ _ _ _), ↓ckSub_b, ↓ckUsize_b, h', ↓reduceIte,
        ↓bsome, waddU_64, wmulU_64, shlU_64]
  refine (bind_of_eq (v := 8 - j) (ckSub_ok (by omega)) _).trans ?_
  refine (bind_of_eq (v := (8 - j) / 2 + 1) (ckUsize_eq (by omega)) _).trans ?_
  refine (bind_of_eq (acc_loop (sqSecond A AA j) (sqMid
    ((List.range' 0 (j / 2 + 1)).foldl (sqFirst A AA j) (a0, a1, 0))) rfl ?_) _).trans ?_
  · rintro ⟨a0, a1, a2⟩ i hi
    have hi : 1 ≤ i ∧ i < (8 - j) / 2 + 1 := by
      simp only [Rt.range, List.mem_range'_1] at hi
      omega
    rw [sqSecond]
    by_cases h : j + i = 8 - i
    · have h' : (!(j + i == 8 - i)) = false := by simpa using h
      rw [if_neg (by simpa using h)]
      simp (disch := omega) only [↓bind_of_eq (ha _ _), ↓bind_of_eq (haa _ _),
        ↓bind_of_eq (hw _ _ _ _), ↓ckSub_b, ↓ckUsize_b, h', ↓reduceIte, Bool.false_eq_true,
        ↓bsome, waddU_64, wmulU_64, wsubU_64]
    · have h' : (!(j + i == 8 - i)) = true := by simpa using h
      rw [if_pos h]
      simp (disch := omega) only [↓bind_of_eq (ha _ _), ↓bind_of_eq (haa _ _),
        ↓bind_of_eq (hw _ _ _ _), ↓ckSub_b, ↓ckUsize_b, h', ↓reduceIte,
        ↓bsome, waddU_64, wmulU_64, wsubU_64, shlU_64]
  have hp : ∀ (c : List ℕ) (i v : ℕ), i < c.length → Rt.put c i v = some (c.set i v) :=
    fun c i v h => if_pos h
  refine (bind_of_eq (hp _ _ _ (by omega)) _).trans ?_
  refine (bind_of_eq (v := j + 8) (ckUsize_eq (by omega)) _).trans ?_
  refine (bind_of_eq (hp _ _ _ (by rw [List.length_set]; omega)) _).trans ?_
  rw [kmask, kmask]
  rfl

theorem square_part4 {γ : Type}
    (hw : ∀ i j, i < 16 → j < 16 → ((ckU64 (A i * A j)).bind fun τ => some τ) =
      some (widemul (A i) (A j)))
    (ha : ∀ i, i < 16 → Rt.idx a i = some (A i)) (haa : ∀ i, i < 8 → Rt.idx aa i = some (AA i))
    {x0 x1 x2 : ℕ} {c : List ℕ} {k : ℕ × ℕ × ℕ × List ℕ → Option γ} {R : Option γ}
    (hk : ∀ w, k ((sqJ7 A AA x0 x1).1 >>> 28, (sqJ7 A AA x0 x1).2 >>> 28, w,
        (c.set 7 (maskU (sqJ7 A AA x0 x1).1)).set 15 (maskU (sqJ7 A AA x0 x1).2)) = R) :
    (karatsuba.square.part4 a x0 x1 x2 c aa).bind k = R := by
  unfold karatsuba.square.part4
  lift_lets
  intro w _
  have hw : ∀ i j, i < 16 → j < 16 → w (A i) (A j) = some (widemul (A i) (A j)) := hw
  clear_value w
  refine peel_m (acc_loop (sq7Body A AA) (x0, x1, 0) rfl ?_) ?_
  · rintro ⟨a0, a1, a2⟩ i hi
    have hi : i < 4 := by
      simp only [Rt.range, List.mem_range'_1] at hi
      omega
    simp (disch := omega) only [↓bind_of_eq (ha _ _), ↓bind_of_eq (haa _ _),
      ↓bind_of_eq (hw _ _ _ _), ↓ckSub_b, ↓ckUsize_b, waddU_64, wmulU_64,
      shlU_64, sq7Body]
  rw [bsome, kmask, kmask]
  exact hk _

end Square

theorem maskU_lt (x : ℕ) : maskU x < 2 ^ 32 := by
  rw [maskU]
  exact lt_of_le_of_lt Nat.and_le_left (Nat.mod_lt _ (by norm_num))

theorem square_part1 (x : Raw) : karatsuba.square.part1 x.l =
    some (0, 0, 0, FieldElement28.zero, (List.range 8).map fun i => x.get i + x.get (i + 8)) := by
  unfold karatsuba.square.part1
  refine (bind_of_eq (fill_loop0 (fun i => x.get i + x.get (i + 8)) (by simp) ?_) _).trans rfl
  intro r i hi
  have hx := x.len
  have h1 := getD_lt_of x.lt (by norm_num) i
  have h2 := getD_lt_of x.lt (by norm_num) (i + 8)
  refine (bind_of_eq (idx_lt (by omega)) _).trans ?_
  refine (bind_of_eq (v := i + 8) (ckUsize_eq (by omega)) _).trans ?_
  refine (bind_of_eq (idx_lt (by omega)) _).trans ?_
  refine (bind_of_eq (ckU64_eq (by omega)) _).trans ?_
  exact bind_id _

/-- The last step of `square`. -/
theorem square_final {c : List ℕ} {c0 c1 c2 c3 c4 c5 c6 c7 c8 c9 c10 c11 c12 c13 c14 c15 : ℕ}
    {accum0 accum1 : ℕ}
    (hc : c = [c0, c1, c2, c3, c4, c5, c6, c7, c8, c9, c10, c11, c12, c13, c14, c15])
    (h : ∀ x ∈ [c0, c1, c2, c3, c4, c5, c6, c7, c8, c9, c10, c11, c12, c13, c14, c15], x < 2 ^ 32) :
    ((ckU64 (accum0 + accum1)).bind fun τ121 =>
      let accum0 := τ121
      (ckU64 (accum0 + (c.getD 8 0))).bind fun τ122 =>
      let accum0 := τ122
      (ckU64 (accum1 + (c.getD 0 0))).bind fun τ123 =>
      let accum1 := τ123
      let c := (c.set 8 ((accum0 % 2 ^ 32) &&& C.karatsuba_MASK))
      let c := (c.set 0 ((accum1 % 2 ^ 32) &&& C.karatsuba_MASK))
      let accum0 := (accum0 >>> 28)
      let accum1 := (accum1 >>> 28)
      (ckU32 ((c.getD 9 0) + (accum0 % 2 ^ 32))).bind fun τ124 =>
      let c := (c.set 9 τ124)
      (ckU32 ((c.getD 1 0) + (accum1 % 2 ^ 32))).bind fun τ125 =>
      let c := (c.set 1 τ125)
      some c) =
      (sqFinal c0 c1 c2 c3 c4 c5 c6 c7 c8 c9 c10 c11 c12 c13 c14 c15 accum0 accum1).map (·.l) := by
  subst hc
  unfold sqFinal
  refine bindm fun e => bindm fun y0 => bindm fun y1 => ?_
  simp only [List.set_cons_zero, List.set_cons_succ, List.getD_cons_zero, List.getD_cons_succ]
  rw [kmask, kmask, mod_32, mod_32]
  have m0 := maskU_lt y0
  have m1 := maskU_lt y1
  refine bindU32m fun d9 h9 => bindU32m fun d1 h1 => ?_
  refine (pack_map rfl ?_).symm
  simp_all

theorem sqT_eq {A AA : ℕ → ℕ} (j w : ℕ) {s t : ℕ × ℕ} (c : List ℕ)
    (h : t = sqStep A AA j (s.1 >>> 28) (s.2 >>> 28)) :
    ∃ W, sqT A AA (w, s.2 >>> 28, s.1 >>> 28, c) j =
      (W, t.2 >>> 28, t.1 >>> 28, (c.set j (maskU t.1)).set (j + 8) (maskU t.2)) := by
  subst h
  exact ⟨_, rfl⟩

theorem sq_fold {A AA : ℕ → ℕ} (w : ℕ) {s0 s1 s2 s3 s4 s5 s6 : ℕ × ℕ} {c : List ℕ}
    (h1 : s1 = sqStep A AA 1 (s0.1 >>> 28) (s0.2 >>> 28))
    (h2 : s2 = sqStep A AA 2 (s1.1 >>> 28) (s1.2 >>> 28))
    (h3 : s3 = sqStep A AA 3 (s2.1 >>> 28) (s2.2 >>> 28))
    (h4 : s4 = sqStep A AA 4 (s3.1 >>> 28) (s3.2 >>> 28))
    (h5 : s5 = sqStep A AA 5 (s4.1 >>> 28) (s4.2 >>> 28))
    (h6 : s6 = sqStep A AA 6 (s5.1 >>> 28) (s5.2 >>> 28)) :
    ∃ W, [1, 2, 3, 4, 5, 6].foldl (sqT A AA) (w, s0.2 >>> 28, s0.1 >>> 28, c) =
      (W, s6.2 >>> 28, s6.1 >>> 28,
        ((((((((((((c.set 1 (maskU s1.1)).set 9 (maskU s1.2)).set 2 (maskU s2.1)).set 10
          (maskU s2.2)).set 3 (maskU s3.1)).set 11 (maskU s3.2)).set 4 (maskU s4.1)).set 12
          (maskU s4.2)).set 5 (maskU s5.1)).set 13 (maskU s5.2)).set 6 (maskU s6.1)).set 14
          (maskU s6.2))) := by
  obtain ⟨w1, e1⟩ := sqT_eq 1 w c h1
  obtain ⟨w2, e2⟩ := sqT_eq 2 w1 _ h2
  obtain ⟨w3, e3⟩ := sqT_eq 3 w2 _ h3
  obtain ⟨w4, e4⟩ := sqT_eq 4 w3 _ h4
  obtain ⟨w5, e5⟩ := sqT_eq 5 w4 _ h5
  obtain ⟨w6, e6⟩ := sqT_eq 6 w5 _ h6
  refine ⟨w6, ?_⟩
  rw [List.foldl_cons, e1, List.foldl_cons, e2, List.foldl_cons, e3, List.foldl_cons, e4,
    List.foldl_cons, e5, List.foldl_cons, e6]
  rfl

theorem karatsuba_square (x : Raw) : karatsuba.square x.l = (Model.U32.square x).map (·.l) := by
  have hx := x.len
  have hb : ∀ i, x.get i < 2 ^ 32 := fun i => getD_lt_of x.lt (by norm_num) i
  have hw : ∀ i j, i < 16 → j < 16 → ((ckU64 (x.get i * x.get j)).bind fun τ => some τ) =
      some (widemul (x.get i) (x.get j)) := fun i j _ _ => wide_ok (hb i) (hb j)
  have ha : ∀ i, i < 16 → Rt.idx x.l i = some (x.get i) := fun i hi => idx_lt (by omega)
  have hl : ((List.range 8).map fun i => x.get i + x.get (i + 8)).length = 8 := by simp
  have haa' : ∀ i, i < 8 → ((List.range 8).map fun i => x.get i + x.get (i + 8)).getD i 0 =
      x.get i + x.get (i + 8) := by
    intro i hi
    rw [List.getD_eq_getElem?_getD, List.getElem?_eq_getElem (by omega)]
    simp
  have haa : ∀ i, i < 8 → Rt.idx ((List.range 8).map fun i => x.get i + x.get (i + 8)) i =
      some (x.get i + x.get (i + 8)) := fun i hi => by rw [idx_lt (by omega), haa' i hi]
  generalize hR : (Model.U32.square x).map (·.l) = R
  unfold karatsuba.square
  refine (bind_of_eq (square_part1 x) _).trans ?_
  generalize ((List.range 8).map fun i => x.get i + x.get (i + 8)) = aal at haa haa' hl ⊢
  dsimp only
  refine square_part2 (A := x.get) (AA := fun i => x.get i + x.get (i + 8)) (fun _ _ => rfl) haa' hw ha haa
    fun w => ?_
  refine square_part3 (A := x.get) (AA := fun i => x.get i + x.get (i + 8)) hw ha haa rfl fun r hr => ?_
  refine square_part4 (A := x.get) (AA := fun i => x.get i + x.get (i + 8)) hw ha haa fun w' => ?_
  clear hw haa haa'
  dsimp only at hr ⊢
  rw [← hR]
  unfold Model.U32.square
  lift_lets
  intro a aa s0 s1 s2 s3 s4 s5 s6 s7
  have h0 : s0 = sqJ0 (Arr.get x) fun i => Arr.get x i + Arr.get x (i + 8) := rfl
  rw [← h0] at hr
  obtain ⟨W, e⟩ := sq_fold (A := a) (AA := aa) w (s0 := s0)
    (c := (FieldElement28.zero.set 0 (maskU s0.1)).set 8 (maskU s0.2))
    (s1 := s1) (s2 := s2) (s3 := s3) (s4 := s4) (s5 := s5) (s6 := s6) rfl rfl rfl rfl rfl rfl
  have hr := hr.trans e
  have h7 : s7 = sqJ7 (Arr.get x) (fun i => Arr.get x i + Arr.get x (i + 8)) r.2.2.1 r.2.1 := by
    rw [hr]
  rw [← h7]
  refine square_final (c0 := maskU s0.1) (c8 := maskU s0.2) ?_ ?_
  · rw [hr]
    clear_value s0 s1 s2 s3 s4 s5 s6 s7
    rfl
  · have := maskU_lt
    simp_all

end Ed448.Proofs.Source
