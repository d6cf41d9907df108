import Verif.Gen.Rt

/-!
# Loops of the translated code

The translated code reads and writes arrays by index; the model consumes lists. The lemmas here
turn an index loop into the recursion over lists.
-/

namespace Ed448.Proofs.Source
open Ed448.Model Ed448.Gen

/-- `Option.bind_some`, kept from being used by unfolding: the kernel would compare the first
arguments of the two `bind`s. -/
theorem bsome {α β : Type} (a : α) (f : α → Option β) : (some a).bind f = f a := by
  rw [Option.bind_some]

theorem idx_append {α : Type} (pre : List α) (x : α) (post : List α) :
    Rt.idx (pre ++ x :: post) pre.length = some x := by
  simp [Rt.idx]

theorem put_append {α : Type} (pre : List α) (x v : α) (post : List α) :
    Rt.put (pre ++ x :: post) pre.length v = some (pre ++ v :: post) := by
  simp [Rt.put]

theorem idx_eq {α : Type} {l pre post : List α} {x : α} {i : ℕ} (h : l = pre ++ x :: post)
    (hi : i = pre.length) : Rt.idx l i = some x := by
  subst h hi; exact idx_append pre x post

theorem put_eq {α : Type} {l pre post : List α} {x v : α} {i : ℕ} (h : l = pre ++ x :: post)
    (hi : i = pre.length) : Rt.put l i v = some (pre ++ v :: post) := by
  subst h hi; exact put_append pre x v post

theorem idx_lt {l : List ℕ} {i : ℕ} (h : i < l.length) : Rt.idx l i = some (l.getD i 0) := by
  simp [Rt.idx, List.getD, h]

/-- A loop that reads `a[i]`, `b[i]`, `result[i]`, writes `result[i]` and carries a state. -/
theorem carry_loop {S α β γ : Type} (G : S × List γ → ℕ → Option (S × List γ))
    (loop : S → List α → List β → List γ → Option (List γ × S))
    (f : S → α → β → γ → Option (γ × S)) (a : List α) (b : List β)
    (hnil : ∀ c, loop c [] [] [] = some ([], c))
    (hcons : ∀ c x xs y ys z zs, loop c (x :: xs) (y :: ys) (z :: zs) =
      (f c x y z).bind fun vc => (loop vc.2 xs ys zs).bind fun rc => some (vc.1 :: rc.1, rc.2))
    (hG : ∀ c r i x y z, Rt.idx a i = some x → Rt.idx b i = some y → Rt.idx r i = some z →
      G (c, r) i = (f c x y z).bind fun vc => (Rt.put r i vc.1).bind fun r' => some (vc.2, r')) :
    ∀ (as : List α) (apre : List α) (bpre bs : List β) (pre res : List γ) (c : S),
      a = apre ++ as → b = bpre ++ bs → apre.length = pre.length → bpre.length = pre.length →
      as.length = res.length → bs.length = res.length →
      (List.range' pre.length res.length).foldlM G (c, pre ++ res) =
        (loop c as bs res).map fun rc => (rc.2, pre ++ rc.1)
  | [], _, _, [], pre, [], c, _, _, _, _, _, _ => by simp [hnil]
  | x :: xs, apre, bpre, y :: ys, pre, z :: zs, c, ha, hb, hal, hbl, hl, hl' => by
    have h1 : Rt.idx a pre.length = some x := idx_eq ha hal.symm
    have h2 : Rt.idx b pre.length = some y := idx_eq hb hbl.symm
    have h3 : Rt.idx (pre ++ z :: zs) pre.length = some z := idx_append _ _ _
    rw [List.length_cons, List.range'_succ, List.foldlM_cons, hG c _ _ x y z h1 h2 h3, hcons]
    cases hf : f c x y z with
    | none => rfl
    | some vc =>
      simp only [bsome, put_append, bind]
      have ih := carry_loop G loop f a b hnil hcons hG xs (apre ++ [x]) (bpre ++ [y]) ys
        (pre ++ [vc.1]) zs vc.2 (by simp [ha]) (by simp [hb]) (by simp [hal]) (by simp [hbl])
        (by simpa using hl) (by simpa using hl')
      simp only [List.length_append, List.length_cons, List.length_nil, zero_add,
        List.append_assoc, List.cons_append, List.nil_append] at ih
      rw [ih]
      cases loop vc.2 xs ys zs <;> rfl
  | [], _, _, _, _, _ :: _, _, _, _, _, _, h, _ => by simp at h
  | [], _, _, _ :: _, _, [], _, _, _, _, _, _, h => by simp at h
  | _ :: _, _, _, _, _, [], _, _, _, _, _, h, _ => by simp at h
  | _ :: _, _, _, [], _, _ :: _, _, _, _, _, _, _, h => by simp at h

/-- `carry_loop` from the first index. -/
theorem carry_loop0 {S α β γ : Type} {G : S × List γ → ℕ → Option (S × List γ)}
    (loop : S → List α → List β → List γ → Option (List γ × S))
    (f : S → α → β → γ → Option (γ × S)) {a : List α} {b : List β} {res : List γ} {c : S} {n : ℕ}
    (hnil : ∀ c, loop c [] [] [] = some ([], c))
    (hcons : ∀ c x xs y ys z zs, loop c (x :: xs) (y :: ys) (z :: zs) =
      (f c x y z).bind fun vc => (loop vc.2 xs ys zs).bind fun rc => some (vc.1 :: rc.1, rc.2))
    (hG : ∀ c r i x y z, Rt.idx a i = some x → Rt.idx b i = some y → Rt.idx r i = some z →
      G (c, r) i = (f c x y z).bind fun vc => (Rt.put r i vc.1).bind fun r' => some (vc.2, r'))
    (ha : a.length = n) (hb : b.length = n) (hr : res.length = n) :
    (Rt.range 0 n).foldlM G (c, res) = (loop c a b res).map fun rc => (rc.2, rc.1) := by
  have := carry_loop G loop f a b hnil hcons hG a [] [] b [] res c rfl rfl rfl rfl
    (by omega) (by omega)
  simpa [Rt.range, hr] using this

/-- Length and range of the array written by a `carry_loop`. -/
theorem carry_len {S α β γ : Type} (P : γ → Prop)
    (loop : S → List α → List β → List γ → Option (List γ × S))
    (f : S → α → β → γ → Option (γ × S))
    (hnil : ∀ c, loop c [] [] [] = some ([], c))
    (hcons : ∀ c x xs y ys z zs, loop c (x :: xs) (y :: ys) (z :: zs) =
      (f c x y z).bind fun vc => (loop vc.2 xs ys zs).bind fun rc => some (vc.1 :: rc.1, rc.2))
    (hf : ∀ c x y z v, f c x y z = some v → P v.1) :
    ∀ (as : List α) (bs : List β) (res : List γ) (c : S) (rc : List γ × S),
      as.length = res.length → bs.length = res.length → loop c as bs res = some rc →
      rc.1.length = res.length ∧ ∀ x ∈ rc.1, P x
  | [], [], [], c, rc, _, _, h => by
    rw [hnil, Option.some.injEq] at h
    subst h
    simp
  | x :: xs, y :: ys, z :: zs, c, rc, hl, hl', h => by
    rw [hcons] at h
    simp only [Option.bind_eq_some_iff, Option.some.injEq] at h
    obtain ⟨vc, h1, rc', h2, rfl⟩ := h
    obtain ⟨h3, h4⟩ := carry_len P loop f hnil hcons hf xs ys zs vc.2 rc' (by simpa using hl)
      (by simpa using hl') h2
    refine ⟨by simp [h3], fun w hw => ?_⟩
    rcases List.mem_cons.mp hw with rfl | hw
    · exact hf _ _ _ _ _ h1
    · exact h4 w hw
  | [], _, _ :: _, _, _, h, _, _ => by simp at h
  | [], _ :: _, [], _, _, _, h, _ => by simp at h
  | _ :: _, _, [], _, _, h, _, _ => by simp at h
  | _ :: _, [], _ :: _, _, _, _, h, _ => by simp at h

/-- A loop that only writes `r[i] = v i`. -/
theorem fill_loop {α : Type} {G : List α → ℕ → Option (List α)} {v : ℕ → α} {N : ℕ}
    (hG : ∀ r i, i < N → G r i = Rt.put r i (v i)) :
    ∀ (zs pre : List α), pre.length + zs.length ≤ N →
      (List.range' pre.length zs.length).foldlM G (pre ++ zs) =
        some (pre ++ (List.range' pre.length zs.length).map v)
  | [], pre, _ => by simp
  | z :: zs, pre, h => by
    simp only [List.length_cons] at h
    rw [List.length_cons, List.range'_succ, List.foldlM_cons, hG _ _ (by omega), put_append]
    have ih := fill_loop hG zs (pre ++ [v pre.length]) (by simp; omega)
    simp only [List.length_append, List.length_cons, List.length_nil, zero_add,
      List.append_assoc, List.cons_append, List.nil_append] at ih
    simp only [bind, bsome, ih, List.map_cons]

theorem fill_loop0 {α : Type} {G : List α → ℕ → Option (List α)} (v : ℕ → α) {n : ℕ}
    {zs : List α} (hn : zs.length = n) (hG : ∀ r i, i < n → G r i = Rt.put r i (v i)) :
    (Rt.range 0 n).foldlM G zs = some ((List.range n).map v) := by
  have := fill_loop (N := n) hG zs [] (by simp [hn])
  simpa [Rt.range, hn, List.range_eq_range'] using this

/-- `std::array::from_fn` of a function that does not panic. -/
theorem mapM_some {α β : Type} {f : α → Option β} {g : α → β} :
    ∀ {l : List α}, (∀ i ∈ l, f i = some (g i)) → l.mapM f = some (l.map g)
  | [], _ => rfl
  | x :: xs, h => by
    rw [List.mapM_cons, h x (by simp), mapM_some fun i hi => h i (by simp [hi])]
    rfl

/-- A loop without panics. -/
theorem foldlM_some {S α : Type} {f : S → α → Option S} {g : S → α → S} :
    ∀ {l : List α} {s : S}, (∀ s, ∀ i ∈ l, f s i = some (g s i)) →
      l.foldlM f s = some (l.foldl g s)
  | [], _, _ => rfl
  | x :: xs, s, h => by
    rw [List.foldlM_cons, h s x (by simp)]
    exact foldlM_some fun s i hi => h s i (by simp [hi])

/-- Loops with related states. -/
theorem foldlM_rel {S T α : Type} {f : S → α → Option S} {g : T → α → Option T} (φ : T → S) :
    ∀ {l : List α} {t : T}, (∀ t, ∀ i ∈ l, f (φ t) i = (g t i).map φ) →
      l.foldlM f (φ t) = (l.foldlM g t).map φ
  | [], _, _ => rfl
  | x :: xs, t, h => by
    rw [List.foldlM_cons, h t x (by simp), List.foldlM_cons]
    cases hg : g t x with
    | none => rfl
    | some t' => exact foldlM_rel φ fun t i hi => h t i (by simp [hi])

/-- Loops with related states and an invariant. -/
theorem foldlM_relP {S T α : Type} {f : S → α → Option S} {g : T → α → Option T} (φ : T → S)
    (P : T → Prop) :
    ∀ {l : List α} {t : T}, P t → (∀ t, P t → ∀ i ∈ l, f (φ t) i = (g t i).map φ) →
      (∀ t, P t → ∀ i ∈ l, ∀ t', g t i = some t' → P t') →
      l.foldlM f (φ t) = (l.foldlM g t).map φ
  | [], _, _, _, _ => rfl
  | x :: xs, t, hp, h, h' => by
    rw [List.foldlM_cons, h t hp x (by simp), List.foldlM_cons]
    cases hg : g t x with
    | none => rfl
    | some t' =>
      exact foldlM_relP φ P (h' t hp x (by simp) t' hg) (fun t ht i hi => h t ht i (by simp [hi]))
        (fun t ht i hi => h' t ht i (by simp [hi]))

theorem foldlM_map_list {S α β : Type} {f : S → β → Option S} (g : α → β) :
    ∀ (l : List α) (s : S), (l.map g).foldlM f s = l.foldlM (fun s a => f s (g a)) s
  | [], _ => rfl
  | x :: xs, s => by
    rw [List.map_cons, List.foldlM_cons, List.foldlM_cons]
    congr 1
    funext s'
    exact foldlM_map_list g xs s'

/-- A loop over indices that only reads `l[i]` is a loop over `l`. -/
theorem foldlM_idx {S : Type} {α : Type} {f : S → ℕ → Option S} {g : S → α → Option S} {l : List α}
    (h : ∀ s i x, Rt.idx l i = some x → f s i = g s x) :
    ∀ (post pre : List α) (s : S), l = pre ++ post →
      (List.range' pre.length post.length).foldlM f s = post.foldlM g s
  | [], _, _, _ => rfl
  | x :: xs, pre, s, hl => by
    rw [List.length_cons, List.range'_succ, List.foldlM_cons, List.foldlM_cons,
      h s _ x (idx_eq hl rfl)]
    congr 1
    funext s'
    have := foldlM_idx h xs (pre ++ [x]) s' (by simp [hl])
    simpa using this

theorem foldlM_idx0 {S : Type} {α : Type} {f : S → ℕ → Option S} {g : S → α → Option S}
    {l : List α} {n : ℕ} {s : S} (hn : l.length = n)
    (h : ∀ s i x, Rt.idx l i = some x → f s i = g s x) :
    (Rt.range 0 n).foldlM f s = l.foldlM g s := by
  have := foldlM_idx h l [] s rfl
  simpa [Rt.range, hn] using this

/-- `foldlM_idx0` with an invariant of the state. -/
theorem foldlM_idxP {S : Type} {α : Type} {f : S → ℕ → Option S} {g : S → α → Option S}
    {l : List α} (P : S → Prop) (h : ∀ s i x, P s → Rt.idx l i = some x → f s i = g s x)
    (h' : ∀ s x s', P s → g s x = some s' → P s') :
    ∀ (post pre : List α) (s : S), P s → l = pre ++ post →
      (List.range' pre.length post.length).foldlM f s = post.foldlM g s
  | [], _, _, _, _ => rfl
  | x :: xs, pre, s, hs, hl => by
    rw [List.length_cons, List.range'_succ, List.foldlM_cons, List.foldlM_cons,
      h s _ x hs (idx_eq hl rfl)]
    cases hg : g s x with
    | none => rfl
    | some s' =>
      have := foldlM_idxP P h h' xs (pre ++ [x]) s' (h' s x s' hs hg) (by simp [hl])
      simpa using this

theorem foldlM_idxP0 {S : Type} {α : Type} {f : S → ℕ → Option S} {g : S → α → Option S}
    {l : List α} {n : ℕ} {s : S} (P : S → Prop) (hs : P s) (hn : l.length = n)
    (h : ∀ s i x, P s → Rt.idx l i = some x → f s i = g s x)
    (h' : ∀ s x s', P s → g s x = some s' → P s') :
    (Rt.range 0 n).foldlM f s = l.foldlM g s := by
  have := foldlM_idxP P h h' l [] s hs rfl
  simpa [Rt.range, hn] using this

theorem foldlM_inv {S α : Type} {g : S → α → Option S} (P : S → Prop)
    (h' : ∀ s x s', P s → g s x = some s' → P s') :
    ∀ (l : List α) (s s' : S), P s → l.foldlM g s = some s' → P s'
  | [], s, s', hs, h => by
    have : s = s' := by simpa using h
    exact this ▸ hs
  | x :: xs, s, s', hs, h => by
    simp only [List.foldlM_cons, bind, Option.bind_eq_some_iff] at h
    obtain ⟨t, h1, h2⟩ := h
    exact foldlM_inv P h' xs t s' (h' s x t hs h1) h2

/-- A loop that appends to a list. -/
theorem append_loop {α β : Type} {f : List β → α → Option (List β)} {g : α → List β} :
    ∀ {l : List α} {s : List β}, (∀ s, ∀ i ∈ l, f s i = some (s ++ g i)) →
      l.foldlM f s = some (s ++ l.flatMap g)
  | [], s, _ => by simp
  | x :: xs, s, h => by
    rw [List.foldlM_cons, h s x (by simp)]
    have ih := append_loop (l := xs) (s := s ++ g x) fun s i hi => h s i (by simp [hi])
    simp only [bind, bsome, ih, List.flatMap_cons, List.append_assoc]

/-- The array after the loop `r[i] = h(r[i], r[i + 1])` over all indices but the last. -/
def pairLoop {α : Type} (h : α → α → α) : List α → List α
  | [] => []
  | [x] => [x]
  | x :: y :: rest => h x y :: pairLoop h (y :: rest)

theorem pair_loop {α : Type} {G : List α → ℕ → Option (List α)} {h : α → α → α}
    (hG : ∀ r i x y, i + 1 < r.length → Rt.idx r i = some x → Rt.idx r (i + 1) = some y →
      G r i = Rt.put r i (h x y)) :
    ∀ (ys pre : List α) (x : α),
      (List.range' pre.length ys.length).foldlM G (pre ++ x :: ys) =
        some (pre ++ pairLoop h (x :: ys))
  | [], pre, x => by simp [pairLoop]
  | y :: ys, pre, x => by
    rw [List.length_cons, List.range'_succ, List.foldlM_cons,
      hG _ _ x y (by simp) (idx_append _ _ _)
        (idx_eq (pre := pre ++ [x]) (post := ys) (by simp) (by simp)), put_append]
    have ih := pair_loop hG ys (pre ++ [h x y]) y
    simp only [List.length_append, List.length_cons, List.length_nil, zero_add,
      List.append_assoc, List.cons_append, List.nil_append] at ih
    simp only [bind, bsome, ih, pairLoop]

end Ed448.Proofs.Source
