import Verif.Model.Edwards
import Verif.Model.Montgomery
import Verif.Model.Decaf
import Verif.Proofs.ScalarMisc

/-!
# Field operations performed by the scalar multiplications

A backend is *blind* when `conditional_select` gives the same element whatever the choice bit is.
On such a backend a scalar can influence a result only by changing which operations are performed
on which operands, or by a branch: masked selections hide the bit. `Sym.Expr` is the free blind
backend: its elements are the expressions built by the operations, without the choice bits, and its
serialisation is an arbitrary function of the expression.
-/

namespace Ed448.Proofs
open Ed448.Model FieldBackend

/-- `conditional_select` ignores its choice bit. -/
class Blind (F : Type) {L : Type} [FieldBackend F L] : Prop where
  select_eq : ∀ (a b : F) (c c' : Bool), FieldBackend.select a b c = FieldBackend.select a b c'

variable {F L : Type} [FieldBackend F L] [Blind F]

theorem PNiels.select_blind (a b : PNiels F) (c c' : Bool) : a.select b c = a.select b c' := by
  simp only [PNiels.select, Blind.select_eq _ _ c c']

theorem PNiels.condNegate_blind (a : PNiels F) (c c' : Bool) : a.condNegate c = a.condNegate c' := by
  simp only [PNiels.condNegate, FieldBackend.condNegate, Blind.select_eq _ _ c c']

theorem TwPt.select_blind (a b : TwPt F) (c c' : Bool) : a.select b c = a.select b c' := by
  simp only [TwPt.select, Blind.select_eq _ _ c c']

theorem EdPt.select_blind (a b : EdPt F) (c c' : Bool) : a.select b c = a.select b c' := by
  simp only [EdPt.select, Blind.select_eq _ _ c c']

theorem ProjMont.select_blind (a b : ProjMont F) (c c' : Bool) : a.select b c = a.select b c' := by
  simp only [ProjMont.select, Blind.select_eq _ _ c c']

theorem tableSelect_blind (t : List (PNiels F)) (i j : ℕ) : tableSelect t i = tableSelect t j := by
  unfold tableSelect
  congr 1
  funext r k
  exact PNiels.select_blind _ _ _ _

theorem vbStep_blind (t : List (PNiels F)) (r : TwExt F) (s s' : Bool) (i j : ℕ) :
    vbStep t r s i = vbStep t r s' j := by
  unfold vbStep
  rw [tableSelect_blind t i j, PNiels.condNegate_blind _ s s']

theorem digitAbs_some (s : ℤ) (h1 : -8 ≤ s) (h2 : s ≤ 8) : (digitAbs s).isSome := by
  interval_cases s <;> rfl

theorem vbLoop_blind (t : List (PNiels F)) : ∀ (a b : List ℤ) (r : TwExt F), a.length = b.length →
    (∀ x ∈ a, -8 ≤ x ∧ x ≤ 8) → (∀ x ∈ b, -8 ≤ x ∧ x ≤ 8) →
    vbLoop t a r = vbLoop t b r ∧ (vbLoop t a r).isSome
  | [], [], r, _, _, _ => ⟨rfl, rfl⟩
  | x :: a, y :: b, r, h, ha, hb => by
    obtain ⟨dx, ex⟩ := Option.isSome_iff_exists.mp
      (digitAbs_some x (ha x (by simp)).1 (ha x (by simp)).2)
    obtain ⟨dy, ey⟩ := Option.isSome_iff_exists.mp
      (digitAbs_some y (hb y (by simp)).1 (hb y (by simp)).2)
    have := vbLoop_blind t a b (vbStep t r dx.1 dx.2) (by simpa using h)
      (fun z hz => ha z (by simp [hz])) (fun z hz => hb z (by simp [hz]))
    simp only [vbLoop, ex, ey, Option.bind_some]
    rw [vbStep_blind t r dy.1 dx.1 dy.2 dx.2]
    exact this

omit [Blind F] in
theorem radix_bounds (s : Scalar) : ∃ ds, s.toRadix16 = some ds ∧ ds.length = 113 ∧
    ∀ x ∈ ds.reverse, -8 ≤ x ∧ x ≤ 8 := by
  obtain ⟨ds, e, hlen, hd, hlast, -⟩ := s.toRadix16_spec
  refine ⟨ds, e, hlen, ?_⟩
  intro x hx
  rw [List.mem_reverse] at hx
  obtain ⟨i, hi, rfl⟩ := List.getElem_of_mem hx
  have hg : ds.getD i 0 = ds[i] := by
    rw [List.getD_eq_getElem?_getD, List.getElem?_eq_getElem hi]; rfl
  rcases Nat.lt_or_ge i 112 with h | h
  · have := hd i h; rw [hg] at this; omega
  · have : i = 112 := by omega
    subst this; rw [hg] at hlast; omega

theorem variableBase_blind (P : TwPt F) (s s' : Scalar) :
    variableBase P s = variableBase P s' ∧ (variableBase P s).isSome := by
  obtain ⟨a, ea, la, ba⟩ := radix_bounds s
  obtain ⟨b, eb, lb, bb⟩ := radix_bounds s'
  obtain ⟨h, h'⟩ := vbLoop_blind (lookupTable P) a.reverse b.reverse TwExt.identity
    (by simp [la, lb]) ba bb
  simp only [variableBase, ea, eb, Option.bind_some, h, Option.isSome_map]
  exact ⟨trivial, h ▸ h'⟩

theorem foldl_blind {α : Type} (f : α → Bool → α) (h : ∀ a c c', f a c = f a c') :
    ∀ (x y : List Bool) (a : α), x.length = y.length → x.foldl f a = y.foldl f a
  | [], [], _, _ => rfl
  | c :: x, c' :: y, a, e => by
    rw [List.foldl_cons, List.foldl_cons, h a c c']
    exact foldl_blind f h x y _ (by simpa using e)

theorem doubleAndAdd_blind (P : TwPt F) (s s' : Scalar) : doubleAndAdd P s = doubleAndAdd P s' := by
  unfold doubleAndAdd
  refine foldl_blind _ (fun a c c' => ?_) _ _ _ (by simp [Scalar.bits_len])
  simp only [daStep, TwPt.select_blind _ _ c c']

theorem doubleBaseScalarMul_blind (A : TwPt F) (a a' b b' : Scalar) :
    doubleBaseScalarMul a A b = doubleBaseScalarMul a' A b' := by
  unfold doubleBaseScalarMul
  rw [doubleAndAdd_blind A a a', doubleAndAdd_blind _ b b']

theorem scalarModFour_blind (P : EdPt F) (s s' : Scalar) :
    P.scalarModFour s = P.scalarModFour s' := by
  unfold EdPt.scalarModFour
  simp only [EdPt.select_blind _ _ _ false]

theorem edScalarMul_blind (P : EdPt F) (s s' : Scalar) :
    P.scalarMul s = P.scalarMul s' ∧ (P.scalarMul s).isSome := by
  obtain ⟨q, eq, -⟩ := s.divByFour_spec
  obtain ⟨q', eq', -⟩ := s'.divByFour_spec
  obtain ⟨h, h'⟩ := variableBase_blind P.toTwisted q q'
  simp only [EdPt.scalarMul, eq, eq', Option.bind_some, h, scalarModFour_blind P s s',
    Option.isSome_map]
  exact ⟨trivial, h ▸ h'⟩

theorem ladder_blind (u : F) (x y : List Bool) (st st' : ProjMont F × ProjMont F × Bool)
    (h : x.length = y.length) (h1 : st.1 = st'.1) (h2 : st.2.1 = st'.2.1) :
    (x.foldl (ladderStep u) st).1 = (y.foldl (ladderStep u) st').1 ∧
      (x.foldl (ladderStep u) st).2.1 = (y.foldl (ladderStep u) st').2.1 := by
  induction x generalizing y st st' with
  | nil =>
    cases y with
    | nil => exact ⟨h1, h2⟩
    | cons => simp at h
  | cons c x ih =>
    cases y with
    | nil => simp at h
    | cons c' y =>
      rw [List.foldl_cons, List.foldl_cons]
      apply ih _ _ _ (by simpa using h) <;>
        simp only [ladderStep, h1, h2, ProjMont.select_blind _ _ _ false]

theorem montMulScalar_blind (u : Bytes 56) (s s' : Scalar) :
    montMulScalar F u s = montMulScalar F u s' := by
  unfold montMulScalar
  dsimp only
  rw [(ladder_blind (F := F) _ s.bits.reverse s'.bits.reverse _ _ (by simp [Scalar.bits_len])
    rfl rfl).1]

/-! ## The free blind backend -/

namespace Sym

/-- Field expressions: variables, constants, parsed inputs and the operations of a backend.
`sel` has no choice bit. -/
inductive Expr
  | var (i : ℕ)
  | const (name : String)
  | input (b : Bytes 56)
  | mul (a b : Expr)
  | square (a : Expr)
  | add (a b : Expr)
  | sub (a b : Expr)
  | neg (a : Expr)
  | sel (a b : Expr)
  | reduce (a : Expr)

/-- Expressions, with the serialisation `out`. -/
def Field (_out : Expr → Bytes 56) : Type := Expr

instance (out : Expr → Bytes 56) : FieldBackend (Field out) Expr where
  relax a := a
  mulL := Expr.mul
  squareL := Expr.square
  add := Expr.add
  sub := Expr.sub
  negate := Expr.neg
  select a b _ := Expr.sel a b
  strongReduce := Expr.reduce
  fromBytes := Expr.input
  toBytes := out
  zero := Expr.const "zero"
  one := Expr.const "one"
  minusOne := Expr.const "minus_one"
  EDWARDS_D := Expr.const "EDWARDS_D"
  TWISTED_D := Expr.const "TWISTED_D"
  TWO_TIMES_TWISTED_D := Expr.const "TWO_TIMES_TWISTED_D"
  NEG_EDWARDS_D := Expr.const "NEG_EDWARDS_D"
  NEG_FOUR_TIMES_TWISTED_D := Expr.const "NEG_FOUR_TIMES_TWISTED_D"
  DECAF_FACTOR := Expr.const "DECAF_FACTOR"
  A_PLUS_TWO_OVER_FOUR := Expr.const "A_PLUS_TWO_OVER_FOUR"
  GOLDILOCKS_BASE_POINT := (Expr.const "GX", Expr.const "GY", Expr.const "GZ", Expr.const "GT")
  TWISTED_EDWARDS_BASE_POINT := (Expr.const "TX", Expr.const "TY", Expr.const "TZ", Expr.const "TT")

instance (out : Expr → Bytes 56) : Blind (Field out) where
  select_eq _ _ _ _ := rfl

end Sym

/-! ## The multiplications of the scalar inversion -/

/-- Products over one variable and one constant. -/
inductive Chain
  | arg
  | zero
  | mul (a b : Chain)

/-- Value of a chain for a multiplication `f`. -/
def Chain.eval {S : Type} (f : S → S → S) (zero a : S) : Chain → S
  | .arg => a
  | .zero => zero
  | .mul x y => f (x.eval f zero a) (y.eval f zero a)

/-- The image of a loop state. -/
def InvState.map {A B : Type} (h : A → B) (st : InvState A) : InvState B :=
  ⟨h st.result, st.residue, st.trailing, st.started⟩

section
variable {A B : Type} (f : A → A → A) (g : B → B → B) (h : A → B)

theorem invPre_map (hom : ∀ x y, h (f x y) = g (h x) (h y)) (a : A) :
    invPre (fun x y => some (g x y)) (h a) =
      (invPre (fun x y => some (f x y)) a).map (List.map h) := by
  simp [invPre, hom]

theorem invStep_map (hom : ∀ x y, h (f x y) = g (h x) (h y)) (pre : List A) (st : InvState A)
    (i : ℤ) : invStep (fun x y => some (g x y)) (pre.map h) (InvState.map h st) i =
      (invStep (fun x y => some (f x y)) pre st i).map (InvState.map h) := by
  obtain ⟨r, residue, trailing, started⟩ := st
  have key : ∀ (t : ℕ × ℕ) (r : A), invApply (fun x y => some (g x y)) (pre.map h) started (h r) t =
      (invApply (fun x y => some (f x y)) pre started r t).map (InvState.map h) := by
    intro t r
    simp only [invApply]
    split
    · rw [List.getElem?_map]
      cases pre[t.1 >>> 4]? with
      | none => rfl
      | some e => cases started <;> simp [InvState.map, invMul, hom]
    · rfl
  simp only [invStep, InvState.map]
  cases invWord i with
  | none => cases started <;> simp [invSquare]
  | some w =>
    cases started <;> simp only [invSquare, Option.bind_some, if_true, if_false,
      Bool.false_eq_true, ← hom, key]

theorem invFold_map (hom : ∀ x y, h (f x y) = g (h x) (h y)) (pre : List A) :
    ∀ (is : List ℤ) (st : InvState A),
      is.foldlM (invStep (fun x y => some (g x y)) (pre.map h)) (InvState.map h st) =
        (is.foldlM (invStep (fun x y => some (f x y)) pre) st).map (InvState.map h)
  | [], _ => rfl
  | i :: is, st => by
    rw [List.foldlM_cons, List.foldlM_cons, invStep_map f g h hom]
    cases invStep (fun x y => some (f x y)) pre st i with
    | none => rfl
    | some st' => exact invFold_map hom pre is st'

theorem invLoop_map (hom : ∀ x y, h (f x y) = g (h x) (h y)) (z a : A) :
    invLoop (fun x y => some (g x y)) (h z) (h a) =
      (invLoop (fun x y => some (f x y)) z a).map h := by
  unfold invLoop
  rw [invPre_map f g h hom]
  cases invPre (fun x y => some (f x y)) a with
  | none => rfl
  | some pre =>
    simp only [Option.map_some, bind, Option.bind_some]
    have := invFold_map f g h hom pre invIndices ⟨z, 0, 0, false⟩
    simp only [InvState.map] at this
    rw [this]
    cases List.foldlM (invStep (fun x y => some (f x y)) pre) ⟨z, 0, 0, false⟩ invIndices <;> rfl

end

theorem invChain_isSome : (invLoop (fun x y => some (Chain.mul x y)) Chain.zero Chain.arg).isSome := by
  decide +kernel

/-- The expression computed by the loop of `invert`. -/
def invChain : Chain :=
  (invLoop (fun x y => some (Chain.mul x y)) Chain.zero Chain.arg).get invChain_isSome

theorem invLoop_chain {S : Type} (f : S → S → S) (z a : S) :
    invLoop (fun x y => some (f x y)) z a = some (invChain.eval f z a) := by
  have := invLoop_map Chain.mul f (Chain.eval f z a) (fun _ _ => rfl) Chain.zero Chain.arg
  rw [show Chain.eval f z a Chain.zero = z from rfl,
    show Chain.eval f z a Chain.arg = a from rfl] at this
  rw [this, ← Option.some_get invChain_isSome]
  rfl

end Ed448.Proofs
