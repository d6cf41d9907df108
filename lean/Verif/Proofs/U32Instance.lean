import Verif.Proofs.U32Square
import Verif.Proofs.U32Bytes
import Verif.Proofs.Lawful
import Verif.Model.U32Const

/-!
# The 32-bit backend is a lawful field backend

`Fe` is the type of arrays within the limb bound `Tight`. The operations of the instance are the
(partial) operations of the model `Model/U32.lean`, which are shown never to panic on `Fe` and to
return values in `Fe` again.
-/

namespace Ed448.Model.U32

set_option exponentiation.threshold 1000
open Ed448.Model

/-- Field elements within the limb bound. -/
def Fe : Type := {a : Raw // Tight a}

/-- The result of an operation that does not panic and returns a tight element. -/
def ofOpt (o : Option Raw) (h : ∃ r, o = some r ∧ Tight r) : Fe :=
  ⟨o.get (by obtain ⟨r, h, -⟩ := h; rw [h]; rfl), by
    obtain ⟨r, h, ht⟩ := h
    have : o.get (by rw [h]; rfl) = r := by simp [h]
    rw [this]; exact ht⟩

theorem ofOpt_some (o : Option Raw) (h : ∃ r, o = some r ∧ Tight r) : o = some (ofOpt o h).1 := by
  unfold ofOpt; simp

/-- The result of an operation that does not panic. -/
def ofOptB (o : Option (Bytes 56)) (h : ∃ r, o = some r) : Bytes 56 :=
  o.get (by obtain ⟨r, h⟩ := h; rw [h]; rfl)

theorem ofOptB_some (o : Option (Bytes 56)) (h : ∃ r, o = some r) : o = some (ofOptB o h) := by
  unfold ofOptB; simp

theorem tight_of_lt {a : Raw} (h : ∀ x ∈ a.l, x < 2 ^ 28) : Tight a :=
  fun x hx => (h x hx).le.trans (by norm_num)

instance (a : Raw) : Decidable (Tight a) := by unfold Tight; infer_instance

theorem tight_zero : Tight zero := by decide

theorem select_l (a b : Raw) (c : Bool) : select a b c = if c then b else a := by
  have : (select a b c).l = (if c then b else a).l := by
    cases c
    · simp only [select, Bool.false_eq_true, if_false]; exact (Raw.l_eq a).symm
    · simp only [select, if_true]; exact (Raw.l_eq b).symm
  generalize select a b c = x at this
  generalize (if c then b else a) = y at this
  cases x; cases y; simp_all

/-- A constant within the limb bound. -/
def cst (a : Raw) (h : Tight a := by decide) : Fe := ⟨a, h⟩

theorem negate_spec {a : Raw} (ha : Tight a) :
    ∃ r, negate a = some r ∧ Tight r ∧ ∃ k, V r + k * p + V a = 2 * p := by
  obtain ⟨r, h1, h2, k, h3⟩ := sub_spec tight_zero ha
  refine ⟨r, h1, h2, k, ?_⟩
  rw [h3]
  have : V zero = 0 := by decide +kernel
  omega

/-- The 32-bit backend as an instance of the interface. -/
instance : FieldBackend Fe Fe where
  relax x := x
  mulL a b := ofOpt (mul a.1 b.1) (let ⟨r, h, t, _⟩ := mul_spec a.2 b.2; ⟨r, h, t⟩)
  squareL a := ofOpt (square a.1) (let ⟨r, h, t, _⟩ := square_spec a.2; ⟨r, h, t⟩)
  add a b := ofOpt (add a.1 b.1) (let ⟨r, h, t, _⟩ := add_spec a.2 b.2; ⟨r, h, t⟩)
  sub a b := ofOpt (sub a.1 b.1) (let ⟨r, h, t, _⟩ := sub_spec a.2 b.2; ⟨r, h, t⟩)
  negate a := ofOpt (negate a.1) (let ⟨r, h, t, _⟩ := negate_spec a.2; ⟨r, h, t⟩)
  select a b c := ⟨select a.1 b.1 c, by rw [select_l]; split; exacts [b.2, a.2]⟩
  strongReduce a := ofOpt (strongReduce a.1)
    (let ⟨r, h, t, _⟩ := strongReduce_spec a.2; ⟨r, h, tight_of_lt t⟩)
  fromBytes b := ofOpt (fromBytes b) (let ⟨r, h, t, _⟩ := fromBytes_spec b; ⟨r, h, tight_of_lt t⟩)
  toBytes a := ofOptB (toBytes a.1) (let ⟨r, h, _⟩ := toBytes_spec a.2; ⟨r, h⟩)
  zero := cst zero
  one := cst one
  minusOne := cst minusOne
  EDWARDS_D := cst EDWARDS_D
  TWISTED_D := cst TWISTED_D
  TWO_TIMES_TWISTED_D := cst TWO_TIMES_TWISTED_D
  NEG_EDWARDS_D := cst NEG_EDWARDS_D
  NEG_FOUR_TIMES_TWISTED_D := cst NEG_FOUR_TIMES_TWISTED_D
  DECAF_FACTOR := cst DECAF_FACTOR
  A_PLUS_TWO_OVER_FOUR := cst A_PLUS_TWO_OVER_FOUR
  GOLDILOCKS_BASE_POINT := (cst G_X, cst G_Y, cst G_Z, cst G_T)
  TWISTED_EDWARDS_BASE_POINT := (cst TG_X, cst TG_Y, cst TG_Z, cst TG_T)

theorem spec_of_some {o : Option Raw} {P : Raw → Prop} {r : Raw} (e : o = some r)
    (h : ∃ r, o = some r ∧ Tight r ∧ P r) : P r := by
  obtain ⟨r', h, -, hp⟩ := h
  rw [e] at h
  cases h
  exact hp

theorem V_cast_mod (a : Raw) (n : ℕ) (h : V a % p = n % p) : (V a : Fp) = (n : Fp) := by
  rw [← ZMod.natCast_mod (V a) p, h, ZMod.natCast_mod]

theorem cast_p_eq_zero : ((p : ℕ) : Fp) = 0 := ZMod.natCast_self p

theorem ofOpt_V {o : Option Raw} {h : ∃ r, o = some r ∧ Tight r} {r : Raw} (e : o = some r) :
    V (ofOpt o h).1 = V r := by
  have := e.symm.trans (ofOpt_some o h)
  injection this with this
  rw [← this]

theorem ofOptB_val {o : Option (Bytes 56)} {h : ∃ r, o = some r} {r : Bytes 56} (e : o = some r) :
    (ofOptB o h).val = r.val := by
  have := e.symm.trans (ofOptB_some o h)
  injection this with this
  rw [← this]

instance : Lawful Fe where
  val x := (V x.1 : Fp)
  lval x := (V x.1 : Fp)
  lval_relax _ := rfl
  val_mulL x y := spec_of_some (ofOpt_some _ _) (mul_spec x.2 y.2)
  val_squareL x := by rw [pow_two]; exact spec_of_some (ofOpt_some _ _) (square_spec x.2)
  val_add x y := by
    obtain ⟨k, h⟩ := spec_of_some (ofOpt_some _ _) (add_spec x.2 y.2)
    have := congrArg (fun n : ℕ => (n : Fp)) h
    push_cast at this
    rw [cast_p_eq_zero, mul_zero, add_zero] at this
    exact this
  val_sub x y := by
    obtain ⟨k, h⟩ := spec_of_some (ofOpt_some _ _) (sub_spec x.2 y.2)
    have := congrArg (fun n : ℕ => (n : Fp)) h
    push_cast at this
    rw [cast_p_eq_zero, mul_zero, mul_zero, add_zero, add_zero] at this
    rw [← this, add_sub_cancel_right]
    rfl
  val_negate x := by
    obtain ⟨k, h⟩ := spec_of_some (ofOpt_some _ _) (negate_spec x.2)
    have := congrArg (fun n : ℕ => (n : Fp)) h
    push_cast at this
    rw [cast_p_eq_zero, mul_zero, mul_zero, add_zero] at this
    exact eq_neg_of_add_eq_zero_left this
  val_select x y c := by
    change (V (select x.1 y.1 c) : Fp) = _
    rw [select_l]; split <;> rfl
  val_strongReduce x := by
    obtain ⟨r, h1, h2, h3⟩ := strongReduce_spec x.2
    refine (congrArg (fun n : ℕ => (n : Fp)) (ofOpt_V h1)).trans ?_
    simp only [h3, ZMod.natCast_mod]
  val_fromBytes b := by
    obtain ⟨r, h1, h2, h3⟩ := fromBytes_spec b
    refine (congrArg (fun n : ℕ => (n : Fp)) (ofOpt_V h1)).trans ?_
    simp only [h3]
  toBytes_val x := by
    obtain ⟨r, h1, h2⟩ := toBytes_spec x.2
    refine (ofOptB_val h1).trans ?_
    rw [h2, ZMod.val_natCast]
  val_zero := by
    refine (V_cast_mod zero 0 ?_).trans (by push_cast; rfl)
    rw [p_lit]; decide +kernel
  val_one := by
    refine (V_cast_mod one 1 ?_).trans (by push_cast; rfl)
    rw [p_lit]; decide +kernel
  lval_minusOne := by
    refine (V_cast_mod minusOne (p - 1) ?_).trans ((neg_cast 1 (by rw [p_lit]; norm_num)).trans (by push_cast; rfl))
    rw [p_lit]; decide +kernel
  lval_EDWARDS_D := by
    refine (V_cast_mod EDWARDS_D (p - 39081) ?_).trans d_eq.symm
    rw [p_lit]; decide +kernel
  lval_TWISTED_D := by
    refine (V_cast_mod TWISTED_D (p - 39082) ?_).trans ?_
    · rw [p_lit]; decide +kernel
    · rw [neg_cast _ (by rw [p_lit]; norm_num), d]; push_cast; ring
  lval_TWO_TIMES_TWISTED_D := by
    refine (V_cast_mod TWO_TIMES_TWISTED_D (p - 78164) ?_).trans ?_
    · rw [p_lit]; decide +kernel
    · rw [neg_cast _ (by rw [p_lit]; norm_num), d]; push_cast; ring
  val_NEG_EDWARDS_D := by
    refine (V_cast_mod NEG_EDWARDS_D 39081 ?_).trans ?_
    · rw [p_lit]; decide +kernel
    · rw [d]; push_cast; ring
  val_NEG_FOUR_TIMES_TWISTED_D := by
    refine (V_cast_mod NEG_FOUR_TIMES_TWISTED_D 156328 ?_).trans ?_
    · rw [p_lit]; decide +kernel
    · rw [d]; push_cast; ring
  val_DECAF_FACTOR := by
    refine V_cast_mod DECAF_FACTOR decafFactor ?_
    rw [p_lit]; decide +kernel
  val_A_PLUS_TWO_OVER_FOUR := by
    refine (V_cast_mod A_PLUS_TWO_OVER_FOUR 39082 ?_).trans (by push_cast; rfl)
    rw [p_lit]; decide +kernel
  val_GX := by
    refine V_cast_mod G_X Gx ?_
    rw [p_lit]; decide +kernel
  val_GY := by
    refine V_cast_mod G_Y Gy ?_
    rw [p_lit]; decide +kernel
  val_GZ := by
    refine (V_cast_mod G_Z 1 ?_).trans (by push_cast; rfl)
    rw [p_lit]; decide +kernel
  val_GT := by
    refine (V_cast_mod G_T (Gx * Gy) ?_).trans (by push_cast; rfl)
    rw [p_lit]; decide +kernel
  val_TGX := by
    refine V_cast_mod TG_X TGx ?_
    rw [p_lit]; decide +kernel
  val_TGY := by
    refine V_cast_mod TG_Y TGy ?_
    rw [p_lit]; decide +kernel
  val_TGZ := by
    refine (V_cast_mod TG_Z 1 ?_).trans (by push_cast; rfl)
    rw [p_lit]; decide +kernel
  val_TGT := by
    refine (V_cast_mod TG_T (TGx * TGy) ?_).trans (by push_cast; rfl)
    rw [p_lit]; decide +kernel

end Ed448.Model.U32
