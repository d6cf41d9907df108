import Verif.Proofs.Ideal

/-!
# A backend the kernel evaluates quickly

Numbers below `2 ^ 448` with the kernel's built-in arithmetic. It is lawful, so by `C47` whatever it
returns every other lawful backend returns as well: known answers are computed here and hold
everywhere.
-/

namespace Ed448.Model

set_option exponentiation.threshold 1000
set_option maxRecDepth 10000
open FieldBackend

/-- The prime as a numeral. -/
def pNum : ℕ :=
  726838724295606890549323807888004534353641360687318060281490199180612328166730772686396383698676545930088884461843637361053498018365439

theorem pNum_eq : pNum = p := p_lit.symm

/-- Field elements as natural numbers. -/
structure Fast where
  n : ℕ

namespace Fast

/-- The arithmetic, by remainders. -/
instance backend : FieldBackend Fast Fast where
  relax x := x
  mulL x y := ⟨x.n * y.n % pNum⟩
  squareL x := ⟨x.n * x.n % pNum⟩
  add x y := ⟨(x.n + y.n) % pNum⟩
  sub x y := ⟨(x.n + (pNum - y.n % pNum)) % pNum⟩
  negate x := ⟨(pNum - x.n % pNum) % pNum⟩
  select x y c := ⟨if c then y.n else x.n⟩
  strongReduce x := x
  fromBytes b := ⟨b.val % pNum⟩
  toBytes x := Arr.ofVal 56 256 (by norm_num) (x.n % pNum)
  zero := ⟨0⟩
  one := ⟨1⟩
  minusOne := ⟨pNum - 1⟩
  EDWARDS_D := ⟨pNum - 39081⟩
  TWISTED_D := ⟨pNum - 39082⟩
  TWO_TIMES_TWISTED_D := ⟨pNum - 78164⟩
  NEG_EDWARDS_D := ⟨39081⟩
  NEG_FOUR_TIMES_TWISTED_D := ⟨156328⟩
  DECAF_FACTOR := ⟨decafFactor⟩
  A_PLUS_TWO_OVER_FOUR := ⟨39082⟩
  GOLDILOCKS_BASE_POINT := (⟨Gx⟩, ⟨Gy⟩, ⟨1⟩, ⟨Gx * Gy % pNum⟩)
  TWISTED_EDWARDS_BASE_POINT := (⟨TGx⟩, ⟨TGy⟩, ⟨1⟩, ⟨TGx * TGy % pNum⟩)

theorem cast_mod (n : ℕ) : ((n % pNum : ℕ) : Fp) = n := by rw [pNum_eq, ZMod.natCast_mod]

theorem cast_negMod (n : ℕ) : ((pNum - n % pNum : ℕ) : Fp) = -(n : Fp) := by
  rw [pNum_eq, Nat.cast_sub (Nat.mod_lt _ p_prime.pos).le, ZMod.natCast_self, ZMod.natCast_mod,
    zero_sub]

theorem cast_sub' (n : ℕ) (h : n < p) : ((pNum - n : ℕ) : Fp) = -(n : Fp) := by
  rw [pNum_eq, Nat.cast_sub h.le, ZMod.natCast_self, zero_sub]

instance lawful : Lawful Fast where
  val x := (x.n : Fp)
  lval x := (x.n : Fp)
  lval_relax _ := rfl
  val_mulL x y := (cast_mod _).trans (by push_cast; rfl)
  val_squareL x := (cast_mod _).trans (by push_cast; ring)
  val_add x y := (cast_mod _).trans (by push_cast; rfl)
  val_sub x y := (cast_mod _).trans (by rw [Nat.cast_add, cast_negMod, sub_eq_add_neg])
  val_negate x := (cast_mod _).trans (cast_negMod _)
  val_select x y c := by cases c <;> rfl
  val_strongReduce _ := rfl
  val_fromBytes b := cast_mod _
  toBytes_val x := by
    refine (Arr.ofVal_val _ _ (lt_trans (Nat.mod_lt _ (by decide)) (by decide +kernel))).trans ?_
    rw [ZMod.val_natCast, pNum_eq]
  val_zero := Nat.cast_zero
  val_one := Nat.cast_one
  lval_minusOne := (cast_sub' 1 (by rw [p_lit]; norm_num)).trans (by push_cast; rfl)
  lval_EDWARDS_D := (cast_sub' 39081 (by rw [p_lit]; norm_num)).trans (by unfold d; push_cast; rfl)
  lval_TWISTED_D := (cast_sub' 39082 (by rw [p_lit]; norm_num)).trans (by unfold d; push_cast; ring)
  lval_TWO_TIMES_TWISTED_D :=
    (cast_sub' 78164 (by rw [p_lit]; norm_num)).trans (by unfold d; push_cast; ring)
  val_NEG_EDWARDS_D := show ((39081 : ℕ) : Fp) = -d by unfold d; push_cast; ring
  val_NEG_FOUR_TIMES_TWISTED_D := show ((156328 : ℕ) : Fp) = -4 * (d - 1) by
    unfold d; push_cast; ring
  val_DECAF_FACTOR := rfl
  val_A_PLUS_TWO_OVER_FOUR := rfl
  val_GX := rfl
  val_GY := rfl
  val_GZ := Nat.cast_one
  val_GT := (cast_mod _).trans (by push_cast; rfl)
  val_TGX := rfl
  val_TGY := rfl
  val_TGZ := Nat.cast_one
  val_TGT := (cast_mod _).trans (by push_cast; rfl)

end Fast
end Ed448.Model
