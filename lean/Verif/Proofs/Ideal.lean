import Verif.Proofs.Lawful
import Verif.Model.Edwards
import Verif.Model.Montgomery
import Verif.Model.Decaf

/-!
# The ideal backend

The field `Fp` itself is a lawful backend. Taking values of all coordinates commutes with every
function of the model, so that whatever a function returns besides field elements (bytes, booleans,
success or failure) is what the ideal backend returns.
-/

namespace Ed448.Model

set_option exponentiation.threshold 1000
set_option linter.unusedSimpArgs false
open FieldBackend
open FieldVal (val lval)

/-- `Fp` as a backend. -/
noncomputable instance ideal : FieldBackend Fp Fp where
  relax x := x
  mulL x y := x * y
  squareL x := x ^ 2
  add x y := x + y
  sub x y := x - y
  negate x := -x
  select x y c := if c then y else x
  strongReduce x := x
  fromBytes b := (b.val : Fp)
  toBytes x := Arr.ofVal 56 256 (by norm_num) x.val
  zero := 0
  one := 1
  minusOne := -1
  EDWARDS_D := d
  TWISTED_D := d - 1
  TWO_TIMES_TWISTED_D := 2 * (d - 1)
  NEG_EDWARDS_D := -d
  NEG_FOUR_TIMES_TWISTED_D := -4 * (d - 1)
  DECAF_FACTOR := (decafFactor : Fp)
  A_PLUS_TWO_OVER_FOUR := 39082
  GOLDILOCKS_BASE_POINT := ((Gx : Fp), (Gy : Fp), 1, (Gx : Fp) * (Gy : Fp))
  TWISTED_EDWARDS_BASE_POINT := ((TGx : Fp), (TGy : Fp), 1, (TGx : Fp) * (TGy : Fp))

theorem fp_val_lt (x : Fp) : x.val < 256 ^ 56 :=
  lt_of_lt_of_le (ZMod.val_lt x) (by rw [p_lit]; norm_num)

noncomputable instance idealLawful : Lawful Fp where
  val x := x
  lval x := x
  lval_relax _ := rfl
  val_mulL _ _ := rfl
  val_squareL _ := rfl
  val_add _ _ := rfl
  val_sub _ _ := rfl
  val_negate _ := rfl
  val_select _ _ _ := rfl
  val_strongReduce _ := rfl
  val_fromBytes _ := rfl
  toBytes_val x := Arr.ofVal_val _ _ (fp_val_lt x)
  val_zero := rfl
  val_one := rfl
  lval_minusOne := rfl
  lval_EDWARDS_D := rfl
  lval_TWISTED_D := rfl
  lval_TWO_TIMES_TWISTED_D := rfl
  val_NEG_EDWARDS_D := rfl
  val_NEG_FOUR_TIMES_TWISTED_D := rfl
  val_DECAF_FACTOR := rfl
  val_A_PLUS_TWO_OVER_FOUR := rfl
  val_GX := rfl
  val_GY := rfl
  val_GZ := rfl
  val_GT := rfl
  val_TGX := rfl
  val_TGY := rfl
  val_TGZ := rfl
  val_TGT := rfl

/-- The value map of the ideal backend is the identity. -/
@[simp] theorem val_ideal (x : Fp) : val x = x := rfl
@[simp] theorem lval_ideal (x : Fp) : lval Fp x = x := rfl

variable {F L : Type} [FieldBackend F L] [Lawful F]

/-! ## Homomorphism laws -/

theorem hom_mul (a b : F) : val (a *ᶠ b) = val a *ᶠ val b := val_mul a b
theorem hom_mulC (c : L) (b : F) : val (c *ˡ b : F) = (lval F c *ˡ val b : Fp) := val_mulC c b
theorem hom_mulR (a : F) (c : L) : val (a *ʳ c : F) = (val a *ʳ lval F c : Fp) := val_mulR a c
theorem hom_square (a : F) : val (square a) = square (val a) := val_square a
theorem hom_add (a b : F) : val (a +ᶠ b) = val a +ᶠ val b := Lawful.val_add a b
theorem hom_sub (a b : F) : val (a -ᶠ b) = val a -ᶠ val b := Lawful.val_sub a b
theorem hom_negate (a : F) : val (negate a) = negate (val a) := Lawful.val_negate a
theorem hom_select (a b : F) (c : Bool) :
    val (FieldBackend.select a b c) = FieldBackend.select (val a) (val b) c :=
  Lawful.val_select a b c
theorem hom_condNegate (a : F) (c : Bool) : val (condNegate a c) = condNegate (val a) c := by
  rw [val_condNegate]; rfl
theorem hom_strongReduce (a : F) : val (strongReduce a) = strongReduce (val a) :=
  Lawful.val_strongReduce a
theorem hom_fromBytes (b : Bytes 56) : val (fromBytes b : F) = (fromBytes b : Fp) :=
  Lawful.val_fromBytes b
theorem hom_invert (a : F) : val (invert a) = invert (val a) := by
  rw [val_invert, ← val_ideal (invert (val a)), val_invert, val_ideal]
theorem hom_zero : val (zero : F) = (zero : Fp) := Lawful.val_zero
theorem hom_one : val (one : F) = (one : Fp) := Lawful.val_one
theorem hom_relax_one : lval F (relax (one : F)) = relax (one : Fp) :=
  (Lawful.lval_relax _).trans Lawful.val_one
theorem hom_minusOne : lval F (minusOne F) = minusOne Fp := Lawful.lval_minusOne
theorem hom_EDWARDS_D : lval F (EDWARDS_D F) = EDWARDS_D Fp := Lawful.lval_EDWARDS_D
theorem hom_TWISTED_D : lval F (TWISTED_D F) = TWISTED_D Fp := Lawful.lval_TWISTED_D
theorem hom_TWO_TIMES_TWISTED_D : lval F (TWO_TIMES_TWISTED_D F) = TWO_TIMES_TWISTED_D Fp :=
  Lawful.lval_TWO_TIMES_TWISTED_D
theorem hom_NEG_EDWARDS_D : val (NEG_EDWARDS_D : F) = (NEG_EDWARDS_D : Fp) :=
  Lawful.val_NEG_EDWARDS_D
theorem hom_NEG_FOUR : val (NEG_FOUR_TIMES_TWISTED_D : F) = (NEG_FOUR_TIMES_TWISTED_D : Fp) :=
  Lawful.val_NEG_FOUR_TIMES_TWISTED_D
theorem hom_DECAF_FACTOR : val (DECAF_FACTOR : F) = (DECAF_FACTOR : Fp) := Lawful.val_DECAF_FACTOR
theorem hom_A : val (A_PLUS_TWO_OVER_FOUR : F) = (A_PLUS_TWO_OVER_FOUR : Fp) :=
  Lawful.val_A_PLUS_TWO_OVER_FOUR

theorem hom_toBytes (a : F) : toBytes (val a) = toBytes a := by
  apply Arr.val_inj (by norm_num)
  rw [Lawful.toBytes_val, Lawful.toBytes_val, val_ideal]
theorem hom_feq (a b : F) : feq (val a) (val b) = feq a b := by rw [feq_eq, feq_eq]; rfl
theorem hom_isNegative (a : F) : isNegative (val a) = isNegative a := by
  rw [isNegative_eq, isNegative_eq, val_ideal]
theorem hom_isr (a : F) : (inverseSquareRoot (val a)).1 = val (inverseSquareRoot a).1 := by
  rw [val_isr, ← val_ideal (inverseSquareRoot (val a)).1, val_isr, val_ideal]
theorem hom_isr_ok (a : F) : (inverseSquareRoot (val a)).2 = (inverseSquareRoot a).2 := by
  rw [Bool.eq_iff_iff, isr_ok, isr_ok, val_ideal]
theorem hom_sqrtRatio (a b : F) : (sqrtRatio (val a) (val b)).1 = val (sqrtRatio a b).1 := by
  rw [val_sqrtRatio, ← val_ideal (sqrtRatio (val a) (val b)).1, val_sqrtRatio, val_ideal, val_ideal]
theorem hom_sqrtRatio_ok (a b : F) : (sqrtRatio (val a) (val b)).2 = (sqrtRatio a b).2 := by
  rw [Bool.eq_iff_iff, sqrtRatio_ok, sqrtRatio_ok, val_ideal, val_ideal]

/-! ## Values of points -/

/-- The values of the coordinates. -/
def EdPt.vals (P : EdPt F) : EdPt Fp := ⟨val P.X, val P.Y, val P.Z, val P.T⟩
/-- The values of the coordinates. -/
def EdAff.vals (P : EdAff F) : EdAff Fp := ⟨val P.x, val P.y⟩
/-- The values of the coordinates. -/
def TwPt.vals (P : TwPt F) : TwPt Fp := ⟨val P.X, val P.Y, val P.Z, val P.T⟩
/-- The values of the coordinates. -/
def TwAff.vals (P : TwAff F) : TwAff Fp := ⟨val P.x, val P.y⟩
/-- The values of the coordinates. -/
def TwExt.vals (P : TwExt F) : TwExt Fp := ⟨val P.X, val P.Y, val P.Z, val P.T1, val P.T2⟩
/-- The values of the coordinates. -/
def PNiels.vals (P : PNiels F) : PNiels Fp := ⟨val P.YpX, val P.YmX, val P.Td, val P.Z⟩
/-- The values of the coordinates. -/
def ANiels.vals (P : ANiels F) : ANiels Fp := ⟨val P.YpX, val P.YmX, val P.td⟩
/-- The values of the coordinates. -/
def ProjMont.vals (P : ProjMont F) : ProjMont Fp := ⟨val P.U, val P.W⟩
/-- The values of the coordinates. -/
def DecafPt.vals (P : DecafPt F) : DecafPt Fp := ⟨P.pt.vals⟩
/-- The values of the coordinates. -/
def RistPt.vals (P : RistPt F) : RistPt Fp := ⟨P.pt.vals⟩

/-- Moves `val` to the leaves. -/
macro "hom" "[" ds:Lean.Parser.Tactic.simpLemma,* "]" : tactic =>
  `(tactic| simp only [$ds,*, hom_mul, hom_mulC, hom_mulR, hom_square, hom_add, hom_sub, hom_negate,
    hom_select, hom_condNegate, hom_strongReduce, hom_fromBytes, hom_invert, hom_zero, hom_one,
    hom_relax_one, hom_minusOne, hom_EDWARDS_D, hom_TWISTED_D, hom_TWO_TIMES_TWISTED_D,
    hom_NEG_EDWARDS_D, hom_NEG_FOUR, hom_DECAF_FACTOR, hom_A])

/-! ### Twisted points -/

theorem TwExt.vals_identity : (TwExt.identity : TwExt F).vals = TwExt.identity := by
  hom [TwExt.vals, TwExt.identity]
theorem TwExt.vals_eq (a b : TwExt F) : a.vals.eq b.vals = a.eq b := by
  simp only [TwExt.eq, TwExt.vals, ← hom_mul, hom_feq]
theorem TwExt.vals_double (a : TwExt F) : a.double.vals = a.vals.double := by
  hom [TwExt.vals, TwExt.double]
theorem TwExt.vals_addExtended (a : TwExt F) (b : TwPt F) :
    (a.addExtended b).vals = a.vals.addExtended b.vals := by
  hom [TwExt.vals, TwPt.vals, TwExt.addExtended]
theorem TwExt.vals_subExtended (a : TwExt F) (b : TwPt F) :
    (a.subExtended b).vals = a.vals.subExtended b.vals := by
  hom [TwExt.vals, TwPt.vals, TwExt.subExtended]
theorem TwExt.vals_toExtended (a : TwExt F) : a.toExtended.vals = a.vals.toExtended := by
  hom [TwExt.vals, TwPt.vals, TwExt.toExtended]
theorem TwExt.vals_addExtensible (a b : TwExt F) :
    (a.addExtensible b).vals = a.vals.addExtensible b.vals := by
  simp only [TwExt.addExtensible, TwExt.vals_addExtended, TwExt.vals_toExtended]
theorem TwExt.vals_addAffineNiels (a : TwExt F) (b : ANiels F) :
    (a.addAffineNiels b).vals = a.vals.addAffineNiels b.vals := by
  hom [TwExt.vals, ANiels.vals, TwExt.addAffineNiels]
theorem TwExt.vals_addProjectiveNiels (a : TwExt F) (b : PNiels F) :
    (a.addProjectiveNiels b).vals = a.vals.addProjectiveNiels b.vals := by
  hom [TwExt.vals, PNiels.vals, TwExt.addProjectiveNiels]
theorem TwExt.vals_toProjectiveNiels (a : TwExt F) :
    a.toProjectiveNiels.vals = a.vals.toProjectiveNiels := by
  hom [TwExt.vals, PNiels.vals, TwExt.toProjectiveNiels]

theorem PNiels.vals_identity : (PNiels.identity : PNiels F).vals = PNiels.identity := by
  simp only [PNiels.identity, TwExt.vals_toProjectiveNiels, TwExt.vals_identity]
theorem PNiels.vals_select (a b : PNiels F) (c : Bool) :
    (a.select b c).vals = a.vals.select b.vals c := by hom [PNiels.vals, PNiels.select]
theorem PNiels.vals_condNegate (a : PNiels F) (c : Bool) :
    (a.condNegate c).vals = a.vals.condNegate c := by hom [PNiels.vals, PNiels.condNegate]
theorem PNiels.vals_toExtended (a : PNiels F) : a.toExtended.vals = a.vals.toExtended := by
  hom [PNiels.vals, TwPt.vals, PNiels.toExtended]

theorem TwPt.vals_eq (a b : TwPt F) : a.vals.eq b.vals = a.eq b := by
  simp only [TwPt.eq, TwPt.vals, ← hom_mul, hom_feq]
theorem TwPt.vals_select (a b : TwPt F) (c : Bool) :
    (a.select b c).vals = a.vals.select b.vals c := by hom [TwPt.vals, TwPt.select]
theorem TwPt.vals_identity : (TwPt.identity : TwPt F).vals = TwPt.identity := by
  hom [TwPt.vals, TwPt.identity]
theorem TwPt.vals_generator : (TwPt.generator : TwPt F).vals = TwPt.generator := by
  simp only [TwPt.vals, TwPt.generator, Lawful.val_TGX, Lawful.val_TGY, Lawful.val_TGZ,
    Lawful.val_TGT]
  rfl
theorem TwPt.vals_toExtensible (a : TwPt F) : a.toExtensible.vals = a.vals.toExtensible := by
  hom [TwExt.vals, TwPt.vals, TwPt.toExtensible]
theorem TwPt.vals_double (a : TwPt F) : a.double.vals = a.vals.double := by
  simp only [TwPt.double, TwExt.vals_toExtended, TwExt.vals_double, TwPt.vals_toExtensible]
theorem TwPt.vals_add (a b : TwPt F) : (a.add b).vals = a.vals.add b.vals := by
  simp only [TwPt.add, TwExt.vals_toExtended, TwExt.vals_addExtended, TwPt.vals_toExtensible]
theorem TwPt.vals_toAffine (a : TwPt F) : a.toAffine.vals = a.vals.toAffine := by
  hom [TwPt.vals, TwAff.vals, TwPt.toAffine]
theorem TwPt.vals_toUntwisted (a : TwPt F) : a.toUntwisted.vals = a.vals.toUntwisted := by
  simp only [TwPt.toUntwisted, TwPt.edwardsIsogeny, ← TwPt.vals_toAffine]
  hom [EdPt.vals, TwAff.vals]
theorem TwPt.vals_isOnCurve (a : TwPt F) : a.vals.isOnCurve = a.isOnCurve := by
  simp only [TwPt.isOnCurve, TwPt.vals, ← hom_mul, ← hom_square, ← hom_TWISTED_D (F := F),
    ← hom_mulR, ← hom_add, ← hom_sub, hom_feq]
theorem TwPt.vals_negate (a : TwPt F) : a.negate.vals = a.vals.negate := by
  hom [TwPt.vals, TwPt.negate]
theorem TwPt.vals_torque (a : TwPt F) : a.torque.vals = a.vals.torque := by
  hom [TwPt.vals, TwPt.torque]

/-! ### Affine points -/

theorem TwAff.vals_identity : (TwAff.identity : TwAff F).vals = TwAff.identity := by
  hom [TwAff.vals, TwAff.identity]
theorem TwAff.vals_isOnCurve (a : TwAff F) : a.vals.isOnCurve = a.isOnCurve := by
  simp only [TwAff.isOnCurve, TwAff.vals, ← hom_square, ← hom_TWISTED_D (F := F), ← hom_mulC,
    ← hom_mul, ← hom_one (F := F), ← hom_add, ← hom_sub, hom_feq]
theorem TwAff.vals_negate (a : TwAff F) : a.negate.vals = a.vals.negate := by
  hom [TwAff.vals, TwAff.negate]
theorem TwAff.vals_add (a b : TwAff F) : (a.add b).vals = a.vals.add b.vals := by
  hom [TwAff.vals, TwAff.add]
theorem TwAff.vals_toExtensible (a : TwAff F) : a.toExtensible.vals = a.vals.toExtensible := by
  hom [TwAff.vals, TwExt.vals, TwAff.toExtensible]
theorem TwAff.vals_toExtended (a : TwAff F) : a.toExtended.vals = a.vals.toExtended := by
  simp only [TwAff.toExtended, TwExt.vals_toExtended, TwAff.vals_toExtensible]
theorem TwAff.vals_toAffineNiels (a : TwAff F) : a.toAffineNiels.vals = a.vals.toAffineNiels := by
  hom [TwAff.vals, ANiels.vals, TwAff.toAffineNiels]
theorem ANiels.vals_identity : (ANiels.identity : ANiels F).vals = ANiels.identity := by
  hom [ANiels.vals, ANiels.identity]
theorem ANiels.vals_select (a b : ANiels F) (c : Bool) :
    (a.select b c).vals = a.vals.select b.vals c := by hom [ANiels.vals, ANiels.select]
theorem ANiels.vals_equals (a b : ANiels F) : a.vals.equals b.vals = a.equals b := by
  simp only [ANiels.equals, ANiels.vals, hom_feq]
theorem ANiels.vals_toExtended (a : ANiels F) : a.toExtended.vals = a.vals.toExtended := by
  hom [ANiels.vals, TwPt.vals, ANiels.toExtended]

/-! ### Scalar multiplication -/

theorem tableEntry_vals (P : TwExt F) (i : ℕ) : (tableEntry P i).vals = tableEntry P.vals i := by
  induction i with
  | zero => simp only [tableEntry, TwExt.vals_toProjectiveNiels]
  | succ i ih =>
    simp only [tableEntry, TwExt.vals_toProjectiveNiels, TwExt.vals_addProjectiveNiels, ih]

theorem lookupTable_vals (P : TwPt F) :
    (lookupTable P).map PNiels.vals = lookupTable P.vals := by
  simp only [lookupTable, List.map_map, ← TwPt.vals_toExtensible]
  refine List.map_congr_left fun i _ => ?_
  exact tableEntry_vals _ _

theorem tableSelect_vals (t : List (PNiels F)) (i : ℕ) :
    (tableSelect t i).vals = tableSelect (t.map PNiels.vals) i := by
  unfold tableSelect
  rw [← PNiels.vals_identity (F := F)]
  generalize (PNiels.identity : PNiels F) = r at *
  have : ∀ (l : List ℕ) (r0 r : PNiels F), (l.foldl (fun result j =>
      PNiels.select result (t.getD j r0) (i == j + 1)) r).vals =
      l.foldl (fun result j => PNiels.select result
        ((t.map PNiels.vals).getD j r0.vals) (i == j + 1)) r.vals := by
    intro l
    induction l with
    | nil => intro r0 r; rfl
    | cons j l ih =>
      intro r0 r
      rw [List.foldl_cons, List.foldl_cons, ih, PNiels.vals_select]
      simp only [List.getD_eq_getElem?_getD, List.getElem?_map, Option.getD_map]
  exact this _ _ _

theorem vbStep_vals (t : List (PNiels F)) (r : TwExt F) (s : Bool) (a : ℕ) :
    (vbStep t r s a).vals = vbStep (t.map PNiels.vals) r.vals s a := by
  simp only [vbStep, TwExt.vals_addProjectiveNiels, TwExt.vals_double, PNiels.vals_condNegate,
    tableSelect_vals]

theorem vbLoop_vals (t : List (PNiels F)) : ∀ (l : List ℤ) (r : TwExt F),
    (vbLoop t l r).map TwExt.vals = vbLoop (t.map PNiels.vals) l r.vals
  | [], r => rfl
  | s :: l, r => by
    rw [vbLoop, vbLoop]
    cases digitAbs s with
    | none => rfl
    | some d => simp only [Option.bind_some]; rw [vbLoop_vals t l, vbStep_vals]

theorem variableBase_vals (P : TwPt F) (s : Scalar) :
    (variableBase P s).map TwPt.vals = variableBase P.vals s := by
  unfold variableBase
  cases s.toRadix16 with
  | none => rfl
  | some d =>
    simp only [Option.bind_some]
    rw [← lookupTable_vals, ← TwExt.vals_identity (F := F), ← vbLoop_vals, Option.map_map,
      Option.map_map]
    congr 1
    funext x
    exact TwExt.vals_toExtended x

theorem doubleAndAdd_vals (P : TwPt F) (s : Scalar) :
    (doubleAndAdd P s).vals = doubleAndAdd P.vals s := by
  unfold doubleAndAdd
  rw [← TwPt.vals_identity (F := F)]
  generalize (TwPt.identity : TwPt F) = r
  generalize s.bits.reverse = l
  induction l generalizing r with
  | nil => rfl
  | cons b l ih =>
    rw [List.foldl_cons, List.foldl_cons, ih]
    simp only [daStep, TwPt.vals_add, TwPt.vals_double, TwPt.vals_select, TwPt.vals_identity]

theorem doubleBaseScalarMul_vals (a : Scalar) (A : TwPt F) (b : Scalar) :
    (doubleBaseScalarMul a A b).vals = doubleBaseScalarMul a A.vals b := by
  simp only [doubleBaseScalarMul, TwPt.vals_add, doubleAndAdd_vals, TwPt.vals_generator]

/-! ### Edwards points -/

theorem EdAff.vals_identity : (EdAff.identity : EdAff F).vals = EdAff.identity := by
  hom [EdAff.vals, EdAff.identity]
theorem EdAff.vals_toExtended (a : EdAff F) : a.toExtended.vals = a.vals.toExtended := by
  hom [EdAff.vals, EdPt.vals, EdAff.toExtended]

namespace EdPt

theorem vals_select (a b : EdPt F) (c : Bool) : (a.select b c).vals = a.vals.select b.vals c := by
  hom [EdPt.vals, EdPt.select]
theorem vals_eq (a b : EdPt F) : a.vals.eq b.vals = a.eq b := by
  simp only [EdPt.eq, EdPt.vals, ← hom_mul, hom_feq]
theorem vals_identity : (EdPt.identity : EdPt F).vals = EdPt.identity := by
  hom [EdPt.vals, EdPt.identity]
theorem vals_generator : (EdPt.generator : EdPt F).vals = EdPt.generator := by
  simp only [EdPt.vals, EdPt.generator, Lawful.val_GX, Lawful.val_GY, Lawful.val_GZ, Lawful.val_GT]
  rfl
theorem vals_add (a b : EdPt F) : (a.add b).vals = a.vals.add b.vals := by
  hom [EdPt.vals, EdPt.add]
theorem vals_double (a : EdPt F) : a.double.vals = a.vals.double := vals_add a a
theorem vals_isOnCurve (a : EdPt F) : a.vals.isOnCurve = a.isOnCurve := by
  simp only [EdPt.isOnCurve, EdPt.vals, ← hom_mul, ← hom_square, ← hom_EDWARDS_D (F := F),
    ← hom_mulR, ← hom_add, hom_feq]
theorem vals_toAffine (a : EdPt F) : a.toAffine.vals = a.vals.toAffine := by
  hom [EdPt.vals, EdAff.vals, EdPt.toAffine]
theorem vals_toTwisted (a : EdPt F) : a.toTwisted.vals = a.vals.toTwisted := by
  simp only [EdPt.toTwisted, EdPt.edwardsIsogeny, ← EdPt.vals_toAffine]
  hom [TwPt.vals, EdAff.vals]
theorem vals_negate (a : EdPt F) : a.negate.vals = a.vals.negate := by
  hom [EdPt.vals, EdPt.negate]
theorem vals_torque (a : EdPt F) : a.torque.vals = a.vals.torque := by
  hom [EdPt.vals, EdPt.torque]
theorem vals_sub (a b : EdPt F) : (a.sub b).vals = a.vals.sub b.vals := by
  simp only [EdPt.sub, vals_add, vals_negate]
theorem vals_sum (l : List (EdPt F)) : (EdPt.sum l).vals = EdPt.sum (l.map EdPt.vals) := by
  unfold EdPt.sum
  rw [← vals_identity (F := F)]
  generalize (EdPt.identity : EdPt F) = r
  induction l generalizing r with
  | nil => rfl
  | cons b l ih => rw [List.foldl_cons, ih, List.map_cons, List.foldl_cons, vals_add]
theorem vals_toMontgomery (a : EdPt F) : a.vals.toMontgomery = a.toMontgomery := by
  simp only [EdPt.toMontgomery, ← EdPt.vals_toAffine]
  rw [← hom_toBytes (F := F)]
  congr 1
  hom [EdAff.vals]
theorem vals_scalarModFour (a : EdPt F) (s : Scalar) :
    (a.scalarModFour s).vals = a.vals.scalarModFour s := by
  simp only [EdPt.scalarModFour, vals_select, vals_identity, vals_double, vals_add]
theorem vals_scalarMul (a : EdPt F) (s : Scalar) :
    (a.scalarMul s).map EdPt.vals = a.vals.scalarMul s := by
  unfold EdPt.scalarMul
  cases s.divByFour with
  | none => rfl
  | some q =>
    simp only [Option.bind_some]
    rw [← vals_toTwisted, ← variableBase_vals, Option.map_map, Option.map_map]
    congr 1
    funext x
    simp only [Function.comp, vals_add, TwPt.vals_toUntwisted, vals_scalarModFour]
theorem vals_compress (a : EdPt F) : a.vals.compress = a.compress := by
  apply Arr.ext
  simp only [EdPt.compress, ← EdPt.vals_toAffine, EdAff.vals, hom_toBytes, hom_isNegative]
theorem vals_isTorsionFree (a : EdPt F) : a.vals.isTorsionFree = a.isTorsionFree := by
  unfold EdPt.isTorsionFree
  rw [← vals_scalarMul, Option.map_map]
  congr 1
  funext x
  simp only [Function.comp, ← vals_identity (F := F), vals_eq]

end EdPt

theorem edDecompress_vals (b : Bytes 57) :
    (edDecompress F b).map EdPt.vals = edDecompress Fp b := by
  simp only [edDecompress, ← hom_fromBytes (F := F), ← hom_square, ← hom_one (F := F),
    ← hom_EDWARDS_D (F := F), ← hom_mulC, ← hom_sub, hom_sqrtRatio_ok, hom_sqrtRatio,
    hom_isNegative, ← hom_condNegate]
  split
  · rfl
  · rw [Option.map_some, EdAff.vals_toExtended]; rfl

/-! ### Montgomery points -/

theorem ProjMont.vals_select (a b : ProjMont F) (c : Bool) :
    (a.select b c).vals = a.vals.select b.vals c := by hom [ProjMont.vals, ProjMont.select]
theorem ProjMont.vals_identity : (ProjMont.identity : ProjMont F).vals = ProjMont.identity := by
  hom [ProjMont.vals, ProjMont.identity]
theorem ProjMont.vals_toAffine (a : ProjMont F) : a.vals.toAffine = a.toAffine := by
  simp only [ProjMont.toAffine, ProjMont.vals, ← hom_invert, ← hom_mul, hom_toBytes]
theorem montToProjective_vals (u : Bytes 56) :
    (montToProjective u : ProjMont F).vals = montToProjective u := by
  hom [ProjMont.vals, montToProjective]
theorem diffAddDouble_vals (P Q : ProjMont F) (a : F) :
    ((diffAddDouble P Q a).1.vals, (diffAddDouble P Q a).2.vals) =
      diffAddDouble P.vals Q.vals (val a) := by
  hom [ProjMont.vals, diffAddDouble]

theorem ladderStep_vals (a : F) (st : ProjMont F × ProjMont F × Bool) (bit : Bool) :
    ((ladderStep a st bit).1.vals, (ladderStep a st bit).2.1.vals, (ladderStep a st bit).2.2) =
      ladderStep (val a) (st.1.vals, st.2.1.vals, st.2.2) bit := by
  simp only [ladderStep, ← ProjMont.vals_select, ← diffAddDouble_vals]

theorem montMulScalar_vals (u : Bytes 56) (s : Scalar) :
    montMulScalar Fp u s = montMulScalar F u s := by
  unfold montMulScalar
  rw [← ProjMont.vals_toAffine (F := F)]
  have : ∀ (l : List Bool) (a : F) (st : ProjMont F × ProjMont F × Bool),
      (l.foldl (ladderStep (val a)) (st.1.vals, st.2.1.vals, st.2.2)).1 =
      (l.foldl (ladderStep a) st).1.vals := by
    intro l a
    induction l with
    | nil => intro st; rfl
    | cons b l ih => intro st; rw [List.foldl_cons, List.foldl_cons, ← ih, ladderStep_vals]
  rw [← this, ← hom_fromBytes (F := F)]
  simp only [ProjMont.vals, ProjMont.identity, hom_one, hom_zero]

/-! ### Decaf and Ristretto points -/

namespace DecafPt

theorem vals_identity : (DecafPt.identity : DecafPt F).vals = DecafPt.identity := by
  simp only [DecafPt.vals, DecafPt.identity, TwPt.vals_identity]
theorem vals_generator : (DecafPt.generator : DecafPt F).vals = DecafPt.generator := by
  simp only [DecafPt.vals, DecafPt.generator, TwPt.vals_generator]
theorem vals_equals (a b : DecafPt F) : a.vals.equals b.vals = a.equals b := by
  simp only [DecafPt.equals, DecafPt.vals, TwPt.vals, ← hom_mul, hom_feq]
theorem vals_add (a b : DecafPt F) : (a.add b).vals = a.vals.add b.vals := by
  simp only [DecafPt.add, DecafPt.vals, TwExt.vals_toExtended, TwExt.vals_addExtended,
    TwPt.vals_toExtensible]
theorem vals_sub (a b : DecafPt F) : (a.sub b).vals = a.vals.sub b.vals := by
  simp only [DecafPt.sub, DecafPt.vals, TwExt.vals_toExtended, TwExt.vals_subExtended,
    TwPt.vals_toExtensible]
theorem vals_neg (a : DecafPt F) : a.neg.vals = a.vals.neg := by
  simp only [DecafPt.neg, DecafPt.vals, TwPt.vals_negate]
theorem vals_scalarMul (a : DecafPt F) (s : Scalar) : (a.scalarMul s).vals = a.vals.scalarMul s := by
  simp only [DecafPt.scalarMul, DecafPt.vals, doubleAndAdd_vals]
theorem vals_compressS (a : DecafPt F) : a.vals.compressS = val a.compressS := by
  simp only [DecafPt.compressS, DecafPt.vals, TwPt.vals, ← hom_add, ← hom_sub, ← hom_mul,
    ← hom_square, ← hom_NEG_EDWARDS_D (F := F), ← hom_DECAF_FACTOR (F := F), hom_isr,
    hom_isNegative, ← hom_condNegate]
theorem vals_compress (a : DecafPt F) : a.vals.compress = a.compress := by
  simp only [DecafPt.compress, vals_compressS, hom_isNegative, ← hom_condNegate, hom_toBytes]

end DecafPt

theorem decafDecompress_vals (b : Bytes 56) :
    (decafDecompress F b).map DecafPt.vals = decafDecompress Fp b := by
  simp only [decafDecompress, ← hom_fromBytes (F := F), hom_toBytes, hom_isNegative, ← hom_square,
    ← hom_one (F := F), ← hom_NEG_FOUR (F := F), ← hom_DECAF_FACTOR (F := F), ← hom_mul, ← hom_sub,
    ← hom_add, hom_isr, hom_isr_ok, ← hom_condNegate]
  split
  · rfl
  · split
    · rfl
    · rfl

theorem RistPt.vals_identity : (RistPt.identity : RistPt F).vals = RistPt.identity := by
  simp only [RistPt.vals, RistPt.identity, TwPt.vals_identity]
theorem RistPt.vals_equals (a b : RistPt F) : a.vals.equals b.vals = a.equals b := by
  simp only [RistPt.equals, RistPt.vals, TwPt.vals, ← hom_mul, hom_feq]

end Ed448.Model
