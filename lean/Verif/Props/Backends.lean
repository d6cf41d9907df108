import Verif.Proofs.Prog
import Verif.Proofs.FiatInstance
import Verif.Proofs.U32Instance
import Verif.Proofs.TwAffine
import Verif.Proofs.Order

/-!
# Properties of the field backends (C47, C48, C49)

`Fiat.Impl` is any choice of functions meeting the documented contract of
`fiat_crypto::p448_solinas_64` whose `relax` copies its argument; `Fiat.Fe I` is `FieldElement56`
on top of them. `U32.Fe` is `FieldElement28`.
-/

namespace Ed448.Props
open Ed448.Model Ed448.Edw Ed448.Iso
open FieldVal (val)

set_option exponentiation.threshold 1000
set_option maxRecDepth 10000

/-! ## C47 -/

section two
variable {F L F' L' : Type} [FieldBackend F L] [Lawful F] [FieldBackend F' L'] [Lawful F']

/-- Every program over the library, doing anything with the bytes and booleans it gets, returns the
same result, or panics, on any two lawful backends. Two points that come out of the same program have
coordinates of the same value. -/
theorem C47_programs {α : Type} {τ : Ty} (e : Prog (.host α)) (e' : Prog τ) :
    e.eval F = e.eval F' ∧
    (e'.run F).map (Sem.vals τ) = (e'.run F').map (Sem.vals τ) :=
  ⟨(Prog.eval_ideal (F := F) e).trans (Prog.eval_ideal (F := F') e).symm,
    (Prog.run_vals (F := F) e').trans (Prog.run_vals (F := F') e').symm⟩

/-- What can be observed of an Edwards point: its encoding, its Montgomery encoding, the curve test
and the torsion test. -/
def edObs {F L : Type} [FieldBackend F L] (P : EdPt F) :
    Bytes 57 × Bytes 56 × Bool × Option Bool :=
  (P.compress, P.toMontgomery, P.isOnCurve, P.isTorsionFree)

theorem edObs_vals {F L : Type} [FieldBackend F L] [Lawful F] (P : EdPt F) :
    edObs P.vals = edObs P := by
  simp only [edObs, EdPt.vals_compress, EdPt.vals_toMontgomery, EdPt.vals_isOnCurve,
    EdPt.vals_isTorsionFree]

/-- The same for single operations on arbitrary operands, valid points or not: operands with equal
coordinate values give results with equal coordinate values. -/
theorem C47_any_operands {P Q : EdPt F} {P' Q' : EdPt F'} (hP : P.vals = P'.vals)
    (hQ : Q.vals = Q'.vals) (s : Scalar) :
    edObs P = edObs P' ∧ P.eq Q = P'.eq Q' ∧
    (P.add Q).vals = (P'.add Q').vals ∧ (P.sub Q).vals = (P'.sub Q').vals ∧
    P.double.vals = P'.double.vals ∧ P.negate.vals = P'.negate.vals ∧
    P.torque.vals = P'.torque.vals ∧ P.toTwisted.vals = P'.toTwisted.vals ∧
    (P.scalarMul s).map EdPt.vals = (P'.scalarMul s).map EdPt.vals := by
  refine ⟨?_, ?_, ?_, ?_, ?_, ?_, ?_, ?_, ?_⟩
  · rw [← edObs_vals, hP, edObs_vals]
  · rw [← EdPt.vals_eq, hP, hQ, EdPt.vals_eq]
  · rw [EdPt.vals_add, hP, hQ, EdPt.vals_add]
  · rw [EdPt.vals_sub, hP, hQ, EdPt.vals_sub]
  · rw [EdPt.vals_double, hP, EdPt.vals_double]
  · rw [EdPt.vals_negate, hP, EdPt.vals_negate]
  · rw [EdPt.vals_torque, hP, EdPt.vals_torque]
  · rw [EdPt.vals_toTwisted, hP, EdPt.vals_toTwisted]
  · rw [EdPt.vals_scalarMul, hP, EdPt.vals_scalarMul]

/-- The twisted forms and the routines on them. -/
theorem C47_twisted {P Q : TwPt F} {P' Q' : TwPt F'} (hP : P.vals = P'.vals)
    (hQ : Q.vals = Q'.vals) (s t : Scalar) :
    P.eq Q = P'.eq Q' ∧ P.isOnCurve = P'.isOnCurve ∧ (P.add Q).vals = (P'.add Q').vals ∧
    P.double.vals = P'.double.vals ∧ P.toUntwisted.vals = P'.toUntwisted.vals ∧
    (variableBase P s).map TwPt.vals = (variableBase P' s).map TwPt.vals ∧
    (doubleAndAdd P s).vals = (doubleAndAdd P' s).vals ∧
    (doubleBaseScalarMul s P t).vals = (doubleBaseScalarMul s P' t).vals ∧
    (DecafPt.mk P).compress = (DecafPt.mk P').compress := by
  refine ⟨?_, ?_, ?_, ?_, ?_, ?_, ?_, ?_, ?_⟩
  · rw [← TwPt.vals_eq, hP, hQ, TwPt.vals_eq]
  · rw [← TwPt.vals_isOnCurve, hP, TwPt.vals_isOnCurve]
  · rw [TwPt.vals_add, hP, hQ, TwPt.vals_add]
  · rw [TwPt.vals_double, hP, TwPt.vals_double]
  · rw [TwPt.vals_toUntwisted, hP, TwPt.vals_toUntwisted]
  · rw [variableBase_vals, hP, variableBase_vals]
  · rw [doubleAndAdd_vals, hP, doubleAndAdd_vals]
  · rw [doubleBaseScalarMul_vals, hP, doubleBaseScalarMul_vals]
  · rw [← DecafPt.vals_compress (F := F), ← DecafPt.vals_compress (F := F')]
    simp only [DecafPt.vals, hP]

end two

/-- The two backends of the crate. -/
example (I : Fiat.Impl) {α : Type} (e : Prog (.host α)) : e.eval U32.Fe = e.eval (Fiat.Fe I) :=
  (C47_programs e e).1

/-- Programs do not all fail, and do not all give the same result: doubling the base point is not
the base point, adding its negation gives the identity. -/
example :
    (Prog.op2 .edEq (.op1 .edDouble (.op0 .edGenerator)) (.op0 .edGenerator)).eval U32.Fe =
      some false ∧
    (Prog.op2 .edEq (.op2 .edAdd (.op0 .edGenerator) (.op1 .edNegate (.op0 .edGenerator)))
      (.op0 .edIdentity)).eval U32.Fe = some true := by decide +kernel

/-! ## C48 -/

namespace Fiat
open Ed448.Model.Fiat

/-- The functions with every argument checked against its documented bound: a call outside the
contract returns `none`. -/
def checked (f : Fns) : Fns where
  relax a := if Tight a then f.relax a else none
  carry a := if Loose a then f.carry a else none
  carryMul a b := if Loose a ∧ Loose b then f.carryMul a b else none
  carrySquare a := if Loose a then f.carrySquare a else none
  add a b := if Tight a ∧ Tight b then f.add a b else none
  sub a b := if Tight a ∧ Tight b then f.sub a b else none
  opp a := if Tight a then f.opp a else none
  selectznz c a b := if c < 2 then f.selectznz c a b else none
  toBytes a := if Tight a then f.toBytes a else none
  fromBytes b := f.fromBytes b

/-- The same, except that `relax` is not checked. -/
def checkedButRelax (f : Fns) : Fns := { checked f with relax := f.relax }

theorem checked_contract {f : Fns} (h : Contract f) : Contract (checked f) where
  relax a ha := by simp only [checked, if_pos ha]; exact h.relax a ha
  carry a ha := by simp only [checked, if_pos ha]; exact h.carry a ha
  carryMul a b ha hb := by simp only [checked, if_pos (And.intro ha hb)]; exact h.carryMul a b ha hb
  carrySquare a ha := by simp only [checked, if_pos ha]; exact h.carrySquare a ha
  add a b ha hb := by simp only [checked, if_pos (And.intro ha hb)]; exact h.add a b ha hb
  sub a b ha hb := by simp only [checked, if_pos (And.intro ha hb)]; exact h.sub a b ha hb
  opp a ha := by simp only [checked, if_pos ha]; exact h.opp a ha
  selectznz c a b hc := by simp only [checked, if_pos hc]; exact h.selectznz c a b hc
  toBytes a ha := by simp only [checked, if_pos ha]; exact h.toBytes a ha
  fromBytes b := h.fromBytes b

theorem checkedButRelax_contract {f : Fns} (h : Contract f) : Contract (checkedButRelax f) where
  relax a ha := h.relax a ha
  carry := (checked_contract h).carry
  carryMul := (checked_contract h).carryMul
  carrySquare := (checked_contract h).carrySquare
  add := (checked_contract h).add
  sub := (checked_contract h).sub
  opp := (checked_contract h).opp
  selectznz := (checked_contract h).selectznz
  toBytes := (checked_contract h).toBytes
  fromBytes := (checked_contract h).fromBytes

/-- An implementation that checks every call but those of `relax`. -/
def checkedImpl (I : Impl) : Impl where
  f := checkedButRelax I.f
  contract := checkedButRelax_contract I.contract
  copies a := I.copies a

/-- The four constants above the tight bound. -/
def looseConstants : List Limbs := [minusOne, EDWARDS_D, TWISTED_D, TWO_TIMES_TWISTED_D]

/-- Claim: every multiplication by a constant of the crate stays within the documented bounds. -/
def BoundsRespected (f : Fns) : Prop :=
  ∀ c ∈ looseConstants, ∀ a, Tight a → (mul (checked f) c a).isSome ∧ (mul (checked f) a c).isSome

/-- Numbers as limbs, for the reference functions below. -/
def ofNat (n : ℕ) : Limbs where
  l := (Arr.ofVal 8 (2 ^ 56) (by norm_num) (n % p)).l
  len := Arr.len _
  lt x hx := lt_trans ((Arr.ofVal 8 (2 ^ 56) (by norm_num) (n % p)).lt x hx) (by norm_num)

theorem ofNat_tight (n : ℕ) : Tight (ofNat n) := fun x hx =>
  ((Arr.ofVal 8 (2 ^ 56) (by norm_num) (n % p)).lt x hx).le

theorem ofNat_V (n : ℕ) : V (ofNat n) = n % p := by
  have h : n % p < (2 ^ 56) ^ 8 :=
    lt_trans (Nat.mod_lt _ p_prime.pos) (by rw [p_lit]; norm_num)
  exact Arr.ofVal_val (by norm_num) _ h

theorem ofNat_cast (n : ℕ) : (V (ofNat n) : Fp) = n := by rw [ofNat_V, ZMod.natCast_mod]

/-- A straightforward choice of functions: compute with numbers modulo `p`. -/
def refFns : Fns where
  relax a := some a
  carry a := some (ofNat (V a))
  carryMul a b := some (ofNat (V a * V b))
  carrySquare a := some (ofNat (V a * V a))
  add a b := some (ofNat (V a + V b))
  sub a b := some (ofNat (V a + (p - V b % p)))
  opp a := some (ofNat (p - V a % p))
  selectznz c a b := some (if c = 0 then a else b)
  toBytes a := some (Arr.ofVal 56 256 (by norm_num) (V a % p))
  fromBytes b := some (ofNat b.val)

theorem cast_neg_mod (n : ℕ) : ((p - n % p : ℕ) : Fp) = -(n : Fp) := by
  rw [Nat.cast_sub (Nat.mod_lt _ p_prime.pos).le, ZMod.natCast_self, ZMod.natCast_mod, zero_sub]

/-- The reference functions meet the contract, so the theorems about `Impl` are not vacuous. -/
def refImpl : Impl where
  f := refFns
  copies _ := rfl
  contract :=
    { relax := fun a ha => ⟨a, rfl, ha.loose, rfl⟩
      carry := fun a _ => ⟨_, rfl, ofNat_tight _, ofNat_cast _⟩
      carryMul := fun a b _ _ => ⟨_, rfl, ofNat_tight _, by rw [ofNat_cast]; push_cast; rfl⟩
      carrySquare := fun a _ => ⟨_, rfl, ofNat_tight _, by rw [ofNat_cast]; push_cast; rfl⟩
      add := fun a b _ _ => ⟨_, rfl, (ofNat_tight _).loose, by rw [ofNat_cast]; push_cast; rfl⟩
      sub := fun a b _ _ => ⟨_, rfl, (ofNat_tight _).loose, by
        rw [ofNat_cast, Nat.cast_add, cast_neg_mod, sub_eq_add_neg]⟩
      opp := fun a _ => ⟨_, rfl, (ofNat_tight _).loose, by rw [ofNat_cast, cast_neg_mod]⟩
      selectznz := fun _ _ _ _ => rfl
      toBytes := fun a _ => ⟨_, rfl, Arr.ofVal_val _ _
        (lt_trans (Nat.mod_lt _ p_prime.pos) (by rw [p_lit]; norm_num))⟩
      fromBytes := fun b => ⟨_, rfl, ofNat_tight _, ofNat_cast _⟩ }

end Fiat

open Fiat Ed448.Model.Fiat

/-- The claim is false whatever the functions are: each multiplication by one of the four constants
calls `relax` outside its documented bound. -/
theorem C48_bounds_false (f : Fns) : ¬ BoundsRespected f := by
  intro h
  have := (h minusOne (by simp [looseConstants]) Fiat.zero (by decide)).1
  have hn : ¬ Tight minusOne := by decide
  simp [Fiat.mul, checked, hn] at this

/-- All four constants, all operands, on either side. -/
theorem C48_relax_outside_contract (f : Fns) (c : Limbs) (hc : c ∈ looseConstants) (a : Limbs) :
    Fiat.mul (checked f) c a = none ∧ Fiat.mul (checked f) a c = none := by
  have hn : ¬ Tight c := by
    simp only [looseConstants, List.mem_cons, List.not_mem_nil, or_false] at hc
    rcases hc with rfl | rfl | rfl | rfl <;> decide
  constructor
  · simp [Fiat.mul, checked, hn]
  · simp only [Fiat.mul, checked, hn, if_false, Option.bind_eq_bind]
    cases (if Tight a then f.relax a else none) <;> rfl

/-- So the documented contract alone does not determine these products: there are functions meeting
the contract for which the product panics. -/
theorem C48_contract_insufficient : ∃ f, Contract f ∧ ∀ c ∈ looseConstants, ∀ a,
    Fiat.mul f c a = none :=
  ⟨checked refFns, checked_contract refImpl.contract, fun c hc a =>
    (C48_relax_outside_contract refFns c hc a).1⟩

/-- What holds: (1) every wrapper operation on tight operands stays within all documented bounds and
returns a tight result; (2) every other constant is tight and the four exceptions are loose;
(3) if `relax` copies, multiplication and squaring accept loose operands, and every call other than
`relax` is within its bound. -/
theorem C48_bounds_partial {f : Fns} (h : Contract f) :
    (∀ a b, Tight a → Tight b →
      (∃ r, Fiat.mul (checked f) a b = some r ∧ Tight r) ∧
      (∃ r, Fiat.add (checked f) a b = some r ∧ Tight r) ∧
      (∃ r, Fiat.sub (checked f) a b = some r ∧ Tight r) ∧
      (∃ r, Fiat.square (checked f) a = some r ∧ Tight r) ∧
      (∃ r, Fiat.negate (checked f) a = some r ∧ Tight r) ∧
      (∃ r, Fiat.strongReduce (checked f) a = some r ∧ Tight r) ∧
      (∀ c, ∃ r, Fiat.select (checked f) a b c = some r ∧ Tight r) ∧
      (∃ r, Fiat.toBytes (checked f) a = some r)) ∧
    (∀ b, ∃ r, Fiat.fromBytes (checked f) b = some r ∧ Tight r) ∧
    (∀ c ∈ looseConstants, Loose c ∧ ¬ Tight c) ∧
    (∀ c ∈ [Fiat.zero, Fiat.one, Fiat.NEG_FOUR_TIMES_TWISTED_D, Fiat.NEG_EDWARDS_D,
      Fiat.DECAF_FACTOR, Fiat.A_PLUS_TWO_OVER_FOUR, Fiat.G_X, Fiat.G_Y, Fiat.G_Z, Fiat.G_T,
      Fiat.TG_X, Fiat.TG_Y, Fiat.TG_Z, Fiat.TG_T], Tight c) ∧
    (RelaxCopies f → ∀ a b, Loose a → Loose b →
      (∃ r, Fiat.mul (checkedButRelax f) a b = some r ∧ Tight r) ∧
      (∃ r, Fiat.square (checkedButRelax f) a = some r ∧ Tight r)) := by
  have g := checked_contract h
  refine ⟨fun a b ha hb => ⟨?_, ?_, ?_, ?_, ?_, ?_, ?_, ?_⟩, ?_, ?_, ?_, ?_⟩
  · obtain ⟨r, h1, h2, -⟩ := mul_tight g ha hb; exact ⟨r, h1, h2⟩
  · obtain ⟨r, h1, h2, -⟩ := Fiat.add_spec g ha hb; exact ⟨r, h1, h2⟩
  · obtain ⟨r, h1, h2, -⟩ := Fiat.sub_spec g ha hb; exact ⟨r, h1, h2⟩
  · obtain ⟨r, h1, h2, -⟩ := square_tight g ha; exact ⟨r, h1, h2⟩
  · obtain ⟨r, h1, h2, -⟩ := Fiat.negate_spec g ha; exact ⟨r, h1, h2⟩
  · obtain ⟨r, h1, h2, -⟩ := Fiat.strongReduce_spec g ha; exact ⟨r, h1, h2⟩
  · intro c; refine ⟨_, select_spec g a b c, ?_⟩; split; exacts [hb, ha]
  · obtain ⟨r, h1, -⟩ := g.toBytes a ha; exact ⟨r, h1⟩
  · intro b; obtain ⟨r, h1, h2, -⟩ := g.fromBytes b; exact ⟨r, h1, h2⟩
  · decide
  · decide
  · intro hr a b ha hb
    have g' := checkedButRelax_contract h
    obtain ⟨r, h1, h2, -⟩ := mul_loose g' hr ha hb
    obtain ⟨r', h1', h2', -⟩ := square_loose g' hr ha
    exact ⟨⟨r, h1, h2⟩, r', h1', h2'⟩

/-- No sequence of curve operations trips a check: running it over the checked functions gives the
same observations as running it over the functions themselves. -/
theorem C48_sequences_within_bounds (I : Impl) {α : Type} (e : Prog (.host α)) :
    e.eval (Fiat.Fe (checkedImpl I)) = e.eval (Fiat.Fe I) :=
  (C47_programs e e).1

/-- A concrete run of the reference functions: `(d - 1) · 1`, `2 - 3` and the encoding of `p + 1`. -/
example : ((Fiat.mul refFns Fiat.TWISTED_D Fiat.one).map fun r => V r + 39082) = some p ∧
    ((Fiat.sub refFns (lit [2, 0, 0, 0, 0, 0, 0, 0]) (lit [3, 0, 0, 0, 0, 0, 0, 0])).map
      fun r => V r + 1) = some p := by
  decide +kernel

/-! ## C49 -/

/-- The field constants of both backends, as numbers modulo `p`. -/
theorem C49_field_constants :
    [U32.V U32.EDWARDS_D % p, U32.V U32.NEG_EDWARDS_D % p, U32.V U32.TWISTED_D % p,
      U32.V U32.TWO_TIMES_TWISTED_D % p, U32.V U32.NEG_FOUR_TIMES_TWISTED_D % p,
      U32.V U32.A_PLUS_TWO_OVER_FOUR % p, U32.V U32.minusOne % p, U32.V U32.zero % p,
      U32.V U32.one % p] =
      [p - 39081, 39081, p - 39082, p - 78164, 156328, (156326 + 2) / 4, p - 1, 0, 1] ∧
    [V Fiat.EDWARDS_D % p, V Fiat.NEG_EDWARDS_D % p, V Fiat.TWISTED_D % p,
      V Fiat.TWO_TIMES_TWISTED_D % p, V Fiat.NEG_FOUR_TIMES_TWISTED_D % p,
      V Fiat.A_PLUS_TWO_OVER_FOUR % p, V Fiat.minusOne % p, V Fiat.zero % p, V Fiat.one % p] =
      [p - 39081, 39081, p - 39082, p - 78164, 156328, (156326 + 2) / 4, p - 1, 0, 1] := by
  rw [p_lit]; decide +kernel

/-- `DECAF_FACTOR` is `1/√(39082/39081 - 1)`; both backends hold the same root, the even one. -/
theorem C49_decaf_factor : U32.V U32.DECAF_FACTOR = V Fiat.DECAF_FACTOR ∧
    V Fiat.DECAF_FACTOR < p ∧ V Fiat.DECAF_FACTOR % 2 = 0 ∧
    (V Fiat.DECAF_FACTOR : Fp) ^ 2 * (39082 / 39081 - 1) = 1 := by
  refine ⟨by decide +kernel, by rw [p_lit]; decide +kernel, by decide +kernel, ?_⟩
  have h : V Fiat.DECAF_FACTOR ^ 2 ≡ 39081 [MOD p] := by
    unfold Nat.ModEq; rw [p_lit]; decide +kernel
  have h' := (ZMod.natCast_eq_natCast_iff _ _ _).2 h
  push_cast at h'
  have hn : (39081 : Fp) ≠ 0 := by
    have := natCast_ne_of_mod (a := 39081) (b := 0) (by rw [p_lit]; decide +kernel)
    simpa using this
  rw [h']
  field_simp
  ring

/-- The base points: the coordinates of RFC 8032, section 5.2, in both backends, with `Z = 1` and
`T = XY`; and the twisted base point is the image of the base point under the isogeny
`(2xy/(y²-x²), (y²+x²)/(2-y²-x²))`. -/
theorem C49_base_points :
    [U32.V U32.G_X, U32.V U32.G_Y, U32.V U32.G_Z, U32.V U32.G_T % p] = [Gx, Gy, 1, Gx * Gy % p] ∧
    [V Fiat.G_X, V Fiat.G_Y, V Fiat.G_Z, V Fiat.G_T % p] = [Gx, Gy, 1, Gx * Gy % p] ∧
    [U32.V U32.TG_X % p, U32.V U32.TG_Y % p, U32.V U32.TG_Z, U32.V U32.TG_T % p] =
      [V Fiat.TG_X % p, V Fiat.TG_Y % p, V Fiat.TG_Z, V Fiat.TG_T % p] ∧
    V Fiat.TG_Z = 1 ∧
    (V Fiat.TG_X : Fp) = 2 * (Gx * Gy) / (Gy ^ 2 - Gx ^ 2) ∧
    (V Fiat.TG_Y : Fp) = (Gy ^ 2 + Gx ^ 2) / (2 - Gy ^ 2 - Gx ^ 2) ∧
    (V Fiat.TG_T : Fp) = V Fiat.TG_X * V Fiat.TG_Y := by
  have hx : (V Fiat.TG_X : Fp) = (TGx : Fp) := by
    refine Fiat.V_cast_mod _ _ ?_; rw [p_lit]; decide +kernel
  have hy : (V Fiat.TG_Y : Fp) = (TGy : Fp) := by
    refine Fiat.V_cast_mod _ _ ?_; rw [p_lit]; decide +kernel
  have ht : (V Fiat.TG_T : Fp) = ((TGx * TGy : ℕ) : Fp) := by
    refine Fiat.V_cast_mod _ _ ?_; rw [p_lit]; decide +kernel
  refine ⟨by rw [p_lit]; decide +kernel, by rw [p_lit]; decide +kernel,
    by rw [p_lit]; decide +kernel, by decide +kernel, ?_, ?_, ?_⟩
  · rw [hx, ← phi_G.1]; exact (phi_alt G).1
  · rw [hy, ← phi_G.2]; exact (phi_alt G).2
  · rw [hx, hy, ht]; push_cast; rfl

/-- The base point lies on the curve and has order exactly `l`. -/
theorem C49_base_order : (Gx : Fp) ^ 2 + (Gy : Fp) ^ 2 = 1 - 39081 * (Gx : Fp) ^ 2 * (Gy : Fp) ^ 2 ∧
    addOrderOf G = ell ∧ ell.Prime ∧ p.Prime := by
  refine ⟨?_, addOrderOf_G, ell_prime, p_prime⟩
  have := G_on
  unfold OnCurve d at this
  linear_combination this

/-- The scalar constants: the order, Montgomery `R` and `R²`, and the reduction factor. -/
theorem C49_scalar_constants : MODULUS.val = ell ∧ EdPt.BASEPOINT_ORDER.val = ell ∧
    ell = 2 ^ 446 - 0x8335dc163bb124b65129c96fde933d8d723a70aadc873d6d54a7bb0d ∧
    Rconst.val = 2 ^ 448 % ell ∧ R2.val = 2 ^ 896 % ell ∧
    MONTGOMERY_FACTOR * ell % 2 ^ 32 = 2 ^ 32 - 1 := by
  rw [ell_lit]; decide +kernel

/-- The comment on `BASEPOINT_ORDER` (`/repo/src/constants.rs:11-14`) has the wrong sign. -/
theorem C49_order_comment_false : EdPt.BASEPOINT_ORDER.val ≠
    2 ^ 446 + 0x8335dc163bb124b65129c96fde933d8d723a70aadc873d6d54a7bb0d := by decide +kernel

end Ed448.Props
