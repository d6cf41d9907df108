import Verif.Text.MulCrate
import Verif.Text.Const
import Verif.Text.ConstSource
import Verif.Model.Ops
import Verif.Props.SourceInt
import Verif.Proofs.Trace
import Verif.Proofs.MulPoints
import Verif.Props.Edwards
import Verif.Props.Montgomery

/-!
# C102: the scalar multiplications, run from the text of the source files

`Verif.Text.MulSource` and `Verif.Text.Source` have the bytes of the files in src/curve/scalar_mul, of
src/decaf/ops.rs, src/curve/edwards/extended.rs and src/curve/montgomery/montgomery.rs. The loops, table,
lookups and operators in them are run by the interpreter of `Verif.Text.IntEval`. A scalar in them is what
the text of src/field/scalar.rs makes of its words (C100), the formulas for points are those of the model,
which C99 shows equal to the text, and the functions that call another one of these files use what the text
of that one returns. The results are those of the model.
-/

set_option maxRecDepth 100000
set_option exponentiation.threshold 1000

namespace Ed448.Props
open Ed448.Model Ed448.Text Ed448.Proofs FieldBackend

/-- What the text of src/field/scalar.rs returns for a scalar of given words. -/
def scText (w : List ℕ) : Sc where
  bits := ((methText (t! "bits") w).bind decB).getD []
  radix := ((methText (t! "to_radix_16") w).bind decZ).getD []
  words := w

/-- `Scalar::div_by_four` in the text. -/
def scDivText (s : Sc) : Sc :=
  scText (((scalarTextMut Ops.release [t! "Scalar"] (t! "div_by_four") [encW (.u 32) s.words]).bind decW).getD [])

/-- Values of the scalar multiplications. -/
abbrev CVM (F : Type) := CV (EdPt F) (TwPt F) (TwExt F) (PNiels F) (ProjMont F) F (Bytes 56)

/-- Their operations. -/
abbrev MOps (F : Type) := MulOps (EdPt F) (TwPt F) (TwExt F) (PNiels F) (ProjMont F) F (Bytes 56)

section
variable (F : Type) {L : Type} [FieldBackend F L]

/-- The results of the formulas for points; without the functions of the files in question. -/
def ops0 : MOps F where
  o := Ops.release
  ch n := n == 1
  eqU x y := x == y
  eId := TwPt.identity
  eGen := TwPt.generator
  eDouble := TwPt.double
  eAdd := TwPt.add
  eSelect := TwPt.select
  toExs := TwPt.toExtensible
  xId := TwExt.identity
  xDouble := TwExt.double
  xAddN := TwExt.addProjectiveNiels
  toN := TwExt.toProjectiveNiels
  toExt := TwExt.toExtended
  nId := PNiels.identity
  nSelect := PNiels.select
  nNegate := PNiels.condNegate
  table _ := []
  select _ _ := PNiels.identity
  da P _ := P
  vb P _ := P
  divFour := scDivText
  order := scText ((constWords Src.constants (t! "BASEPOINT_ORDER")).getD [])
  dId := EdPt.identity
  dDouble := EdPt.double
  dAdd := EdPt.add
  dNegate := EdPt.negate
  dEq := EdPt.eq
  dSelect := EdPt.select
  dModFour P _ := P
  dMul P _ := P
  toTwisted := EdPt.toTwisted
  toUntwisted := TwPt.toUntwisted
  eNegate := TwPt.negate
  xAddE := TwExt.addExtended
  xSubE := TwExt.subExtended
  mId := ProjMont.identity
  mMk := ProjMont.mk
  mSwap1 a b c := ProjMont.select a b c
  mSwap2 a b c := ProjMont.select b a c
  mStep1 a b u := (diffAddDouble a b u).1
  mStep2 a b u := (diffAddDouble a b u).2
  mToAffine := ProjMont.toAffine
  fOne := one
  fOf := fromBytes

variable {F}

/-- Points among the values; `default` if the text has returned something else. -/
def getExt (d : TwPt F) : Option (IV (CVM F)) → TwPt F
  | some (.int _ (.ext x)) => x
  | _ => d
def getEdw (d : EdPt F) : Option (IV (CVM F)) → EdPt F
  | some (.int _ (.edw x)) => x
  | _ => d
def getNls (d : PNiels F) : Option (IV (CVM F)) → PNiels F
  | some (.int _ (.nls x)) => x
  | _ => d
def getTab : Option (IV (CVM F)) → List (PNiels F)
  | some (.arr l) => l.map fun v => getNls PNiels.identity (some v)
  | _ => []

variable (F)

/-- With the table and its lookup as in the text of src/curve/scalar_mul/window/wnaf/mod.rs. -/
def ops1 : MOps F := { ops0 F with
  table := fun P => getTab (icall (parseFile 20000 Src.wnaf)
    [t! "From", t! "ExtendedPoint", t! "for", t! "LookupTable"] (t! "from") (wnafCtx (ops0 F)) [vO (.ext P)])
  select := fun l k => getNls PNiels.identity (icall (parseFile 20000 Src.wnaf) [t! "LookupTable"]
    (t! "select") (wnafCtx (ops0 F)) [.arr (l.map fun x => vO (.nls x)), .int (.u 32) (.num (.n k))]) }

/-- With the multiplications on the twisted curve and `scalar_mod_four` as in the texts. -/
def ops2 : MOps F := { ops1 F with
  da := fun P s => getExt TwPt.identity (icall (parseFile 20000 Src.doubleAndAdd) [] (t! "double_and_add")
    (daCtx (ops1 F)) [vO (.ext P), vO (.sc s)])
  vb := fun P s => getExt TwPt.identity (icall (parseFile 20000 Src.variableBase) [] (t! "variable_base")
    (vbCtx (ops1 F)) [vO (.ext P), vO (.sc s)])
  dModFour := fun P s => getEdw EdPt.identity (icall (parseFile 20000 Src.edExtended) [t! "ExtendedPoint"]
    (t! "scalar_mod_four") (edCtx (ops1 F)) [vO (.edw P),
      .arr (s.words.map fun w => .int (.u 32) (.num (.n w)))]) }

/-- With `scalar_mul` on the untwisted curve as in its text. -/
def ops3 : MOps F := { ops2 F with
  dMul := fun P s => getEdw EdPt.identity (icall (parseFile 20000 Src.edExtended) [t! "ExtendedPoint"]
    (t! "scalar_mul") (edCtx (ops2 F)) [vO (.edw P), vO (.sc s)]) }

end

variable {F L : Type} [FieldBackend F L]

/-! ## Scalars -/

theorem range_map {α : Type} (d : α) {n : ℕ} {l : List α} (h : l.length = n) :
    l = (List.range n).map fun i => l.getD i d := by
  apply List.ext_getElem
  · simp [h]
  · intro i h1 h2
    simp [h1]

theorem scText_bits (s : Scalar) : (scText s.l).bits = s.bits := by
  obtain ⟨r, e1, e2⟩ := C100_scalar_codec.2.2.1 s.l (Arr.words s)
  obtain rfl := Option.some_inj.mp (e1.symm.trans (Source.bits s))
  exact congrArg (Option.getD · []) e2

theorem scText_radix (s : Scalar) : s.toRadix16 = some (scText s.l).radix := by
  obtain ⟨r, e1, e2⟩ := C100_scalar_codec.2.2.2.1 s.l (Arr.words s)
  rw [← Source.to_radix_16, e1]
  exact congrArg some (congrArg (Option.getD · []) e2).symm

theorem scText_div (s : Scalar) : ∃ r, s.divByFour = some r ∧ scDivText (scText s.l) = scText r.l := by
  obtain ⟨r, e1, e2⟩ := C100_scalar_arithmetic.2.2.2.2.2.2 s.l (Arr.words s)
  have h := e1.symm.trans (Source.div_by_four s)
  cases e : s.divByFour with
  | none => rw [e] at h; exact nomatch h
  | some t =>
    rw [e] at h
    refine ⟨t, rfl, ?_⟩
    have e3 := e2.trans h
    dsimp only at e3
    have e4 : scDivText (scText s.l) = scText (((scalarTextMut Ops.release [t! "Scalar"] (t! "div_by_four")
      [encW (.u 32) s.l]).bind decW).getD []) := rfl
    rw [e4, e3]
    rfl

theorem scText_words (w : List ℕ) : (scText w).words = w := rfl

attribute [local irreducible] scText parseFile icall constWords

theorem ops_order : (ops0 F).order = scText EdPt.BASEPOINT_ORDER.l := by
  have h : (constWords Src.constants (t! "BASEPOINT_ORDER")) = some EdPt.BASEPOINT_ORDER.l := by krfl
  show scText (Option.getD (constWords Src.constants (t! "BASEPOINT_ORDER")) []) = _
  rw [h]
  rfl

/-! ## The table -/

/-- The table in the text is that of the model. -/
theorem C102_table (P : TwPt F) :
    icall (parseFile 20000 Src.wnaf) [t! "From", t! "ExtendedPoint", t! "for", t! "LookupTable"] (t! "from")
      (wnafCtx (ops0 F)) [vO (.ext P)] = some (.arr ((lookupTable P).map fun x => vO (.nls x))) := by
  rw [wnaf_eq, txt_table]
  krfl

/-- The lookup in the text is that of the model: all eight entries are read. -/
theorem C102_select (t : List (PNiels F)) (k : ℕ) (h : t.length = 8) :
    icall (parseFile 20000 Src.wnaf) [t! "LookupTable"] (t! "select") (wnafCtx (ops0 F))
      [.arr (t.map fun x => vO (.nls x)), .int (.u 32) (.num (.n k))] =
    some (vO (.nls (tableSelect t k))) := by
  have e : t.map (fun x => vO (.nls x)) = ((List.range 8).map fun i =>
      (vO (.nls (t.getD i PNiels.identity)) : IV (CVM F))) := by
    conv_lhs => rw [range_map PNiels.identity h]
    rw [List.map_map]
    rfl
  rw [wnaf_eq, e, txt_select]
  rfl

theorem ops1_table (P : TwPt F) : (ops1 F).table P = lookupTable P := by
  refine (congrArg getTab (C102_table P)).trans ?_
  show List.map _ (List.map _ _) = _
  rw [List.map_map]
  exact List.map_id _

theorem ops1_select (P : TwPt F) (k : ℕ) :
    (ops1 F).select (lookupTable P) k = tableSelect (lookupTable P) k := by
  refine congrArg (getNls PNiels.identity) (C102_select (lookupTable P) k ?_)
  rw [lookupTable, List.length_map, List.length_range]

/-! ## Multiplication on the twisted curve -/

theorem toNat_one (b : Bool) : (b.toNat == 1) = b := by cases b <;> rfl

theorem da_step (P r : TwPt F) (b : Bool) : (ops1 F).daStep P r b = daStep P r b := by
  show TwPt.add r.double (TwPt.select TwPt.identity P (b.toNat == 1)) = _
  rw [toNat_one]
  rfl

/-- `double_and_add` in the text is that of the model. -/
theorem C102_double_and_add (P : TwPt F) (s : Scalar) :
    icall (parseFile 20000 Src.doubleAndAdd) [] (t! "double_and_add") (daCtx (ops1 F))
      [vO (.ext P), vO (.sc (scText s.l))] = some (vO (.ext (doubleAndAdd P s))) := by
  have hl : (scText s.l).bits.length = 448 := by rw [scText_bits]; exact s.bits_len
  have e : scText s.l = ⟨(List.range 448).map fun i => (scText s.l).bits.getD i false,
      (scText s.l).radix, (scText s.l).words⟩ := by
    rw [← range_map false hl]
  rw [doubleAndAdd_eq, e, txt_double_and_add_map, ← range_map false hl, scText_bits]
  refine congrArg (fun x => some (vO (.ext x))) ?_
  show List.foldl _ _ _ = List.foldl _ _ _
  rw [show (ops1 F).daStep P = daStep P from funext fun r => funext fun b => da_step P r b]
  rfl

theorem vb_step (P : TwPt F) (r : TwExt F) (z : ℤ) (h1 : -8 ≤ z) (h2 : z ≤ 8) :
    (ops1 F).vbStep (lookupTable P) r z = vbStep (lookupTable P) r (decide (z < 0)) z.natAbs := by
  have ha : Ops.release.asU 32 (Ops.release.xorI 8 (Ops.release.addI 8 z (Ops.release.shrI z 7))
      (Ops.release.shrI z 7)) = z.natAbs := by
    interval_cases z <;> decide +kernel
  have hs : (Ops.release.asU 8 (Ops.release.andI 8 (Ops.release.shrI z 7) 1) == 1) = decide (z < 0) := by
    interval_cases z <;> decide +kernel
  show TwExt.addProjectiveNiels r.double.double.double.double
    (PNiels.condNegate ((ops1 F).select (lookupTable P) (Ops.release.asU 32 (Ops.release.xorI 8
      (Ops.release.addI 8 z (Ops.release.shrI z 7)) (Ops.release.shrI z 7))))
      (Ops.release.asU 8 (Ops.release.andI 8 (Ops.release.shrI z 7) 1) == 1)) = _
  rw [ha, hs, ops1_select]
  rfl

theorem vb_loop (P : TwPt F) : ∀ (l : List ℤ) (r : TwExt F), (∀ z ∈ l, -8 ≤ z ∧ z ≤ 8) →
    vbLoop (lookupTable P) l r = some (l.foldl ((ops1 F).vbStep (lookupTable P)) r)
  | [], _, _ => rfl
  | z :: l, r, h => by
    obtain ⟨h1, h2⟩ := h z (List.mem_cons_self ..)
    rw [vbLoop, digitAbs_eq z h1 h2, Option.bind_some,
      vb_loop P l _ fun x hx => h x (List.mem_cons_of_mem _ hx), List.foldl_cons, vb_step P r z h1 h2]

/-- `variable_base` in the text is that of the model. -/
theorem C102_variable_base (P : TwPt F) (s : Scalar) : ∃ r, variableBase P s = some r ∧
    icall (parseFile 20000 Src.variableBase) [] (t! "variable_base") (vbCtx (ops1 F))
      [vO (.ext P), vO (.sc (scText s.l))] = some (vO (.ext r)) := by
  obtain ⟨ds, e, hl, hb⟩ := radix_bounds s
  rw [scText_radix] at e
  obtain rfl := Option.some_inj.mp e
  refine ⟨_, by rw [variableBase, scText_radix, Option.bind_some, vb_loop P _ _ hb, Option.map_some], ?_⟩
  have e : scText s.l = ⟨(scText s.l).bits, (List.range 113).map fun i => (scText s.l).radix.getD i 0,
      (scText s.l).words⟩ := by
    rw [← range_map 0 hl]
  rw [variableBase_eq]
  conv_lhs => rw [e]
  rw [txt_variable_base_map, ← range_map 0 hl, ops1_table]
  rfl

theorem ops2_da (P : TwPt F) (s : Scalar) : (ops2 F).da P (scText s.l) = doubleAndAdd P s := by
  exact congrArg (getExt TwPt.identity) (C102_double_and_add P s)

/-- `double_base_scalar_mul` in the text is that of the model. -/
theorem C102_double_base (A : TwPt F) (a b : Scalar) :
    icall (parseFile 20000 Src.doubleBase) [] (t! "double_base_scalar_mul") (dbCtx (ops2 F))
      [vO (.sc (scText a.l)), vO (.ext A), vO (.sc (scText b.l))] =
    some (vO (.ext (doubleBaseScalarMul a A b))) := by
  rw [doubleBase_eq, txt_double_base, ops2_da, ops2_da]
  rfl

/-! ## Decaf -/

/-- The operators of src/decaf/ops.rs in the text are those of the model. -/
theorem C102_decaf (P Q : DecafPt F) (s : Scalar) :
    icall (parseFile 20000 Src.decafOps)
      [t! "s", t! "p", t! "Mul", t! "s", t! "Scalar", t! "for", t! "p", t! "DecafPoint"] (t! "mul")
      (decafCtx (ops2 F)) [vO (.ext P.pt), vO (.sc (scText s.l))] = some (vO (.ext (P.scalarMul s).pt)) ∧
    icall (parseFile 20000 Src.decafOps)
      [t! "p", t! "s", t! "Mul", t! "p", t! "DecafPoint", t! "for", t! "s", t! "Scalar"] (t! "mul")
      (decafCtx (ops2 F)) [vO (.sc (scText s.l)), vO (.ext P.pt)] = some (vO (.ext (s.mulDecaf P).pt)) ∧
    icall (parseFile 20000 Src.decafOps) [t! "Mul", t! "DecafPoint", t! "for", t! "Scalar"] (t! "mul")
      (decafCtx (ops2 F)) [vO (.sc (scText s.l)), vO (.ext P.pt)] = some (vO (.ext (s.mulDecaf P).pt)) ∧
    icall (parseFile 20000 Src.decafOps) [t! "Mul", t! "Scalar", t! "for", t! "DecafPoint"] (t! "mul")
      (decafCtx (ops2 F)) [vO (.ext P.pt), vO (.sc (scText s.l))] = some (vO (.ext (P.scalarMul s).pt)) ∧
    icall (parseFile 20000 Src.decafOps)
      [t! "a", t! "b", t! "Add", t! "a", t! "DecafPoint", t! "for", t! "b", t! "DecafPoint"] (t! "add")
      (decafCtx (ops2 F)) [vO (.ext P.pt), vO (.ext Q.pt)] = some (vO (.ext (P.add Q).pt)) ∧
    icall (parseFile 20000 Src.decafOps)
      [t! "a", t! "b", t! "Sub", t! "a", t! "DecafPoint", t! "for", t! "b", t! "DecafPoint"] (t! "sub")
      (decafCtx (ops2 F)) [vO (.ext P.pt), vO (.ext Q.pt)] = some (vO (.ext (P.sub Q).pt)) ∧
    icall (parseFile 20000 Src.decafOps) [t! "b", t! "Neg", t! "for", t! "b", t! "DecafPoint"] (t! "neg")
      (decafCtx (ops2 F)) [vO (.ext P.pt)] = some (vO (.ext P.neg.pt)) := by
  obtain ⟨h1, h2, h3, h4, h5, h6, h7⟩ := txt_decaf_ops (ops2 F) P.pt Q.pt (scText s.l)
  rw [ops2_da] at h1 h2 h3 h4
  rw [decafOps_eq]
  exact ⟨h1, h2, h3, h4, h5, h6, h7⟩

/-! ## The untwisted curve -/

/-- `scalar_mod_four` in the text is that of the model. -/
theorem C102_scalar_mod_four (P : EdPt F) (s : Scalar) :
    icall (parseFile 20000 Src.edExtended) [t! "ExtendedPoint"] (t! "scalar_mod_four") (edCtx (ops1 F))
      [vO (.edw P), .arr (s.l.map fun w => .int (.u 32) (.num (.n w)))] =
    some (vO (.edw (P.scalarModFour s))) := by
  have e : s.l = s.l.getD 0 0 :: s.l.tail := by
    have := s.len
    cases h : s.l with
    | nil => rw [h] at this; exact nomatch this
    | cons a l => rfl
  have hg : s.get 0 = s.l.getD 0 0 := rfl
  rw [edExtended_eq, e, List.map_cons, txt_scalar_mod_four]
  refine congrArg (fun x => some (vO (.edw x))) ?_
  rw [EdPt.scalarModFour, hg]
  show EdPt.select (EdPt.select (EdPt.select (EdPt.select _ _ (_ == 1)) _ (_ == 1)) _ (_ == 1)) _ (_ == 1) = _
  simp only [toNat_one]
  rfl

theorem ops2_mod (P : EdPt F) (s : Scalar) : (ops2 F).dModFour P (scText s.l) = P.scalarModFour s := by
  have h := congrArg (getEdw EdPt.identity) (C102_scalar_mod_four P s)
  conv_lhs at h => rw [← scText_words s.l]
  exact h

/-- `scalar_mul` in the text is that of the model. -/
theorem C102_scalar_mul (P : EdPt F) (s : Scalar) : ∃ r, P.scalarMul s = some r ∧
    icall (parseFile 20000 Src.edExtended) [t! "ExtendedPoint"] (t! "scalar_mul") (edCtx (ops2 F))
      [vO (.edw P), vO (.sc (scText s.l))] = some (vO (.edw r)) := by
  obtain ⟨q, e, f⟩ := scText_div s
  obtain ⟨r, e1, f1⟩ := C102_variable_base P.toTwisted q
  refine ⟨_, by rw [EdPt.scalarMul, e, Option.bind_some, e1, Option.map_some], ?_⟩
  rw [edExtended_eq, txt_scalar_mul, ops2_mod]
  refine congrArg (fun x => some (vO (.edw (EdPt.add (TwPt.toUntwisted x) _)))) ?_
  refine Eq.trans ?_ (congrArg (getExt TwPt.identity) f1)
  exact congrArg ((ops2 F).vb P.toTwisted) f

theorem ops3_mul (P : EdPt F) (s : Scalar) :
    ∃ r, P.scalarMul s = some r ∧ (ops3 F).dMul P (scText s.l) = r := by
  obtain ⟨r, e, f⟩ := C102_scalar_mul P s
  exact ⟨r, e, congrArg (getEdw EdPt.identity) f⟩

/-- `is_torsion_free` and the operators of src/curve/edwards/extended.rs in the text are those of the
model. -/
theorem C102_edwards (P Q : EdPt F) (s : Scalar) :
    (∃ b, P.isTorsionFree = some b ∧ icall (parseFile 20000 Src.edExtended) [t! "ExtendedPoint"]
      (t! "is_torsion_free") (edCtx (ops3 F)) [vO (.edw P)] = some (.bool b)) ∧
    icall (parseFile 20000 Src.edExtended) [t! "a", t! "b", t! "Add", t! "b", t! "ExtendedPoint", t! "for",
      t! "a", t! "ExtendedPoint"] (t! "add") (edCtx (ops3 F)) [vO (.edw P), vO (.edw Q)] =
      some (vO (.edw (P.opAdd Q))) ∧
    icall (parseFile 20000 Src.edExtended) [t! "a", t! "b", t! "Sub", t! "b", t! "ExtendedPoint", t! "for",
      t! "a", t! "ExtendedPoint"] (t! "sub") (edCtx (ops3 F)) [vO (.edw P), vO (.edw Q)] =
      some (vO (.edw (P.sub Q))) ∧
    icall (parseFile 20000 Src.edExtended) [t! "a", t! "Neg", t! "for", t! "a", t! "ExtendedPoint"]
      (t! "neg") (edCtx (ops3 F)) [vO (.edw P)] = some (vO (.edw P.opNeg)) ∧
    ∃ r, P.opMul s = some r ∧ s.mulEd P = some r ∧
      icall (parseFile 20000 Src.edExtended) [t! "a", t! "b", t! "Mul", t! "b", t! "Scalar", t! "for",
        t! "a", t! "ExtendedPoint"] (t! "mul") (edCtx (ops3 F)) [vO (.edw P), vO (.sc (scText s.l))] =
        some (vO (.edw r)) ∧
      icall (parseFile 20000 Src.edExtended) [t! "a", t! "b", t! "Mul", t! "b", t! "ExtendedPoint", t! "for",
        t! "a", t! "Scalar"] (t! "mul") (edCtx (ops3 F)) [vO (.sc (scText s.l)), vO (.edw P)] =
        some (vO (.edw r)) := by
  obtain ⟨h1, h2, h3, h4, h5⟩ := txt_ed_ops (ops3 F) P Q (scText s.l)
  obtain ⟨r, e, f⟩ := ops3_mul P s
  obtain ⟨t, e', f'⟩ := ops3_mul P EdPt.BASEPOINT_ORDER
  rw [f] at h4 h5
  rw [edExtended_eq]
  refine ⟨⟨_, by rw [EdPt.isTorsionFree, e', Option.map_some], ?_⟩, h1, h2, h3, r, e, e, h4, h5⟩
  rw [txt_is_torsion_free, show (ops3 F).order = scText EdPt.BASEPOINT_ORDER.l from ops_order (F := F) (L := L), f']
  rfl

/-! ## The ladder -/

theorem ladder_step (u : F) (a b : ProjMont F) (x y : Bool) :
    (ops0 F).ladderStep u (a, b, x.toNat) y =
      ((ladderStep u (a, b, x) y).1, (ladderStep u (a, b, x) y).2.1, (ladderStep u (a, b, x) y).2.2.toNat) := by
  cases x <;> cases y <;> krfl

theorem ladder_loop (u : F) : ∀ (l : List Bool) (a b : ProjMont F) (x : Bool),
    (l.foldl ((ops0 F).ladderStep u) (a, b, x.toNat)).1 = (l.foldl (ladderStep u) (a, b, x)).1
  | [], _, _, _ => rfl
  | y :: l, a, b, x => by
    rw [List.foldl_cons, List.foldl_cons, ladder_step, ladder_loop u l]

/-- The product of a point of the Montgomery curve and a scalar in the text is that of the model. -/
theorem C102_ladder (u : Bytes 56) (s : Scalar) :
    icall (parseFile 20000 Src.montgomery) [t! "Mul", t! "Scalar", t! "for", t! "MontgomeryPoint"] (t! "mul")
      (ladderCtx (ops0 F)) [vO (.byt u), vO (.sc (scText s.l))] =
    some (vO (.byt (montMulScalar F u s))) := by
  have hl : (scText s.l).bits.length = 448 := by rw [scText_bits]; exact s.bits_len
  have e : scText s.l = ⟨(List.range 448).map fun i => (scText s.l).bits.getD i false,
      (scText s.l).radix, (scText s.l).words⟩ := by
    rw [← range_map false hl]
  rw [montgomery_eq, e, txt_ladder_map, ← range_map false hl, scText_bits]
  refine congrArg (fun x => some (vO (.byt (ProjMont.toAffine x)))) ?_
  exact ladder_loop (fromBytes u : F) _ _ _ false

/-! ## Values -/

/-- What the texts compute: multiples of points on the Edwards curve for any words, membership in the
subgroup of prime order, and an agreement of keys. -/
theorem C102_values [Lawful F] :
    (∀ (P : EdPt F) (R : E) (s : Scalar), Rep P R → ∃ r, icall (parseFile 20000 Src.edExtended)
      [t! "ExtendedPoint"] (t! "scalar_mul") (edCtx (ops2 F)) [vO (.edw P), vO (.sc (scText s.l))] =
        some (vO (.edw r)) ∧ Rep r (s.val • R)) ∧
    (∀ (P : EdPt F) (R : E), Rep P R → ∃ b, icall (parseFile 20000 Src.edExtended) [t! "ExtendedPoint"]
      (t! "is_torsion_free") (edCtx (ops3 F)) [vO (.edw P)] = some (.bool b) ∧
      (b = true ↔ ∃ n : ℕ, R = n • G)) ∧
    ∀ (u : Bytes 56) (a b : Scalar), ∃ x y r,
      icall (parseFile 20000 Src.montgomery) [t! "Mul", t! "Scalar", t! "for", t! "MontgomeryPoint"] (t! "mul")
        (ladderCtx (ops0 F)) [vO (.byt u), vO (.sc (scText a.l))] = some (vO (.byt x)) ∧
      icall (parseFile 20000 Src.montgomery) [t! "Mul", t! "Scalar", t! "for", t! "MontgomeryPoint"] (t! "mul")
        (ladderCtx (ops0 F)) [vO (.byt u), vO (.sc (scText b.l))] = some (vO (.byt y)) ∧
      icall (parseFile 20000 Src.montgomery) [t! "Mul", t! "Scalar", t! "for", t! "MontgomeryPoint"] (t! "mul")
        (ladderCtx (ops0 F)) [vO (.byt y), vO (.sc (scText a.l))] = some (vO (.byt r)) ∧
      icall (parseFile 20000 Src.montgomery) [t! "Mul", t! "Scalar", t! "for", t! "MontgomeryPoint"] (t! "mul")
        (ladderCtx (ops0 F)) [vO (.byt x), vO (.sc (scText b.l))] = some (vO (.byt r)) := by
  refine ⟨fun P R s h => ?_, fun P R h => ?_, fun u a b => ?_⟩
  · obtain ⟨r, e, f⟩ := C102_scalar_mul P s
    obtain ⟨q, e', hq⟩ := C16_scalar_mul h s
    obtain rfl := Option.some_inj.mp (e.symm.trans e')
    exact ⟨r, f, hq⟩
  · obtain ⟨b, e, f⟩ := (C102_edwards P P Scalar.zero).1
    obtain ⟨c, e', -, hc⟩ := C18_torsion_free h
    obtain rfl := Option.some_inj.mp (e.symm.trans e')
    exact ⟨b, f, hc⟩
  · refine ⟨_, _, _, C102_ladder u a, C102_ladder u b, C102_ladder _ a, ?_⟩
    rw [C102_ladder, C33_dh_agreement]

/-- Two doublings and an addition from bits in an array, in a small program; a scalar of three bits and
integers as points. -/
example (c : MulOps ℤ ℤ ℤ ℤ ℤ ℤ ℤ) : icall (parseFile 600 (t! "fn double_and_add(point: &E, s: &S) -> E {
      let mut r = E::identity();
      for bit in s.bits().into_iter().rev() {
        r = r.double();
        let mut p = E::identity();
        p.conditional_assign(point, Choice::from(*bit as u8));
        r = r.add(&p);
      }
      r
    }")) [] (t! "double_and_add") (daCtx
      { c with
        eId := 0
        eDouble := (2 * ·)
        eAdd := (· + ·)
        eSelect := fun x y b => bif b then y else x
        ch := fun n => n == 1 })
      [vO (.ext 7), vO (.sc ⟨[true, false, true], [], []⟩)] = some (vO (.ext 35)) := by krfl

/-- A function that is not in the text, or a call with a point of the wrong kind, has no result. -/
example (P : EdPt F) (s : Sc) :
    icall (parseFile 20000 Src.variableBase) [] (t! "double_and_add") (vbCtx (ops1 F))
      [vO (.edw P), vO (.sc s)] = none ∧
    icall (parseFile 20000 Src.doubleBase) [] (t! "double_base_scalar_mul") (dbCtx (ops2 F))
      [vO (.sc s), vO (.edw P), vO (.sc s)] = none := by
  rw [variableBase_eq, doubleBase_eq]
  refine ⟨?_, ?_⟩ <;> krfl

end Ed448.Props
