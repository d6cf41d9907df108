import Verif.Text.Files
import Verif.Text.Crate
import Verif.Model.Ops

/-!
# C99: the text of the source, read and run in Lean, is the model

The source files of the field, curve, Decaf and Ristretto formulas are copied byte for byte into
`Verif.Text.Source`. A lexer, a parser and an interpreter written in Lean read and run them. For each
function below: on all arguments, running its text returns what the model function returns, for every
field backend. This does not go through tools/rust2lean.py.
-/

set_option linter.all false
set_option exponentiation.threshold 1000

namespace Ed448.Props
open Ed448.Model Ed448.Text FieldBackend

variable {F L : Type} [FieldBackend F L]

/-- src/curve/twedwards/extensible.rs. -/
theorem C99_extensible :
    (Returns F Src.twExtensible twNames [t! "ExtensiblePoint"] (t! "identity")
      [] (TwExt.identity : TwExt F)) ∧
    (∀ (P : TwExt F), Returns F Src.twExtensible twNames [t! "ExtensiblePoint"] (t! "double")
      [enc P] P.double) ∧
    (∀ (P Q : TwExt F), Returns F Src.twExtensible twNames [t! "ExtensiblePoint"] (t! "add_extensible")
      [enc P, enc Q] (P.addExtensible Q)) ∧
    (∀ (P : TwExt F) (Q : TwPt F), Returns F Src.twExtensible twNames [t! "ExtensiblePoint"] (t! "add_extended")
      [enc P, enc Q] (P.addExtended Q)) ∧
    (∀ (P : TwExt F) (Q : TwPt F), Returns F Src.twExtensible twNames [t! "ExtensiblePoint"] (t! "sub_extended")
      [enc P, enc Q] (P.subExtended Q)) ∧
    (∀ (P : TwExt F) (Q : ANiels F), Returns F Src.twExtensible twNames [t! "ExtensiblePoint"] (t! "add_affine_niels")
      [enc P, enc Q] (P.addAffineNiels Q)) ∧
    (∀ (P : TwExt F) (Q : PNiels F), Returns F Src.twExtensible twNames [t! "ExtensiblePoint"] (t! "add_projective_niels")
      [enc P, enc Q] (P.addProjectiveNiels Q)) ∧
    (∀ (P : TwExt F), Returns F Src.twExtensible twNames [t! "ExtensiblePoint"] (t! "to_extended")
      [enc P] P.toExtended) ∧
    (∀ (P : TwExt F), Returns F Src.twExtensible twNames [t! "ExtensiblePoint"] (t! "to_projective_niels")
      [enc P] P.toProjectiveNiels) ∧
    (∀ (P Q : TwExt F), Returns F Src.twExtensible twNames [t! "ConstantTimeEq", t! "for", t! "ExtensiblePoint"] (t! "ct_eq")
      [enc P, enc Q] (P.eq Q)) ∧
    (∀ (P Q : TwExt F), Returns F Src.twExtensible twNames [t! "PartialEq", t! "for", t! "ExtensiblePoint"] (t! "eq")
      [enc P, enc Q] (P.eq Q)) := by
  unfold Returns
  rw [twExtensible_eq]
  refine ⟨?_, ?_, ?_, ?_, ?_, ?_, ?_, ?_, ?_, ?_, ?_⟩
  · krfl
  · intro P; krfl
  · intro P Q; krfl
  · intro P Q; krfl
  · intro P Q; krfl
  · intro P Q; krfl
  · intro P Q; krfl
  · intro P; krfl
  · intro P; krfl
  · intro P Q; krfl
  · intro P Q; krfl

/-- src/curve/twedwards/extended.rs. -/
theorem C99_twisted :
    (Returns F Src.twExtended twNames [t! "ExtendedPoint"] (t! "identity")
      [] (TwPt.identity : TwPt F)) ∧
    (Returns F Src.twExtended twNames [t! "Default", t! "for", t! "ExtendedPoint"] (t! "default")
      [] (TwPt.default : TwPt F)) ∧
    (Returns F Src.twExtended twNames [t! "ExtendedPoint"] (t! "generator")
      [] (TwPt.generator : TwPt F)) ∧
    (∀ (P : TwPt F), Returns F Src.twExtended twNames [t! "ExtendedPoint"] (t! "double")
      [enc P] P.double) ∧
    (∀ (P Q : TwPt F), Returns F Src.twExtended twNames [t! "ExtendedPoint"] (t! "add")
      [enc P, enc Q] (P.add Q)) ∧
    (∀ (P : TwPt F), Returns F Src.twExtended twNames [t! "ExtendedPoint"] (t! "to_extensible")
      [enc P] P.toExtensible) ∧
    (∀ (P : TwPt F), Returns F Src.twExtended twNames [t! "ExtendedPoint"] (t! "to_affine")
      [enc P] P.toAffine) ∧
    (∀ (P : TwPt F) (a : L), Returns F Src.twExtended twNames [t! "ExtendedPoint"] (t! "edwards_isogeny")
      [enc P, .lo a] (P.edwardsIsogeny a)) ∧
    (∀ (P : TwPt F), Returns F Src.twExtended twNames [t! "ExtendedPoint"] (t! "to_untwisted")
      [enc P] P.toUntwisted) ∧
    (∀ (P : TwPt F), Returns F Src.twExtended twNames [t! "ExtendedPoint"] (t! "is_on_curve")
      [enc P] P.isOnCurve) ∧
    (∀ (P : TwPt F), Returns F Src.twExtended twNames [t! "ExtendedPoint"] (t! "negate")
      [enc P] P.negate) ∧
    (∀ (P : TwPt F), Returns F Src.twExtended twNames [t! "ExtendedPoint"] (t! "torque")
      [enc P] P.torque) ∧
    (∀ (P Q : TwPt F), Returns F Src.twExtended twNames [t! "ConstantTimeEq", t! "for", t! "ExtendedPoint"] (t! "ct_eq")
      [enc P, enc Q] (P.eq Q)) ∧
    (∀ (P Q : TwPt F), Returns F Src.twExtended twNames [t! "PartialEq", t! "for", t! "ExtendedPoint"] (t! "eq")
      [enc P, enc Q] (P.eq Q)) ∧
    (∀ (P Q : TwPt F) (c : Bool), Returns F Src.twExtended twNames [t! "ConditionallySelectable", t! "for", t! "ExtendedPoint"] (t! "conditional_select")
      [enc P, enc Q, enc c] (P.select Q c)) := by
  unfold Returns
  rw [twExtended_eq]
  refine ⟨?_, ?_, ?_, ?_, ?_, ?_, ?_, ?_, ?_, ?_, ?_, ?_, ?_, ?_, ?_⟩
  · krfl
  · krfl
  · krfl
  · intro P; krfl
  · intro P Q; krfl
  · intro P; krfl
  · intro P; krfl
  · intro P a; krfl
  · intro P; krfl
  · intro P; krfl
  · intro P; krfl
  · intro P; krfl
  · intro P Q; krfl
  · intro P Q; krfl
  · intro P Q c; krfl

/-- src/curve/twedwards/affine.rs. -/
theorem C99_twisted_affine :
    (Returns F Src.twAffine twNames [t! "AffinePoint"] (t! "identity")
      [] (TwAff.identity : TwAff F)) ∧
    (Returns F Src.twAffine twNames [t! "Default", t! "for", t! "AffinePoint"] (t! "default")
      [] (TwAff.default : TwAff F)) ∧
    (∀ (P : TwAff F), Returns F Src.twAffine twNames [t! "AffinePoint"] (t! "is_on_curve")
      [enc P] P.isOnCurve) ∧
    (∀ (P : TwAff F), Returns F Src.twAffine twNames [t! "AffinePoint"] (t! "negate")
      [enc P] P.negate) ∧
    (∀ (P Q : TwAff F), Returns F Src.twAffine twNames [t! "AffinePoint"] (t! "add")
      [enc P, enc Q] (P.add Q)) ∧
    (∀ (P : TwAff F), Returns F Src.twAffine twNames [t! "AffinePoint"] (t! "to_extensible")
      [enc P] P.toExtensible) ∧
    (∀ (P : TwAff F), Returns F Src.twAffine twNames [t! "AffinePoint"] (t! "to_affine_niels")
      [enc P] P.toAffineNiels) ∧
    (∀ (P : TwAff F), Returns F Src.twAffine twNames [t! "AffinePoint"] (t! "to_extended")
      [enc P] P.toExtended) ∧
    (∀ (P Q : ANiels F) (c : Bool), Returns F Src.twAffine twNames [t! "ConditionallySelectable", t! "for", t! "AffineNielsPoint"] (t! "conditional_select")
      [enc P, enc Q, enc c] (P.select Q c)) ∧
    (∀ (P Q : ANiels F), Returns F Src.twAffine twNames [t! "AffineNielsPoint"] (t! "equals")
      [enc P, enc Q] (P.equals Q)) ∧
    (Returns F Src.twAffine twNames [t! "AffineNielsPoint"] (t! "identity")
      [] (ANiels.identity : ANiels F)) ∧
    (∀ (P : ANiels F), Returns F Src.twAffine twNames [t! "AffineNielsPoint"] (t! "to_extended")
      [enc P] P.toExtended) := by
  unfold Returns
  rw [twAffine_eq]
  refine ⟨?_, ?_, ?_, ?_, ?_, ?_, ?_, ?_, ?_, ?_, ?_, ?_⟩
  · krfl
  · krfl
  · intro P; krfl
  · intro P; krfl
  · intro P Q; krfl
  · intro P; krfl
  · intro P; krfl
  · intro P; krfl
  · intro P Q c; krfl
  · intro P Q; krfl
  · krfl
  · intro P; krfl

/-- src/curve/twedwards/projective.rs. -/
theorem C99_projective :
    (Returns F Src.twProjective twNames [t! "ProjectiveNielsPoint"] (t! "identity")
      [] (PNiels.identity : PNiels F)) ∧
    (Returns F Src.twProjective twNames [t! "Default", t! "for", t! "ProjectiveNielsPoint"] (t! "default")
      [] (PNiels.default : PNiels F)) ∧
    (∀ (P : PNiels F), Returns F Src.twProjective twNames [t! "ProjectiveNielsPoint"] (t! "to_extended")
      [enc P] P.toExtended) ∧
    (∀ (P Q : PNiels F), Returns F Src.twProjective twNames [t! "PartialEq", t! "for", t! "ProjectiveNielsPoint"] (t! "eq")
      [enc P, enc Q] (P.eq Q)) ∧
    (∀ (P Q : PNiels F) (c : Bool), Returns F Src.twProjective twNames [t! "ConditionallySelectable", t! "for", t! "ProjectiveNielsPoint"] (t! "conditional_select")
      [enc P, enc Q, enc c] (P.select Q c)) ∧
    (∀ (P : PNiels F) (c : Bool), Changes F Src.twProjective twNames [t! "ConditionallyNegatable", t! "for", t! "ProjectiveNielsPoint"] (t! "conditional_negate")
      [enc P, enc c] [enc (P.condNegate c), enc c]) := by
  unfold Returns Changes
  rw [twProjective_eq]
  refine ⟨?_, ?_, ?_, ?_, ?_, ?_⟩
  · krfl
  · krfl
  · intro P; krfl
  · intro P Q; krfl
  · intro P Q c; krfl
  · intro P c; krfl

/-- src/curve/edwards/extended.rs and affine.rs. -/
theorem C99_edwards :
    (Returns F Src.edExtended edNames [t! "ExtendedPoint"] (t! "identity")
      [] (EdPt.identity : EdPt F)) ∧
    (Returns F Src.edExtended edNames [t! "Default", t! "for", t! "ExtendedPoint"] (t! "default")
      [] (EdPt.default : EdPt F)) ∧
    (Returns F Src.edExtended edNames [t! "ExtendedPoint"] (t! "generator")
      [] (EdPt.generator : EdPt F)) ∧
    (∀ (P Q : EdPt F), Returns F Src.edExtended edNames [t! "ExtendedPoint"] (t! "add")
      [enc P, enc Q] (P.add Q)) ∧
    (∀ (P : EdPt F), Returns F Src.edExtended edNames [t! "ExtendedPoint"] (t! "double")
      [enc P] P.double) ∧
    (∀ (P : EdPt F), Returns F Src.edExtended edNames [t! "ExtendedPoint"] (t! "is_on_curve")
      [enc P] P.isOnCurve) ∧
    (∀ (P : EdPt F), Returns F Src.edExtended edNames [t! "ExtendedPoint"] (t! "to_affine")
      [enc P] P.toAffine) ∧
    (∀ (P : EdPt F), Returns F Src.edExtended edNames [t! "ExtendedPoint"] (t! "to_montgomery")
      [enc P] (Mont.mk P.toMontgomery)) ∧
    (∀ (P : EdPt F) (a : L), Returns F Src.edExtended edNames [t! "ExtendedPoint"] (t! "edwards_isogeny")
      [enc P, .lo a] (P.edwardsIsogeny a)) ∧
    (∀ (P : EdPt F), Returns F Src.edExtended edNames [t! "ExtendedPoint"] (t! "to_twisted")
      [enc P] P.toTwisted) ∧
    (∀ (P : EdPt F), Returns F Src.edExtended edNames [t! "ExtendedPoint"] (t! "negate")
      [enc P] P.negate) ∧
    (∀ (P : EdPt F), Returns F Src.edExtended edNames [t! "ExtendedPoint"] (t! "torque")
      [enc P] P.torque) ∧
    (∀ (P Q : EdPt F), Returns F Src.edExtended edNames [t! "ConstantTimeEq", t! "for", t! "ExtendedPoint"] (t! "ct_eq")
      [enc P, enc Q] (P.eq Q)) ∧
    (∀ (P Q : EdPt F), Returns F Src.edExtended edNames [t! "PartialEq", t! "for", t! "ExtendedPoint"] (t! "eq")
      [enc P, enc Q] (P.eq Q)) ∧
    (∀ (P Q : EdPt F) (c : Bool), Returns F Src.edExtended edNames [t! "ConditionallySelectable", t! "for", t! "ExtendedPoint"] (t! "conditional_select")
      [enc P, enc Q, enc c] (P.select Q c)) := by
  unfold Returns
  rw [edExtended_eq]
  refine ⟨?_, ?_, ?_, ?_, ?_, ?_, ?_, ?_, ?_, ?_, ?_, ?_, ?_, ?_, ?_⟩
  · krfl
  · krfl
  · krfl
  · intro P Q; krfl
  · intro P; krfl
  · intro P; krfl
  · intro P; krfl
  · intro P; krfl
  · intro P a; krfl
  · intro P; krfl
  · intro P; krfl
  · intro P; krfl
  · intro P Q; krfl
  · intro P Q; krfl
  · intro P Q c; krfl

/-- src/curve/edwards/affine.rs. -/
theorem C99_edwards_affine :
    (Returns F Src.edAffine edNames [t! "AffinePoint"] (t! "identity")
      [] (EdAff.identity : EdAff F)) ∧
    (∀ (P : EdAff F), Returns F Src.edAffine edNames [t! "AffinePoint"] (t! "to_extended")
      [enc P] P.toExtended) := by
  unfold Returns
  rw [edAffine_eq]
  refine ⟨?_, ?_⟩
  · krfl
  · intro P; krfl

/-- src/curve/montgomery/montgomery.rs. -/
theorem C99_montgomery :
    (Returns F Src.montgomery edNames [t! "ProjectiveMontgomeryPoint"] (t! "identity")
      [] (ProjMont.identity : ProjMont F)) ∧
    (∀ (P : ProjMont F), Returns F Src.montgomery edNames [t! "ProjectiveMontgomeryPoint"] (t! "to_affine")
      [enc P] (Mont.mk P.toAffine)) ∧
    (∀ (P Q : ProjMont F) (c : Bool), Returns F Src.montgomery edNames [t! "ConditionallySelectable", t! "for", t! "ProjectiveMontgomeryPoint"] (t! "conditional_select")
      [enc P, enc Q, enc c] (P.select Q c)) ∧
    (∀ (P Q : ProjMont F) (u : F), Changes F Src.montgomery edNames [] (t! "differential_add_and_double")
      [enc P, enc Q, enc u] [enc (diffAddDouble P Q u).1, enc (diffAddDouble P Q u).2, enc u]) ∧
    (∀ (u : Bytes 56), Returns F Src.montgomery edNames [t! "MontgomeryPoint"] (t! "to_projective")
      [enc (Mont.mk u)] (montToProjective u : ProjMont F)) ∧
    (∀ (u : Bytes 56), Returns F Src.montgomery edNames [t! "MontgomeryPoint"] (t! "as_bytes")
      [enc (Mont.mk u)] u) ∧
    (∀ (u v : Bytes 56), Returns F Src.montgomery edNames [t! "PartialEq", t! "for", t! "MontgomeryPoint"] (t! "eq")
      [enc (Mont.mk u), enc (Mont.mk v)] (u == v)) := by
  unfold Returns Changes
  rw [montgomery_eq]
  refine ⟨?_, ?_, ?_, ?_, ?_, ?_, ?_⟩
  · krfl
  · intro P; krfl
  · intro P Q c; krfl
  · intro P Q u; krfl
  · intro u; krfl
  · intro u; krfl
  · intro u v; krfl

/-- src/field/mod.rs. -/
theorem C99_field :
    (∀ (x y : F), Returns F Src.field [] [t! "ConstantTimeEq", t! "for", t! "FieldElement"] (t! "ct_eq")
      [enc x, enc y] (feq x y)) ∧
    (∀ (x y : F), Returns F Src.field [] [t! "PartialEq", t! "for", t! "FieldElement"] (t! "eq")
      [enc x, enc y] (feq x y)) ∧
    (∀ (x : F), Returns F Src.field [] [t! "FieldElement"] (t! "is_zero")
      [enc x] (isZero x)) ∧
    (∀ (x : F), Returns F Src.field [] [t! "FieldElement"] (t! "invert")
      [enc x] (invert x)) ∧
    (∀ (x : F), Returns F Src.field [] [t! "FieldElement"] (t! "inverse_square_root")
      [enc x] (inverseSquareRoot x)) ∧
    (∀ (x y : F), Returns F Src.field [] [t! "FieldElement"] (t! "sqrt_ratio")
      [enc x, enc y] (sqrtRatio x y)) := by
  unfold Returns
  rw [field_eq]
  refine ⟨?_, ?_, ?_, ?_, ?_, ?_⟩
  · intro x y; krfl
  · intro x y; krfl
  · intro x; krfl
  · intro x; krfl
  · intro x; krfl
  · intro x y; krfl

/-- src/decaf/decaf.rs. -/
theorem C99_decaf :
    (Returns F Src.decaf twNames [t! "DecafPoint"] (t! "identity")
      [] (DecafPt.identity : DecafPt F)) ∧
    (Returns F Src.decaf twNames [t! "DecafPoint"] (t! "generator")
      [] (DecafPt.generator : DecafPt F)) ∧
    (∀ (P Q : DecafPt F), Returns F Src.decaf twNames [t! "DecafPoint"] (t! "equals")
      [enc P, enc Q] (P.equals Q)) ∧
    (∀ (P Q : DecafPt F), Returns F Src.decaf twNames [t! "DecafPoint"] (t! "sub")
      [enc P, enc Q] (P.sub Q)) ∧
    (∀ (P : DecafPt F), Returns F Src.decaf twNames [t! "DecafPoint"] (t! "compress")
      [enc P] (CDecaf.mk P.compress)) ∧
    (∀ (u : Bytes 56), Returns F Src.decaf twNames [t! "CompressedDecaf"] (t! "as_bytes")
      [enc (CDecaf.mk u)] u) ∧
    (∀ (u v : Bytes 56), Returns F Src.decaf twNames [t! "ConstantTimeEq", t! "for", t! "CompressedDecaf"] (t! "ct_eq")
      [enc (CDecaf.mk u), enc (CDecaf.mk v)] (u == v)) ∧
    (∀ (u v : Bytes 56), Returns F Src.decaf twNames [t! "PartialEq", t! "for", t! "CompressedDecaf"] (t! "eq")
      [enc (CDecaf.mk u), enc (CDecaf.mk v)] (u == v)) := by
  unfold Returns
  rw [decaf_eq]
  refine ⟨?_, ?_, ?_, ?_, ?_, ?_, ?_, ?_⟩
  · krfl
  · krfl
  · intro P Q; krfl
  · intro P Q; krfl
  · intro P; krfl
  · intro u; krfl
  · intro u v; krfl
  · intro u v; krfl

/-- src/ristretto/ristretto.rs. -/
theorem C99_ristretto :
    (Returns F Src.ristretto twNames [t! "RistrettoPoint"] (t! "identity")
      [] (RistPt.identity : RistPt F)) ∧
    (∀ (P Q : RistPt F), Returns F Src.ristretto twNames [t! "RistrettoPoint"] (t! "equals")
      [enc P, enc Q] (P.equals Q)) ∧
    (∀ (u : Bytes 56), Returns F Src.ristretto twNames [t! "CompressedRistretto"] (t! "as_bytes")
      [enc (CRist.mk u)] u) ∧
    (∀ (u v : Bytes 56), Returns F Src.ristretto twNames [t! "ConstantTimeEq", t! "for", t! "CompressedRistretto"] (t! "ct_eq")
      [enc (CRist.mk u), enc (CRist.mk v)] (u == v)) ∧
    (∀ (u v : Bytes 56), Returns F Src.ristretto twNames [t! "PartialEq", t! "for", t! "CompressedRistretto"] (t! "eq")
      [enc (CRist.mk u), enc (CRist.mk v)] (u == v)) := by
  unfold Returns
  rw [ristretto_eq]
  refine ⟨?_, ?_, ?_, ?_, ?_⟩
  · krfl
  · intro P Q; krfl
  · intro u; krfl
  · intro u v; krfl
  · intro u v; krfl

/-- A text of four lines, read and run: precedence, references and blocks. -/
example (x y : F) : (call (parseFile 200 (t! "fn f(x: &F, y: F) -> F { // comment
        let mut z = { let y = *x + y; y * y - x };
        z = z + y * x;
        z }")) [] (t! "f") (crate []) [enc x, enc y] : Option (V F L)) =
    some (.fe ((((x +ᶠ y) *ᶠ (x +ᶠ y)) -ᶠ x) +ᶠ (y *ᶠ x))) := by krfl

/-- A missing function, a wrong number of arguments, an unknown name or a count of 0 give nothing. -/
example (x : F) : (call (parseFile 200 (t! "fn f(x: &F) -> F { x * w } fn g(x: &F) -> F { x.square_n(0) }"))
      [] (t! "h") (crate []) [enc x] : Option (V F L)) = none ∧
    (call (parseFile 200 (t! "fn f(x: &F) -> F { x * w } fn g(x: &F) -> F { x.square_n(0) }"))
      [] (t! "f") (crate []) [enc x] : Option (V F L)) = none ∧
    (call (parseFile 200 (t! "fn f(x: &F) -> F { x * w } fn g(x: &F) -> F { x.square_n(0) }"))
      [] (t! "g") (crate []) [enc x] : Option (V F L)) = none ∧
    (call (parseFile 200 (t! "fn f(x: &F) -> F { x * w } fn g(x: &F) -> F { x.square_n(0) }"))
      [] (t! "g") (crate []) [] : Option (V F L)) = none := by
  refine ⟨?_, ?_, ?_, ?_⟩ <;> krfl

end Ed448.Props
