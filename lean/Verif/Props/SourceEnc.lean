import Verif.Text.EncScalar
import Verif.Props.SourceInt
import Verif.Text.Source
import Verif.Model.Edwards
import Verif.Props.Edwards
import Verif.Props.Decaf

/-!
# C103: the encodings of points, run from the text of the source files

`compress` and `CompressedEdwardsY::decompress` are run from the bytes of src/curve/edwards/extended.rs by
the interpreter of `Verif.Text.IntEval`: the loop over the bytes of `y`, the sign in the last byte, the split
of the input, the early return and the sign of `x`. `CompressedDecaf::decompress` is run from the bytes of
src/decaf/decaf.rs, with its comparison of bytes and its two early returns. The arithmetic of field elements is that of the model,
for every implementation of the field, and so are `to_affine` and `to_extended`, which C99 shows equal to
the text. `Scalar::from_canonical_bytes` is run from the bytes of src/field/scalar.rs, and so are the functions
it calls.
-/

set_option maxRecDepth 100000
set_option exponentiation.threshold 1000

namespace Ed448.Props
open Ed448.Model Ed448.Text Ed448.Edw FieldBackend

section
variable (F : Type) {L : Type} [FieldBackend F L]

/-- The operations of the model. -/
def encOps : EncOps (EdPt F) (TwPt F) F where
  o := Ops.release
  ch n := n == 1
  one := FieldBackend.one
  add x y := x +ᶠ y
  sub x y := x -ᶠ y
  mul x y := x *ᶠ y
  mulD y := EDWARDS_D F *ˡ y
  square := FieldBackend.square
  isNeg := FieldBackend.isNegative
  condNeg := FieldBackend.condNegate
  sqrtRatio := Model.sqrtRatio
  invSqrt := Model.inverseSquareRoot
  ofB l := ((Arr.ofList? 56 256 l).map fromBytes).getD FieldBackend.zero
  toB x i := (toBytes x).l.getD i 0
  negFour := NEG_FOUR_TIMES_TWISTED_D
  factor := DECAF_FACTOR
  eqB x y := x == y
  affX P := P.toAffine.x
  affY P := P.toAffine.y
  toExt x y := EdAff.toExtended ⟨x, y⟩
  tw := TwPt.mk

/-- Runs `compress` in the text of src/curve/edwards/extended.rs. -/
def compressText (P : EdPt F) : Option (IV (EV (EdPt F) (TwPt F) F)) :=
  icall ((parseFile 20000 Src.edExtended).map Fn.plain) [t! "ExtendedPoint"] (t! "compress")
    (encCtx (encOps F)) [vE (.edw P)]

/-- Runs `CompressedEdwardsY::decompress` in that text. -/
def decompressText (b : List ℕ) : Option (IV (EV (EdPt F) (TwPt F) F)) :=
  icall (parseFile 20000 Src.edExtended) [t! "CompressedEdwardsY"] (t! "decompress")
    (encCtx (encOps F)) [.arr (b.map vB)]

/-- Runs `CompressedDecaf::decompress` in the text of src/decaf/decaf.rs. -/
def decafDecompressText (b : List ℕ) : Option (IV (EV (EdPt F) (TwPt F) F)) :=
  icall (parseFile 20000 Src.decaf) [t! "CompressedDecaf"] (t! "decompress")
    (encCtx (encOps F)) [.arr (b.map vB)]

end

variable {F L : Type} [FieldBackend F L]

attribute [local irreducible] parseFile icall Fn.runIf

theorem getD_map {n : ℕ} {l : List ℕ} (h : l.length = n) : (List.range n).map (fun i => l.getD i 0) = l := by
  apply List.ext_getElem
  · simp [h]
  · intro i h1 h2
    simp [h2]

theorem ofList_self {n B : ℕ} (a : Arr n B) : Arr.ofList? n B a.l = some a := by
  unfold Arr.ofList?
  rw [dif_pos ⟨a.len, a.lt⟩]

theorem C103_compress (P : EdPt F) : compressText F P = some (.arr (P.compress.l.map vB)) := by
  unfold compressText
  rw [edExtended_eq, txt_compress]
  have e : (List.range 56).map (fun i => (vB ((encOps F).toB ((encOps F).affY P) i) :
      IV (EV (EdPt F) (TwPt F) F))) = (toBytes P.toAffine.y).l.map vB := by
    conv_rhs => rw [← getD_map (toBytes P.toAffine.y).len]
    rw [List.map_map]
    rfl
  rw [e]
  have k : ∀ b : Bool, Gen.Rt.shlU 8 b.toNat 7 = (if b then 1 else 0) <<< 7 := by decide
  show some (IV.arr (_ ++ [vB (Gen.Rt.shlU 8 (isNegative P.toAffine.x).toNat 7)])) =
    some (IV.arr (((toBytes P.toAffine.y).l ++ [(if isNegative P.toAffine.x then 1 else 0) <<< 7]).map vB))
  rw [k, List.map_append]
  rfl

theorem C103_decompress (b : Bytes 57) :
    decompressText F b.l = some (.opt ((edDecompress F b).map fun P => vE (.edw P))) := by
  unfold decompressText
  have e : b.l.map vB = (List.range 57).map fun i => (vB (b.l.getD i 0) : IV (EV (EdPt F) (TwPt F) F)) := by
    conv_lhs => rw [← getD_map b.len]
    rw [List.map_map]
    rfl
  have hs : (List.range 56).map (fun i => b.l.getD i 0) = (Bytes.slice b 0 56 (by norm_num)).l := by
    conv_lhs => rw [show (56 : ℕ) = min 56 57 from rfl, ← List.take_range, List.map_take, getD_map b.len]
    rfl
  have hy : (encOps F).ofB ((List.range 56).map fun i => b.l.getD i 0) =
      fromBytes (Bytes.slice b 0 56 (by norm_num)) := by
    rw [hs]
    show ((Arr.ofList? 56 256 _).map fromBytes).getD _ = _
    rw [ofList_self]
    rfl
  rw [e, edExtended_eq, txt_ed_decompress_if, hy]
  generalize hyy : (fromBytes (Bytes.slice b 0 56 (by norm_num)) : F) = y
  unfold edDecompress
  simp only [hyy]
  change _ = some (IV.opt (Option.map _ (if (sqrtRatio ((encOps F).sub (encOps F).one ((encOps F).square y))
    ((encOps F).sub (encOps F).one ((encOps F).mulD ((encOps F).square y)))).2 = false then none else _)))
  rcases h : (encOps F).sqrtRatio ((encOps F).sub (encOps F).one ((encOps F).square y))
    ((encOps F).sub (encOps F).one ((encOps F).mulD ((encOps F).square y))) with ⟨x, r⟩
  have h' : sqrtRatio ((encOps F).sub (encOps F).one ((encOps F).square y))
    ((encOps F).sub (encOps F).one ((encOps F).mulD ((encOps F).square y))) = (x, r) := h
  cases r
  · rw [h', if_pos rfl]
    exact txt_ed_decompress_none _ _ _ _ _ _
  · rw [h', if_neg (by simp)]
    refine (txt_ed_decompress_some (encOps F) (fun i => b.l.getD i 0) y _ _ (x, true)).trans ?_
    have hr : sqrtRatio (one -ᶠ square y) (one -ᶠ (EDWARDS_D F *ˡ square y)) = (x, true) := h
    rw [hr]
    rfl

theorem C103_decaf_decompress (b : Bytes 56) :
    decafDecompressText F b.l = some (.opt ((decafDecompress F b).map fun P => vE (.tw P.pt))) := by
  unfold decafDecompressText
  have e : b.l.map vB = (List.range 56).map fun i => (vB (b.l.getD i 0) : IV (EV (EdPt F) (TwPt F) F)) := by
    conv_lhs => rw [← getD_map b.len]
    rw [List.map_map]
    rfl
  have hs : (encOps F).ofB ((List.range 56).map fun i => b.l.getD i 0) = fromBytes b := by
    rw [getD_map b.len]
    show ((Arr.ofList? 56 256 _).map fromBytes).getD _ = _
    rw [ofList_self]
    rfl
  rw [e, decaf_eq, txt_decaf_decompress _ _ hs rfl rfl rfl]
  have ht : (List.range 56).map ((encOps F).toB (fromBytes b)) = (toBytes (fromBytes b : F)).l :=
    getD_map (toBytes (fromBytes b : F)).len
  rw [ht, getD_map b.len]
  unfold decafDecompress
  generalize (fromBytes b : F) = s
  have hb : (encOps F).eqB (toBytes s).l b.l = (toBytes s == b) := by
    rw [Bool.eq_iff_iff]
    show ((toBytes s).l == b.l) = true ↔ _
    rw [beq_iff_eq, beq_iff_eq, Arr.ext_iff]
  rw [hb]
  have t0 : ∀ x : Bool, (x.toNat == 0) = !x := by decide
  have t1 : ∀ x : Bool, (x.toNat == 1) = x := by decide
  rw [t0, t1, t0]
  dsimp only
  by_cases h : (toBytes s == b) = false ∨ isNegative s = true
  · rw [if_pos h]
    have : (!(toBytes s == b) || (encOps F).isNeg s) = true := by
      rcases h with h | h
      · rw [h]; rfl
      · rw [show (encOps F).isNeg s = true from h, Bool.or_true]
    rw [this]
    rfl
  · rw [if_neg h]
    have : (!(toBytes s == b) || (encOps F).isNeg s) = false := by
      rw [not_or] at h
      rw [Bool.not_eq_false] at h
      rw [h.1, show (encOps F).isNeg s = false from Bool.eq_false_iff.mpr h.2]
      rfl
    rw [this]
    have hq : inverseSquareRoot ((square s *ᶠ NEG_FOUR_TIMES_TWISTED_D +ᶠ square (one -ᶠ square s)) *ᶠ
      square (one -ᶠ square s)) = (encOps F).invSqrt ((encOps F).mul ((encOps F).add ((encOps F).mul
        ((encOps F).square s) (encOps F).negFour) ((encOps F).square ((encOps F).sub (encOps F).one
        ((encOps F).square s)))) ((encOps F).square ((encOps F).sub (encOps F).one ((encOps F).square s)))) := rfl
    rw [hq]
    generalize (encOps F).invSqrt _ = q
    obtain ⟨x, r⟩ := q
    cases r <;> rfl

/-- The text encodes as Ed448 does, decodes what it has encoded, and accepts exactly the encodings of a
coordinate `y` of a point; what the text for Decaf decodes encodes to the bytes it came from. -/
theorem C103_values [Lawful F] :
    (∀ {P : EdPt F} {R : E}, Rep P R → ∃ b : Bytes 57, compressText F P = some (.arr (b.l.map vB)) ∧
      b.val = R.y.val + 2 ^ 455 * (R.x.val % 2)) ∧
    (∀ {P : EdPt F}, EdReach P → ∃ (b : Bytes 57) (Q : EdPt F), compressText F P = some (.arr (b.l.map vB)) ∧
      decompressText F b.l = some (.opt (some (vE (.edw Q)))) ∧ Q.eq P = true) ∧
    (∀ b : Bytes 57, decompressText F b.l = some (.opt none) ↔
      ¬ ∃ R : E, R.y = ((b.val % 2 ^ 448 : ℕ) : Fp)) ∧
    (∀ (b : Bytes 56) (P : TwPt F), decafDecompressText F b.l = some (.opt (some (vE (.tw P)))) →
      (DecafPt.mk P).compress = b) := by
  refine ⟨fun {P R} h => ⟨_, C103_compress P, C21_compress_value h⟩, fun {P} h => ?_, fun b => ?_,
    fun b P h => ?_⟩
  · obtain ⟨Q, e, k⟩ := C20_round_trip h
    exact ⟨_, Q, C103_compress P, (C103_decompress _).trans (by rw [e]; rfl), k⟩
  · rw [C103_decompress, ← (C22_decompress_accepts (F := F) b).1]
    cases edDecompress F b with
    | none => simp
    | some P => simp
  · rw [C103_decaf_decompress] at h
    cases e : decafDecompress F b with
    | none => rw [e] at h; simp at h
    | some Q =>
      rw [e] at h
      simp only [Option.map_some, Option.some.injEq, IV.opt.injEq, vE, IV.int.injEq, EV.tw.injEq, true_and] at h
      subst h
      exact C38_unique b e

/-! ## Scalars -/

/-- `from_bytes`, `sub_extra` and `to_bytes` in the text of src/field/scalar.rs, run in a release build. -/
def fbText (l : List ℕ) : List ℕ :=
  ((scalarText Ops.release [t! "Scalar"] (t! "from_bytes") [encW (.u 8) l]).bind decW).getD []
def seText (x m : List ℕ) (k : ℕ) : List ℕ :=
  ((scalarText Ops.release [] (t! "sub_extra") [encW (.u 32) x, encW (.u 32) m, .int (.u 32) (.n k)]).bind
    decW).getD []
def tbText (x : List ℕ) : List ℕ := ((methText (t! "to_bytes") x).bind decW).getD []

/-- Runs `from_canonical_bytes` in that text; scalars are equal if their bytes are
(/repo/src/field/scalar.rs:27-37). -/
def canonText (b : List ℕ) : Option (IV Num) :=
  icall (parseFile 20000 Src.scalar) [t! "Scalar"] (t! "from_canonical_bytes")
    (canonCtx Ops.release fbText seText fun x y => tbText x == tbText y) [encW (.u 8) b]

theorem fbText_eq (b : Bytes 56) : fbText b.l = (Scalar.fromBytes b).l := by
  obtain ⟨r, e1, e2⟩ := C100_scalar_codec.2.2.2.2.1 b.l (Arr.words b)
  obtain rfl := Option.some_inj.mp (e1.symm.trans (Proofs.Source.from_bytes b))
  exact congrArg (Option.getD · []) e2

theorem tbText_eq (s : Scalar) : tbText s.l = s.toBytes.l := by
  obtain ⟨r, e1, e2⟩ := C100_scalar_codec.1 s.l (Arr.words s)
  obtain rfl := Option.some_inj.mp (e1.symm.trans (Proofs.Source.to_bytes s))
  exact congrArg (Option.getD · []) e2

theorem seText_eq (x y : Scalar) : ∃ r, subExtra x y 0 = some r ∧ seText x.l y.l 0 = r.l := by
  obtain ⟨r, e, -⟩ := subExtra_spec x y 0 (by norm_num)
  refine ⟨r, e, ?_⟩
  have h1 : Gen.scalar.sub_extra x.l y.l 0 = some r.l := (Proofs.Source.sub_extra x y 0).trans (by rw [e]; rfl)
  have h2 := (inferInstance : Rel.Ref (Gen.scalar.sub_extra x.l y.l 0) (Rel.scalar.sub_extra x.l y.l 0)).ref _ h1
  unfold seText
  rw [txt_sub_extra Ops.release x.len y.len, scalar_sub_extra_release, h2]
  rfl

theorem C103_from_canonical_bytes (b : Bytes 57) :
    canonText b.l = (Scalar.fromCanonicalBytes b).map fun o => .opt (o.map fun s => .obj s.l) := by
  have e : encW (.u 8) b.l = .arr ((List.range 57).map fun i => .int (.u 8) (.n (b.l.getD i 0))) := by
    unfold encW
    conv_lhs => rw [← getD_map b.len]
    rw [List.map_map]
    rfl
  have hs : (List.range 56).map (fun i => b.l.getD i 0) = (Bytes.slice b 0 56 (by norm_num)).l := by
    conv_lhs => rw [show (56 : ℕ) = min 56 57 from rfl, ← List.take_range, List.map_take, getD_map b.len]
    rfl
  obtain ⟨r, e1, e2⟩ := seText_eq (Scalar.fromBytes (Bytes.slice b 0 56 (by norm_num))) MODULUS
  unfold canonText
  rw [e, Text.scalar_eq, txt_from_canonical_bytes _ _ _ _ _ (by rw [hs]; exact fbText_eq _) e2, tbText_eq, tbText_eq]
  unfold Scalar.fromCanonicalBytes
  dsimp only
  rw [e1]
  by_cases h : Arr.get b 56 ≠ 0 ∨ Arr.get b 55 >>> 6 ≠ 0
  · rw [if_pos h]
    have : (!(b.l.getD 56 0 == 0) || !(Ops.release.shrU (b.l.getD 55 0) 6 == 0)) = true := by
      simpa [Arr.get, Ops.release, ← or_iff_not_imp_left] using h
    rw [this]
    rfl
  · rw [if_neg h]
    have : (!(b.l.getD 56 0 == 0) || !(Ops.release.shrU (b.l.getD 55 0) 6 == 0)) = false := by
      simpa [Arr.get, Ops.release] using h
    rw [this]
    have he : ∀ s t : Scalar, (s.toBytes.l == t.toBytes.l) = Scalar.eq s t := fun s t => by
      unfold Scalar.eq
      rw [Bool.eq_iff_iff, beq_iff_eq, decide_eq_true_iff, Arr.ext_iff]
    rw [he]
    show some (IV.opt (bif Scalar.eq _ r then _ else _)) = some (IV.opt (Option.map _ (if Scalar.eq _ r = true then _ else _)))
    cases Scalar.eq (Scalar.fromBytes (Bytes.slice b 0 56 (by norm_num))) r <;> rfl

/-- The text accepts exactly the numbers below the order. -/
theorem C103_canonical_values (b : Bytes 57) :
    (b.val < ell → ∃ s : Scalar, canonText b.l = some (.opt (some (.obj s.l))) ∧ s.val = b.val) ∧
    (ell ≤ b.val → canonText b.l = some (.opt none)) := by
  obtain ⟨o, e, h1, h2⟩ := C07_from_canonical_bytes b
  rw [C103_from_canonical_bytes, e]
  refine ⟨fun h => ?_, fun h => by rw [h2 h]; rfl⟩
  obtain ⟨s, rfl, hv, -⟩ := h1 h
  exact ⟨s, rfl, hv⟩

/-- One less than the order and the order. -/
example : canonText lMinusOne.toBytesRfc8032.l = some (.opt (some (.obj lMinusOne.l))) ∧
    canonText MODULUS.toBytesRfc8032.l = some (.opt none) := by
  rw [C103_from_canonical_bytes, C103_from_canonical_bytes,
    (by decide +kernel : Scalar.fromCanonicalBytes lMinusOne.toBytesRfc8032 = some (some lMinusOne)),
    (by decide +kernel : Scalar.fromCanonicalBytes MODULUS.toBytesRfc8032 = some none)]
  exact ⟨rfl, rfl⟩

/-- Integers in place of field elements, pairs of them in place of points. -/
def toyOps : EncOps (ℕ × ℕ) Unit ℕ where
  o := Ops.release
  ch n := n == 1
  one := 1
  add := Nat.add
  sub := Nat.sub
  mul := Nat.mul
  mulD := Nat.mul 3
  square x := x * x
  isNeg x := x % 2 == 1
  condNeg x b := bif b then 100 - x else x
  sqrtRatio n _ := (n + 7, Nat.beq n 1)
  invSqrt x := (x, true)
  ofB l := l.getD 0 0
  toB x i := x / 256 ^ i % 256
  negFour := 4
  factor := 1
  eqB x y := x == y
  affX P := P.1
  affY P := P.2
  toExt x y := (x, y)
  tw _ _ _ _ := ()

/-- The text run with these: the bytes of `y`, then the sign of `x`. -/
example : icall ((parseFile 20000 Src.edExtended).map Fn.plain) [t! "ExtendedPoint"] (t! "compress")
    (encCtx toyOps) [vE (.edw (3, 1000))] =
    some (.arr (([232, 3] ++ List.replicate 54 0 ++ [128]).map vB)) := by
  rw [edExtended_eq, txt_compress]
  krfl

/-- A root, negated for the sign in the last byte; and no root. -/
example : icall Ast.edExtended [t! "CompressedEdwardsY"] (t! "decompress") (encCtx toyOps)
      [.arr ((List.replicate 56 0 ++ [128]).map vB)] = some (.opt (some (vE (.edw (92, 0))))) ∧
    icall Ast.edExtended [t! "CompressedEdwardsY"] (t! "decompress") (encCtx toyOps)
      [.arr ((List.replicate 56 0 ++ [127]).map vB)] = some (.opt (some (vE (.edw (8, 0))))) ∧
    icall Ast.edExtended [t! "CompressedEdwardsY"] (t! "decompress") (encCtx toyOps)
      [.arr (([1] ++ List.replicate 56 0).map vB)] = some (.opt none) := by
  refine ⟨?_, ?_, ?_⟩ <;> krfl

/-- The two early returns and the result of the text for Decaf. -/
example : icall Ast.decaf [t! "CompressedDecaf"] (t! "decompress") (encCtx toyOps)
      [.arr (([2] ++ List.replicate 55 0).map vB)] = some (.opt (some (vE (.tw ())))) ∧
    icall Ast.decaf [t! "CompressedDecaf"] (t! "decompress") (encCtx toyOps)
      [.arr (([3] ++ List.replicate 55 0).map vB)] = some (.opt none) ∧
    icall Ast.decaf [t! "CompressedDecaf"] (t! "decompress") (encCtx toyOps)
      [.arr (([2, 1] ++ List.replicate 54 0).map vB)] = some (.opt none) := by
  refine ⟨?_, ?_, ?_⟩ <;> krfl

/-- The text accepts `y = 0` and rejects `y = 2`. -/
example : decompressText Fast (Arr.ofVal 57 256 (by norm_num) 0).l ≠ some (.opt none) ∧
    decompressText Fast (Arr.ofVal 57 256 (by norm_num) 2).l = some (.opt none) := by
  have h : (edDecompress Fast (Arr.ofVal 57 256 (by norm_num) 0)).isSome = true ∧
      (edDecompress Fast (Arr.ofVal 57 256 (by norm_num) 2)).isSome = false := by decide +kernel
  rw [C103_decompress, C103_decompress, Option.isSome_eq_false_iff.mp h.2 |> Option.isNone_iff_eq_none.mp]
  obtain ⟨P, e⟩ := Option.isSome_iff_exists.mp h.1
  rw [e]
  simp

end Ed448.Props
