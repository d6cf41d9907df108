import Verif.Text.IntInvert
import Verif.Text.IntField
import Verif.Text.Bridge
import Verif.Proofs.Trace
import Verif.Props.Release

/-!
# C100: the integer code, run from the text of the source files

`Verif.Text.Source` has the bytes of src/field/scalar.rs, src/field/u32/prime_field.rs and
src/field/u32/karatsuba.rs. They are read by the parser of `Verif.Text.Syntax` and run by the interpreter
of `Verif.Text.IntEval`. The results are those of the mechanical translation: for any operations on
machine integers (`C100_any_…`), and so for those of a release build, for which C64 and C65 say what the
values are.
-/

set_option maxRecDepth 100000
set_option exponentiation.threshold 1000

namespace Ed448.Props
open Ed448.Model Ed448.Text Ed448.Proofs

/-- The operators of `Scalar` in the text. -/
def opText (op name : ℕ) (x : List ℕ × List ℕ) : Option (List ℕ) :=
  (scalarText Ops.release [op, t! "Scalar", t! "for", t! "Scalar"] name
    [encW (.u 32) x.1, encW (.u 32) x.2]).bind decW

/-- The methods of `Scalar` in the text. -/
def methText (name : ℕ) (a : List ℕ) : Option (IV Num) :=
  scalarText Ops.release [t! "Scalar"] name [encW (.u 32) a]

/-- The operators of `FieldElement28` in the text. -/
def feOpText (op name : ℕ) (x : List ℕ × List ℕ) : Option (List ℕ) :=
  (fieldText Ops.release [op, t! "FieldElement28", t! "for", t! "FieldElement28"] name
    [encW (.u 32) x.1, encW (.u 32) x.2]).bind decW

/-- src/field/scalar.rs, for any arithmetic. -/
theorem C100_any_scalar (o : Ops) {a b c : List ℕ} (k : ℕ) (ha : a.length = 14) (hb : b.length = 14)
    (hc : c.length = 56) :
    (scalarText o [] (t! "sub_extra") [encW (.u 32) a, encW (.u 32) b, .int (.u 32) (.n k)]).bind decW =
      Par.scalar.sub_extra o a b k ∧
    (scalarText o [] (t! "add") [encW (.u 32) a, encW (.u 32) b]).bind decW = Par.scalar.add o a b ∧
    (scalarText o [] (t! "montgomery_multiply") [encW (.u 32) a, encW (.u 32) b]).bind decW =
      Par.scalar.montgomery_multiply o a b ∧
    (scalarText o [t! "Scalar"] (t! "halve") [encW (.u 32) a]).bind decW = Par.Scalar.halve o a ∧
    (scalarTextMut o [t! "Scalar"] (t! "div_by_four") [encW (.u 32) a]).bind decW =
      Par.Scalar.div_by_four o a ∧
    (scalarText o [t! "Scalar"] (t! "to_bytes") [encW (.u 32) a]).bind decW = Par.Scalar.to_bytes o a ∧
    (scalarText o [t! "Scalar"] (t! "to_radix_16") [encW (.u 32) a]).bind decZ =
      Par.Scalar.to_radix_16 o a ∧
    (scalarText o [t! "Scalar"] (t! "from_bytes") [encW (.u 8) c]).bind decW = Par.Scalar.from_bytes o c :=
  ⟨txt_sub_extra o ha hb k, txt_add o ha hb, txt_montgomery_multiply o ha hb, txt_halve o ha,
    txt_div_by_four o ha, txt_to_bytes o ha, txt_to_radix_16 o ha, txt_from_bytes o hc⟩

/-- src/field/u32, for any arithmetic. -/
theorem C100_any_field (o : Ops) {a b c : List ℕ} (k : ℕ) (ha : a.length = 16) (hb : b.length = 16)
    (hc : c.length = 56) :
    (karatsubaText o [] (t! "mul") [encW (.u 32) a, encW (.u 32) b]).bind decW = Par.karatsuba.mul o a b ∧
    (karatsubaText o [] (t! "square") [encW (.u 32) a]).bind decW = Par.karatsuba.square o a ∧
    (fieldText o [t! "FieldElement28"] (t! "add_no_reduce") [encW (.u 32) a, encW (.u 32) b]).bind decW =
      Par.FieldElement28.add_no_reduce o a b ∧
    (fieldText o [t! "FieldElement28"] (t! "sub_no_reduce") [encW (.u 32) a, encW (.u 32) b]).bind decW =
      some (Par.FieldElement28.sub_no_reduce o a b) ∧
    (fieldText o [t! "FieldElement28"] (t! "bias") [encW (.u 32) a, .int (.u 32) (.n k)]).bind decW =
      Par.FieldElement28.bias o a k ∧
    (fieldTextMut o [t! "FieldElement28"] (t! "weak_reduce") [encW (.u 32) a]).bind decW =
      Par.FieldElement28.weak_reduce o a ∧
    (fieldTextMut o [t! "FieldElement28"] (t! "strong_reduce") [encW (.u 32) a]).bind decW =
      Par.FieldElement28.strong_reduce o a ∧
    (fieldText o [t! "FieldElement28"] (t! "from_bytes") [encW (.u 8) c]).bind decW =
      Par.FieldElement28.from_bytes o c :=
  ⟨txt_mul o ha hb, txt_ksquare o ha, txt_fe_add_no_reduce o ha hb, txt_fe_sub_no_reduce o ha hb,
    txt_fe_bias o ha k, txt_fe_weak_reduce o ha, txt_fe_strong_reduce o ha, txt_fe_from_bytes o hc⟩

theorem sameText {ι α : Type} {S : ι → Prop} {g f t : ι → Option α} (h : SameBuild S g f)
    (e : ∀ x, S x → t x = f x) : SameBuild S g t := fun x hx => by
  obtain ⟨r, h1, h2⟩ := h x hx
  exact ⟨r, h1, (e x hx).trans h2⟩

/-- `montgomery_multiply` and `add` in the text are those of the model. -/
theorem scalarFn_mm (x y : Scalar) : ∃ r, montMul x y = some r ∧
    scalarFn (t! "montgomery_multiply") x.l y.l = r.l := by
  obtain ⟨r, e, -⟩ := montMul_spec x y
  refine ⟨r, e, ?_⟩
  have h1 : Gen.scalar.montgomery_multiply x.l y.l = some r.l :=
    (Source.montgomery_multiply x y).trans (by rw [e]; rfl)
  have h2 := (inferInstance : Rel.Ref (Gen.scalar.montgomery_multiply x.l y.l)
    (Rel.scalar.montgomery_multiply x.l y.l)).ref _ h1
  unfold scalarFn
  rw [txt_montgomery_multiply Ops.release x.len y.len, scalar_montgomery_multiply_release, h2]
  rfl

theorem scalarFn_add (x y : Scalar) : ∃ r, Scalar.add x y = some r ∧
    scalarFn (t! "add") x.l y.l = r.l := by
  obtain ⟨r, e, -⟩ := C70_add_iff x y
  refine ⟨r, e, ?_⟩
  have h1 : Gen.scalar.add x.l y.l = some r.l := by
    have := Source.op_add x y
    rw [Gen.Scalar.op_add, e, Source.bind_id] at this
    exact this
  have h2 := (inferInstance : Rel.Ref (Gen.scalar.add x.l y.l) (Rel.scalar.add x.l y.l)).ref _ h1
  unfold scalarFn
  rw [txt_add Ops.release x.len y.len, scalar_add_release, h2]
  rfl

theorem objText (head : List ℕ) (name : ℕ) (args : List (IV Num)) :
    scalarTextObj head name args = icall Ast.scalar head name (scalarObjCtx Ast.scalar
      (scalarFn (t! "montgomery_multiply")) (scalarFn (t! "add"))) args := by
  unfold scalarTextObj
  rw [Text.scalar_eq]

/-- The arithmetic of src/field/scalar.rs in its text returns, on any 14 words, what the translation
returns. -/
theorem C100_scalar_arithmetic :
    SameBuild W14₂ (fun x => Gen.Scalar.op_add x.1 x.2) (opText (t! "Add") (t! "add")) ∧
    SameBuild W14₂ (fun x => Gen.Scalar.op_sub x.1 x.2) (opText (t! "Sub") (t! "sub")) ∧
    SameBuild W14₂ (fun x => Gen.Scalar.op_mul x.1 x.2) (fun x =>
      (scalarTextObj [t! "Mul", t! "Scalar", t! "for", t! "Scalar"] (t! "mul")
        [.obj x.1, .obj x.2]).bind decW) ∧
    SameBuild W14 Gen.Scalar.square
      (fun a => (scalarTextObj [t! "Scalar"] (t! "square") [.obj a]).bind decW) ∧
    SameBuild W14 Gen.Scalar.invert
      (fun a => (scalarTextObj [t! "Scalar"] (t! "invert") [.obj a]).bind decW) ∧
    SameBuild W14 Gen.Scalar.halve (fun a => (methText (t! "halve") a).bind decW) ∧
    SameBuild W14 Gen.Scalar.div_by_four (fun a =>
      (scalarTextMut Ops.release [t! "Scalar"] (t! "div_by_four") [encW (.u 32) a]).bind decW) := by
  obtain ⟨h1, h2, -, -, -, -, h7, h8⟩ := C76_release_scalar_arithmetic
  refine ⟨sameText h1 fun x h => ?_, sameText h2 fun x h => ?_, fun x h => ?_, fun a h => ?_, fun a h => ?_,
    sameText h7 fun x h => ?_, sameText h8 fun x h => ?_⟩
  · exact (txt_op_add Ops.release h.1.1 h.2.1).trans (by rw [Scalar_op_add_release])
  · exact (txt_op_sub Ops.release h.1.1 h.2.1).trans (by rw [Scalar_op_sub_release])
  · obtain ⟨u, e1, f1⟩ := scalarFn_mm h.1.arr h.2.arr
    obtain ⟨r, e2, f2⟩ := scalarFn_mm u R2
    refine ⟨r.l, (Source.op_mul h.1.arr h.2.arr).trans ?_, ?_⟩
    · simp only [Scalar.mul, e1, Option.bind_eq_bind, Option.bind_some, e2, Option.map_some]
    · dsimp only
      rw [objText, txt_op_mul]
      exact congrArg some ((congrArg₂ (scalarFn (t! "montgomery_multiply")) f1 rfl).trans f2)
  · obtain ⟨u, e1, f1⟩ := scalarFn_mm h.arr h.arr
    refine ⟨u.l, (Source.scalar_square h.arr).trans (by rw [Scalar.square, e1]; rfl), ?_⟩
    dsimp only
    rw [objText, txt_square]
    exact congrArg some f1
  · choose M hM hL using scalarFn_mm
    have hm : montMul = fun x y => some (M x y) := funext fun x => funext fun y => hM x y
    have hloop := invLoop_map M (scalarFn (t! "montgomery_multiply")) (fun s : Scalar => s.l)
      (fun x y => (hL x y).symm) Scalar.zero (M h.arr R2)
    have hG := Source.invert h.arr
    rw [Scalar.invert, hm] at hG
    simp only [Option.bind_eq_bind, Option.bind_some] at hG
    obtain ⟨r, hr⟩ : ∃ r, invLoop (fun x y => some (M x y)) Scalar.zero (M h.arr R2) = some r :=
      ⟨_, invLoop_chain M _ _⟩
    rw [hr] at hloop hG
    refine ⟨(M r Scalar.one).l, hG.trans rfl, ?_⟩
    dsimp only
    rw [objText, txt_invert]
    have e0 : scalarFn (t! "montgomery_multiply") a R2words = (M h.arr R2).l := hL h.arr R2
    rw [e0]
    have hz : Scalar.zero.l = [0, 0, 0, 0, 0, 0, 0, 0, 0, 0, 0, 0, 0, 0] := rfl
    rw [← hz, hloop]
    exact congrArg some (hL r Scalar.one)
  · exact (txt_halve Ops.release h.1).trans (by rw [Scalar_halve_release])
  · exact (txt_div_by_four Ops.release h.1).trans (by rw [Scalar_div_by_four_release])

/-- The encodings and recodings of src/field/scalar.rs in its text. -/
theorem C100_scalar_codec :
    SameBuild W14 Gen.Scalar.to_bytes (fun a => (methText (t! "to_bytes") a).bind decW) ∧
    SameBuild W14 Gen.Scalar.to_bytes_rfc_8032 (fun a => (methText (t! "to_bytes_rfc_8032") a).bind decW) ∧
    SameBuild W14 Gen.Scalar.bits (fun a => (methText (t! "bits") a).bind decB) ∧
    SameBuild W14 Gen.Scalar.to_radix_16 (fun a => (methText (t! "to_radix_16") a).bind decZ) ∧
    SameBuild (Words 56 256) Gen.Scalar.from_bytes (fun b =>
      (scalarText Ops.release [t! "Scalar"] (t! "from_bytes") [encW (.u 8) b]).bind decW) ∧
    SameBuild (Words 114 256) Gen.Scalar.from_bytes_mod_order_wide (fun b =>
      (scalarTextObj [t! "Scalar"] (t! "from_bytes_mod_order_wide") [encW (.u 8) b]).bind decW) := by
  obtain ⟨h1, h2, h3, -, -, h6, h7⟩ := C76_release_scalar_codec
  refine ⟨sameText h1 fun x h => ?_, sameText h2 fun x h => ?_, sameText h6 fun x h => ?_,
    sameText h7 fun x h => ?_, sameText h3 fun x h => ?_, fun b h => ?_⟩
  · exact (txt_to_bytes Ops.release h.1).trans (by rw [Scalar_to_bytes_release])
  · exact (txt_to_bytes_rfc_8032 Ops.release h.1).trans (by rw [Scalar_to_bytes_rfc_8032_release])
  · exact (txt_bits h.1).trans (by rw [Scalar_bits_release])
  · exact (txt_to_radix_16 Ops.release h.1).trans (by rw [Scalar_to_radix_16_release])
  · exact (txt_from_bytes Ops.release h.1).trans (by rw [Scalar_from_bytes_release])
  · have fb : ∀ c : Bytes 56, (Rel.Scalar.from_bytes c.l).getD [] = (Scalar.fromBytes c).l := fun c => by
      obtain ⟨r, e1, e2⟩ := h3 c.l (Arr.words c)
      have := e1.symm.trans (Source.from_bytes c)
      rw [e2, Option.some_inj.mp this]
      rfl
    obtain ⟨lo, e1, f1⟩ := scalarFn_mm (Scalar.fromBytes (Bytes.slice h.arr 0 56 (by norm_num))) Rconst
    obtain ⟨hi, e2, f2⟩ := scalarFn_mm (Scalar.fromBytes (Bytes.slice h.arr 56 56 (by norm_num))) R2
    obtain ⟨t, e3, f3⟩ := scalarFn_mm (Scalar.fromBytes (wideTop h.arr)) R2
    obtain ⟨t', e4, f4⟩ := scalarFn_mm t R2
    obtain ⟨s, e5, f5⟩ := scalarFn_add lo hi
    obtain ⟨r, e6, f6⟩ := scalarFn_add s t'
    refine ⟨r.l, (Source.from_bytes_mod_order_wide h.arr).trans ?_, ?_⟩
    · simp only [Scalar.fromBytesModOrderWide, e1, e2, e3, e4, e5, e6, Option.bind_eq_bind,
        Option.bind_some, Option.map_some]
    · dsimp only
      rw [objText]
      rw [← fb] at f1 f2 f3
      rw [txt_wide _ _ h.1]
      refine congrArg some (Eq.trans ?_ f6)
      rw [← f5, ← f4, ← f3, ← f2, ← f1]
      krfl

/-- The arithmetic and the encodings of src/field/u32 in its text, on any limbs within the bound. -/
theorem C100_field :
    SameBuild Limbs28₂ (fun x => Gen.FieldElement28.op_add x.1 x.2) (feOpText (t! "Add") (t! "add")) ∧
    SameBuild Limbs28₂ (fun x => Gen.FieldElement28.op_sub x.1 x.2) (feOpText (t! "Sub") (t! "sub")) ∧
    SameBuild Limbs28₂ (fun x => Gen.FieldElement28.op_mul x.1 x.2) (feOpText (t! "Mul") (t! "mul")) ∧
    SameBuild Limbs28 Gen.FieldElement28.square (fun a =>
      (fieldText Ops.release [t! "FieldElement28"] (t! "square") [encW (.u 32) a]).bind decW) ∧
    SameBuild Limbs28 Gen.FieldElement28.negate (fun a =>
      (fieldText Ops.release [t! "FieldElement28"] (t! "negate") [encW (.u 32) a]).bind decW) ∧
    SameBuild Limbs28 Gen.FieldElement28.to_bytes (fun a =>
      (fieldTextObj [t! "FieldElement28"] (t! "to_bytes") [.obj a]).bind decW) ∧
    SameBuild (Words 56 256) Gen.FieldElement28.from_bytes (fun b =>
      (fieldText Ops.release [t! "FieldElement28"] (t! "from_bytes") [encW (.u 8) b]).bind decW) := by
  obtain ⟨h1, h2, h3, h4, h5, h6, h7, -⟩ := C76_release_field_u32
  refine ⟨sameText h1 fun x h => ?_, sameText h2 fun x h => ?_, sameText h3 fun x h => ?_,
    sameText h4 fun x h => ?_, sameText h5 fun x h => ?_, sameText h6 fun a h => ?_,
    sameText h7 fun x h => ?_⟩
  · exact (txt_fe_add Ops.release h.1.1 h.2.1).trans (by rw [FieldElement28_op_add_release])
  · exact (txt_fe_sub Ops.release h.1.1 h.2.1).trans (by rw [FieldElement28_op_sub_release])
  · exact (txt_fe_mul Ops.release h.1.1 h.2.1).trans (by rw [FieldElement28_op_mul_release])
  · exact (txt_fe_square Ops.release h.1).trans (by rw [FieldElement28_square_release])
  · exact (txt_fe_negate Ops.release h.1).trans (by rw [FieldElement28_negate_release])
  · obtain ⟨r, -, e⟩ := h6 a h
    rw [← FieldElement28_to_bytes_release, to_bytes_par] at e ⊢
    obtain ⟨q, hq, -⟩ : ∃ q, Par.FieldElement28.strong_reduce Ops.release a = some q ∧ True := by
      cases hs : Par.FieldElement28.strong_reduce Ops.release a with
      | none => rw [hs] at e; cases e
      | some q => exact ⟨q, rfl, trivial⟩
    have hlen : q.length = 16 := by
      obtain ⟨d0, d1, d2, d3, d4, d5, d6, d7, d8, d9, d10, d11, d12, d13, d14, d15, hb⟩ := len16 h.1
      rw [hb, strong_par] at hq
      generalize (strongRun _ _).1.getD 1 false = c1 at hq
      generalize (strongRun _ _).1.getD 0 false = c2 at hq
      cases c1 <;> cases c2 <;> simp only [Gen.Rt.require, Option.bind_some, Option.bind_none,
        if_true, if_false, reduceCtorEq, Bool.false_eq_true, Option.some.injEq] at hq
      rw [← hq]
      krfl
    unfold fieldTextObj
    rw [u32Field_eq, txt_fe_to_bytes, txt_fe_strong_reduce _ h.1, hq]
    exact congrArg (bytesOf Ops.release) (ex16_eq hlen)
  · exact (txt_fe_from_bytes Ops.release h.1).trans (by rw [FieldElement28_from_bytes_release])

/-- What the texts compute: products and inverses modulo the order, and products modulo the prime. -/
theorem C100_values :
    (∀ a b, W14 a → W14 b → ∃ r, (scalarTextObj [t! "Mul", t! "Scalar", t! "for", t! "Scalar"] (t! "mul")
        [.obj a, .obj b]).bind decW = some r ∧ W14 r ∧
      wval (2 ^ 32) r = wval (2 ^ 32) a * wval (2 ^ 32) b % ell) ∧
    (∀ a, W14 a → ¬ ell ∣ wval (2 ^ 32) a → ∃ r,
      (scalarTextObj [t! "Scalar"] (t! "invert") [.obj a]).bind decW = some r ∧ W14 r ∧
      wval (2 ^ 32) a * wval (2 ^ 32) r % ell = 1) ∧
    (∀ a b, Limbs28 a → Limbs28 b → ∃ r, feOpText (t! "Mul") (t! "mul") (a, b) = some r ∧ Limbs28 r ∧
      (wval (2 ^ 28) r : Fp) = wval (2 ^ 28) a * wval (2 ^ 28) b) ∧
    (∀ a, Limbs28 a → ∃ r, (fieldTextObj [t! "FieldElement28"] (t! "to_bytes") [.obj a]).bind decW = some r ∧
      Words 56 256 r ∧ wval 256 r = wval (2 ^ 28) a % p) := by
  refine ⟨fun a b ha hb => ?_, fun a ha hn => ?_, fun a b ha hb => ?_, fun a ha => ?_⟩
  · obtain ⟨r, e, h⟩ := (C64_source_scalar_ring ha hb).1
    obtain ⟨s, e1, e2⟩ := C100_scalar_arithmetic.2.2.1 (a, b) ⟨ha, hb⟩
    obtain rfl := Option.some_inj.mp (e.symm.trans e1)
    exact ⟨r, e2, h⟩
  · obtain ⟨r, e, hr, -, h, -⟩ := (C64_source_scalar_invert ha).1
    obtain ⟨s, e1, e2⟩ := C100_scalar_arithmetic.2.2.2.2.1 a ha
    obtain rfl := Option.some_inj.mp (e.symm.trans e1)
    refine ⟨r, e2, hr, ?_⟩
    obtain ⟨q, e3, -, e4⟩ := (C64_source_scalar_ring ha hr).1
    obtain rfl := Option.some_inj.mp (e3.symm.trans (h hn))
    rw [← e4]
    decide +kernel
  · obtain ⟨-, -, ⟨r, e, h⟩, -⟩ := C65_source_field_arithmetic ha hb
    obtain ⟨s, e1, e2⟩ := C100_field.2.2.1 (a, b) ⟨ha, hb⟩
    obtain rfl := Option.some_inj.mp (e.symm.trans e1)
    exact ⟨r, e2, h⟩
  · obtain ⟨r, e, h⟩ := (C65_source_field_codec ha (Arr.words (⟨List.replicate 56 0, rfl, by
      intro x hx; rw [List.eq_of_mem_replicate hx]; norm_num⟩ : Bytes 56))).1
    obtain ⟨s, e1, e2⟩ := C100_field.2.2.2.2.2.1 a ha
    obtain rfl := Option.some_inj.mp (e.symm.trans e1)
    exact ⟨r, e2, h⟩

/-- The text of `Scalar::halve` halves 3: the result is `(ell + 3) / 2`. -/
example : ((methText (t! "halve") [3, 0, 0, 0, 0, 0, 0, 0, 0, 0, 0, 0, 0, 0]).bind decW).map (wval (2 ^ 32)) =
    some ((ell + 3) / 2) := by
  unfold methText
  rw [txt_halve _ rfl]
  decide +kernel

/-- A small program: a loop, a closure, a cast, a compound assignment and an index. -/
example : (icall (parseFile 300 (t! "fn f(a: &[u32; 3]) -> u32 { let mut s = 0u64; let g = |x: u32| x as u64;
        for i in 0..3 { s += g(a[i]) << (8 * i); }
        (s >> 4) as u32 }")) [] (t! "f") (noCalls (conc Ops.release) []) [encW (.u 32) [0xfffffff0, 2, 3]]).bind
    decNat = some (((0xfffffff0 + (2 <<< 8) + (3 <<< 16)) >>> 4) % 2 ^ 32) := by krfl

/-- Outside an array, with a false assertion, or with an unknown function there is no result. -/
example :
    (icall (parseFile 300 (t! "fn f(a: &[u32; 1]) -> u32 { a[1] }")) [] (t! "f")
      (noCalls (conc Ops.release) []) [encW (.u 32) [5]]).bind decNat = none ∧
    (icall (parseFile 300 (t! "fn f(a: &[u32; 1]) -> u32 { assert!(a[0] < 5); a[0] }")) [] (t! "f")
      (noCalls (conc Ops.release) []) [encW (.u 32) [5]]).bind decNat = none ∧
    (icall (parseFile 300 (t! "fn f(a: &[u32; 1]) -> u32 { assert!(a[0] < 6); a[0] }")) [] (t! "f")
      (noCalls (conc Ops.release) []) [encW (.u 32) [5]]).bind decNat = some 5 ∧
    (icall (parseFile 300 (t! "fn f(a: &[u32; 1]) -> u32 { g(a) }")) [] (t! "f")
      (noCalls (conc Ops.release) []) [encW (.u 32) [5]]).bind decNat = none := by
  refine ⟨?_, ?_, ?_, ?_⟩ <;> krfl

end Ed448.Props
