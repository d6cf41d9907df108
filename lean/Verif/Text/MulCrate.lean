import Verif.Text.IntEval
import Verif.Text.MulFiles
import Verif.Text.Files

/-!
# What the scalar multiplications in the text may use

A scalar is given by what its methods return. The points are opaque for the interpreter of `Verif.Text.IntEval`, and the operations on them are a
parameter, like those on machine integers. Results with any operations are proved in this file.
-/

set_option linter.all false
set_option maxRecDepth 100000

namespace Ed448.Text

/-- What the methods of a scalar return. -/
structure Sc where
  /-- `Scalar::bits` -/
  bits : List Bool
  /-- `Scalar::to_radix_16` -/
  radix : List ℤ
  /-- its words -/
  words : List ℕ

/-- Integers and what scalar multiplication computes with: points in extended, extensible and Niels
form, tables, and points on the Montgomery curve. -/
inductive CV (D E X N M F Y : Type)
  | num (n : Num)
  | ext (x : E)
  | exs (x : X)
  | nls (x : N)
  | tab (x : List N)
  | mon (x : M)
  | fe (x : F)
  | byt (x : Y)
  | sc (x : Sc)
  | edw (x : D)

/-- The operations. -/
structure MulOps (D E X N M F Y : Type) where
  /-- integers -/
  o : Ops
  /-- `Choice::from` -/
  ch : ℕ → Bool
  /-- `ct_eq` on `u32` -/
  eqU : ℕ → ℕ → Bool
  /-- twisted `ExtendedPoint` -/
  eId : E
  eGen : E
  eDouble : E → E
  eAdd : E → E → E
  eSelect : E → E → Bool → E
  toExs : E → X
  /-- `ExtensiblePoint` -/
  xId : X
  xDouble : X → X
  xAddN : X → N → X
  toN : X → N
  toExt : X → E
  /-- `ProjectiveNielsPoint` -/
  nId : N
  nSelect : N → N → Bool → N
  nNegate : N → Bool → N
  /-- `LookupTable` -/
  table : E → List N
  select : List N → ℕ → N
  /-- `double_and_add` and `variable_base` -/
  da : E → Sc → E
  vb : E → Sc → E
  /-- `Scalar::div_by_four` -/
  divFour : Sc → Sc
  /-- `BASEPOINT_ORDER` -/
  order : Sc
  /-- Edwards `ExtendedPoint` -/
  dId : D
  dDouble : D → D
  dAdd : D → D → D
  dNegate : D → D
  dEq : D → D → Bool
  dSelect : D → D → Bool → D
  dModFour : D → Sc → D
  dMul : D → Sc → D
  toTwisted : D → E
  toUntwisted : E → D
  eNegate : E → E
  xAddE : X → E → X
  xSubE : X → E → X
  /-- `ProjectiveMontgomeryPoint` -/
  mId : M
  mMk : F → F → M
  mSwap1 : M → M → Bool → M
  mSwap2 : M → M → Bool → M
  mStep1 : M → M → F → M
  mStep2 : M → M → F → M
  mToAffine : M → Y
  /-- `FieldElement` -/
  fOne : F
  fOf : Y → F

variable {D E X N M F Y : Type}

/-- The integers among the values. -/
def onNum {γ : Type} (g : Num → Option γ) : CV D E X N M F Y → Option γ
  | .num n => g n
  | _ => none

/-- The integers among the values. -/
def cdom (o : Ops) : Dom (CV D E X N M F Y) where
  lit t z := ((conc o).lit t z).bind fun v => some (.num v)
  bin op t a b := onNum (fun x => onNum (fun y => ((conc o).bin op t x y).bind fun v => some (.num v)) b) a
  wrap op t a b := onNum (fun x => onNum (fun y => ((conc o).wrap op t x y).bind fun v => some (.num v)) b) a
  shl t a k := onNum (fun x => ((conc o).shl t x k).bind fun v => some (.num v)) a
  shr t a k := onNum (fun x => ((conc o).shr t x k).bind fun v => some (.num v)) a
  cast s t a := onNum (fun x => ((conc o).cast s t x).bind fun v => some (.num v)) a
  cmp s a b := onNum (fun x => onNum (fun y => (conc o).cmp s x y) b) a
  val a := onNum (fun x => (conc o).val x) a

/-- A value that is no integer. -/
def vO (x : CV D E X N M F Y) : IV (CV D E X N M F Y) := .int (.u 0) x

/-- A table of functions. -/
abbrev Table (D E X N M F Y : Type) :=
  List (ℕ × (List (IV (CV D E X N M F Y)) → Option (IV (CV D E X N M F Y))))

/-- `Choice::from` of an `u8`. -/
def choiceFrom (c : MulOps D E X N M F Y) : List (IV (CV D E X N M F Y)) → Option (IV (CV D E X N M F Y))
  | [.int (.u 8) (.num (.n x))] => some (.bool (c.ch x))
  | _ => none

/-- src/curve/scalar_mul/double_and_add.rs -/
def daCtx (c : MulOps D E X N M F Y) : ICtx (CV D E X N M F Y) where
  dom := cdom c.o
  const := []
  fn := [
    (t! "identity", fun a => match a with | [] => some (vO (.ext c.eId)) | _ => none),
    (t! "double", fun a => match a with | [.int _ (.ext x)] => some (vO (.ext (c.eDouble x))) | _ => none),
    (t! "add", fun a => match a with
      | [.int _ (.ext x), .int _ (.ext y)] => some (vO (.ext (c.eAdd x y))) | _ => none),
    (t! "bits", fun a => match a with | [.int _ (.sc s)] => some (.arr (s.bits.map .bool)) | _ => none),
    (t! "into_iter", fun a => match a with | [v] => some v | _ => none),
    (t! "from", choiceFrom c)]
  mfn := [
    (t! "conditional_assign", fun a => match a with
      | [.int _ (.ext x), .int _ (.ext y), .bool b] => some (vO (.ext (c.eSelect x y b))) | _ => none)]

/-- src/curve/scalar_mul/double_base.rs -/
def dbCtx (c : MulOps D E X N M F Y) : ICtx (CV D E X N M F Y) where
  dom := cdom c.o
  const := [(t! "TWISTED_EDWARDS_BASE_POINT", vO (.ext c.eGen))]
  fn := [
    (t! "double_and_add", fun a => match a with
      | [.int _ (.ext x), .int _ (.sc s)] => some (vO (.ext (c.da x s))) | _ => none),
    (t! "add", fun a => match a with
      | [.int _ (.ext x), .int _ (.ext y)] => some (vO (.ext (c.eAdd x y))) | _ => none)]
  mfn := []

/-- src/curve/scalar_mul/window/wnaf/mod.rs -/
def wnafCtx (c : MulOps D E X N M F Y) : ICtx (CV D E X N M F Y) where
  dom := cdom c.o
  const := []
  fn := [
    (t! "identity", fun a => match a with | [] => some (vO (.nls c.nId)) | _ => none),
    (t! "to_extensible", fun a => match a with
      | [.int _ (.ext x)] => some (vO (.exs (c.toExs x))) | _ => none),
    (t! "to_projective_niels", fun a => match a with
      | [.int _ (.exs x)] => some (vO (.nls (c.toN x))) | _ => none),
    (t! "add_projective_niels", fun a => match a with
      | [.int _ (.exs x), .int _ (.nls y)] => some (vO (.exs (c.xAddN x y))) | _ => none),
    (t! "ct_eq", fun a => match a with
      | [.int (.u 32) (.num (.n x)), .int (.u 32) (.num (.n y))] => some (.bool (c.eqU x y)) | _ => none)]
  mfn := [
    (t! "conditional_assign", fun a => match a with
      | [.int _ (.nls x), .int _ (.nls y), .bool b] => some (vO (.nls (c.nSelect x y b))) | _ => none)]

/-- src/curve/scalar_mul/variable_base.rs. `from` is that of `Choice` or of `LookupTable`, by the type of
the argument. -/
def vbCtx (c : MulOps D E X N M F Y) : ICtx (CV D E X N M F Y) where
  dom := cdom c.o
  const := []
  fn := [
    (t! "identity", fun a => match a with | [] => some (vO (.exs c.xId)) | _ => none),
    (t! "to_radix_16", fun a => match a with
      | [.int _ (.sc s)] => some (.arr (s.radix.map fun z => .int (.i 8) (.num (.z z)))) | _ => none),
    (t! "from", fun a => match a with
      | [.int _ (.ext x)] => some (vO (.tab (c.table x)))
      | _ => choiceFrom c a),
    (t! "double", fun a => match a with | [.int _ (.exs x)] => some (vO (.exs (c.xDouble x))) | _ => none),
    (t! "select", fun a => match a with
      | [.int _ (.tab l), .int (.u 32) (.num (.n k))] => some (vO (.nls (c.select l k))) | _ => none),
    (t! "add_projective_niels", fun a => match a with
      | [.int _ (.exs x), .int _ (.nls y)] => some (vO (.exs (c.xAddN x y))) | _ => none),
    (t! "to_extended", fun a => match a with
      | [.int _ (.exs x)] => some (vO (.ext (c.toExt x))) | _ => none)]
  mfn := [
    (t! "conditional_negate", fun a => match a with
      | [.int _ (.nls x), .bool b] => some (vO (.nls (c.nNegate x b))) | _ => none)]

/-- src/curve/montgomery/montgomery.rs -/
def ladderCtx (c : MulOps D E X N M F Y) : ICtx (CV D E X N M F Y) where
  dom := cdom c.o
  const := []
  fn := [
    (t! "from_bytes", fun a => match a with
      | [.int _ (.byt x)] => some (vO (.fe (c.fOf x))) | _ => none),
    (t! "one", fun a => match a with | [] => some (vO (.fe c.fOne)) | _ => none),
    (t! "identity", fun a => match a with | [] => some (vO (.mon c.mId)) | _ => none),
    (t! "ProjectiveMontgomeryPoint", fun a => match a with
      | [.arr [.lit (.ofNat f), .int _ (.fe x)], .arr [.lit (.ofNat g), .int _ (.fe y)]] =>
        bif Nat.beq f (t! "U") && Nat.beq g (t! "W") then some (vO (.mon (c.mMk x y))) else none
      | _ => none),
    (t! "bits", fun a => match a with | [.int _ (.sc s)] => some (.arr (s.bits.map .bool)) | _ => none),
    (t! "from", choiceFrom c),
    (t! "to_affine", fun a => match a with
      | [.int _ (.mon x)] => some (vO (.byt (c.mToAffine x))) | _ => none)]
  mfn := []
  cfn := [
    (t! "conditional_swap", fun a => match a with
      | [.int _ (.mon x), .int _ (.mon y), .bool b] =>
        some [vO (.mon (c.mSwap1 x y b)), vO (.mon (c.mSwap2 x y b)), .bool b]
      | _ => none),
    (t! "differential_add_and_double", fun a => match a with
      | [.int _ (.mon x), .int _ (.mon y), .int _ (.fe u)] =>
        some [vO (.mon (c.mStep1 x y u)), vO (.mon (c.mStep2 x y u)), vO (.fe u)]
      | _ => none)]

/-- src/curve/edwards/extended.rs -/
def edCtx (c : MulOps D E X N M F Y) : ICtx (CV D E X N M F Y) where
  dom := cdom c.o
  const := [(t! "BASEPOINT_ORDER", vO (.sc c.order))]
  fn := [
    (t! "identity", fun a => match a with | [] => some (vO (.edw c.dId)) | _ => none),
    (t! "clone", fun a => match a with | [v] => some v | _ => none),
    (t! "double", fun a => match a with | [.int _ (.edw x)] => some (vO (.edw (c.dDouble x))) | _ => none),
    (t! "negate", fun a => match a with | [.int _ (.edw x)] => some (vO (.edw (c.dNegate x))) | _ => none),
    (t! "add", fun a => match a with
      | [.int _ (.edw x), .int _ (.edw y)] => some (vO (.edw (c.dAdd x y))) | _ => none),
    (t! "to_twisted", fun a => match a with
      | [.int _ (.edw x)] => some (vO (.ext (c.toTwisted x))) | _ => none),
    (t! "to_untwisted", fun a => match a with
      | [.int _ (.ext x)] => some (vO (.edw (c.toUntwisted x))) | _ => none),
    (t! "variable_base", fun a => match a with
      | [.int _ (.ext x), .int _ (.sc s)] => some (vO (.ext (c.vb x s))) | _ => none),
    (t! "scalar_mod_four", fun a => match a with
      | [.int _ (.edw x), .int _ (.sc s)] => some (vO (.edw (c.dModFour x s))) | _ => none),
    (t! "scalar_mul", fun a => match a with
      | [.int _ (.edw x), .int _ (.sc s)] => some (vO (.edw (c.dMul x s))) | _ => none),
    (t! "op *", fun a => match a with
      | [.int _ (.edw x), .int _ (.sc s)] => some (vO (.edw (c.dMul x s))) | _ => none),
    (t! "op ==", fun a => match a with
      | [.int _ (.edw x), .int _ (.edw y)] => some (.bool (c.dEq x y)) | _ => none),
    (t! "from", choiceFrom c)]
  mfn := [
    (t! "div_by_four", fun a => match a with
      | [.int _ (.sc s)] => some (vO (.sc (c.divFour s))) | _ => none),
    (t! "conditional_assign", fun a => match a with
      | [.int _ (.edw x), .int _ (.edw y), .bool b] => some (vO (.edw (c.dSelect x y b))) | _ => none)]

/-- src/decaf/ops.rs; a `DecafPoint` is the point in it. -/
def decafCtx (c : MulOps D E X N M F Y) : ICtx (CV D E X N M F Y) where
  dom := cdom c.o
  const := []
  fn := [
    (t! "double_and_add", fun a => match a with
      | [.int _ (.ext x), .int _ (.sc s)] => some (vO (.ext (c.da x s))) | _ => none),
    (t! "to_extensible", fun a => match a with
      | [.int _ (.ext x)] => some (vO (.exs (c.toExs x))) | _ => none),
    (t! "to_extended", fun a => match a with
      | [.int _ (.exs x)] => some (vO (.ext (c.toExt x))) | _ => none),
    (t! "add_extended", fun a => match a with
      | [.int _ (.exs x), .int _ (.ext y)] => some (vO (.exs (c.xAddE x y))) | _ => none),
    (t! "sub_extended", fun a => match a with
      | [.int _ (.exs x), .int _ (.ext y)] => some (vO (.exs (c.xSubE x y))) | _ => none),
    (t! "negate", fun a => match a with | [.int _ (.ext x)] => some (vO (.ext (c.eNegate x))) | _ => none)]
  mfn := []

theorem txt_scalar_mul (c : MulOps D E X N M F Y) (P : D) (s : Sc) :
    icall Ast.edExtended [t! "ExtendedPoint"] (t! "scalar_mul") (edCtx c) [vO (.edw P), vO (.sc s)] =
    some (vO (.edw (c.dAdd (c.toUntwisted (c.vb (c.toTwisted P) (c.divFour s))) (c.dModFour P s)))) := by
  krfl

theorem txt_scalar_mod_four (c : MulOps D E X N M F Y) (P : D) (w : ℕ) (l : List (IV (CV D E X N M F Y))) :
    icall Ast.edExtended [t! "ExtendedPoint"] (t! "scalar_mod_four") (edCtx c)
      [vO (.edw P), .arr (.int (.u 32) (.num (.n w)) :: l)] =
    some (vO (.edw (c.dSelect (c.dSelect (c.dSelect (c.dSelect c.dId c.dId
        (c.ch (c.o.andU w 3 == 0).toNat)) P (c.ch (c.o.andU w 3 == 1).toNat))
      (c.dDouble P) (c.ch (c.o.andU w 3 == 2).toNat)) (c.dAdd (c.dDouble P) P)
      (c.ch (c.o.andU w 3 == 3).toNat)))) := by
  krfl

theorem txt_is_torsion_free (c : MulOps D E X N M F Y) (P : D) :
    icall Ast.edExtended [t! "ExtendedPoint"] (t! "is_torsion_free") (edCtx c) [vO (.edw P)] =
    some (.bool (c.dEq (c.dMul P c.order) c.dId)) := by
  krfl

theorem txt_ed_ops (c : MulOps D E X N M F Y) (P Q : D) (s : Sc) :
    icall Ast.edExtended [t! "a", t! "b", t! "Add", t! "b", t! "ExtendedPoint", t! "for", t! "a",
      t! "ExtendedPoint"] (t! "add") (edCtx c) [vO (.edw P), vO (.edw Q)] = some (vO (.edw (c.dAdd P Q))) ∧
    icall Ast.edExtended [t! "a", t! "b", t! "Sub", t! "b", t! "ExtendedPoint", t! "for", t! "a",
      t! "ExtendedPoint"] (t! "sub") (edCtx c) [vO (.edw P), vO (.edw Q)] =
      some (vO (.edw (c.dAdd P (c.dNegate Q)))) ∧
    icall Ast.edExtended [t! "a", t! "Neg", t! "for", t! "a", t! "ExtendedPoint"] (t! "neg") (edCtx c)
      [vO (.edw P)] = some (vO (.edw (c.dNegate P))) ∧
    icall Ast.edExtended [t! "a", t! "b", t! "Mul", t! "b", t! "Scalar", t! "for", t! "a",
      t! "ExtendedPoint"] (t! "mul") (edCtx c) [vO (.edw P), vO (.sc s)] = some (vO (.edw (c.dMul P s))) ∧
    icall Ast.edExtended [t! "a", t! "b", t! "Mul", t! "b", t! "ExtendedPoint", t! "for", t! "a",
      t! "Scalar"] (t! "mul") (edCtx c) [vO (.sc s), vO (.edw P)] = some (vO (.edw (c.dMul P s))) := by
  refine ⟨?_, ?_, ?_, ?_, ?_⟩ <;> krfl

theorem txt_decaf_ops (c : MulOps D E X N M F Y) (P Q : E) (s : Sc) :
    icall Ast.decafOps [t! "s", t! "p", t! "Mul", t! "s", t! "Scalar", t! "for", t! "p", t! "DecafPoint"]
      (t! "mul") (decafCtx c) [vO (.ext P), vO (.sc s)] = some (vO (.ext (c.da P s))) ∧
    icall Ast.decafOps [t! "p", t! "s", t! "Mul", t! "p", t! "DecafPoint", t! "for", t! "s", t! "Scalar"]
      (t! "mul") (decafCtx c) [vO (.sc s), vO (.ext P)] = some (vO (.ext (c.da P s))) ∧
    icall Ast.decafOps [t! "Mul", t! "DecafPoint", t! "for", t! "Scalar"]
      (t! "mul") (decafCtx c) [vO (.sc s), vO (.ext P)] = some (vO (.ext (c.da P s))) ∧
    icall Ast.decafOps [t! "Mul", t! "Scalar", t! "for", t! "DecafPoint"]
      (t! "mul") (decafCtx c) [vO (.ext P), vO (.sc s)] = some (vO (.ext (c.da P s))) ∧
    icall Ast.decafOps [t! "a", t! "b", t! "Add", t! "a", t! "DecafPoint", t! "for", t! "b", t! "DecafPoint"]
      (t! "add") (decafCtx c) [vO (.ext P), vO (.ext Q)] =
      some (vO (.ext (c.toExt (c.xAddE (c.toExs P) Q)))) ∧
    icall Ast.decafOps [t! "a", t! "b", t! "Sub", t! "a", t! "DecafPoint", t! "for", t! "b", t! "DecafPoint"]
      (t! "sub") (decafCtx c) [vO (.ext P), vO (.ext Q)] =
      some (vO (.ext (c.toExt (c.xSubE (c.toExs P) Q)))) ∧
    icall Ast.decafOps [t! "b", t! "Neg", t! "for", t! "b", t! "DecafPoint"]
      (t! "neg") (decafCtx c) [vO (.ext P)] = some (vO (.ext (c.eNegate P))) := by
  refine ⟨?_, ?_, ?_, ?_, ?_, ?_, ?_⟩ <;> krfl

theorem txt_table (c : MulOps D E X N M F Y) (P : E) :
    icall Ast.wnaf [t! "From", t! "ExtendedPoint", t! "for", t! "LookupTable"] (t! "from") (wnafCtx c)
      [vO (.ext P)] =
    some (.arr ((List.range 8).map fun i => vO (.nls (Nat.rec (c.toN (c.toExs P))
      (fun _ r => c.toN (c.xAddN (c.toExs P) r)) i)))) := by
  krfl

theorem txt_select (c : MulOps D E X N M F Y) (f : ℕ → N) (k : ℕ) :
    icall Ast.wnaf [t! "LookupTable"] (t! "select") (wnafCtx c)
      [.arr ((List.range 8).map fun i => vO (.nls (f i))), .int (.u 32) (.num (.n k))] =
    some (vO (.nls ((List.range 8).foldl (fun r i => c.nSelect r (f i) (c.eqU k (i + 1))) c.nId))) := by
  krfl

theorem txt_double_base (c : MulOps D E X N M F Y) (A : E) (a b : Sc) :
    icall Ast.doubleBase [] (t! "double_base_scalar_mul") (dbCtx c) [vO (.sc a), vO (.ext A), vO (.sc b)] =
    some (vO (.ext (c.eAdd (c.da A a) (c.da c.eGen b)))) := by
  krfl

/-- One step of `double_and_add`. -/
def MulOps.daStep (c : MulOps D E X N M F Y) (P r : E) (b : Bool) : E :=
  c.eAdd (c.eDouble r) (c.eSelect c.eId P (c.ch b.toNat))

theorem txt_double_and_add_map (c : MulOps D E X N M F Y) (P : E) (f : ℕ → Bool) (r : List ℤ) (w : List ℕ) :
    icall Ast.doubleAndAdd [] (t! "double_and_add") (daCtx c)
      [vO (.ext P), vO (.sc ⟨(List.range 448).map f, r, w⟩)] =
    some (vO (.ext (((List.range 448).map f).reverse.foldl (c.daStep P) c.eId))) := by
  krfl

/-- One step of `variable_base`. -/
def MulOps.vbStep (c : MulOps D E X N M F Y) (t : List N) (r : X) (z : ℤ) : X :=
  c.xAddN (c.xDouble (c.xDouble (c.xDouble (c.xDouble r))))
    (c.nNegate (c.select t (c.o.asU 32 (c.o.xorI 8 (c.o.addI 8 z (c.o.shrI z 7)) (c.o.shrI z 7))))
      (c.ch (c.o.asU 8 (c.o.andI 8 (c.o.shrI z 7) 1))))

theorem txt_variable_base_map (c : MulOps D E X N M F Y) (P : E) (b : List Bool) (f : ℕ → ℤ) (w : List ℕ) :
    icall Ast.variableBase [] (t! "variable_base") (vbCtx c)
      [vO (.ext P), vO (.sc ⟨b, (List.range 113).map f, w⟩)] =
    some (vO (.ext (c.toExt (((List.range 113).map f).reverse.foldl (c.vbStep (c.table P)) c.xId)))) := by
  krfl

/-- One step of the ladder. -/
def MulOps.ladderStep (c : MulOps D E X N M F Y) (u : F) (st : M × M × ℕ) (b : Bool) : M × M × ℕ :=
  (c.mStep1 (c.mSwap1 st.1 st.2.1 (c.ch (c.o.xorU st.2.2 b.toNat)))
      (c.mSwap2 st.1 st.2.1 (c.ch (c.o.xorU st.2.2 b.toNat))) u,
    c.mStep2 (c.mSwap1 st.1 st.2.1 (c.ch (c.o.xorU st.2.2 b.toNat)))
      (c.mSwap2 st.1 st.2.1 (c.ch (c.o.xorU st.2.2 b.toNat))) u, b.toNat)

theorem txt_ladder_map (c : MulOps D E X N M F Y) (u : Y) (f : ℕ → Bool) (r : List ℤ) (w : List ℕ) :
    icall Ast.montgomery [t! "Mul", t! "Scalar", t! "for", t! "MontgomeryPoint"] (t! "mul")
      (ladderCtx c)
      [vO (.byt u), vO (.sc ⟨(List.range 448).map f, r, w⟩)] =
    some (vO (.byt (c.mToAffine (((List.range 448).map f).reverse.foldl (c.ladderStep (c.fOf u))
      (c.mId, c.mMk (c.fOf u) c.fOne, 0)).1))) := by
  krfl

end Ed448.Text
