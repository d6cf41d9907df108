import Verif.Model.Prog
import Verif.Props.RepairLeakage
import Verif.Props.Exact

/-!
# Programs that keep secrets as data (C87)

A language for programs over the library whose secrets are variables: a program can pass them to functions
and can never look at them, unless it reveals one. Revealed values can be used for anything, in particular
to choose what to do next. The functions are those that tools/rust2lean.py has translated from the source
together with what an observer sees of them (`Verif.Gen.Leak`).
-/

namespace Ed448.Props
open Ed448.Model Ed448.Edw Ed448.Proofs
open Leak (Lk Ev Er CT CTT LeakBackend CTBackend)

set_option exponentiation.threshold 1000
set_option maxRecDepth 10000

/-! ## The language -/

/-- The functions that show nothing of their arguments. `Fixed` are functions of the repaired source.
`fn₀`, `fn₁`, `fn₂` are functions of the program's own on bytes, scalars and Booleans, such as a hash, and
are taken to show nothing. The last two are for public arguments: what they show depends on them. The tests
whether a point is on the curve are left out: they stop at the first of two equations that fails. -/
inductive SecOp : List Ty → Ty → Type 1
  | scAdd : SecOp [.host Scalar, .host Scalar] (.host Scalar)
  | scSub : SecOp [.host Scalar, .host Scalar] (.host Scalar)
  | scMul : SecOp [.host Scalar, .host Scalar] (.host Scalar)
  | scSquare : SecOp [.host Scalar] (.host Scalar)
  | scInvert : SecOp [.host Scalar] (.host Scalar)
  | scHalve : SecOp [.host Scalar] (.host Scalar)
  | scDivByFour : SecOp [.host Scalar] (.host Scalar)
  | scEq : SecOp [.host Scalar, .host Scalar] (.host Bool)
  | scToBytes : SecOp [.host Scalar] (.host (Bytes 56))
  | scToRfc8032 : SecOp [.host Scalar] (.host (Bytes 57))
  | scFromBytes : SecOp [.host (Bytes 56)] (.host Scalar)
  | scWide : SecOp [.host (Bytes 114)] (.host Scalar)
  | scBits : SecOp [.host Scalar] (.host (List Bool))
  | scRadix16 : SecOp [.host Scalar] (.host (List ℤ))
  | scAddFixed : SecOp [.host Scalar, .host Scalar] (.host Scalar)
  | scSubFixed : SecOp [.host Scalar, .host Scalar] (.host Scalar)
  | scWideFixed : SecOp [.host (Bytes 114)] (.host Scalar)
  | edIdentity : SecOp [] (.ed)
  | edGenerator : SecOp [] (.ed)
  | edAdd : SecOp [.ed, .ed] (.ed)
  | edSub : SecOp [.ed, .ed] (.ed)
  | edNeg : SecOp [.ed] (.ed)
  | edDouble : SecOp [.ed] (.ed)
  | edTorque : SecOp [.ed] (.ed)
  | edMul : SecOp [.ed, .host Scalar] (.ed)
  | edEq : SecOp [.ed, .ed] (.host Bool)
  | edSelect : SecOp [.ed, .ed, .host Bool] (.ed)
  | edCompress : SecOp [.ed] (.host (Bytes 57))
  | edToMontgomery : SecOp [.ed] (.host (Bytes 56))
  | edToTwisted : SecOp [.ed] (.tw)
  | edIsTorsionFree : SecOp [.ed] (.host Bool)
  | twIdentity : SecOp [] (.tw)
  | twGenerator : SecOp [] (.tw)
  | twAdd : SecOp [.tw, .tw] (.tw)
  | twNegate : SecOp [.tw] (.tw)
  | twDouble : SecOp [.tw] (.tw)
  | twTorque : SecOp [.tw] (.tw)
  | twEq : SecOp [.tw, .tw] (.host Bool)
  | twSelect : SecOp [.tw, .tw, .host Bool] (.tw)
  | twToUntwisted : SecOp [.tw] (.ed)
  | variableBase : SecOp [.tw, .host Scalar] (.tw)
  | doubleAndAdd : SecOp [.tw, .host Scalar] (.tw)
  | doubleBase : SecOp [.host Scalar, .tw, .host Scalar] (.tw)
  | montMul : SecOp [.host (Bytes 56), .host Scalar] (.host (Bytes 56))
  | montMulFixed : SecOp [.host (Bytes 56), .host Scalar] (.host (Bytes 56))
  | montEq : SecOp [.host (Bytes 56), .host (Bytes 56)] (.host Bool)
  | decafIdentity : SecOp [] (.decaf)
  | decafGenerator : SecOp [] (.decaf)
  | decafAdd : SecOp [.decaf, .decaf] (.decaf)
  | decafSub : SecOp [.decaf, .decaf] (.decaf)
  | decafNeg : SecOp [.decaf] (.decaf)
  | decafMul : SecOp [.decaf, .host Scalar] (.decaf)
  | decafEquals : SecOp [.decaf, .decaf] (.host Bool)
  | decafCompress : SecOp [.decaf] (.host (Bytes 56))
  | decafBytesEq : SecOp [.host (Bytes 56), .host (Bytes 56)] (.host Bool)
  | decafOfTw : SecOp [.tw] .decaf
  | fn₀ {α : Type} (a : α) : SecOp [] (.host α)
  | fn₁ {α β : Type} (f : α → β) : SecOp [.host α] (.host β)
  | fn₂ {α β γ : Type} (f : α → β → γ) : SecOp [.host α, .host β] (.host γ)
  | scFromCanonical (b : Bytes 57) : SecOp [] (.host (Option Scalar))
  | montIsLowOrder (u : Bytes 56) : SecOp [] (.host Bool)

/-- A variable: a position in the list of the types of all variables. -/
inductive Var : List Ty → Ty → Type 1
  | here {Γ τ} : Var (τ :: Γ) τ
  | there {Γ σ τ} : Var Γ τ → Var (σ :: Γ) τ

/-- Arguments of a function. -/
inductive Vars (Γ : List Ty) : List Ty → Type 1
  | nil : Vars Γ []
  | cons {τ ts} : Var Γ τ → Vars Γ ts → Vars Γ (τ :: ts)

/-- Programs. `Γ` are the types of the variables and `τ` is the type of the result, which is kept secret.
* `op` calls a function and continues with its result as a new variable;
* `reveal` makes the value of a variable public, and continues with it in any way;
* `decodeEd` and `decodeEdFixed` decode 57 bytes and show if they are accepted, the second also if the only
  reason against is that they are not the encoding of the point found;
* `decodeDecaf` and `decodeScalar` reveal the string if they reject it. -/
inductive SecProg : List Ty → Ty → Type 1
  | ret {Γ τ} (x : Var Γ τ) : SecProg Γ τ
  | op {Γ ts σ τ} (o : SecOp ts σ) (x : Vars Γ ts) (k : SecProg (σ :: Γ) τ) : SecProg Γ τ
  | reveal {Γ τ} {α : Type} (x : Var Γ (.host α)) (k : α → SecProg Γ τ) : SecProg Γ τ
  | decodeEd {Γ τ} (x : Var Γ (.host (Bytes 57))) (no : SecProg Γ τ) (yes : SecProg (.ed :: Γ) τ) : SecProg Γ τ
  | decodeEdFixed {Γ τ} (x : Var Γ (.host (Bytes 57))) (no : SecProg Γ τ) (yes : SecProg (.ed :: Γ) τ) :
      SecProg Γ τ
  | decodeDecaf {Γ τ} (x : Var Γ (.host (Bytes 56))) (no : SecProg Γ τ) (yes : SecProg (.decaf :: Γ) τ) :
      SecProg Γ τ
  | decodeScalar {Γ τ} (x : Var Γ (.host (Bytes 57))) (no : SecProg Γ τ)
      (yes : SecProg (.host Scalar :: Γ) τ) : SecProg Γ τ

/-- No value is revealed. -/
def SecProg.Silent : {Γ : List Ty} → {τ : Ty} → SecProg Γ τ → Prop
  | _, _, .ret _ => True
  | _, _, .op _ _ k => k.Silent
  | _, _, .reveal _ _ => False
  | _, _, .decodeEd _ _ _ => False
  | _, _, .decodeEdFixed _ _ _ => False
  | _, _, .decodeDecaf _ _ _ => False
  | _, _, .decodeScalar _ _ _ => False

/-- What a program has made public: values with their types. -/
abbrev Log : Type 1 := List (Σ α : Type, α)

section
variable (F : Type)

/-- Values for a list of types. -/
def Args : List Ty → Type
  | [] => Unit
  | τ :: ts => Sem F τ × Args ts

end

section
variable {F : Type}

/-- The value of a variable. -/
def Var.get : {Γ : List Ty} → {τ : Ty} → Var Γ τ → Args F Γ → Sem F τ
  | _, _, .here, e => e.1
  | _, _, .there x, e => x.get e.2

/-- The values of arguments. -/
def Vars.get {Γ : List Ty} : {ts : List Ty} → Vars Γ ts → Args F Γ → Args F ts
  | _, .nil, _ => ()
  | _, .cons x xs, e => (x.get e, xs.get e)

end

section
variable (F : Type) {L : Type} [FieldBackend F L]

/-- The functions, in the translation with overflow checks. -/
def SecOp.src : {ts : List Ty} → {τ : Ty} → SecOp ts τ → Args F ts → Option (Sem F τ)
  | _, _, .scAdd => fun (x : Scalar × Scalar × Unit) =>
      (Gen.Scalar.op_add x.1.l x.2.1.l).bind (Arr.ofList? 14 (2 ^ 32))
  | _, _, .scSub => fun (x : Scalar × Scalar × Unit) =>
      (Gen.Scalar.op_sub x.1.l x.2.1.l).bind (Arr.ofList? 14 (2 ^ 32))
  | _, _, .scMul => fun (x : Scalar × Scalar × Unit) =>
      (Gen.Scalar.op_mul x.1.l x.2.1.l).bind (Arr.ofList? 14 (2 ^ 32))
  | _, _, .scSquare => fun (x : Scalar × Unit) =>
      (Gen.Scalar.square x.1.l).bind (Arr.ofList? 14 (2 ^ 32))
  | _, _, .scInvert => fun (x : Scalar × Unit) =>
      (Gen.Scalar.invert x.1.l).bind (Arr.ofList? 14 (2 ^ 32))
  | _, _, .scHalve => fun (x : Scalar × Unit) =>
      (Gen.Scalar.halve x.1.l).bind (Arr.ofList? 14 (2 ^ 32))
  | _, _, .scDivByFour => fun (x : Scalar × Unit) =>
      (Gen.Scalar.div_by_four x.1.l).bind (Arr.ofList? 14 (2 ^ 32))
  | _, _, .scEq => fun (x : Scalar × Scalar × Unit) =>
      Gen.Scalar.eq x.1.l x.2.1.l
  | _, _, .scToBytes => fun (x : Scalar × Unit) =>
      (Gen.Scalar.to_bytes x.1.l).bind (Arr.ofList? 56 256)
  | _, _, .scToRfc8032 => fun (x : Scalar × Unit) =>
      (Gen.Scalar.to_bytes_rfc_8032 x.1.l).bind (Arr.ofList? 57 256)
  | _, _, .scFromBytes => fun (x : Bytes 56 × Unit) =>
      (Gen.Scalar.from_bytes x.1.l).bind (Arr.ofList? 14 (2 ^ 32))
  | _, _, .scWide => fun (x : Bytes 114 × Unit) =>
      (Gen.Scalar.from_bytes_mod_order_wide x.1.l).bind (Arr.ofList? 14 (2 ^ 32))
  | _, _, .scBits => fun (x : Scalar × Unit) =>
      Gen.Scalar.bits x.1.l
  | _, _, .scRadix16 => fun (x : Scalar × Unit) =>
      Gen.Scalar.to_radix_16 x.1.l
  | _, _, .scAddFixed => fun (x : Scalar × Scalar × Unit) =>
      (Gen.Fix.Scalar.op_add x.1.l x.2.1.l).bind (Arr.ofList? 14 (2 ^ 32))
  | _, _, .scSubFixed => fun (x : Scalar × Scalar × Unit) =>
      (Gen.Fix.Scalar.op_sub x.1.l x.2.1.l).bind (Arr.ofList? 14 (2 ^ 32))
  | _, _, .scWideFixed => fun (x : Bytes 114 × Unit) =>
      (Gen.Fix.Scalar.from_bytes_mod_order_wide x.1.l).bind (Arr.ofList? 14 (2 ^ 32))
  | _, _, .edIdentity => fun (_ : Unit) =>
      some (Gen.EdPt.identity : EdPt F)
  | _, _, .edGenerator => fun (_ : Unit) =>
      some (Gen.EdPt.generator : EdPt F)
  | _, _, .edAdd => fun (x : EdPt F × EdPt F × Unit) =>
      some (Gen.EdPt.op_add x.1 x.2.1)
  | _, _, .edSub => fun (x : EdPt F × EdPt F × Unit) =>
      some (Gen.EdPt.op_sub x.1 x.2.1)
  | _, _, .edNeg => fun (x : EdPt F × Unit) =>
      some (Gen.EdPt.op_neg x.1)
  | _, _, .edDouble => fun (x : EdPt F × Unit) =>
      some (Gen.EdPt.double x.1)
  | _, _, .edTorque => fun (x : EdPt F × Unit) =>
      some (Gen.EdPt.torque x.1)
  | _, _, .edMul => fun (x : EdPt F × Scalar × Unit) =>
      Gen.EdPt.op_mul_Scalar x.1 x.2.1.l
  | _, _, .edEq => fun (x : EdPt F × EdPt F × Unit) =>
      some (Gen.EdPt.eq x.1 x.2.1)
  | _, _, .edSelect => fun (x : EdPt F × EdPt F × Bool × Unit) =>
      some (Gen.EdPt.conditional_select x.1 x.2.1 x.2.2.1)
  | _, _, .edCompress => fun (x : EdPt F × Unit) =>
      (Gen.EdPt.compress x.1).bind (Arr.ofList? 57 256)
  | _, _, .edToMontgomery => fun (x : EdPt F × Unit) =>
      (Gen.EdPt.to_montgomery x.1).bind (Arr.ofList? 56 256)
  | _, _, .edToTwisted => fun (x : EdPt F × Unit) =>
      Gen.EdPt.to_twisted x.1
  | _, _, .edIsTorsionFree => fun (x : EdPt F × Unit) =>
      Gen.EdPt.is_torsion_free x.1
  | _, _, .twIdentity => fun (_ : Unit) =>
      some (Gen.TwPt.identity : TwPt F)
  | _, _, .twGenerator => fun (_ : Unit) =>
      some (Gen.TwPt.generator : TwPt F)
  | _, _, .twAdd => fun (x : TwPt F × TwPt F × Unit) =>
      some (Gen.TwPt.add x.1 x.2.1)
  | _, _, .twNegate => fun (x : TwPt F × Unit) =>
      some (Gen.TwPt.negate x.1)
  | _, _, .twDouble => fun (x : TwPt F × Unit) =>
      some (Gen.TwPt.double x.1)
  | _, _, .twTorque => fun (x : TwPt F × Unit) =>
      some (Gen.TwPt.torque x.1)
  | _, _, .twEq => fun (x : TwPt F × TwPt F × Unit) =>
      some (Gen.TwPt.eq x.1 x.2.1)
  | _, _, .twSelect => fun (x : TwPt F × TwPt F × Bool × Unit) =>
      some (Gen.TwPt.conditional_select x.1 x.2.1 x.2.2.1)
  | _, _, .twToUntwisted => fun (x : TwPt F × Unit) =>
      Gen.TwPt.to_untwisted x.1
  | _, _, .variableBase => fun (x : TwPt F × Scalar × Unit) =>
      Gen.variable_base.variable_base x.1 x.2.1.l
  | _, _, .doubleAndAdd => fun (x : TwPt F × Scalar × Unit) =>
      Gen.double_and_add.double_and_add x.1 x.2.1.l
  | _, _, .doubleBase => fun (x : Scalar × TwPt F × Scalar × Unit) =>
      Gen.double_base.double_base_scalar_mul x.1.l x.2.1 x.2.2.1.l
  | _, _, .montMul => fun (x : Bytes 56 × Scalar × Unit) =>
      (Gen.MontgomeryPoint.op_mul_Scalar (F := F) x.1.l x.2.1.l).bind (Arr.ofList? 56 256)
  | _, _, .montMulFixed => fun (x : Bytes 56 × Scalar × Unit) =>
      (Gen.Fix.MontgomeryPoint.op_mul_Scalar (F := F) x.1.l x.2.1.l).bind (Arr.ofList? 56 256)
  | _, _, .montEq => fun (x : Bytes 56 × Bytes 56 × Unit) =>
      some (Gen.MontgomeryPoint.eq x.1.l x.2.1.l)
  | _, _, .decafIdentity => fun (_ : Unit) =>
      some (Gen.DecafPt.identity : DecafPt F)
  | _, _, .decafGenerator => fun (_ : Unit) =>
      some (Gen.DecafPt.generator : DecafPt F)
  | _, _, .decafAdd => fun (x : DecafPt F × DecafPt F × Unit) =>
      some (Gen.DecafPt.op_add x.1 x.2.1)
  | _, _, .decafSub => fun (x : DecafPt F × DecafPt F × Unit) =>
      some (Gen.DecafPt.op_sub x.1 x.2.1)
  | _, _, .decafNeg => fun (x : DecafPt F × Unit) =>
      some (Gen.DecafPt.op_neg x.1)
  | _, _, .decafMul => fun (x : DecafPt F × Scalar × Unit) =>
      Gen.DecafPt.op_mul_Scalar x.1 x.2.1.l
  | _, _, .decafEquals => fun (x : DecafPt F × DecafPt F × Unit) =>
      some (Gen.DecafPt.equals x.1 x.2.1)
  | _, _, .decafCompress => fun (x : DecafPt F × Unit) =>
      (Gen.DecafPt.compress x.1).bind (Arr.ofList? 56 256)
  | _, _, .decafBytesEq => fun (x : Bytes 56 × Bytes 56 × Unit) =>
      some (Gen.CompressedDecaf.eq x.1.l x.2.1.l)
  | _, _, .decafOfTw => fun (x : TwPt F × Unit) => some (⟨x.1⟩ : DecafPt F)
  | _, _, .fn₀ a => fun _ => some a
  | _, _, @SecOp.fn₁ α _ f => fun (x : α × Unit) => some (f x.1)
  | _, _, @SecOp.fn₂ α β _ f => fun (x : α × β × Unit) => some (f x.1 x.2.1)
  | _, _, .scFromCanonical b => fun _ => (Gen.Scalar.from_canonical_bytes b.l).map (Option.bind · (Arr.ofList? 14 (2 ^ 32)))
  | _, _, .montIsLowOrder u => fun _ => some (Gen.MontgomeryPoint.is_low_order u.l)

/-- The functions with what is seen of them. -/
def SecOp.lk [LeakBackend F L] : {ts : List Ty} → {τ : Ty} → SecOp ts τ → Args F ts → Lk (Sem F τ)
  | _, _, .scAdd => fun (x : Scalar × Scalar × Unit) =>
      (Leak.Scalar.op_add x.1.l x.2.1.l).bind fun l => Lk.lift (Arr.ofList? 14 (2 ^ 32) l)
  | _, _, .scSub => fun (x : Scalar × Scalar × Unit) =>
      (Leak.Scalar.op_sub x.1.l x.2.1.l).bind fun l => Lk.lift (Arr.ofList? 14 (2 ^ 32) l)
  | _, _, .scMul => fun (x : Scalar × Scalar × Unit) =>
      (Leak.Scalar.op_mul x.1.l x.2.1.l).bind fun l => Lk.lift (Arr.ofList? 14 (2 ^ 32) l)
  | _, _, .scSquare => fun (x : Scalar × Unit) =>
      (Leak.Scalar.square x.1.l).bind fun l => Lk.lift (Arr.ofList? 14 (2 ^ 32) l)
  | _, _, .scInvert => fun (x : Scalar × Unit) =>
      (Leak.Scalar.invert x.1.l).bind fun l => Lk.lift (Arr.ofList? 14 (2 ^ 32) l)
  | _, _, .scHalve => fun (x : Scalar × Unit) =>
      (Leak.Scalar.halve x.1.l).bind fun l => Lk.lift (Arr.ofList? 14 (2 ^ 32) l)
  | _, _, .scDivByFour => fun (x : Scalar × Unit) =>
      (Leak.Scalar.div_by_four x.1.l).bind fun l => Lk.lift (Arr.ofList? 14 (2 ^ 32) l)
  | _, _, .scEq => fun (x : Scalar × Scalar × Unit) =>
      Leak.Scalar.eq x.1.l x.2.1.l
  | _, _, .scToBytes => fun (x : Scalar × Unit) =>
      (Leak.Scalar.to_bytes x.1.l).bind fun l => Lk.lift (Arr.ofList? 56 256 l)
  | _, _, .scToRfc8032 => fun (x : Scalar × Unit) =>
      (Leak.Scalar.to_bytes_rfc_8032 x.1.l).bind fun l => Lk.lift (Arr.ofList? 57 256 l)
  | _, _, .scFromBytes => fun (x : Bytes 56 × Unit) =>
      (Leak.Scalar.from_bytes x.1.l).bind fun l => Lk.lift (Arr.ofList? 14 (2 ^ 32) l)
  | _, _, .scWide => fun (x : Bytes 114 × Unit) =>
      (Leak.Scalar.from_bytes_mod_order_wide x.1.l).bind fun l => Lk.lift (Arr.ofList? 14 (2 ^ 32) l)
  | _, _, .scBits => fun (x : Scalar × Unit) =>
      Leak.Scalar.bits x.1.l
  | _, _, .scRadix16 => fun (x : Scalar × Unit) =>
      Leak.Scalar.to_radix_16 x.1.l
  | _, _, .scAddFixed => fun (x : Scalar × Scalar × Unit) =>
      (Leak.Fix.Scalar.op_add x.1.l x.2.1.l).bind fun l => Lk.lift (Arr.ofList? 14 (2 ^ 32) l)
  | _, _, .scSubFixed => fun (x : Scalar × Scalar × Unit) =>
      (Leak.Fix.Scalar.op_sub x.1.l x.2.1.l).bind fun l => Lk.lift (Arr.ofList? 14 (2 ^ 32) l)
  | _, _, .scWideFixed => fun (x : Bytes 114 × Unit) =>
      (Leak.Fix.Scalar.from_bytes_mod_order_wide x.1.l).bind fun l => Lk.lift (Arr.ofList? 14 (2 ^ 32) l)
  | _, _, .edIdentity => fun (_ : Unit) =>
      Lk.ret (Gen.EdPt.identity : EdPt F)
  | _, _, .edGenerator => fun (_ : Unit) =>
      Lk.ret (Gen.EdPt.generator : EdPt F)
  | _, _, .edAdd => fun (x : EdPt F × EdPt F × Unit) =>
      Leak.EdPt.op_add x.1 x.2.1
  | _, _, .edSub => fun (x : EdPt F × EdPt F × Unit) =>
      Leak.EdPt.op_sub x.1 x.2.1
  | _, _, .edNeg => fun (x : EdPt F × Unit) =>
      Leak.EdPt.op_neg x.1
  | _, _, .edDouble => fun (x : EdPt F × Unit) =>
      Leak.EdPt.double x.1
  | _, _, .edTorque => fun (x : EdPt F × Unit) =>
      Leak.EdPt.torque x.1
  | _, _, .edMul => fun (x : EdPt F × Scalar × Unit) =>
      Leak.EdPt.op_mul_Scalar x.1 x.2.1.l
  | _, _, .edEq => fun (x : EdPt F × EdPt F × Unit) =>
      Leak.EdPt.eq x.1 x.2.1
  | _, _, .edSelect => fun (x : EdPt F × EdPt F × Bool × Unit) =>
      Leak.EdPt.conditional_select x.1 x.2.1 x.2.2.1
  | _, _, .edCompress => fun (x : EdPt F × Unit) =>
      (Leak.EdPt.compress x.1).bind fun l => Lk.lift (Arr.ofList? 57 256 l)
  | _, _, .edToMontgomery => fun (x : EdPt F × Unit) =>
      (Leak.EdPt.to_montgomery x.1).bind fun l => Lk.lift (Arr.ofList? 56 256 l)
  | _, _, .edToTwisted => fun (x : EdPt F × Unit) =>
      Leak.EdPt.to_twisted x.1
  | _, _, .edIsTorsionFree => fun (x : EdPt F × Unit) =>
      Leak.EdPt.is_torsion_free x.1
  | _, _, .twIdentity => fun (_ : Unit) =>
      Lk.ret (Gen.TwPt.identity : TwPt F)
  | _, _, .twGenerator => fun (_ : Unit) =>
      Lk.ret (Gen.TwPt.generator : TwPt F)
  | _, _, .twAdd => fun (x : TwPt F × TwPt F × Unit) =>
      Leak.TwPt.add x.1 x.2.1
  | _, _, .twNegate => fun (x : TwPt F × Unit) =>
      Leak.TwPt.negate x.1
  | _, _, .twDouble => fun (x : TwPt F × Unit) =>
      Leak.TwPt.double x.1
  | _, _, .twTorque => fun (x : TwPt F × Unit) =>
      Leak.TwPt.torque x.1
  | _, _, .twEq => fun (x : TwPt F × TwPt F × Unit) =>
      Leak.TwPt.eq x.1 x.2.1
  | _, _, .twSelect => fun (x : TwPt F × TwPt F × Bool × Unit) =>
      Leak.TwPt.conditional_select x.1 x.2.1 x.2.2.1
  | _, _, .twToUntwisted => fun (x : TwPt F × Unit) =>
      Leak.TwPt.to_untwisted x.1
  | _, _, .variableBase => fun (x : TwPt F × Scalar × Unit) =>
      Leak.variable_base.variable_base x.1 x.2.1.l
  | _, _, .doubleAndAdd => fun (x : TwPt F × Scalar × Unit) =>
      Leak.double_and_add.double_and_add x.1 x.2.1.l
  | _, _, .doubleBase => fun (x : Scalar × TwPt F × Scalar × Unit) =>
      Leak.double_base.double_base_scalar_mul x.1.l x.2.1 x.2.2.1.l
  | _, _, .montMul => fun (x : Bytes 56 × Scalar × Unit) =>
      (Leak.MontgomeryPoint.op_mul_Scalar (F := F) x.1.l x.2.1.l).bind fun l => Lk.lift (Arr.ofList? 56 256 l)
  | _, _, .montMulFixed => fun (x : Bytes 56 × Scalar × Unit) =>
      (Leak.Fix.MontgomeryPoint.op_mul_Scalar (F := F) x.1.l x.2.1.l).bind fun l => Lk.lift (Arr.ofList? 56 256 l)
  | _, _, .montEq => fun (x : Bytes 56 × Bytes 56 × Unit) =>
      Leak.MontgomeryPoint.eq x.1.l x.2.1.l
  | _, _, .decafIdentity => fun (_ : Unit) =>
      Lk.ret (Gen.DecafPt.identity : DecafPt F)
  | _, _, .decafGenerator => fun (_ : Unit) =>
      Lk.ret (Gen.DecafPt.generator : DecafPt F)
  | _, _, .decafAdd => fun (x : DecafPt F × DecafPt F × Unit) =>
      Leak.DecafPt.op_add x.1 x.2.1
  | _, _, .decafSub => fun (x : DecafPt F × DecafPt F × Unit) =>
      Leak.DecafPt.op_sub x.1 x.2.1
  | _, _, .decafNeg => fun (x : DecafPt F × Unit) =>
      Leak.DecafPt.op_neg x.1
  | _, _, .decafMul => fun (x : DecafPt F × Scalar × Unit) =>
      Leak.DecafPt.op_mul_Scalar x.1 x.2.1.l
  | _, _, .decafEquals => fun (x : DecafPt F × DecafPt F × Unit) =>
      Leak.DecafPt.equals x.1 x.2.1
  | _, _, .decafCompress => fun (x : DecafPt F × Unit) =>
      (Leak.DecafPt.compress x.1).bind fun l => Lk.lift (Arr.ofList? 56 256 l)
  | _, _, .decafBytesEq => fun (x : Bytes 56 × Bytes 56 × Unit) =>
      Leak.CompressedDecaf.eq x.1.l x.2.1.l
  | _, _, .decafOfTw => fun (x : TwPt F × Unit) => Lk.ret (⟨x.1⟩ : DecafPt F)
  | _, _, .fn₀ a => fun _ => Lk.ret a
  | _, _, @SecOp.fn₁ α _ f => fun (x : α × Unit) => Lk.ret (f x.1)
  | _, _, @SecOp.fn₂ α β _ f => fun (x : α × β × Unit) => Lk.ret (f x.1 x.2.1)
  | _, _, .scFromCanonical b => fun _ =>
      (Leak.Scalar.from_canonical_bytes b.l).bind fun o => Lk.ret (o.bind (Arr.ofList? 14 (2 ^ 32)))
  | _, _, .montIsLowOrder u => fun _ => Leak.MontgomeryPoint.is_low_order u.l

/-- The result of a program over the translated source, with what it reveals. -/
def SecProg.src : {Γ : List Ty} → {τ : Ty} → SecProg Γ τ → Args F Γ → Option (Sem F τ × Log)
  | _, _, .ret x, e => some (x.get e, [])
  | _, _, .op o x k, e => (o.src F (x.get e)).bind fun v => k.src (v, e)
  | _, _, @SecProg.reveal _ _ α x k, e =>
      ((k (x.get e)).src e).map fun r => (r.1, ⟨α, x.get e⟩ :: r.2)
  | _, _, .decodeEd x no yes, e => (Gen.CompressedEdwardsY.decompress (F := F) (show Bytes 57 from x.get e).l).bind
      fun | none => (no.src e).map fun r => (r.1, ⟨Bool, false⟩ :: r.2)
          | some P => (yes.src (P, e)).map fun r => (r.1, ⟨Bool, true⟩ :: r.2)
  | _, _, .decodeEdFixed x no yes, e =>
      (Gen.Fix.CompressedEdwardsY.decompress (F := F) (show Bytes 57 from x.get e).l).bind
      fun | none => (no.src e).map fun r => (r.1, ⟨Bool, false⟩ :: ⟨Option Bool,
              (Gen.CompressedEdwardsY.decompress (F := F) (show Bytes 57 from x.get e).l).map Option.isSome⟩ :: r.2)
          | some P => (yes.src (P, e)).map fun r => (r.1, ⟨Bool, true⟩ :: r.2)
  | _, _, .decodeDecaf x no yes, e => (Gen.CompressedDecaf.decompress (F := F) (show Bytes 56 from x.get e).l).bind
      fun | none => (no.src e).map fun r => (r.1, ⟨Option (Bytes 56), some (x.get e)⟩ :: r.2)
          | some P => (yes.src (P, e)).map fun r => (r.1, ⟨Option (Bytes 56), none⟩ :: r.2)
  | _, _, .decodeScalar x no yes, e =>
      ((Gen.Scalar.from_canonical_bytes (show Bytes 57 from x.get e).l).map (Option.bind · (Arr.ofList? 14 (2 ^ 32)))).bind
      fun | none => (no.src e).map fun r => (r.1, ⟨Option (Bytes 57), some (x.get e)⟩ :: r.2)
          | some s => (yes.src (s, e)).map fun r => (r.1, ⟨Option (Bytes 57), none⟩ :: r.2)

/-- The same with everything that is seen: result, revealed values, observations. -/
def SecProg.lk [LeakBackend F L] :
    {Γ : List Ty} → {τ : Ty} → SecProg Γ τ → Args F Γ → Option (Sem F τ × Log × List Ev)
  | _, _, .ret x, e => some (x.get e, [], [])
  | _, _, .op o x k, e => Option.bind (o.lk F (x.get e)) fun v =>
      (k.lk (v.1, e)).map fun r => (r.1, r.2.1, v.2 ++ r.2.2)
  | _, _, @SecProg.reveal _ _ α x k, e =>
      ((k (x.get e)).lk e).map fun r => (r.1, ⟨α, x.get e⟩ :: r.2.1, r.2.2)
  | _, _, .decodeEd x no yes, e =>
      Option.bind (Leak.CompressedEdwardsY.decompress (F := F) (show Bytes 57 from x.get e).l)
      fun | (none, t) => (no.lk e).map fun r => (r.1, ⟨Bool, false⟩ :: r.2.1, t ++ r.2.2)
          | (some P, t) => (yes.lk (P, e)).map fun r => (r.1, ⟨Bool, true⟩ :: r.2.1, t ++ r.2.2)
  | _, _, .decodeEdFixed x no yes, e =>
      Option.bind (Leak.Fix.CompressedEdwardsY.decompress (F := F) (show Bytes 57 from x.get e).l)
      fun | (none, t) => (no.lk e).map fun r => (r.1, ⟨Bool, false⟩ :: ⟨Option Bool,
              (Gen.CompressedEdwardsY.decompress (F := F) (show Bytes 57 from x.get e).l).map Option.isSome⟩ ::
              r.2.1, t ++ r.2.2)
          | (some P, t) => (yes.lk (P, e)).map fun r => (r.1, ⟨Bool, true⟩ :: r.2.1, t ++ r.2.2)
  | _, _, .decodeDecaf x no yes, e =>
      Option.bind (Leak.CompressedDecaf.decompress (F := F) (show Bytes 56 from x.get e).l)
      fun | (none, t) => (no.lk e).map fun r =>
              (r.1, ⟨Option (Bytes 56), some (x.get e)⟩ :: r.2.1, t ++ r.2.2)
          | (some P, t) => (yes.lk (P, e)).map fun r => (r.1, ⟨Option (Bytes 56), none⟩ :: r.2.1, t ++ r.2.2)
  | _, _, .decodeScalar x no yes, e =>
      Option.bind ((Leak.Scalar.from_canonical_bytes (show Bytes 57 from x.get e).l).bind fun o =>
        Lk.ret (o.bind (Arr.ofList? 14 (2 ^ 32))))
      fun | (none, t) => (no.lk e).map fun r =>
              (r.1, ⟨Option (Bytes 57), some (x.get e)⟩ :: r.2.1, t ++ r.2.2)
          | (some s, t) => (yes.lk (s, e)).map fun r => (r.1, ⟨Option (Bytes 57), none⟩ :: r.2.1, t ++ r.2.2)

end

/-! ## The functions are constant time -/

theorem exists_map {α β : Type} {g : Option β} {m : Option α} {f : α → β} (h : g = m.map f)
    (k : ∃ r, m = some r) : ∃ r, g = some (f r) := by
  obtain ⟨r, rfl⟩ := k
  exact ⟨r, h⟩

/-- One list of observations for all arguments, and the result of the source. -/
def SameOp {ι α : Type} (g : ι → Option α) (f : ι → Lk α) : Prop :=
  ∃ T, ∀ x, ∃ r, g x = some r ∧ f x = some (r, T)

theorem SameOp.mk {ι α : Type} {g : ι → Option α} {f : ι → Lk α} (ct : ∀ x y, CTT (f x) (f y))
    (er : ∀ x, Er (f x) (g x)) (ex : ∀ x, ∃ r, g x = some r) : SameOp g f := by
  obtain ⟨T, h⟩ := sameTrace_inst (S := fun _ => True) ct er fun x _ => ex x
  exact ⟨T, fun x => h x trivial⟩

theorem SameOp.arr {ι : Type} {n B : ℕ} {g : ι → Option (List ℕ)} {f : ι → Lk (List ℕ)}
    (ct : ∀ x y, CTT (f x) (f y)) (er : ∀ x, Er (f x) (g x)) (ex : ∀ x, ∃ r : Arr n B, g x = some r.l) :
    SameOp (fun x => (g x).bind (Arr.ofList? n B)) fun x => (f x).bind fun l => Lk.lift (Arr.ofList? n B l) := by
  obtain ⟨T, h⟩ := sameTrace_inst (S := fun _ => True) ct er fun x _ =>
    Exists.elim (ex x) fun r h => ⟨r.l, h⟩
  refine ⟨T, fun x => ?_⟩
  obtain ⟨r, hr⟩ := ex x
  obtain ⟨r', e, k⟩ := h x trivial
  obtain rfl := Option.some.inj (hr.symm.trans e)
  have e1 : Arr.ofList? n B r.l = some r := Arr.ofList?_eq _ r.len r.lt
  refine ⟨r, (congrArg (Option.bind · _) hr).trans e1, ?_⟩
  refine (lk_bind k (u := []) ?_).trans (congrArg some (Prod.ext rfl (List.append_nil T)))
  exact congrArg (Option.map fun a => (a, [])) e1

section
variable {F L : Type} [FieldBackend F L] [LeakBackend F L] [CTBackend F L]

/-! ## The decoders -/

theorem decodeEd_same : ∃ T : Bool → List Ev, ∀ b : Bytes 57, ∃ r : Option (EdPt F),
    Gen.CompressedEdwardsY.decompress b.l = some r ∧
    Leak.CompressedEdwardsY.decompress b.l = some (r, T r.isSome) := by
  obtain ⟨-, -, ⟨T, h⟩, ⟨U, k⟩, -⟩ := C69_codec (F := F)
  refine ⟨fun c => if c then T else U, fun b => ⟨_, Source.Ed_decompress b, ?_⟩⟩
  cases e : edDecompress F b with
  | none =>
    obtain ⟨r, e1, e2⟩ := k b.l ⟨Arr.words b, (Source.Ed_decompress b).trans (congrArg some e)⟩
    obtain rfl := Option.some.inj (e1.symm.trans ((Source.Ed_decompress b).trans (congrArg some e)))
    exact e2
  | some P =>
    obtain ⟨r, e1, e2⟩ := h b.l ⟨Arr.words b, P, (Source.Ed_decompress b).trans (congrArg some e)⟩
    obtain rfl := Option.some.inj (e1.symm.trans ((Source.Ed_decompress b).trans (congrArg some e)))
    exact e2

theorem decodeEdFixed_same : ∃ (T : List Ev) (U : Bool → List Ev), ∀ b : Bytes 57,
    ∃ q r : Option (EdPt F), Gen.CompressedEdwardsY.decompress b.l = some q ∧
      Gen.Fix.CompressedEdwardsY.decompress b.l = some r ∧
      Leak.Fix.CompressedEdwardsY.decompress b.l = some (r, if r.isSome then T else U q.isSome) := by
  obtain ⟨T, U, h⟩ := C83_decompress (F := F)
  refine ⟨U ++ [.branch false], fun c => if c then U ++ [.branch true] else T, fun b =>
    ⟨_, _, Source.Ed_decompress b, fix_decompress b, ?_⟩⟩
  obtain ⟨h1, h2⟩ := h b
  cases e : edDecompress F b with
  | none => exact h1 ((Source.Ed_decompress b).trans (congrArg some e))
  | some P =>
    obtain ⟨h3, h4⟩ := h2 P ((Source.Ed_decompress b).trans (congrArg some e))
    rw [Option.bind_some]
    by_cases hc : P.compress = b
    · rw [if_pos hc]
      exact h3 ((Source.EdPt_compress P).trans (congrArg (some ·.l) hc))
    · rw [if_neg hc]
      refine h4 fun hc' => hc (Arr.ext ?_)
      exact Option.some.inj ((Source.EdPt_compress P).symm.trans hc')

theorem decodeDecaf_same : ∃ T : List Ev, ∀ b : Bytes 56, ∃ (r : Option (DecafPt F)) (t : List Ev),
    Gen.CompressedDecaf.decompress b.l = some r ∧ Leak.CompressedDecaf.decompress b.l = some (r, t) ∧
      (r.isSome = true → t = T) := by
  obtain ⟨-, -, -, -, ⟨T, h⟩⟩ := C69_codec (F := F)
  refine ⟨T, fun b => ?_⟩
  obtain ⟨t, ht⟩ := er_some (inferInstance : Er (Leak.CompressedDecaf.decompress (F := F) b.l) _)
    (Source.Decaf_decompress b)
  refine ⟨_, t, Source.Decaf_decompress b, ht, fun hs => ?_⟩
  obtain ⟨P, hP⟩ := Option.isSome_iff_exists.1 hs
  obtain ⟨r, -, e2⟩ := h b.l ⟨Arr.words b, P, (Source.Decaf_decompress b).trans (congrArg some hP)⟩
  exact congrArg Prod.snd (Option.some.inj (ht.symm.trans e2))

omit [FieldBackend F L] [LeakBackend F L] [CTBackend F L] in
theorem decodeScalar_same : ∃ T : List Ev, ∀ b : Bytes 57, ∃ (r : Option Scalar) (t : List Ev),
    (Gen.Scalar.from_canonical_bytes b.l).map (Option.bind · (Arr.ofList? 14 (2 ^ 32))) = some r ∧
    (Leak.Scalar.from_canonical_bytes b.l).bind (fun o => Lk.ret (o.bind (Arr.ofList? 14 (2 ^ 32)))) =
      some (r, t) ∧ (r.isSome = true → t = T) := by
  obtain ⟨-, -, -, -, ⟨T, h⟩, -⟩ := C68_scalar_codec
  refine ⟨T, fun b => ?_⟩
  obtain ⟨o, ho, h1, h2⟩ := C07_from_canonical_bytes b
  have hg : Gen.Scalar.from_canonical_bytes b.l = some (o.map (·.l)) := by
    rw [Source.from_canonical_bytes, ho]
    rfl
  obtain ⟨t, ht⟩ := er_some (inferInstance : Er (Leak.Scalar.from_canonical_bytes b.l) _) hg
  have hb : (o.map (·.l)).bind (Arr.ofList? 14 (2 ^ 32)) = o := by
    cases o with
    | none => rfl
    | some s => exact Arr.ofList?_eq _ s.len s.lt
  refine ⟨o, t, ?_, ?_, fun hs => ?_⟩
  · rw [hg, Option.map_some, hb]
  · refine (lk_bind ht (c := o) (u := []) ?_).trans (congrArg some (Prod.ext rfl (List.append_nil t)))
    exact congrArg (fun c => some (c, [])) hb
  · by_cases hv : b.val < ell
    · obtain ⟨r, e1, e2⟩ := h b.l ⟨Arr.words b, hv⟩
      exact congrArg Prod.snd (Option.some.inj (ht.symm.trans e2))
    · rw [h2 (not_lt.1 hv)] at hs
      exact absurd hs (by simp)

/-! ## The functions -/

theorem SecOp.same {ts : List Ty} {τ : Ty} (o : SecOp ts τ) : SameOp (o.src F) (o.lk F) := by
  cases o with
  | scAdd =>
    have h := SameOp.arr (ι := Scalar × Scalar × Unit) (n := 14) (B := (2 ^ 32)) (g := fun x => Gen.Scalar.op_add x.1.l x.2.1.l)
      (f := fun x => Leak.Scalar.op_add x.1.l x.2.1.l) (fun x y => inferInstance) (fun _ => inferInstance)
      fun x => exists_map (Source.op_add x.1 x.2.1) ((C70_add_iff x.1 x.2.1).imp fun _ h => h.1)
    exact h
  | scSub =>
    have h := SameOp.arr (ι := Scalar × Scalar × Unit) (n := 14) (B := (2 ^ 32)) (g := fun x => Gen.Scalar.op_sub x.1.l x.2.1.l)
      (f := fun x => Leak.Scalar.op_sub x.1.l x.2.1.l) (fun x y => inferInstance) (fun _ => inferInstance)
      fun x => exists_map (Source.op_sub x.1 x.2.1) ((C70_sub_iff x.1 x.2.1).imp fun _ h => h.1)
    exact h
  | scMul =>
    have h := SameOp.arr (ι := Scalar × Scalar × Unit) (n := 14) (B := (2 ^ 32)) (g := fun x => Gen.Scalar.op_mul x.1.l x.2.1.l)
      (f := fun x => Leak.Scalar.op_mul x.1.l x.2.1.l) (fun x y => inferInstance) (fun _ => inferInstance)
      fun x => exists_map (Source.op_mul x.1 x.2.1) ((C03_scalar_mul x.1 x.2.1).imp fun _ h => h.1)
    exact h
  | scSquare =>
    have h := SameOp.arr (ι := Scalar × Unit) (n := 14) (B := (2 ^ 32)) (g := fun x => Gen.Scalar.square x.1.l)
      (f := fun x => Leak.Scalar.square x.1.l) (fun x y => inferInstance) (fun _ => inferInstance)
      fun x => exists_map (Source.scalar_square x.1) ((montMul_spec x.1 x.1).imp fun _ h => h.1)
    exact h
  | scInvert =>
    have h := SameOp.arr (ι := Scalar × Unit) (n := 14) (B := (2 ^ 32)) (g := fun x => Gen.Scalar.invert x.1.l)
      (f := fun x => Leak.Scalar.invert x.1.l) (fun x y => inferInstance) (fun _ => inferInstance)
      fun x => exists_map (Source.invert x.1) ((C04_scalar_invert x.1).imp fun _ h => h.1)
    exact h
  | scHalve =>
    have h := SameOp.arr (ι := Scalar × Unit) (n := 14) (B := (2 ^ 32)) (g := fun x => Gen.Scalar.halve x.1.l)
      (f := fun x => Leak.Scalar.halve x.1.l) (fun x y => inferInstance) (fun _ => inferInstance)
      fun x => exists_map (Source.halve x.1) ((C05_scalar_halve x.1).imp fun _ h => h.1)
    exact h
  | scDivByFour =>
    have h := SameOp.arr (ι := Scalar × Unit) (n := 14) (B := (2 ^ 32)) (g := fun x => Gen.Scalar.div_by_four x.1.l)
      (f := fun x => Leak.Scalar.div_by_four x.1.l) (fun x y => inferInstance) (fun _ => inferInstance)
      fun x => exists_map (Source.div_by_four x.1) ((Scalar.divByFour_spec x.1).imp fun _ h => h.1)
    exact h
  | scEq =>
    have h := SameOp.mk (ι := Scalar × Scalar × Unit) (g := fun x => Gen.Scalar.eq x.1.l x.2.1.l)
      (f := fun x => Leak.Scalar.eq x.1.l x.2.1.l) (fun x y => inferInstance) (fun _ => inferInstance)
      fun x => ⟨_, Source.scalar_eq x.1 x.2.1⟩
    exact h
  | scToBytes =>
    have h := SameOp.arr (ι := Scalar × Unit) (n := 56) (B := 256) (g := fun x => Gen.Scalar.to_bytes x.1.l)
      (f := fun x => Leak.Scalar.to_bytes x.1.l) (fun x y => inferInstance) (fun _ => inferInstance)
      fun x => ⟨_, Source.to_bytes x.1⟩
    exact h
  | scToRfc8032 =>
    have h := SameOp.arr (ι := Scalar × Unit) (n := 57) (B := 256) (g := fun x => Gen.Scalar.to_bytes_rfc_8032 x.1.l)
      (f := fun x => Leak.Scalar.to_bytes_rfc_8032 x.1.l) (fun x y => inferInstance) (fun _ => inferInstance)
      fun x => ⟨_, Source.to_bytes_rfc_8032 x.1⟩
    exact h
  | scFromBytes =>
    have h := SameOp.arr (ι := Bytes 56 × Unit) (n := 14) (B := (2 ^ 32)) (g := fun x => Gen.Scalar.from_bytes x.1.l)
      (f := fun x => Leak.Scalar.from_bytes x.1.l) (fun x y => inferInstance) (fun _ => inferInstance)
      fun x => ⟨_, Source.from_bytes x.1⟩
    exact h
  | scWide =>
    have h := SameOp.arr (ι := Bytes 114 × Unit) (n := 14) (B := (2 ^ 32)) (g := fun x => Gen.Scalar.from_bytes_mod_order_wide x.1.l)
      (f := fun x => Leak.Scalar.from_bytes_mod_order_wide x.1.l) (fun x y => inferInstance) (fun _ => inferInstance)
      fun x => exists_map (Source.from_bytes_mod_order_wide x.1) ((C08_wide_reduction x.1).imp fun _ h => h.1)
    exact h
  | scBits =>
    have h := SameOp.mk (ι := Scalar × Unit) (g := fun x => Gen.Scalar.bits x.1.l)
      (f := fun x => Leak.Scalar.bits x.1.l) (fun x y => ⟨(Leak.bits_ct (x.1.len.trans y.1.len.symm)).mono fun _ _ _ => trivial⟩) (fun _ => inferInstance)
      fun x => ⟨_, Source.bits x.1⟩
    exact h
  | scRadix16 =>
    have h := SameOp.mk (ι := Scalar × Unit) (g := fun x => Gen.Scalar.to_radix_16 x.1.l)
      (f := fun x => Leak.Scalar.to_radix_16 x.1.l) (fun x y => inferInstance) (fun _ => inferInstance)
      fun x => ⟨_, (Source.to_radix_16 x.1).trans (Scalar.toRadix16_spec x.1).choose_spec.1⟩
    exact h
  | scAddFixed =>
    have h := SameOp.arr (ι := Scalar × Scalar × Unit) (n := 14) (B := (2 ^ 32)) (g := fun x => Gen.Fix.Scalar.op_add x.1.l x.2.1.l)
      (f := fun x => Leak.Fix.Scalar.op_add x.1.l x.2.1.l) (fun x y => inferInstance) (fun _ => inferInstance)
      fun x => (C77_scalars x.1 x.2.1 (Arr.ofVal 114 256 (by norm_num) 0)).1.imp fun _ h => h.1
    exact h
  | scSubFixed =>
    have h := SameOp.arr (ι := Scalar × Scalar × Unit) (n := 14) (B := (2 ^ 32)) (g := fun x => Gen.Fix.Scalar.op_sub x.1.l x.2.1.l)
      (f := fun x => Leak.Fix.Scalar.op_sub x.1.l x.2.1.l) (fun x y => inferInstance) (fun _ => inferInstance)
      fun x => (C77_scalars x.1 x.2.1 (Arr.ofVal 114 256 (by norm_num) 0)).2.1.imp fun _ h => h.1
    exact h
  | scWideFixed =>
    have h := SameOp.arr (ι := Bytes 114 × Unit) (n := 14) (B := (2 ^ 32)) (g := fun x => Gen.Fix.Scalar.from_bytes_mod_order_wide x.1.l)
      (f := fun x => Leak.Fix.Scalar.from_bytes_mod_order_wide x.1.l) (fun x y => inferInstance) (fun _ => inferInstance)
      fun x => (C77_scalars Scalar.zero Scalar.zero x.1).2.2.imp fun _ h => h.1
    exact h
  | edIdentity => exact ⟨[], fun _ => ⟨_, rfl, rfl⟩⟩
  | edGenerator => exact ⟨[], fun _ => ⟨_, rfl, rfl⟩⟩
  | edAdd =>
    have h := SameOp.mk (ι := EdPt F × EdPt F × Unit) (g := fun x => some (Gen.EdPt.op_add x.1 x.2.1))
      (f := fun x => Leak.EdPt.op_add x.1 x.2.1) (fun x y => inferInstance) (fun _ => inferInstance)
      fun x => ⟨_, rfl⟩
    exact h
  | edSub =>
    have h := SameOp.mk (ι := EdPt F × EdPt F × Unit) (g := fun x => some (Gen.EdPt.op_sub x.1 x.2.1))
      (f := fun x => Leak.EdPt.op_sub x.1 x.2.1) (fun x y => inferInstance) (fun _ => inferInstance)
      fun x => ⟨_, rfl⟩
    exact h
  | edNeg =>
    have h := SameOp.mk (ι := EdPt F × Unit) (g := fun x => some (Gen.EdPt.op_neg x.1))
      (f := fun x => Leak.EdPt.op_neg x.1) (fun x y => inferInstance) (fun _ => inferInstance)
      fun x => ⟨_, rfl⟩
    exact h
  | edDouble =>
    have h := SameOp.mk (ι := EdPt F × Unit) (g := fun x => some (Gen.EdPt.double x.1))
      (f := fun x => Leak.EdPt.double x.1) (fun x y => inferInstance) (fun _ => inferInstance)
      fun x => ⟨_, rfl⟩
    exact h
  | edTorque =>
    have h := SameOp.mk (ι := EdPt F × Unit) (g := fun x => some (Gen.EdPt.torque x.1))
      (f := fun x => Leak.EdPt.torque x.1) (fun x y => inferInstance) (fun _ => inferInstance)
      fun x => ⟨_, rfl⟩
    exact h
  | edMul =>
    have h := SameOp.mk (ι := EdPt F × Scalar × Unit) (g := fun x => Gen.EdPt.op_mul_Scalar x.1 x.2.1.l)
      (f := fun x => Leak.EdPt.op_mul_Scalar x.1 x.2.1.l) (fun x y => inferInstance) (fun _ => inferInstance)
      fun x => op_mul_some x.1 (Arr.words x.2.1)
    exact h
  | edEq =>
    have h := SameOp.mk (ι := EdPt F × EdPt F × Unit) (g := fun x => some (Gen.EdPt.eq x.1 x.2.1))
      (f := fun x => Leak.EdPt.eq x.1 x.2.1) (fun x y => inferInstance) (fun _ => inferInstance)
      fun x => ⟨_, rfl⟩
    exact h
  | edSelect =>
    have h := SameOp.mk (ι := EdPt F × EdPt F × Bool × Unit) (g := fun x => some (Gen.EdPt.conditional_select x.1 x.2.1 x.2.2.1))
      (f := fun x => Leak.EdPt.conditional_select x.1 x.2.1 x.2.2.1) (fun x y => inferInstance) (fun _ => inferInstance)
      fun x => ⟨_, rfl⟩
    exact h
  | edCompress =>
    have h := SameOp.arr (ι := EdPt F × Unit) (n := 57) (B := 256) (g := fun x => Gen.EdPt.compress x.1)
      (f := fun x => Leak.EdPt.compress x.1) (fun x y => inferInstance) (fun _ => inferInstance)
      fun x => ⟨_, Source.EdPt_compress x.1⟩
    exact h
  | edToMontgomery =>
    have h := SameOp.arr (ι := EdPt F × Unit) (n := 56) (B := 256) (g := fun x => Gen.EdPt.to_montgomery x.1)
      (f := fun x => Leak.EdPt.to_montgomery x.1) (fun x y => inferInstance) (fun _ => inferInstance)
      fun x => ⟨_, Source.EdPt_to_montgomery x.1⟩
    exact h
  | edToTwisted =>
    have h := SameOp.mk (ι := EdPt F × Unit) (g := fun x => Gen.EdPt.to_twisted x.1)
      (f := fun x => Leak.EdPt.to_twisted x.1) (fun x y => inferInstance) (fun _ => inferInstance)
      fun x => ⟨_, Source.EdPt_to_twisted x.1⟩
    exact h
  | edIsTorsionFree =>
    have h := SameOp.mk (ι := EdPt F × Unit) (g := fun x => Gen.EdPt.is_torsion_free x.1)
      (f := fun x => Leak.EdPt.is_torsion_free x.1) (fun x y => inferInstance) (fun _ => inferInstance)
      fun x => torsion_free_some x.1
    exact h
  | twIdentity => exact ⟨[], fun _ => ⟨_, rfl, rfl⟩⟩
  | twGenerator => exact ⟨[], fun _ => ⟨_, rfl, rfl⟩⟩
  | twAdd =>
    have h := SameOp.mk (ι := TwPt F × TwPt F × Unit) (g := fun x => some (Gen.TwPt.add x.1 x.2.1))
      (f := fun x => Leak.TwPt.add x.1 x.2.1) (fun x y => inferInstance) (fun _ => inferInstance)
      fun x => ⟨_, rfl⟩
    exact h
  | twNegate =>
    have h := SameOp.mk (ι := TwPt F × Unit) (g := fun x => some (Gen.TwPt.negate x.1))
      (f := fun x => Leak.TwPt.negate x.1) (fun x y => inferInstance) (fun _ => inferInstance)
      fun x => ⟨_, rfl⟩
    exact h
  | twDouble =>
    have h := SameOp.mk (ι := TwPt F × Unit) (g := fun x => some (Gen.TwPt.double x.1))
      (f := fun x => Leak.TwPt.double x.1) (fun x y => inferInstance) (fun _ => inferInstance)
      fun x => ⟨_, rfl⟩
    exact h
  | twTorque =>
    have h := SameOp.mk (ι := TwPt F × Unit) (g := fun x => some (Gen.TwPt.torque x.1))
      (f := fun x => Leak.TwPt.torque x.1) (fun x y => inferInstance) (fun _ => inferInstance)
      fun x => ⟨_, rfl⟩
    exact h
  | twEq =>
    have h := SameOp.mk (ι := TwPt F × TwPt F × Unit) (g := fun x => some (Gen.TwPt.eq x.1 x.2.1))
      (f := fun x => Leak.TwPt.eq x.1 x.2.1) (fun x y => inferInstance) (fun _ => inferInstance)
      fun x => ⟨_, rfl⟩
    exact h
  | twSelect =>
    have h := SameOp.mk (ι := TwPt F × TwPt F × Bool × Unit) (g := fun x => some (Gen.TwPt.conditional_select x.1 x.2.1 x.2.2.1))
      (f := fun x => Leak.TwPt.conditional_select x.1 x.2.1 x.2.2.1) (fun x y => inferInstance) (fun _ => inferInstance)
      fun x => ⟨_, rfl⟩
    exact h
  | twToUntwisted =>
    have h := SameOp.mk (ι := TwPt F × Unit) (g := fun x => Gen.TwPt.to_untwisted x.1)
      (f := fun x => Leak.TwPt.to_untwisted x.1) (fun x y => inferInstance) (fun _ => inferInstance)
      fun x => ⟨_, Source.TwPt_to_untwisted x.1⟩
    exact h
  | variableBase =>
    have h := SameOp.mk (ι := TwPt F × Scalar × Unit) (g := fun x => Gen.variable_base.variable_base x.1 x.2.1.l)
      (f := fun x => Leak.variable_base.variable_base x.1 x.2.1.l) (fun x y => inferInstance) (fun _ => inferInstance)
      fun x => (Leak.variableBase_some x.1 x.2.1).imp fun _ e => (Source.variable_base x.1 x.2.1).trans e
    exact h
  | doubleAndAdd =>
    have h := SameOp.mk (ι := TwPt F × Scalar × Unit) (g := fun x => Gen.double_and_add.double_and_add x.1 x.2.1.l)
      (f := fun x => Leak.double_and_add.double_and_add x.1 x.2.1.l) (fun x y => ⟨Leak.double_and_add_ct (x.2.1.len.trans y.2.1.len.symm)⟩) (fun _ => inferInstance)
      fun x => ⟨_, Source.double_and_add x.1 x.2.1⟩
    exact h
  | doubleBase =>
    have h := SameOp.mk (ι := Scalar × TwPt F × Scalar × Unit) (g := fun x => Gen.double_base.double_base_scalar_mul x.1.l x.2.1 x.2.2.1.l)
      (f := fun x => Leak.double_base.double_base_scalar_mul x.1.l x.2.1 x.2.2.1.l) (fun x y => ⟨Leak.double_base_ct (x.1.len.trans y.1.len.symm) (x.2.2.1.len.trans y.2.2.1.len.symm)⟩) (fun _ => inferInstance)
      fun x => ⟨_, Source.double_base_scalar_mul x.1 x.2.1 x.2.2.1⟩
    exact h
  | montMul =>
    have h := SameOp.arr (ι := Bytes 56 × Scalar × Unit) (n := 56) (B := 256) (g := fun x => Gen.MontgomeryPoint.op_mul_Scalar (F := F) x.1.l x.2.1.l)
      (f := fun x => Leak.MontgomeryPoint.op_mul_Scalar (F := F) x.1.l x.2.1.l) (fun x y => ⟨Leak.ladder_ct (x.2.1.len.trans y.2.1.len.symm)⟩) (fun _ => inferInstance)
      fun x => ⟨_, Source.Mont_mul x.1 x.2.1⟩
    exact h
  | montMulFixed =>
    have h := SameOp.arr (ι := Bytes 56 × Scalar × Unit) (n := 56) (B := 256) (g := fun x => Gen.Fix.MontgomeryPoint.op_mul_Scalar (F := F) x.1.l x.2.1.l)
      (f := fun x => Leak.Fix.MontgomeryPoint.op_mul_Scalar (F := F) x.1.l x.2.1.l) (fun x y => ⟨Leak.Fix.ladder_ct (x.2.1.len.trans y.2.1.len.symm)⟩) (fun _ => inferInstance)
      fun x => ⟨_, fix_ladder x.1 x.2.1⟩
    exact h
  | montEq =>
    have h := SameOp.mk (ι := Bytes 56 × Bytes 56 × Unit) (g := fun x => some (Gen.MontgomeryPoint.eq x.1.l x.2.1.l))
      (f := fun x => Leak.MontgomeryPoint.eq x.1.l x.2.1.l) (fun x y => inferInstance) (fun _ => inferInstance)
      fun x => ⟨_, rfl⟩
    exact h
  | decafIdentity => exact ⟨[], fun _ => ⟨_, rfl, rfl⟩⟩
  | decafGenerator => exact ⟨[], fun _ => ⟨_, rfl, rfl⟩⟩
  | decafAdd =>
    have h := SameOp.mk (ι := DecafPt F × DecafPt F × Unit) (g := fun x => some (Gen.DecafPt.op_add x.1 x.2.1))
      (f := fun x => Leak.DecafPt.op_add x.1 x.2.1) (fun x y => inferInstance) (fun _ => inferInstance)
      fun x => ⟨_, rfl⟩
    exact h
  | decafSub =>
    have h := SameOp.mk (ι := DecafPt F × DecafPt F × Unit) (g := fun x => some (Gen.DecafPt.op_sub x.1 x.2.1))
      (f := fun x => Leak.DecafPt.op_sub x.1 x.2.1) (fun x y => inferInstance) (fun _ => inferInstance)
      fun x => ⟨_, rfl⟩
    exact h
  | decafNeg =>
    have h := SameOp.mk (ι := DecafPt F × Unit) (g := fun x => some (Gen.DecafPt.op_neg x.1))
      (f := fun x => Leak.DecafPt.op_neg x.1) (fun x y => inferInstance) (fun _ => inferInstance)
      fun x => ⟨_, rfl⟩
    exact h
  | decafMul =>
    have h := SameOp.mk (ι := DecafPt F × Scalar × Unit) (g := fun x => Gen.DecafPt.op_mul_Scalar x.1 x.2.1.l)
      (f := fun x => Leak.DecafPt.op_mul_Scalar x.1 x.2.1.l) (fun x y => ⟨Leak.decaf_mul_ct (x.2.1.len.trans y.2.1.len.symm)⟩) (fun _ => inferInstance)
      fun x => ⟨_, Source.Decaf_op_mul x.1 x.2.1⟩
    exact h
  | decafEquals =>
    have h := SameOp.mk (ι := DecafPt F × DecafPt F × Unit) (g := fun x => some (Gen.DecafPt.equals x.1 x.2.1))
      (f := fun x => Leak.DecafPt.equals x.1 x.2.1) (fun x y => inferInstance) (fun _ => inferInstance)
      fun x => ⟨_, rfl⟩
    exact h
  | decafCompress =>
    have h := SameOp.arr (ι := DecafPt F × Unit) (n := 56) (B := 256) (g := fun x => Gen.DecafPt.compress x.1)
      (f := fun x => Leak.DecafPt.compress x.1) (fun x y => inferInstance) (fun _ => inferInstance)
      fun x => ⟨_, Source.Decaf_compress x.1⟩
    exact h
  | decafBytesEq =>
    have h := SameOp.mk (ι := Bytes 56 × Bytes 56 × Unit) (g := fun x => some (Gen.CompressedDecaf.eq x.1.l x.2.1.l))
      (f := fun x => Leak.CompressedDecaf.eq x.1.l x.2.1.l) (fun x y => inferInstance) (fun _ => inferInstance)
      fun x => ⟨_, rfl⟩
    exact h
  | decafOfTw => exact ⟨[], fun _ => ⟨_, rfl, rfl⟩⟩
  | fn₀ a => exact ⟨[], fun _ => ⟨_, rfl, rfl⟩⟩
  | fn₁ f => exact ⟨[], fun _ => ⟨_, rfl, rfl⟩⟩
  | fn₂ f => exact ⟨[], fun _ => ⟨_, rfl, rfl⟩⟩
  | scFromCanonical b =>
    obtain ⟨T, h⟩ := decodeScalar_same
    obtain ⟨r, t, h1, h2, -⟩ := h b
    exact ⟨t, fun _ => ⟨r, h1, h2⟩⟩
  | montIsLowOrder u => exact ⟨_, fun _ => ⟨_, rfl, C69_leaks.1 u.l⟩⟩


/-! ## Programs -/

/-- Two runs: both return, with the result of the source, and if they reveal the same then nothing else
can be told apart. -/
def SecProg.Two {Γ : List Ty} {τ : Ty} (p : SecProg Γ τ) (e e' : Args F Γ) : Prop :=
  ∃ r l t r' l' t', p.src F e = some (r, l) ∧ p.lk F e = some (r, l, t) ∧
    p.src F e' = some (r', l') ∧ p.lk F e' = some (r', l', t') ∧ (l = l' → t = t')

theorem SecProg.two {Γ : List Ty} {τ : Ty} (p : SecProg Γ τ) : ∀ e e' : Args F Γ, p.Two e e' := by
  induction p with
  | ret x => exact fun e e' => ⟨_, _, _, _, _, _, rfl, rfl, rfl, rfl, fun _ => rfl⟩
  | op o x k ih =>
    intro e e'
    obtain ⟨T, h⟩ := o.same (F := F)
    obtain ⟨v, h1, h2⟩ := h (x.get e)
    obtain ⟨v', h1', h2'⟩ := h (x.get e')
    obtain ⟨r, l, t, r', l', t', a, b, c, d, f⟩ := ih (v, e) (v', e')
    refine ⟨r, l, T ++ t, r', l', T ++ t', ?_, ?_, ?_, ?_, fun hl => congrArg (T ++ ·) (f hl)⟩
    · exact (congrArg (Option.bind · _) h1).trans a
    · exact (congrArg (Option.bind · _) h2).trans (congrArg (Option.map _) b)
    · exact (congrArg (Option.bind · _) h1').trans c
    · exact (congrArg (Option.bind · _) h2').trans (congrArg (Option.map _) d)
  | @reveal _ _ α x k ih =>
    intro e e'
    obtain ⟨r, l, t, -, -, -, a, b, -⟩ := ih (x.get e) e e
    obtain ⟨r', l', t', -, -, -, a', b', -⟩ := ih (x.get e') e' e'
    refine ⟨r, ⟨α, x.get e⟩ :: l, t, r', ⟨α, x.get e'⟩ :: l', t', congrArg (Option.map _) a,
      congrArg (Option.map _) b, congrArg (Option.map _) a', congrArg (Option.map _) b', fun hl => ?_⟩
    obtain ⟨h1, h2⟩ := List.cons.inj hl
    have h3 : (x.get e : α) = x.get e' := eq_of_heq (Sigma.mk.inj h1).2
    obtain ⟨q, m, u, q', m', u', c, d, c', d', f⟩ := ih (x.get e) e e'
    rw [b] at d
    rw [← h3] at b'
    rw [b'] at d'
    obtain ⟨-, rfl, rfl⟩ : r = q ∧ l = m ∧ t = u := by simpa using d
    obtain ⟨-, rfl, rfl⟩ : r' = q' ∧ l' = m' ∧ t' = u' := by simpa using d'
    exact f h2
  | decodeEd x no yes ihn ihy =>
    intro e e'
    obtain ⟨T, h⟩ := decodeEd_same (F := F)
    obtain ⟨v, h1, h2⟩ := h (x.get e)
    obtain ⟨v', h1', h2'⟩ := h (x.get e')
    cases v with
    | none =>
      cases v' with
      | none =>
        obtain ⟨r, l, t, r', l', t', a, b, c, d, f⟩ := ihn e e'
        exact ⟨r, _, T false ++ t, r', _, T false ++ t', (congrArg (Option.bind · _) h1).trans
          (congrArg (Option.map _) a), (congrArg (Option.bind · _) h2).trans (congrArg (Option.map _) b),
          (congrArg (Option.bind · _) h1').trans (congrArg (Option.map _) c),
          (congrArg (Option.bind · _) h2').trans (congrArg (Option.map _) d),
          fun hl => congrArg (T false ++ ·) (f (List.cons.inj hl).2)⟩
      | some P' =>
        obtain ⟨r, l, t, -, -, -, a, b, -⟩ := ihn e e
        obtain ⟨r', l', t', -, -, -, c, d, -⟩ := ihy (P', e') (P', e')
        exact ⟨r, _, _, r', _, _, (congrArg (Option.bind · _) h1).trans
          (congrArg (Option.map _) a), (congrArg (Option.bind · _) h2).trans (congrArg (Option.map _) b),
          (congrArg (Option.bind · _) h1').trans (congrArg (Option.map _) c),
          (congrArg (Option.bind · _) h2').trans (congrArg (Option.map _) d),
          fun hl => absurd (eq_of_heq (Sigma.mk.inj (List.cons.inj hl).1).2) (by decide)⟩
    | some P =>
      cases v' with
      | none =>
        obtain ⟨r, l, t, -, -, -, a, b, -⟩ := ihy (P, e) (P, e)
        obtain ⟨r', l', t', -, -, -, c, d, -⟩ := ihn e' e'
        exact ⟨r, _, _, r', _, _, (congrArg (Option.bind · _) h1).trans
          (congrArg (Option.map _) a), (congrArg (Option.bind · _) h2).trans (congrArg (Option.map _) b),
          (congrArg (Option.bind · _) h1').trans (congrArg (Option.map _) c),
          (congrArg (Option.bind · _) h2').trans (congrArg (Option.map _) d),
          fun hl => absurd (eq_of_heq (Sigma.mk.inj (List.cons.inj hl).1).2) (by decide)⟩
      | some P' =>
        obtain ⟨r, l, t, r', l', t', a, b, c, d, f⟩ := ihy (P, e) (P', e')
        exact ⟨r, _, T true ++ t, r', _, T true ++ t', (congrArg (Option.bind · _) h1).trans
          (congrArg (Option.map _) a), (congrArg (Option.bind · _) h2).trans (congrArg (Option.map _) b),
          (congrArg (Option.bind · _) h1').trans (congrArg (Option.map _) c),
          (congrArg (Option.bind · _) h2').trans (congrArg (Option.map _) d),
          fun hl => congrArg (T true ++ ·) (f (List.cons.inj hl).2)⟩
  | decodeEdFixed x no yes ihn ihy =>
    intro e e'
    obtain ⟨T, U, h⟩ := decodeEdFixed_same (F := F)
    obtain ⟨q, v, h0, h1, h2⟩ := h (x.get e)
    obtain ⟨q', v', h0', h1', h2'⟩ := h (x.get e')
    cases v with
    | none =>
      cases v' with
      | none =>
        obtain ⟨r, l, t, r', l', t', a, b, c, d, f⟩ := ihn e e'
        refine ⟨r, _, U q.isSome ++ t, r', _, U q'.isSome ++ t', (congrArg (Option.bind · _) h1).trans
          (congrArg (Option.map _) a), (congrArg (Option.bind · _) h2).trans (congrArg (Option.map _) b),
          (congrArg (Option.bind · _) h1').trans (congrArg (Option.map _) c),
          (congrArg (Option.bind · _) h2').trans (congrArg (Option.map _) d), fun hl => ?_⟩
        have hq := eq_of_heq (Sigma.mk.inj (List.cons.inj (List.cons.inj hl).2).1).2
        have hq' : q.isSome = q'.isSome := Option.some.inj
          ((congrArg (Option.map Option.isSome) h0).symm.trans
            (hq.trans (congrArg (Option.map Option.isSome) h0')))
        rw [hq', f (List.cons.inj (List.cons.inj hl).2).2]
      | some P' =>
        obtain ⟨r, l, t, -, -, -, a, b, -⟩ := ihn e e
        obtain ⟨r', l', t', -, -, -, c, d, -⟩ := ihy (P', e') (P', e')
        exact ⟨r, _, _, r', _, _, (congrArg (Option.bind · _) h1).trans
          (congrArg (Option.map _) a), (congrArg (Option.bind · _) h2).trans (congrArg (Option.map _) b),
          (congrArg (Option.bind · _) h1').trans (congrArg (Option.map _) c),
          (congrArg (Option.bind · _) h2').trans (congrArg (Option.map _) d),
          fun hl => absurd (eq_of_heq (Sigma.mk.inj (List.cons.inj hl).1).2) (by decide)⟩
    | some P =>
      cases v' with
      | none =>
        obtain ⟨r, l, t, -, -, -, a, b, -⟩ := ihy (P, e) (P, e)
        obtain ⟨r', l', t', -, -, -, c, d, -⟩ := ihn e' e'
        exact ⟨r, _, _, r', _, _, (congrArg (Option.bind · _) h1).trans
          (congrArg (Option.map _) a), (congrArg (Option.bind · _) h2).trans (congrArg (Option.map _) b),
          (congrArg (Option.bind · _) h1').trans (congrArg (Option.map _) c),
          (congrArg (Option.bind · _) h2').trans (congrArg (Option.map _) d),
          fun hl => absurd (eq_of_heq (Sigma.mk.inj (List.cons.inj hl).1).2) (by decide)⟩
      | some P' =>
        obtain ⟨r, l, t, r', l', t', a, b, c, d, f⟩ := ihy (P, e) (P', e')
        exact ⟨r, _, T ++ t, r', _, T ++ t', (congrArg (Option.bind · _) h1).trans
          (congrArg (Option.map _) a), (congrArg (Option.bind · _) h2).trans (congrArg (Option.map _) b),
          (congrArg (Option.bind · _) h1').trans (congrArg (Option.map _) c),
          (congrArg (Option.bind · _) h2').trans (congrArg (Option.map _) d),
          fun hl => congrArg (T ++ ·) (f (List.cons.inj hl).2)⟩
  | decodeDecaf x no yes ihn ihy =>
    intro e e'
    obtain ⟨T, h⟩ := decodeDecaf_same (F := F)
    obtain ⟨v, u, h1, h2, h3⟩ := h (x.get e)
    obtain ⟨v', u', h1', h2', h3'⟩ := h (x.get e')
    cases v with
    | none =>
      cases v' with
      | none =>
        obtain ⟨r, l, t, r', l', t', a, b, c, d, f⟩ := ihn e e'
        refine ⟨r, _, u ++ t, r', _, u' ++ t', (congrArg (Option.bind · _) h1).trans
          (congrArg (Option.map _) a), (congrArg (Option.bind · _) h2).trans (congrArg (Option.map _) b),
          (congrArg (Option.bind · _) h1').trans (congrArg (Option.map _) c),
          (congrArg (Option.bind · _) h2').trans (congrArg (Option.map _) d), fun hl => ?_⟩
        have hx : (x.get e : Bytes 56) = x.get e' :=
          Option.some.inj (eq_of_heq (Sigma.mk.inj (List.cons.inj hl).1).2)
        have hu : u = u' := congrArg Prod.snd (Option.some.inj (h2.symm.trans
          ((congrArg (fun b : Bytes 56 => Leak.CompressedDecaf.decompress (F := F) b.l) hx).trans h2')))
        rw [hu, f (List.cons.inj hl).2]
      | some P' =>
        obtain ⟨r, l, t, -, -, -, a, b, -⟩ := ihn e e
        obtain ⟨r', l', t', -, -, -, c, d, -⟩ := ihy (P', e') (P', e')
        exact ⟨r, _, _, r', _, _, (congrArg (Option.bind · _) h1).trans
          (congrArg (Option.map _) a), (congrArg (Option.bind · _) h2).trans (congrArg (Option.map _) b),
          (congrArg (Option.bind · _) h1').trans (congrArg (Option.map _) c),
          (congrArg (Option.bind · _) h2').trans (congrArg (Option.map _) d),
          fun hl => absurd (eq_of_heq (Sigma.mk.inj (List.cons.inj hl).1).2) (by simp)⟩
    | some P =>
      cases v' with
      | none =>
        obtain ⟨r, l, t, -, -, -, a, b, -⟩ := ihy (P, e) (P, e)
        obtain ⟨r', l', t', -, -, -, c, d, -⟩ := ihn e' e'
        exact ⟨r, _, _, r', _, _, (congrArg (Option.bind · _) h1).trans
          (congrArg (Option.map _) a), (congrArg (Option.bind · _) h2).trans (congrArg (Option.map _) b),
          (congrArg (Option.bind · _) h1').trans (congrArg (Option.map _) c),
          (congrArg (Option.bind · _) h2').trans (congrArg (Option.map _) d),
          fun hl => absurd (eq_of_heq (Sigma.mk.inj (List.cons.inj hl).1).2) (by simp)⟩
      | some P' =>
        obtain ⟨r, l, t, r', l', t', a, b, c, d, f⟩ := ihy (P, e) (P', e')
        refine ⟨r, _, u ++ t, r', _, u' ++ t', (congrArg (Option.bind · _) h1).trans
          (congrArg (Option.map _) a), (congrArg (Option.bind · _) h2).trans (congrArg (Option.map _) b),
          (congrArg (Option.bind · _) h1').trans (congrArg (Option.map _) c),
          (congrArg (Option.bind · _) h2').trans (congrArg (Option.map _) d), fun hl => ?_⟩
        rw [h3 rfl, h3' rfl, f (List.cons.inj hl).2]
  | decodeScalar x no yes ihn ihy =>
    intro e e'
    obtain ⟨T, h⟩ := decodeScalar_same
    obtain ⟨v, u, h1, h2, h3⟩ := h (x.get e)
    obtain ⟨v', u', h1', h2', h3'⟩ := h (x.get e')
    cases v with
    | none =>
      cases v' with
      | none =>
        obtain ⟨r, l, t, r', l', t', a, b, c, d, f⟩ := ihn e e'
        refine ⟨r, _, u ++ t, r', _, u' ++ t', (congrArg (Option.bind · _) h1).trans
          (congrArg (Option.map _) a), (congrArg (Option.bind · _) h2).trans (congrArg (Option.map _) b),
          (congrArg (Option.bind · _) h1').trans (congrArg (Option.map _) c),
          (congrArg (Option.bind · _) h2').trans (congrArg (Option.map _) d), fun hl => ?_⟩
        have hx : (x.get e : Bytes 57) = x.get e' :=
          Option.some.inj (eq_of_heq (Sigma.mk.inj (List.cons.inj hl).1).2)
        have hu : u = u' := congrArg Prod.snd (Option.some.inj (h2.symm.trans
          ((congrArg (fun b : Bytes 57 => (Leak.Scalar.from_canonical_bytes b.l).bind fun o => Lk.ret (o.bind (Arr.ofList? 14 (2 ^ 32)))) hx).trans h2')))
        rw [hu, f (List.cons.inj hl).2]
      | some P' =>
        obtain ⟨r, l, t, -, -, -, a, b, -⟩ := ihn e e
        obtain ⟨r', l', t', -, -, -, c, d, -⟩ := ihy (P', e') (P', e')
        exact ⟨r, _, _, r', _, _, (congrArg (Option.bind · _) h1).trans
          (congrArg (Option.map _) a), (congrArg (Option.bind · _) h2).trans (congrArg (Option.map _) b),
          (congrArg (Option.bind · _) h1').trans (congrArg (Option.map _) c),
          (congrArg (Option.bind · _) h2').trans (congrArg (Option.map _) d),
          fun hl => absurd (eq_of_heq (Sigma.mk.inj (List.cons.inj hl).1).2) (by simp)⟩
    | some P =>
      cases v' with
      | none =>
        obtain ⟨r, l, t, -, -, -, a, b, -⟩ := ihy (P, e) (P, e)
        obtain ⟨r', l', t', -, -, -, c, d, -⟩ := ihn e' e'
        exact ⟨r, _, _, r', _, _, (congrArg (Option.bind · _) h1).trans
          (congrArg (Option.map _) a), (congrArg (Option.bind · _) h2).trans (congrArg (Option.map _) b),
          (congrArg (Option.bind · _) h1').trans (congrArg (Option.map _) c),
          (congrArg (Option.bind · _) h2').trans (congrArg (Option.map _) d),
          fun hl => absurd (eq_of_heq (Sigma.mk.inj (List.cons.inj hl).1).2) (by simp)⟩
      | some P' =>
        obtain ⟨r, l, t, r', l', t', a, b, c, d, f⟩ := ihy (P, e) (P', e')
        refine ⟨r, _, u ++ t, r', _, u' ++ t', (congrArg (Option.bind · _) h1).trans
          (congrArg (Option.map _) a), (congrArg (Option.bind · _) h2).trans (congrArg (Option.map _) b),
          (congrArg (Option.bind · _) h1').trans (congrArg (Option.map _) c),
          (congrArg (Option.bind · _) h2').trans (congrArg (Option.map _) d), fun hl => ?_⟩
        rw [h3 rfl, h3' rfl, f (List.cons.inj hl).2]

/-- What is seen of a program is determined by what it reveals, whatever its secrets are; and it returns
what the source returns. -/
theorem C87_programs {Γ : List Ty} {τ : Ty} (p : SecProg Γ τ) : ∃ obs : Log → List Ev,
    ∀ e : Args F Γ, ∃ r l, p.src F e = some (r, l) ∧ p.lk F e = some (r, l, obs l) := by
  classical
  refine ⟨fun l => if h : ∃ (e : Args F Γ) (r : Sem F τ) (t : List Ev), p.lk F e = some (r, l, t) then
    h.choose_spec.choose_spec.choose else [], fun e => ?_⟩
  obtain ⟨r, l, t, -, -, -, a, b, -⟩ := p.two e e
  refine ⟨r, l, a, ?_⟩
  have h : ∃ (e : Args F Γ) (r : Sem F τ) (t : List Ev), p.lk F e = some (r, l, t) := ⟨e, r, t, b⟩
  refine b.trans ?_
  simp only [dif_pos h]
  have hs := h.choose_spec.choose_spec.choose_spec
  obtain ⟨r₁, l₁, t₁, r₂, l₂, t₂, -, b₁, -, b₂, f⟩ := p.two e h.choose
  rw [b] at b₁
  rw [hs] at b₂
  obtain ⟨-, rfl, rfl⟩ : r = r₁ ∧ l = l₁ ∧ t = t₁ := by simpa using b₁
  have e2 := Option.some.inj b₂
  rw [f (congrArg (·.2.1) e2)]
  exact congrArg (fun z => some (r, l, z.2.2)) e2.symm

omit [LeakBackend F L] [CTBackend F L] in
theorem SecProg.silent_log {Γ : List Ty} {τ : Ty} (p : SecProg Γ τ) (h : p.Silent) :
    ∀ (e : Args F Γ) (r : Sem F τ) (l : Log), p.src F e = some (r, l) → l = [] := by
  induction p with
  | ret x => exact fun e r l hl => (congrArg Prod.snd (Option.some.inj hl)).symm
  | op o x k ih =>
    intro e r l hl
    obtain ⟨v, -, hv⟩ := Option.bind_eq_some_iff.1 hl
    exact ih h (v, e) r l hv
  | _ => exact absurd h id

/-- A program that reveals nothing shows one list of observations, for all its secrets. -/
theorem C87_silent {Γ : List Ty} {τ : Ty} (p : SecProg Γ τ) (h : p.Silent) : ∃ T : List Ev,
    ∀ e : Args F Γ, ∃ r, p.src F e = some (r, []) ∧ p.lk F e = some (r, [], T) := by
  obtain ⟨obs, k⟩ := C87_programs (F := F) p
  refine ⟨obs [], fun e => ?_⟩
  obtain ⟨r, l, a, b⟩ := k e
  obtain rfl := p.silent_log h e r l a
  exact ⟨r, a, b⟩

end

/-! ## Examples -/

/-- Arguments. -/
def one {Γ : List Ty} {σ : Ty} (x : Var Γ σ) : Vars Γ [σ] := .cons x .nil
/-- Arguments. -/
def two {Γ : List Ty} {ρ σ : Ty} (x : Var Γ ρ) (y : Var Γ σ) : Vars Γ [ρ, σ] := .cons x (.cons y .nil)

section
variable {Γ : List Ty} {a b c d e f g h i j : Ty}
/-- The variable bound last. -/
def v0 : Var (a :: Γ) a := .here
/-- The variable before. -/
def v1 : Var (a :: b :: Γ) b := .there v0
/-- The variable before. -/
def v2 : Var (a :: b :: c :: Γ) c := .there v1
/-- The variable before. -/
def v3 : Var (a :: b :: c :: d :: Γ) d := .there v2
/-- The variable before. -/
def v4 : Var (a :: b :: c :: d :: e :: Γ) e := .there v3
/-- The variable before. -/
def v5 : Var (a :: b :: c :: d :: e :: f :: Γ) f := .there v4
/-- The variable before. -/
def v6 : Var (a :: b :: c :: d :: e :: f :: g :: Γ) g := .there v5
/-- The variable before. -/
def v7 : Var (a :: b :: c :: d :: e :: f :: g :: h :: Γ) h := .there v6
/-- The variable before. -/
def v8 : Var (a :: b :: c :: d :: e :: f :: g :: h :: i :: Γ) i := .there v7
/-- The variable before. -/
def v9 : Var (a :: b :: c :: d :: e :: f :: g :: h :: i :: j :: Γ) j := .there v8
end

/-- Signing in the manner of RFC 8032 with the private key as the only secret; `clamp` and `pre` take the
two parts of the hash of the key. -/
def signProg (H : List ℕ → Bytes 114) (clamp : Bytes 114 → Bytes 56) (pre : Bytes 114 → List ℕ)
    (dom M : List ℕ) : SecProg [.host (List ℕ)] (.host (Bytes 57 × Bytes 57)) :=
  .op (.fn₁ H) (one v0) <|
  .op (.fn₁ clamp) (one v0) <|
  .op .scFromBytes (one v0) <|
  .op (.fn₁ fun h : Bytes 114 => H (dom ++ pre h ++ M)) (one v2) <|
  .op .scWide (one v0) <|
  .op .edGenerator .nil <|
  .op .edMul (two v0 v1) <|
  .op .edCompress (one v0) <|
  .op .edMul (two v2 v5) <|
  .op .edCompress (one v0) <|
  .op (.fn₂ fun R A : Bytes 57 => H (dom ++ R.l ++ A.l ++ M)) (two v2 v0) <|
  .op .scWide (one v0) <|
  .op .scMul (two v0 v9) <|
  .op .scAdd (two v8 v0) <|
  .op .scToRfc8032 (one v0) <|
  .op (.fn₂ Prod.mk) (two v7 v0) <|
  .ret v0

/-- Signing shows the same for all private keys. -/
example {F L : Type} [FieldBackend F L] [LeakBackend F L] [CTBackend F L]
    (H : List ℕ → Bytes 114) (clamp : Bytes 114 → Bytes 56) (pre : Bytes 114 → List ℕ) (dom M : List ℕ) :
    ∃ T : List Ev, ∀ sk : List ℕ, ∃ sig, (signProg H clamp pre dom M).lk F (sk, ()) = some (sig, [], T) := by
  obtain ⟨T, h⟩ := C87_silent (F := F) (signProg H clamp pre dom M) trivial
  exact ⟨T, fun sk => (h (sk, ())).imp fun _ k => k.2⟩

/-- An interactive proof of knowledge of a Decaf logarithm: the secrets are the logarithm and the nonce;
the commitment is revealed, the challenge is computed from it, the response is revealed. -/
def schnorrProg (H : Bytes 56 → Scalar) : SecProg [.host Scalar, .host Scalar] (.host Unit) :=
  .op .decafGenerator .nil <|
  .op .decafMul (two v0 v2) <|
  .op .decafCompress (one v0) <|
  .reveal v0 fun R =>
  .op (.fn₀ (H R)) .nil <|
  .op .scMul (two v0 v5) <|
  .op .scAdd (two (.there v5) v0) <|
  .reveal v0 fun _ =>
  .op (.fn₀ ()) .nil <|
  .ret v0

/-- Whoever sees commitment, response and everything that the leakage model shows learns nothing from the
latter: there is a function that computes it from commitment and response. -/
example {F L : Type} [FieldBackend F L] [LeakBackend F L] [CTBackend F L] (H : Bytes 56 → Scalar) :
    ∃ obs : Log → List Ev, ∀ x k : Scalar, ∃ r l, (schnorrProg H).src F (x, k, ()) = some (r, l) ∧
      (schnorrProg H).lk F (x, k, ()) = some (r, l, obs l) := by
  obtain ⟨obs, h⟩ := C87_programs (F := F) (schnorrProg H)
  exact ⟨obs, fun x k => h (x, k, ())⟩

/-- A program that reveals a bit and acts on it: the observations are different, as the bit is. -/
def branchProg : SecProg [.host Bool, .host Scalar] (.host Scalar) :=
  .reveal v0 fun c => if c then .op .scHalve (one v1) (.ret v0) else .ret v1

example : ((branchProg.lk U32.Fe (true, Scalar.one, ())).map (·.2.2.length)) ≠
    ((branchProg.lk U32.Fe (false, Scalar.one, ())).map (·.2.2.length)) := by
  decide +kernel

section

end

end Ed448.Props
