import Verif.Text.Interp
import Verif.Gen.Ops

/-!
# An interpreter of the Rust text for integers and arrays

Runs the syntax trees of `Verif.Text.Syntax` for the functions that compute with machine integers. The
integers are a parameter, and so is their arithmetic (`Verif.Gen.Ops`): `conc Ops.release` is that of a
release build. `none` is a panic or a construct without meaning here.

A literal without a type, and what is computed from such literals alone, is an exact integer that takes
the type of the other operand; so do the indices of loops over literal bounds. References are values, a
structure with one nameless field is that field, and a closure sees the variables where it is called. An
expression that is part of another one changes no variable. What a function asserts is collected in a
variable without a name, and a function that asserts something false returns `none` at its end; a closure
that asserts something has no meaning here.
-/

namespace Ed448.Text

/-- Integer types. -/
inductive Ty
  | u (w : ℕ)
  | i (w : ℕ)

/-- The integer type of a name; `usize` has 64 bits. -/
def Ty.of (n : ℕ) : Option Ty :=
  bif Nat.beq n (t! "u8") then some (.u 8) else bif Nat.beq n (t! "u32") then some (.u 32) else
  bif Nat.beq n (t! "u64") then some (.u 64) else bif Nat.beq n (t! "usize") then some (.u 64) else
  bif Nat.beq n (t! "i8") then some (.i 8) else bif Nat.beq n (t! "i64") then some (.i 64) else
  bif Nat.beq n (t! "isize") then some (.i 64) else bif Nat.beq n (t! "i128") then some (.i 128) else none

/-- The operators with two integers of the same type. -/
inductive Op
  | add | sub | mul | and | or | xor

/-- The operator of a sign. -/
def Op.of (s : ℕ) : Option Op :=
  bif Nat.beq s (t! "+") then some .add else bif Nat.beq s (t! "-") then some .sub else
  bif Nat.beq s (t! "*") then some .mul else bif Nat.beq s (t! "&") then some .and else
  bif Nat.beq s (t! "|") then some .or else bif Nat.beq s (t! "^") then some .xor else none

/-- The operator of a method `wrapping_…`. -/
def Op.wrapping (m : ℕ) : Option Op :=
  bif Nat.beq m (t! "wrapping_add") then some .add else
  bif Nat.beq m (t! "wrapping_sub") then some .sub else
  bif Nat.beq m (t! "wrapping_mul") then some .mul else none

/-- Integers with a type. -/
structure Dom (α : Type) where
  /-- a literal -/
  lit : Ty → ℤ → Option α
  /-- `a op b` -/
  bin : Op → Ty → α → α → Option α
  /-- `a.wrapping_op(b)` -/
  wrap : Op → Ty → α → α → Option α
  /-- `a << k` -/
  shl : Ty → α → ℕ → Option α
  /-- `a >> k` -/
  shr : Ty → α → ℕ → Option α
  /-- `a as t` -/
  cast : Ty → Ty → α → Option α
  /-- a comparison -/
  cmp : ℕ → α → α → Option Bool
  /-- a value that is known -/
  val : α → Option ℤ

/-- A number: unsigned or signed. -/
inductive Num
  | n (x : ℕ)
  | z (x : ℤ)

/-- Compares natural numbers. -/
def cmpN (s x y : ℕ) : Option Bool :=
  bif Nat.beq s (t! "==") then some (x == y) else bif Nat.beq s (t! "!=") then some (!(x == y)) else
  bif Nat.beq s (t! "<") then some (decide (x < y)) else
  bif Nat.beq s (t! ">") then some (decide (x > y)) else
  bif Nat.beq s (t! ">=") then some (decide (x ≥ y)) else
  bif Nat.beq s (t! "<=") then some (decide (x ≤ y)) else none

/-- Compares integers. -/
def cmpZ (s : ℕ) (x y : ℤ) : Option Bool :=
  bif Nat.beq s (t! "==") then some (x == y) else bif Nat.beq s (t! "!=") then some (!(x == y)) else
  bif Nat.beq s (t! "<") then some (decide (x < y)) else
  bif Nat.beq s (t! ">") then some (decide (x > y)) else
  bif Nat.beq s (t! ">=") then some (decide (x ≥ y)) else
  bif Nat.beq s (t! "<=") then some (decide (x ≤ y)) else none

/-- The integers with the operations `o`. -/
def conc (o : Ops) : Dom Num where
  lit t z :=
    match t with
    | .u _ => some (.n z.toNat)
    | .i _ => some (.z z)
  bin op t a b :=
    match t, a, b with
    | .u w, .n x, .n y =>
      match op with
      | .add => some (.n (o.addU w x y))
      | .sub => some (.n (o.subU w x y))
      | .mul => some (.n (o.mulU w x y))
      | .and => some (.n (o.andU x y))
      | .or => some (.n (o.orU x y))
      | .xor => some (.n (o.xorU x y))
    | .i w, .z x, .z y =>
      match op with
      | .add => some (.z (o.addI w x y))
      | .sub => some (.z (o.subI w x y))
      | .mul => some (.z (o.mulI w x y))
      | .and => some (.z (o.andI w x y))
      | .or => some (.z (o.orI w x y))
      | .xor => some (.z (o.xorI w x y))
    | _, _, _ => none
  wrap op t a b :=
    match op, t, a, b with
    | .add, .u w, .n x, .n y => some (.n (o.waddU w x y))
    | .sub, .u w, .n x, .n y => some (.n (o.wsubU w x y))
    | .mul, .u w, .n x, .n y => some (.n (o.wmulU w x y))
    | _, _, _, _ => none
  shl t a k :=
    match t, a with
    | .u w, .n x => bif Nat.blt k w then some (.n (o.shlU w x k)) else none
    | .i w, .z x => bif Nat.blt k w then some (.z (o.shlI w x k)) else none
    | _, _ => none
  shr t a k :=
    match t, a with
    | .u w, .n x => bif Nat.blt k w then some (.n (o.shrU x k)) else none
    | .i w, .z x => bif Nat.blt k w then some (.z (o.shrI x k)) else none
    | _, _ => none
  cast s t a :=
    match s, t, a with
    | .u v, .u w, .n x => some (.n (bif Nat.ble v w then x else o.modU w x))
    | .u v, .i w, .n x => some (.z (bif Nat.blt v w then o.ext x else o.toI w x))
    | .i _, .u w, .z x => some (.n (o.asU w x))
    | .i v, .i w, .z x => some (.z (bif Nat.ble v w then x else o.modI w x))
    | _, _, _ => none
  cmp s a b :=
    match a, b with
    | .n x, .n y => cmpN s x y
    | .z x, .z y => cmpZ s x y
    | _, _ => none
  val a :=
    match a with
    | .n x => some (x : ℤ)
    | .z x => some x

/-- Values. -/
inductive IV (α : Type)
  | int (t : Ty) (x : α)
  | lit (z : ℤ)
  | bool (b : Bool)
  | arr (l : List (IV α))
  | clo (params : List ℕ) (body : T)
  | opt (o : Option (IV α))
  /-- a scalar or field element that is only passed on -/
  | obj (l : List ℕ)

variable {α : Type}

/-- The variables in scope. -/
abbrev IEnv (α : Type) := List (ℕ × IV α)

/-- What is not in the text of a function. -/
structure ICtx (α : Type) where
  dom : Dom α
  /-- constants -/
  const : List (ℕ × IV α)
  /-- functions and methods, by name -/
  fn : List (ℕ × (List (IV α) → Option (IV α)))
  /-- methods that change their first argument, by name: the new value -/
  mfn : List (ℕ × (List (IV α) → Option (IV α)))
  /-- functions that change their arguments, by name: the new values -/
  cfn : List (ℕ × (List (IV α) → Option (List (IV α)))) := []

/-- The result of a statement or an expression. -/
structure IOut (α : Type) where
  env : IEnv α
  val : IV α
  left : Bool

/-- An operation on exact integers. -/
def litOp (s : ℕ) (a b : ℤ) : Option (IV α) :=
  bif Nat.beq s (t! "+") then some (.lit (a + b)) else
  bif Nat.beq s (t! "-") then some (.lit (a - b)) else
  bif Nat.beq s (t! "*") then some (.lit (a * b)) else
  bif Nat.beq s (t! "/") then some (.lit (Int.tdiv a b)) else
  bif Nat.beq s (t! "%") then some (.lit (Int.tmod a b)) else
  bif Nat.beq s (t! "&") then some (.lit ((a.toNat &&& b.toNat : ℕ) : ℤ)) else
  bif Nat.beq s (t! "<<") then some (.lit (a * ((2 ^ b.toNat : ℕ) : ℤ))) else
  bif Nat.beq s (t! ">>") then some (.lit (Int.ediv a ((2 ^ b.toNat : ℕ) : ℤ))) else
  (cmpZ s a b).bind fun r => some (.bool r)

/-- A sign that compares. -/
def isCmp (s : ℕ) : Bool :=
  Nat.beq s (t! "==") || Nat.beq s (t! "!=") || Nat.beq s (t! "<") || Nat.beq s (t! ">") ||
  Nat.beq s (t! "<=") || Nat.beq s (t! ">=")

/-- An operation on integers of the type `t`. -/
def intOp (d : Dom α) (s : ℕ) (t : Ty) (a b : α) : Option (IV α) :=
  bif isCmp s then (d.cmp s a b).bind fun r => some (.bool r) else
  bif Nat.beq s (t! "/") || Nat.beq s (t! "%") then
    (d.val a).bind fun x => (d.val b).bind fun y =>
    (d.lit t (bif Nat.beq s (t! "/") then Int.tdiv x y else Int.tmod x y)).bind fun v => some (.int t v)
  else (Op.of s).bind fun op => (d.bin op t a b).bind fun v => some (.int t v)

/-- The known value of an integer. -/
def known (d : Dom α) : IV α → Option ℤ
  | .lit z => some z
  | .int _ x => d.val x
  | _ => none

/-- A shift. -/
def shift (d : Dom α) (s : ℕ) (t : Ty) (a : α) (k : ℕ) : Option (IV α) :=
  (bif Nat.beq s (t! "<<") then d.shl t a k else d.shr t a k).bind fun v => some (.int t v)

/-- `a..b` -/
def rangeL (a b : ℤ) : List (IV α) := (List.range (b - a).toNat).map fun (k : ℕ) => .lit (a + (k : ℤ))

/-- A binary operator. -/
def ibin (d : Dom α) (s : ℕ) (a b : IV α) : Option (IV α) :=
  match a, b with
  | .lit x, .lit y =>
    bif Nat.beq s (t! "..") then some (.arr (rangeL x y)) else
    bif Nat.beq s (t! "..=") then some (.arr (rangeL x (y + 1))) else litOp s x y
  | .int t x, b =>
    bif Nat.beq s (t! "<<") || Nat.beq s (t! ">>") then
      (known d b).bind fun k => shift d s t x k.toNat
    else
      bif Nat.beq s (t! "..") || Nat.beq s (t! "..=") then
        (d.val x).bind fun x => (known d b).bind fun y =>
        some (.arr (rangeL x (bif Nat.beq s (t! "..") then y else y + 1)))
      else
      match b with
      | .int _ y => intOp d s t x y
      | .lit y => (d.lit t y).bind fun y => intOp d s t x y
      | _ => none
  | .lit x, .int t y =>
    bif Nat.beq s (t! "<<") || Nat.beq s (t! ">>") then
      (d.val y).bind fun k => litOp s x k
    else (d.lit t x).bind fun x => intOp d s t x y
  | .bool x, .bool y =>
    bif Nat.beq s (t! "&&") then some (.bool (x && y)) else
    bif Nat.beq s (t! "||") then some (.bool (x || y)) else none
  | _, _ => none

/-- An element of an array. -/
def elem : List (IV α) → ℕ → Option (IV α)
  | [], _ => none
  | v :: _, 0 => some v
  | _ :: r, i + 1 => elem r i

/-- Changes an element of an array. -/
def setElem (v : IV α) : List (IV α) → ℕ → Option (List (IV α))
  | [], _ => none
  | _ :: r, 0 => some (v :: r)
  | x :: r, i + 1 => (setElem v r i).bind fun r' => some (x :: r')

/-- `a[i]` -/
def index (d : Dom α) (a i : IV α) : Option (IV α) :=
  match a with
  | .arr l => (known d i).bind fun k => bif decide (0 ≤ k) then elem l k.toNat else none
  | _ => none

/-- `&a[i..]` -/
def sliceFrom (d : Dom α) (a i : IV α) : Option (IV α) :=
  match a with
  | .arr l => (known d i).bind fun k =>
    bif decide (0 ≤ k) && Nat.ble k.toNat l.length then some (.arr (l.drop k.toNat)) else none
  | _ => none

/-- `a[i] = v` -/
def setIndex (d : Dom α) (a i v : IV α) : Option (IV α) :=
  match a with
  | .arr l => (known d i).bind fun k =>
    bif decide (0 ≤ k) then (setElem v l k.toNat).bind fun l' => some (.arr l') else none
  | _ => none

/-- A cast. -/
def icast (d : Dom α) (ty : ℕ) (a : IV α) : Option (IV α) :=
  (Ty.of ty).bind fun t =>
  match a with
  | .int s x => (d.cast s t x).bind fun v => some (.int t v)
  | .lit z => (match t with
    | .u w => d.lit t (z % 2 ^ w)
    | .i w => d.lit t (Int.bmod z (2 ^ w))).bind fun v => some (.int t v)
  | .bool b => (d.lit t (b.toNat : ℤ)).bind fun v => some (.int t v)
  | _ => none

/-- Statements one after the other. -/
def iseq (g : IEnv α → T → Option (IOut α)) : List T → IEnv α → Option (IOut α)
  | [], env => some ⟨env, .arr [], false⟩
  | [s], env => g env s
  | s :: r, env => (g env s).bind fun o => bif o.left then some o else iseq g r o.env

/-- A loop. -/
def iloop (g : IEnv α → IV α → Option (IOut α)) : List (IV α) → IEnv α → Option (IOut α)
  | [], env => some ⟨env, .arr [], false⟩
  | i :: r, env => (g env i).bind fun o => bif o.left then some o else iloop g r o.env

/-- Declares the names of a pattern. -/
def ideclare : List ℕ → IV α → IEnv α → Option (IEnv α)
  | [x], v, env => some ((x, v) :: env)
  | xs, .arr l, env => bif Nat.beq xs.length l.length then some ((xs.zip l).reverse ++ env) else none
  | _, _, _ => none

/-- Removes the variables declared since. -/
def ileave (env : IEnv α) (o : IOut α) : IOut α :=
  ⟨o.env.drop (o.env.length - env.length), o.val, o.left⟩

/-- Writes to a place. -/
def iwrite (d : Dom α) (g : IEnv α → T → Option (IV α)) : T → IV α → IEnv α → Option (IEnv α)
  | .var [x], v, env => change x v env
  | .un _ e, v, env => iwrite d g e v env
  | .fld e _, v, env => iwrite d g e v env
  | .idx e i, v, env =>
    (g env e).bind fun a => (g env i).bind fun k => (setIndex d a k v).bind fun a' => iwrite d g e a' env
  | _, _, _ => none

/-- Writes to the arguments that are places. -/
def iwriteAll (d : Dom α) (g : IEnv α → T → Option (IV α)) :
    List T → List (IV α) → IEnv α → Option (IEnv α)
  | [], [], env => some env
  | e :: es, v :: vs, env =>
    bif isPlace e then (iwrite d g e v env).bind fun env' => iwriteAll d g es vs env'
    else iwriteAll d g es vs env
  | _, _, _ => none

/-- The sign of a compound assignment without `=`. -/
def baseOp (s : ℕ) : ℕ :=
  bif Nat.beq s (t! "+=") then t! "+" else bif Nat.beq s (t! "-=") then t! "-" else
  bif Nat.beq s (t! "*=") then t! "*" else bif Nat.beq s (t! ">>=") then t! ">>" else
  bif Nat.beq s (t! "<<=") then t! "<<" else 0

/-- The method of an operator. -/
def opFn (s : ℕ) : ℕ :=
  bif Nat.beq s (t! "+") then t! "op +" else bif Nat.beq s (t! "-") then t! "op -" else
  bif Nat.beq s (t! "==") then t! "op ==" else t! "op *"

/-- The last name of a path. -/
def lastName : List ℕ → ℕ
  | [] => 0
  | [n] => n
  | _ :: r => lastName r

/-- `[f(0), …, f(n-1)]` -/
def fromFn (g : IV α → Option (IV α)) (n : ℕ) : Option (IV α) :=
  (mapO g (rangeL 0 (n : ℤ))).bind fun l => some (.arr l)

/-- Methods of the language. -/
def builtin (d : Dom α) (m : ℕ) (a : IV α) (args : List (IV α)) : Option (IV α) :=
  match args with
  | [] =>
    match a with
    | .arr l => bif Nat.beq m (t! "rev") then some (.arr l.reverse) else
      bif Nat.beq m (t! "iter") || Nat.beq m (t! "clone") then some a else none
    | .obj _ => bif Nat.beq m (t! "clone") then some a else none
    | .bool b => bif Nat.beq m (t! "into") then some (.bool b) else none
    | _ => none
  | [b] =>
    (Op.wrapping m).bind fun op =>
    match a, b with
    | .int t x, .int _ y => (d.wrap op t x y).bind fun v => some (.int t v)
    | .int t x, .lit y => (d.lit t y).bind fun y => (d.wrap op t x y).bind fun v => some (.int t v)
    | .lit x, .int t y => (d.lit t x).bind fun x => (d.wrap op t x y).bind fun v => some (.int t v)
    | _, _ => none
  | _ => none

/-- The interpreter. The first argument bounds the depth. -/
def ieval (cx : ICtx α) : ℕ → IEnv α → T → Option (IOut α)
  | 0, _, _ => none
  | f + 1, env, t =>
    match t with
    | .num n => some ⟨env, .lit (n : ℤ), false⟩
    | .var p =>
      match find (lastName p) env with
      | some v => some ⟨env, v, false⟩
      | none => (find (lastName p) cx.const).bind fun v => some ⟨env, v, false⟩
    | .un op e =>
      (ieval cx f env e).bind fun o =>
      bif Nat.beq op (t! "&") || Nat.beq op (t! "*") then some ⟨env, o.val, false⟩ else
      match o.val with
      | .lit z => bif Nat.beq op (t! "-") then some ⟨env, .lit (-z), false⟩ else none
      | .bool b => bif Nat.beq op (t! "!") then some ⟨env, .bool (!b), false⟩ else none
      | _ => none
    | .bin op a b =>
      (ieval cx f env a).bind fun x => (ieval cx f env b).bind fun y =>
      (match x.val with
        | .arr _ => (find (opFn op) cx.fn).bind fun g => g [x.val, y.val]
        | .obj _ => (find (opFn op) cx.fn).bind fun g => g [x.val, y.val]
        | .int (.u 0) _ => (find (opFn op) cx.fn).bind fun g => g [x.val, y.val]
        | _ => ibin cx.dom op x.val y.val).bind fun v => some ⟨env, v, false⟩
    | .cast e ty => (ieval cx f env e).bind fun o => (icast cx.dom ty o.val).bind fun v => some ⟨env, v, false⟩
    | .fld e _ => (ieval cx f env e).bind fun o => some ⟨env, o.val, false⟩
    | .idx e (.un op i) =>
      bif Nat.beq op (t! "..") then
        (ieval cx f env e).bind fun a => (ieval cx f env i).bind fun k =>
        (sliceFrom cx.dom a.val k.val).bind fun v => some ⟨env, v, false⟩
      else none
    | .idx e i =>
      (ieval cx f env e).bind fun a => (ieval cx f env i).bind fun k =>
      (index cx.dom a.val k.val).bind fun v => some ⟨env, v, false⟩
    | .call p args =>
      (mapO (ieval cx f env) args).bind fun os =>
      match find (lastName p) env with
      | some (.clo ps body) =>
        bif Nat.beq ps.length os.length then
          (ieval cx f ((ps.zip (os.map IOut.val)).reverse ++ (0, .bool false) :: env) body).bind fun o =>
          some ⟨env, o.val, false⟩
        else none
      | some _ => none
      | none =>
        bif isType (lastName p) then
          match os with
          | [o] => some ⟨env, bif Nat.beq (lastName p) (t! "Some") then .opt (some o.val) else o.val, false⟩
          | _ => none
        else
          match find (lastName p) cx.cfn with
          | some g =>
            (g (os.map IOut.val)).bind fun vs =>
            (iwriteAll cx.dom (fun env e => (ieval cx f env e).bind fun o => some o.val) args vs env).bind
            fun env' => some ⟨env', .arr [], false⟩
          | none =>
            (find (lastName p) cx.fn).bind fun g => (g (os.map IOut.val)).bind fun v => some ⟨env, v, false⟩
    | .meth e m args =>
      (ieval cx f env e).bind fun a => (mapO (ieval cx f env) args).bind fun os =>
      match find m cx.mfn with
      | some g =>
        (g (a.val :: os.map IOut.val)).bind fun v =>
        (iwrite cx.dom (fun env e => (ieval cx f env e).bind fun o => some o.val) e v env).bind fun env' =>
        some ⟨env', .arr [], false⟩
      | none =>
        match find m cx.fn with
        | some g => (g (a.val :: os.map IOut.val)).bind fun v => some ⟨env, v, false⟩
        | none => (builtin cx.dom m a.val (os.map IOut.val)).bind fun v => some ⟨env, v, false⟩
    | .struct n inits =>
      (mapO (fun i => match i with
        | .ini f' e => (ieval cx f env e).bind fun o => some (.arr [.lit (f' : ℤ), o.val])
        | _ => none) inits).bind fun l => (find n cx.fn).bind fun g => (g l).bind fun v => some ⟨env, v, false⟩
    | .tup es => (mapO (ieval cx f env) es).bind fun os => some ⟨env, .arr (os.map IOut.val), false⟩
    | .arr [.rep e n] =>
      (ieval cx f env e).bind fun a => (ieval cx f env n).bind fun k => (known cx.dom k.val).bind fun k =>
      some ⟨env, .arr (List.replicate k.toNat a.val), false⟩
    | .arr es => (mapO (ieval cx f env) es).bind fun os => some ⟨env, .arr (os.map IOut.val), false⟩
    | .rep (.call p [.clo ps body]) (.num n) =>
      bif Nat.beq (lastName p) (t! "from_fn") then
        match ps with
        | [x] =>
          (fromFn (fun i => (ieval cx f ((x, i) :: env) body).bind fun o => some o.val) n).bind fun v =>
          some ⟨env, v, false⟩
        | _ => none
      else none
    | .rep e _ => ieval cx f env e
    | .clo ps body => some ⟨env, .clo ps body, false⟩
    | .blk ss => (iseq (ieval cx f) ss env).bind fun o => some (ileave env o)
    | .letv xs e =>
      (ieval cx f env e).bind fun o =>
      (ideclare xs o.val env).bind fun env' => some ⟨env', .arr [], false⟩
    | .asg op lhs e =>
      (ieval cx f env e).bind fun o =>
      (bif Nat.beq op (t! "=") then some o.val else
        (ieval cx f env lhs).bind fun a => ibin cx.dom (baseOp op) a.val o.val).bind fun v =>
      (iwrite cx.dom (fun env e => (ieval cx f env e).bind fun o => some o.val) lhs v env).bind fun env' =>
      some ⟨env', .arr [], false⟩
    | .semi (.call [g] [c]) =>
      bif Nat.beq g (t! "assert") then
        (ieval cx f env c).bind fun o =>
        match o.val, find 0 env with
        | .bool b, some (.arr l) =>
          (change 0 (.arr (.bool b :: l)) env).bind fun env' => some ⟨env', .arr [], false⟩
        | _, _ => none
      else (ieval cx f env (.call [g] [c])).bind fun o => some ⟨o.env, .arr [], false⟩
    | .semi e =>
      (ieval cx f env e).bind fun o => bif o.left then some o else some ⟨o.env, .arr [], false⟩
    | .ifte c a b =>
      (ieval cx f env c).bind fun o =>
      match o.val with
      | .bool x => bif x then ieval cx f env a else ieval cx f env b
      | _ => none
    | .loop x e body =>
      (ieval cx f env e).bind fun o =>
      match o.val with
      | .arr l =>
        iloop (fun env' i => (ieval cx f ((x, i) :: env') body).bind fun o => some (ileave env' o)) l env
      | _ => none
    | .ret e => (ieval cx f env e).bind fun o => some ⟨env, o.val, true⟩
    | _ => none

/-- What is asserted. -/
def allTrue : List (IV α) → Bool
  | [] => true
  | .bool b :: l => b && allTrue l
  | _ :: _ => false

/-- Runs a function: what it asserts, its value and the final values of its parameters. -/
def Fn.irun (fn : Fn) (cx : ICtx α) (args : List (IV α)) :
    Option (List (IV α) × IV α × List (IV α)) :=
  bif Nat.beq fn.params.length args.length then
    (ieval cx 60 ((fn.params.zip args).reverse ++ [(0, .arr [])]) fn.body).bind fun o =>
    match (o.env.map Prod.snd).reverse with
    | .arr l :: r => some (l, o.val, r)
    | _ => none
  else none

/-- Runs a function of a file: its value. A false assertion is a panic. -/
def icall (file : List Fn) (head : List ℕ) (name : ℕ) (cx : ICtx α) (args : List (IV α)) :
    Option (IV α) :=
  (fnOf head name file).bind fun f => (f.irun cx args).bind fun r => bif allTrue r.1 then some r.2.1 else none

/-- Runs a function of a file: the final value of its first parameter. -/
def icallMut (file : List Fn) (head : List ℕ) (name : ℕ) (cx : ICtx α) (args : List (IV α)) :
    Option (IV α) :=
  (fnOf head name file).bind fun f => (f.irun cx args).bind fun r => bif allTrue r.1 then r.2.2.head? else none

end Ed448.Text
