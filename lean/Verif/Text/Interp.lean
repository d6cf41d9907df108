import Verif.Text.Syntax
import Verif.Model.Machine

/-!
# An interpreter of the Rust text

Runs the syntax trees of `Verif.Text.Syntax`. The values are field elements, numbers, truth values,
structures, tuples and options. Operators on anything but numbers and truth values, methods and
functions are looked up in a table by the type of the receiver and the name; the table is a parameter.
`none` is a panic or a construct without meaning here.

References are values: `&e`, `&mut e` and `*e` are `e`. A method or function with a mutable argument
is looked up in a second table, whose entries return the new values of all arguments; these are
written back to the argument places.
-/

namespace Ed448.Text

/-- Values. `F` are field elements, `L` the loose ones, `B` whatever else is passed around. -/
inductive Val (F L B : Type)
  | fe (x : F)
  | lo (x : L)
  | ext (x : B)
  | nat (n : ℕ)
  | bool (b : Bool)
  | st (ty : ℕ) (fields : List (ℕ × Val F L B))
  | tup (l : List (Val F L B))
  | opt (o : Option (Val F L B))

variable {F L B : Type}

/-- The values of the variables in scope, the last one declared first. -/
abbrev Env (F L B : Type) := List (ℕ × Val F L B)

/-- Looks up a name. -/
def find {α : Type} (x : ℕ) : List (ℕ × α) → Option α
  | [] => none
  | (y, v) :: r => bif Nat.beq x y then some v else find x r

/-- Changes the value of a name. -/
def change {α : Type} (x : ℕ) (v : α) : List (ℕ × α) → Option (List (ℕ × α))
  | [] => none
  | (y, w) :: r =>
    bif Nat.beq x y then some ((y, v) :: r) else (change x v r).bind fun r' => some ((y, w) :: r')

/-- The meaning of what is not in the text of a function. -/
structure Ctx (F L B : Type) where
  /-- what a type name of the file stands for -/
  names : List (ℕ × ℕ)
  /-- constants -/
  const : List (ℕ × Val F L B)
  /-- functions, by type and name -/
  fn : List (ℕ × ℕ × (List (Val F L B) → Option (Val F L B)))
  /-- functions with mutable arguments, which return the new values of all arguments -/
  mfn : List (ℕ × ℕ × (List (Val F L B) → Option (List (Val F L B))))

/-- An entry of a table. -/
def entry {α : Type} (ty m : ℕ) : List (ℕ × ℕ × α) → Option α
  | [] => none
  | (a, b, v) :: r => bif Nat.beq ty a && Nat.beq m b then some v else entry ty m r

/-- The type of a value. -/
def tyOf : Val F L B → ℕ
  | .fe _ => t! "FieldElement"
  | .lo _ => t! "FieldElement"
  | .ext _ => t! "ext"
  | .nat _ => t! "int"
  | .bool _ => t! "Choice"
  | .st ty _ => ty
  | .tup _ => t! "tuple"
  | .opt _ => t! "Option"

/-- What a type name stands for. -/
def Ctx.ty (cx : Ctx F L B) (n : ℕ) : ℕ := (find n cx.names).getD n

/-- The method that an operator calls. -/
def opName (op : ℕ) : ℕ :=
  bif Nat.beq op (t! "+") then t! "add" else bif Nat.beq op (t! "-") then t! "sub" else
  bif Nat.beq op (t! "*") then t! "mul" else bif Nat.beq op (t! "==") then t! "eq" else 0

/-- A binary operator. -/
def binop (cx : Ctx F L B) (op : ℕ) (a b : Val F L B) : Option (Val F L B) :=
  match a, b with
  | .nat m, .nat n =>
    bif Nat.beq op (t! "-") then (Model.ckSub m n).bind fun r => some (.nat r) else
    bif Nat.beq op (t! "&") then some (.nat (m &&& n)) else
    bif Nat.beq op (t! ">>") then some (.nat (m >>> n)) else
    bif Nat.beq op (t! "==") then some (.bool (m == n)) else
    bif Nat.beq op (t! "!=") then some (.bool (!(m == n))) else none
  | .bool m, .bool n =>
    bif Nat.beq op (t! "&") then some (.bool (and m n)) else
    bif Nat.beq op (t! "|") then some (.bool (or m n)) else
    bif Nat.beq op (t! "^") then some (.bool (xor m n)) else
    bif Nat.beq op (t! "&&") then some (.bool (m && n)) else
    bif Nat.beq op (t! "||") then some (.bool (m || n)) else none
  | _, _ => (entry (tyOf a) (opName op) cx.fn).bind fun g => g [a, b]

/-- A field of a structure. -/
def getField (f : ℕ) : Val F L B → Option (Val F L B)
  | .st _ l => find f l
  | _ => none

/-- Changes a field of a structure. -/
def setField (f : ℕ) (v : Val F L B) : Val F L B → Option (Val F L B)
  | .st ty l => (change f v l).bind fun l' => some (.st ty l')
  | _ => none

/-- The result of running a statement or an expression: the variables, the value, and whether the
function is left. -/
structure Out (F L B : Type) where
  env : Env F L B
  val : Val F L B
  left : Bool

/-- Runs something on each element. -/
def mapO {α β : Type} (g : α → Option β) : List α → Option (List β)
  | [] => some []
  | x :: r => (g x).bind fun y => (mapO g r).bind fun ys => some (y :: ys)

/-- Runs statements one after the other; the value is that of the last one. -/
def seq (g : Env F L B → T → Option (Out F L B)) : List T → Env F L B → Option (Out F L B)
  | [], env => some ⟨env, .tup [], false⟩
  | [s], env => g env s
  | s :: r, env => (g env s).bind fun o => bif o.left then some o else seq g r o.env

/-- Runs a loop body for each value of the index. -/
def loopO (g : Env F L B → ℕ → Option (Out F L B)) : List ℕ → Env F L B → Option (Out F L B)
  | [], env => some ⟨env, .tup [], false⟩
  | i :: r, env => (g env i).bind fun o => bif o.left then some o else loopO g r o.env

/-- Declares the names of a pattern. -/
def declare : List ℕ → Val F L B → Env F L B → Option (Env F L B)
  | [x], v, env => some ((x, v) :: env)
  | xs, .tup l, env => bif Nat.beq xs.length l.length then some ((xs.zip l).reverse ++ env) else none
  | _, _, _ => none

/-- Removes the variables declared since. -/
def leave (env : Env F L B) (o : Out F L B) : Out F L B :=
  ⟨o.env.drop (o.env.length - env.length), o.val, o.left⟩

/-- Writes to a place; `g` evaluates the place that contains it. -/
def write (g : Env F L B → T → Option (Val F L B)) : T → Val F L B → Env F L B → Option (Env F L B)
  | .var [x], v, env => change x v env
  | .un _ e, v, env => write g e v env
  | .fld e f, v, env => (g env e).bind fun w => (setField f v w).bind fun w' => write g e w' env
  | _, _, _ => none

/-- The operand of prefix operators. -/
def base : T → T
  | .un _ e => base e
  | e => e

/-- An expression that denotes a place. -/
def isPlace : T → Bool
  | .var [_] => true
  | .un _ e => isPlace e
  | .fld e _ => isPlace e
  | _ => false

/-- Writes the arguments of a call back to their places. -/
def writeAll (g : Env F L B → T → Option (Val F L B)) :
    List T → List (Val F L B) → Env F L B → Option (Env F L B)
  | [], [], env => some env
  | e :: es, v :: vs, env =>
    bif isPlace e then (write g e v env).bind fun env' => writeAll g es vs env' else writeAll g es vs env
  | _, _, _ => none

/-- The last two names of a path, the first of them as a type. -/
def Ctx.target (cx : Ctx F L B) : List ℕ → ℕ × ℕ
  | [m] => (bif isType m then cx.ty m else 0, m)
  | [a, m] => (cx.ty a, m)
  | _ :: r => cx.target r
  | [] => (0, 0)

/-- The interpreter. The first argument bounds the depth. -/
def eval (cx : Ctx F L B) : ℕ → Env F L B → T → Option (Out F L B)
  | 0, _, _ => none
  | d + 1, env, t =>
    match t with
    | .num n => some ⟨env, .nat n, false⟩
    | .var [x] =>
      match find x env with
      | some v => some ⟨env, v, false⟩
      | none => (find x cx.const).bind fun v => some ⟨env, v, false⟩
    | .var p => (find (cx.target p).2 cx.const).bind fun v => some ⟨env, v, false⟩
    | .un op e =>
      bif Nat.beq op (t! "&") || Nat.beq op (t! "*") then eval cx d env e else
      (eval cx d env e).bind fun o =>
      (entry (tyOf o.val) (t! "neg") cx.fn).bind fun g => (g [o.val]).bind fun v => some ⟨env, v, false⟩
    | .bin op a b =>
      (eval cx d env a).bind fun x => (eval cx d env b).bind fun y =>
      (binop cx op x.val y.val).bind fun v => some ⟨env, v, false⟩
    | .cast e _ =>
      (eval cx d env e).bind fun o =>
      match o.val with
      | .bool b => some ⟨env, .nat b.toNat, false⟩
      | .nat n => some ⟨env, .nat n, false⟩
      | _ => none
    | .fld e f => (eval cx d env e).bind fun o => (getField f o.val).bind fun v => some ⟨env, v, false⟩
    | .call p args =>
      (mapO (eval cx d env) args).bind fun os =>
      match entry (cx.target p).1 (cx.target p).2 cx.mfn with
      | some g =>
        (g (os.map Out.val)).bind fun vs =>
        (writeAll (fun env e => (eval cx d env e).bind fun o => some o.val) args vs env).bind fun env' =>
        some ⟨env', .tup [], false⟩
      | none =>
        (entry (cx.target p).1 (cx.target p).2 cx.fn).bind fun g =>
        (g (os.map Out.val)).bind fun v => some ⟨env, v, false⟩
    | .meth e m args =>
      (mapO (eval cx d env) (e :: args)).bind fun os =>
      match os with
      | [] => none
      | o :: _ =>
        match entry (tyOf o.val) m cx.mfn with
        | some g =>
          (g (os.map Out.val)).bind fun vs =>
          (writeAll (fun env e => (eval cx d env e).bind fun o => some o.val) (e :: args) vs env).bind
          fun env' => some ⟨env', .tup [], false⟩
        | none =>
          (entry (tyOf o.val) m cx.fn).bind fun g =>
          (g (os.map Out.val)).bind fun v => some ⟨env, v, false⟩
    | .struct n inits =>
      (mapO (fun i => match i with
        | .ini f e => (eval cx d env e).bind fun o => some (f, o.val)
        | _ => none) inits).bind fun l => some ⟨env, .st (cx.ty n) l, false⟩
    | .tup es => (mapO (eval cx d env) es).bind fun os => some ⟨env, .tup (os.map Out.val), false⟩
    | .blk ss => (seq (eval cx d) ss env).bind fun o => some (leave env o)
    | .letv xs e =>
      (eval cx d env e).bind fun o => bif o.left then some o else
      (declare xs o.val o.env).bind fun env' => some ⟨env', .tup [], false⟩
    | .asg op lhs e =>
      bif Nat.beq op (t! "=") then
        (eval cx d env e).bind fun o =>
        (write (fun env e => (eval cx d env e).bind fun o => some o.val) lhs o.val env).bind fun env' =>
        some ⟨env', .tup [], false⟩
      else none
    | .semi e => (eval cx d env e).bind fun o => bif o.left then some o else some ⟨o.env, .tup [], false⟩
    | .ifte c a b =>
      (eval cx d env c).bind fun o =>
      match o.val with
      | .bool x => bif x then eval cx d env a else eval cx d env b
      | _ => none
    | .loop x (.bin op a b) body =>
      bif Nat.beq op (t! "..") then
        (eval cx d env a).bind fun m => (eval cx d env b).bind fun n =>
        match m.val, n.val with
        | .nat m, .nat n =>
          loopO (fun env' i => (eval cx d ((x, .nat i) :: env') body).bind fun o => some (leave env' o))
            (List.range' m (n - m)) env
        | _, _ => none
      else none
    | .ret e => (eval cx d env e).bind fun o => some ⟨o.env, o.val, true⟩
    | _ => none

/-- Runs a function on arguments. The result is its value and the final values of its parameters. -/
def Fn.run (f : Fn) (cx : Ctx F L B) (args : List (Val F L B)) :
    Option (Val F L B × List (Val F L B)) :=
  bif Nat.beq f.params.length args.length then
    (eval cx 60 (f.params.zip args).reverse f.body).bind fun o =>
    some (o.val, (o.env.map Prod.snd).reverse)
  else none

/-- The same names. -/
def sameNames : List ℕ → List ℕ → Bool
  | [], [] => true
  | a :: as, b :: bs => Nat.beq a b && sameNames as bs
  | _, _ => false

/-- Finds a function in a file. -/
def fnOf (head : List ℕ) (name : ℕ) : List Fn → Option Fn
  | [] => none
  | f :: r => bif Nat.beq name f.name && sameNames head f.head then some f else fnOf head name r

/-- Runs a function of a file: its value. -/
def call (file : List Fn) (head : List ℕ) (name : ℕ) (cx : Ctx F L B) (args : List (Val F L B)) :
    Option (Val F L B) :=
  (fnOf head name file).bind fun f => (f.run cx args).bind fun r => some r.1

/-- Runs a function of a file: the final values of its parameters. -/
def callMut (file : List Fn) (head : List ℕ) (name : ℕ) (cx : Ctx F L B) (args : List (Val F L B)) :
    Option (List (Val F L B)) :=
  (fnOf head name file).bind fun f => (f.run cx args).bind fun r => some r.2

end Ed448.Text
