import Verif.Text.Source

/-!
# The functions in the text

What the parser reads in each source file. The syntax trees are computed when this file is elaborated;
that the parser returns them is then proved by evaluating it in the kernel.
-/

namespace Ed448.Text
open Lean Elab Term Meta Tactic

/-- Quotes a name or number. -/
def quoteNat (n : ℕ) : Expr := mkRawNatLit n

/-- Quotes a list. -/
def quoteList (ty : Expr) (l : List Expr) : Expr :=
  l.foldr (fun a b => mkApp3 (mkConst ``List.cons [0]) ty a b) (mkApp (mkConst ``List.nil [0]) ty)

/-- Quotes a list of numbers. -/
def quoteNats (l : List ℕ) : Expr := quoteList (mkConst ``Nat) (l.map quoteNat)

/-- Quotes a syntax tree. -/
partial def quoteT : T → Expr
  | .num n => mkApp (mkConst ``T.num) (quoteNat n)
  | .var p => mkApp (mkConst ``T.var) (quoteNats p)
  | .un op e => mkApp2 (mkConst ``T.un) (quoteNat op) (quoteT e)
  | .bin op a b => mkApp3 (mkConst ``T.bin) (quoteNat op) (quoteT a) (quoteT b)
  | .cast e ty => mkApp2 (mkConst ``T.cast) (quoteT e) (quoteNat ty)
  | .fld e f => mkApp2 (mkConst ``T.fld) (quoteT e) (quoteNat f)
  | .idx e i => mkApp2 (mkConst ``T.idx) (quoteT e) (quoteT i)
  | .call p l => mkApp2 (mkConst ``T.call) (quoteNats p) (quoteList (mkConst ``T) (l.map quoteT))
  | .meth e m l =>
    mkApp3 (mkConst ``T.meth) (quoteT e) (quoteNat m) (quoteList (mkConst ``T) (l.map quoteT))
  | .struct n l => mkApp2 (mkConst ``T.struct) (quoteNat n) (quoteList (mkConst ``T) (l.map quoteT))
  | .ini f e => mkApp2 (mkConst ``T.ini) (quoteNat f) (quoteT e)
  | .tup l => mkApp (mkConst ``T.tup) (quoteList (mkConst ``T) (l.map quoteT))
  | .arr l => mkApp (mkConst ``T.arr) (quoteList (mkConst ``T) (l.map quoteT))
  | .clo p e => mkApp2 (mkConst ``T.clo) (quoteNats p) (quoteT e)
  | .rep e n => mkApp2 (mkConst ``T.rep) (quoteT e) (quoteT n)
  | .blk l => mkApp (mkConst ``T.blk) (quoteList (mkConst ``T) (l.map quoteT))
  | .letv xs e => mkApp2 (mkConst ``T.letv) (quoteNats xs) (quoteT e)
  | .asg op a b => mkApp3 (mkConst ``T.asg) (quoteNat op) (quoteT a) (quoteT b)
  | .semi e => mkApp (mkConst ``T.semi) (quoteT e)
  | .ifte c a b => mkApp3 (mkConst ``T.ifte) (quoteT c) (quoteT a) (quoteT b)
  | .loop x e b => mkApp3 (mkConst ``T.loop) (quoteNat x) (quoteT e) (quoteT b)
  | .ret e => mkApp (mkConst ``T.ret) (quoteT e)

/-- Quotes a function. -/
def quoteFn (f : Fn) : Expr :=
  mkApp4 (mkConst ``Fn.mk) (quoteNats f.head) (quoteNat f.name) (quoteNats f.params) (quoteT f.body)

/-- Evaluates the parser. -/
unsafe def evalFnsUnsafe (e : Expr) : TermElabM (List Fn) :=
  evalExpr (List Fn) (mkApp (mkConst ``List [0]) (mkConst ``Fn)) e

/-- Evaluates the parser. -/
@[implemented_by evalFnsUnsafe]
opaque evalFns (e : Expr) : TermElabM (List Fn)

/-- `parsed% e` is the value of `e` as a list of syntax trees. -/
elab "parsed% " e:term : term => do
  let e ← elabTermEnsuringType e (some (mkApp (mkConst ``List [0]) (mkConst ``Fn)))
  synthesizeSyntheticMVarsNoPostponing
  let e ← instantiateMVars e
  return quoteList (mkConst ``Fn) ((← evalFns e).map quoteFn)

/-- Proves `a = b` by leaving the comparison to the kernel. -/
elab "krfl" : tactic => do
  let g ← getMainGoal
  let some (α, a, _) := (← instantiateMVars (← g.getType)).eq? | throwError "not an equation"
  g.assign (mkApp2 (mkConst ``Eq.refl [← getLevel α]) α a)

end Ed448.Text
