import Verif.Text.IntEval
import Verif.Text.Files

/-!
# What the encodings of points in the text may use

Field elements and points are opaque for the interpreter of `Verif.Text.IntEval`, and the operations on
them are a parameter, like those on machine integers. Results with any operations are proved in this file.
-/

set_option linter.all false
set_option maxRecDepth 100000

namespace Ed448.Text

/-- Integers, choices, field elements (also the constant `EDWARDS_D`) and points. -/
inductive EV (D E F : Type)
  | num (n : Num)
  | cho (b : Bool)
  | fe (x : F)
  | edD
  | aff (x y : F)
  | edw (P : D)
  | tw (P : E)

/-- The operations. -/
structure EncOps (D E F : Type) where
  /-- integers -/
  o : Ops
  /-- `Choice::from` -/
  ch : ℕ → Bool
  /-- `FieldElement` -/
  one : F
  add : F → F → F
  sub : F → F → F
  mul : F → F → F
  /-- `EDWARDS_D * x` -/
  mulD : F → F
  square : F → F
  isNeg : F → Bool
  condNeg : F → Bool → F
  sqrtRatio : F → F → F × Bool
  invSqrt : F → F × Bool
  ofB : List ℕ → F
  toB : F → ℕ → ℕ
  /-- `NEG_FOUR_TIMES_TWISTED_D` and `DECAF_FACTOR` -/
  negFour : F
  factor : F
  /-- `ct_eq` on bytes -/
  eqB : List ℕ → List ℕ → Bool
  /-- coordinates of `to_affine` -/
  affX : D → F
  affY : D → F
  /-- `AffinePoint::to_extended` -/
  toExt : F → F → D
  /-- twisted `ExtendedPoint` -/
  tw : F → F → F → F → E

variable {D E F : Type}

/-- The integers among the values. -/
def onENum {γ : Type} (g : Num → Option γ) : EV D E F → Option γ
  | .num n => g n
  | _ => none

/-- The integers among the values. -/
def edom (o : Ops) : Dom (EV D E F) where
  lit t z := ((conc o).lit t z).bind fun v => some (.num v)
  bin op t a b := onENum (fun x => onENum (fun y => ((conc o).bin op t x y).bind fun v => some (.num v)) b) a
  wrap op t a b := onENum (fun x => onENum (fun y => ((conc o).wrap op t x y).bind fun v => some (.num v)) b) a
  shl t a k := onENum (fun x => ((conc o).shl t x k).bind fun v => some (.num v)) a
  shr t a k := onENum (fun x => ((conc o).shr t x k).bind fun v => some (.num v)) a
  cast s t a := onENum (fun x => ((conc o).cast s t x).bind fun v => some (.num v)) a
  cmp s a b := onENum (fun x => onENum (fun y => (conc o).cmp s x y) b) a
  val a := onENum (fun x => (conc o).val x) a

/-- A value that is no integer. -/
def vE (x : EV D E F) : IV (EV D E F) := .int (.u 0) x

/-- A byte. -/
def vB (n : ℕ) : IV (EV D E F) := .int (.u 8) (.num (.n n))

/-- The bytes of an array. -/
def byteList : List (IV (EV D E F)) → Option (List ℕ)
  | [] => some []
  | .int (.u 8) (.num (.n x)) :: r => (byteList r).bind fun l => some (x :: l)
  | _ => none

/-- A field of a structure. -/
def inits (n : ℕ) : List (IV (EV D E F)) → Option F
  | .arr [.lit k, .int _ (.fe x)] :: r => bif Nat.beq n k.toNat then some x else inits n r
  | _ => none

/-- The last element and the others. -/
def splitLast : List (IV (EV D E F)) → Option (IV (EV D E F) × List (IV (EV D E F)))
  | [] => none
  | [x] => some (x, [])
  | x :: r => (splitLast r).bind fun p => some (p.1, x :: p.2)

/-- What src/curve/edwards/extended.rs and src/decaf/decaf.rs use for encodings. The only operator on
`Choice` is `^`, which the interpreter passes on as a product. -/
def encCtx (c : EncOps D E F) : ICtx (EV D E F) where
  dom := edom c.o
  const := [
    (t! "None", .opt none),
    (t! "EDWARDS_D", vE .edD),
    (t! "NEG_FOUR_TIMES_TWISTED_D", vE (.fe c.negFour)),
    (t! "DECAF_FACTOR", vE (.fe c.factor))]
  fn := [
    (t! "from", fun a => match a with | [.int (.u 8) (.num (.n x))] => some (vE (.cho (c.ch x))) | _ => none),
    (t! "unwrap_u8", fun a => match a with | [.int _ (.cho b)] => some (vB b.toNat) | _ => none),
    (t! "one", fun a => match a with | [] => some (vE (.fe c.one)) | _ => none),
    (t! "square", fun a => match a with | [.int _ (.fe x)] => some (vE (.fe (c.square x))) | _ => none),
    (t! "is_negative", fun a => match a with | [.int _ (.fe x)] => some (vE (.cho (c.isNeg x))) | _ => none),
    (t! "sqrt_ratio", fun a => match a with
      | [.int _ (.fe x), .int _ (.fe y)] =>
        some (.arr [vE (.fe (c.sqrtRatio x y).1), vE (.cho (c.sqrtRatio x y).2)])
      | _ => none),
    (t! "inverse_square_root", fun a => match a with
      | [.int _ (.fe x)] => some (.arr [vE (.fe (c.invSqrt x).1), vE (.cho (c.invSqrt x).2)])
      | _ => none),
    (t! "from_bytes", fun a => match a with
      | [.arr l] => bif Nat.beq l.length 56 then (byteList l).bind fun b => some (vE (.fe (c.ofB b))) else none
      | _ => none),
    (t! "to_bytes", fun a => match a with
      | [.int _ (.fe x)] => some (.arr ((List.range 56).map fun i => vB (c.toB x i)))
      | _ => none),
    (t! "ct_eq", fun a => match a with
      | [.arr x, .arr y] => (byteList x).bind fun x => (byteList y).bind fun y => some (vE (.cho (c.eqB x y)))
      | _ => none),
    (t! "op +", fun a => match a with
      | [.int _ (.fe x), .int _ (.fe y)] => some (vE (.fe (c.add x y))) | _ => none),
    (t! "op -", fun a => match a with
      | [.int _ (.fe x), .int _ (.fe y)] => some (vE (.fe (c.sub x y))) | _ => none),
    (t! "op *", fun a => match a with
      | [.int _ (.fe x), .int _ (.fe y)] => some (vE (.fe (c.mul x y)))
      | [.int _ .edD, .int _ (.fe y)] => some (vE (.fe (c.mulD y)))
      | [.int _ (.cho x), .int _ (.cho y)] => some (vE (.cho (xor x y)))
      | _ => none),
    (t! "split_last", fun a => match a with
      | [.arr l] => (splitLast l).bind fun p => some (.arr [p.1, .arr p.2]) | _ => none),
    (t! "unwrap", fun a => match a with | [v] => some v | _ => none),
    (t! "len", fun a => match a with | [.arr l] => some (.lit (l.length : ℤ)) | _ => none),
    (t! "to_affine", fun a => match a with
      | [.int _ (.edw P)] => some (vE (.aff (c.affX P) (c.affY P))) | _ => none),
    (t! "x", fun a => match a with | [.int _ (.aff x _)] => some (vE (.fe x)) | _ => none),
    (t! "y", fun a => match a with | [.int _ (.aff _ y)] => some (vE (.fe y)) | _ => none),
    (t! "AffinePoint", fun a => (inits (t! "x") a).bind fun x => (inits (t! "y") a).bind fun y =>
      some (vE (.aff x y))),
    (t! "to_extended", fun a => match a with
      | [.int _ (.aff x y)] => some (vE (.edw (c.toExt x y))) | _ => none),
    (t! "ExtendedPoint", fun a => (inits (t! "X") a).bind fun x => (inits (t! "Y") a).bind fun y =>
      (inits (t! "Z") a).bind fun z => (inits (t! "T") a).bind fun t => some (vE (.tw (c.tw x y z t))))]
  mfn := [
    (t! "copy_from_slice", fun a => match a with
      | [.arr x, .arr y] => bif Nat.beq x.length y.length then some (.arr y) else none | _ => none),
    (t! "conditional_negate", fun a => match a with
      | [.int _ (.fe x), .int _ (.cho b)] => some (vE (.fe (c.condNeg x b))) | _ => none)]

/-- A loop as a statement ends at its brace, so that a star after it begins the next statement: the parser
of `Verif.Text.Syntax` takes the star for a product. -/
def afterLoop : T → List T
  | .asg op (.bin s (.loop x e b) r) v =>
    bif Nat.beq s (t! "*") then [.loop x e b, .asg op (.un s r) v] else [.asg op (.bin s (.loop x e b) r) v]
  | t => [t]

/-- Writes `e.x` and `e.y` as methods and `*a.last_mut().unwrap()` as `a[a.len() - 1]`, which the
interpreter knows. The first argument bounds the depth. -/
def plain : ℕ → T → T
  | 0, t => t
  | f + 1, t =>
    match t with
    | .fld e n =>
      bif Nat.beq n (t! "x") || Nat.beq n (t! "y") then .meth (plain f e) n [] else .fld (plain f e) n
    | .asg op (.un s (.meth (.meth a m []) n [])) e =>
      bif Nat.beq s (t! "*") && Nat.beq m (t! "last_mut") && Nat.beq n (t! "unwrap") then
        .asg op (.idx a (.bin (t! "-") (.meth a (t! "len") []) (.num 1))) (plain f e)
      else t
    | .letv xs e => .letv xs (plain f e)
    | .blk ss => .blk ((ss.flatMap afterLoop).map (plain f))
    | .semi e => .semi (plain f e)
    | _ => t

/-- The same in a function. -/
def Fn.plain (fn : Fn) : Fn := { fn with body := Ed448.Text.plain 10 fn.body }

/-- What is left of a run of a function at a statement `if b { … }`. -/
def Fn.runIf {α : Type} (fn : Fn) (cx : ICtx α) (k : ℕ) (env0 env : IEnv α) (b : Bool) : Option (IV α) :=
  match fn.body with
  | .blk ss =>
    match ss.drop k with
    | .semi (.ifte _ x y) :: r =>
      (((((bif b then ieval cx 57 env x else ieval cx 57 env y).bind fun o =>
        bif o.left then some o else some ⟨o.env, .arr [], false⟩).bind fun o =>
        bif o.left then some o else iseq (ieval cx 59) r o.env).bind fun o => some (ileave env0 o)).bind fun o =>
        match (o.env.map Prod.snd).reverse with
        | .arr l :: r => some (l, o.val, r)
        | _ => none).bind fun r => bif allTrue r.1 then some r.2.1 else none
    | _ => none
  | _ => none

theorem txt_compress (c : EncOps D E F) (P : D) :
    icall (Ast.edExtended.map Fn.plain) [t! "ExtendedPoint"] (t! "compress") (encCtx c) [vE (.edw P)] =
    some (.arr ((List.range 56).map (fun i => vB (c.toB (c.affY P) i)) ++
      [vB (c.o.shlU 8 (c.isNeg (c.affX P)).toNat 7)])) := by
  krfl

/-- The variables of `CompressedEdwardsY::decompress` at its `if`. -/
def edEnv (c : EncOps D E F) (f : ℕ → ℕ) (y n d : F) (p : F × Bool) : IEnv (EV D E F) :=
  [(t! "is_res", vE (.cho p.2)), (t! "x", vE (.fe p.1)), (t! "denominator", vE (.fe d)),
   (t! "numerator", vE (.fe n)), (t! "dyy", vE (.fe (c.mulD (c.square y)))), (t! "yy", vE (.fe (c.square y))),
   (t! "y", vE (.fe y)), (t! "y_bytes", .arr ((List.range 56).map fun i => vB (f i))),
   (t! "b", .arr ((List.range 56).map fun i => vB (f i))), (t! "sign", vB (f 56)),
   (t! "self", .arr ((List.range 57).map fun i => vB (f i))), (0, .arr [])]

theorem txt_ed_decompress_if (c : EncOps D E F) (f : ℕ → ℕ) :
    icall Ast.edExtended [t! "CompressedEdwardsY"] (t! "decompress") (encCtx c)
      [.arr ((List.range 57).map fun i => vB (f i))] =
    (fnOf [t! "CompressedEdwardsY"] (t! "decompress") Ast.edExtended).bind fun fn =>
      fn.runIf (encCtx c) 9 [(t! "self", .arr ((List.range 57).map fun i => vB (f i))), (0, .arr [])]
        (edEnv c f (c.ofB ((List.range 56).map f))
          (c.sub c.one (c.square (c.ofB ((List.range 56).map f))))
          (c.sub c.one (c.mulD (c.square (c.ofB ((List.range 56).map f)))))
          (c.sqrtRatio (c.sub c.one (c.square (c.ofB ((List.range 56).map f))))
            (c.sub c.one (c.mulD (c.square (c.ofB ((List.range 56).map f)))))))
        (!((c.sqrtRatio (c.sub c.one (c.square (c.ofB ((List.range 56).map f))))
            (c.sub c.one (c.mulD (c.square (c.ofB ((List.range 56).map f)))))).2.toNat == 1)) := by
  krfl

theorem txt_ed_decompress_none (c : EncOps D E F) (f : ℕ → ℕ) (y n d : F) (p : F × Bool) :
    ((fnOf [t! "CompressedEdwardsY"] (t! "decompress") Ast.edExtended).bind fun fn =>
      fn.runIf (encCtx c) 9 [(t! "self", .arr ((List.range 57).map fun i => vB (f i))), (0, .arr [])]
        (edEnv c f y n d p) true) = some (.opt none) := by
  krfl

theorem txt_ed_decompress_some (c : EncOps D E F) (f : ℕ → ℕ) (y n d : F) (p : F × Bool) :
    ((fnOf [t! "CompressedEdwardsY"] (t! "decompress") Ast.edExtended).bind fun fn =>
      fn.runIf (encCtx c) 9 [(t! "self", .arr ((List.range 57).map fun i => vB (f i))), (0, .arr [])]
        (edEnv c f y n d p) false) =
    some (.opt (some (vE (.edw (c.toExt
      (c.condNeg p.1 (xor (c.ch (c.o.shrU (f 56) 7)) (c.isNeg p.1))) y))))) := by
  krfl

end Ed448.Text
