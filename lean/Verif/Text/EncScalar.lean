import Verif.Text.EncDecaf
import Verif.Text.IntCrate

/-!
# `Scalar::from_canonical_bytes` in the text

Run in parts, as `CompressedDecaf::decompress`. The functions `from_bytes`, `sub_extra` and `==` are
parameters.
-/

set_option linter.all false
set_option maxRecDepth 100000

namespace Ed448.Text

/-- The context of `from_canonical_bytes`. -/
def canonCtx (o : Ops) (fb : List ℕ → List ℕ) (se : List ℕ → List ℕ → ℕ → List ℕ)
    (eq : List ℕ → List ℕ → Bool) : ICtx Num where
  dom := conc o
  const := (t! "None", .opt none) :: scalarConsts (conc o)
  fn := [
    (t! "from_bytes", fun a => match a with
      | [v] => (decW v).bind fun l => some (.obj (fb l)) | _ => none),
    (t! "sub_extra", fun a => match a with
      | [.obj x, v, .lit k] => (decW v).bind fun m => some (.obj (se x m k.toNat)) | _ => none),
    (t! "op ==", fun a => match a with
      | [.obj x, .obj y] => some (.bool (eq x y)) | _ => none)]
  mfn := []

/-- The text of `from_canonical_bytes`. -/
def cnFn : Fn := (fnOf [t! "Scalar"] (t! "from_canonical_bytes") Ast.scalar).getD ⟨[], 0, [], .num 0⟩
/-- Its statements. -/
def cnBody : List T := match cnFn.body with | .blk ss => ss | _ => []
/-- The condition of an `if` with a value. -/
def condOf' : T → T | .ifte c _ _ => c | t => t

/-- The words of `MODULUS`. -/
def cnModulus : List ℕ := [0xab5844f3, 0x2378c292, 0x8dc58f55, 0x216cc272, 0xaed63690, 0xc44edb49,
  0x7cca23e9, 0xffffffff, 0xffffffff, 0xffffffff, 0xffffffff, 0xffffffff, 0xffffffff, 0x3fffffff]

theorem cn_fn : fnOf [t! "Scalar"] (t! "from_canonical_bytes") Ast.scalar = some cnFn := by krfl
theorem cn_body : cnFn.body = .blk cnBody := by krfl
theorem cn_split : cnBody = [ifNone (condOf (cnBody.getD 0 (.num 0)))] ++ ((cnBody.drop 1).take 3 ++
    [.ifte (condOf' (cnBody.getD 4 (.num 0))) (.blk [.call [t! "Some"] [.var [t! "candidate"]]])
      (.blk [.var [t! "None"]])]) := by krfl

/-- The variables at the beginning. -/
def cnEnv0 (f : ℕ → ℕ) : IEnv Num :=
  [(t! "bytes", .arr ((List.range 57).map fun i => .int (.u 8) (.n (f i)))), (0, .arr [])]

/-- The variables at the end. -/
def cnEnv1 (f : ℕ → ℕ) (x y : List ℕ) : IEnv Num :=
  [(t! "reduced", .obj y), (t! "candidate", .obj x),
   (t! "bytes", .arr ((List.range 56).map fun i => .int (.u 8) (.n (f i))))] ++ cnEnv0 f

variable (o : Ops) (fb : List ℕ → List ℕ) (se : List ℕ → List ℕ → ℕ → List ℕ) (eq : List ℕ → List ℕ → Bool)

theorem cn_params (f : ℕ → ℕ) : ((cnFn.params.zip [IV.arr ((List.range 57).map fun i =>
    .int (.u 8) (.n (f i)))]).reverse ++ [(0, .arr [])] : IEnv Num) = cnEnv0 f := by krfl

theorem cn_cond1 (f : ℕ → ℕ) : ieval (canonCtx o fb se eq) 57 (cnEnv0 f) (condOf (cnBody.getD 0 (.num 0))) =
    some ⟨cnEnv0 f, .bool (!(f 56 == 0) || !(o.shrU (f 55) 6 == 0)), false⟩ := by krfl

theorem cn_part2 (f : ℕ → ℕ) :
    straight (ieval (canonCtx o fb se eq) 59) ((cnBody.drop 1).take 3) (cnEnv0 f) =
    some (cnEnv1 f (fb ((List.range 56).map f)) (se (fb ((List.range 56).map f)) cnModulus 0)) := by krfl

theorem cn_cond2 (f : ℕ → ℕ) (x y : List ℕ) :
    ieval (canonCtx o fb se eq) 58 (cnEnv1 f x y) (condOf' (cnBody.getD 4 (.num 0))) =
    some ⟨cnEnv1 f x y, .bool (eq x y), false⟩ := by krfl

theorem cn_some (f : ℕ → ℕ) (x y : List ℕ) :
    (ieval (canonCtx o fb se eq) 58 (cnEnv1 f x y) (.blk [.call [t! "Some"] [.var [t! "candidate"]]])).bind
      (finish (cnEnv0 f)) = some (.opt (some (.obj x))) := by krfl

theorem cn_none (f : ℕ → ℕ) (x y : List ℕ) :
    (ieval (canonCtx o fb se eq) 58 (cnEnv1 f x y) (.blk [.var [t! "None"]])).bind
      (finish (cnEnv0 f)) = some (.opt none) := by krfl

theorem cn_none1 (f : ℕ → ℕ) : finish (cnEnv0 f) ⟨cnEnv0 f, .opt none, true⟩ = some (.opt none) := by krfl

theorem cn_find (f : ℕ → ℕ) : find (lastName [t! "None"]) (cnEnv0 f) = none := by krfl

theorem cn_const : find (lastName [t! "None"]) (canonCtx o fb se eq).const = some (.opt none) := by krfl

theorem ieval_ifte {α : Type} (cx : ICtx α) {c a b : T} {env : IEnv α} {o : IOut α} {x : Bool}
    (h : ieval cx 58 env c = some o) (ho : o.val = .bool x) :
    ieval cx 59 env (.ifte c a b) = bif x then ieval cx 58 env a else ieval cx 58 env b := by
  show ((ieval cx 58 env c).bind fun o => match o.val with
    | .bool x => bif x then ieval cx 58 env a else ieval cx 58 env b
    | _ => none) = _
  rw [h]
  simp only [Option.bind_some, ho]

attribute [local irreducible] ieval iseq icall

theorem txt_from_canonical_bytes (f : ℕ → ℕ) {x y : List ℕ} (hx : fb ((List.range 56).map f) = x)
    (hy : se x cnModulus 0 = y) :
    icall Ast.scalar [t! "Scalar"] (t! "from_canonical_bytes") (canonCtx o fb se eq)
      [.arr ((List.range 57).map fun i => .int (.u 8) (.n (f i)))] =
    bif !(f 56 == 0) || !(o.shrU (f 55) 6 == 0) then some (.opt none)
    else some (.opt (bif eq x y then some (.obj x) else none)) := by
  have h2 := cn_part2 o fb se eq f
  rw [hx, hy] at h2
  have k1 := ieval_ifNone (canonCtx o fb se eq) (cn_cond1 o fb se eq f) rfl (cn_find f) (cn_const o fb se eq)
  rw [icall_blk cn_fn cn_body (by krfl), cn_params,
    congrArg (fun l => iseq (ieval (canonCtx o fb se eq) 59) l (cnEnv0 f)) cn_split]
  cases hb : (!(f 56 == 0) || !(o.shrU (f 55) 6 == 0)) with
  | true =>
    rw [hb] at k1
    rw [show ∀ t r, [t] ++ r = t :: r from fun _ _ => rfl, iseq_stop _ _ k1 rfl]
    exact cn_none1 f
  | false =>
    rw [hb] at k1
    rw [iseq_straight _ (by simp) [_] _ (cnEnv0 f)
      (show ((ieval (canonCtx o fb se eq) 59 (cnEnv0 f) _).bind fun o => bif o.left then none else some o.env) = _ by
        rw [k1]; rfl),
      iseq_straight _ (List.cons_ne_nil _ _) _ _ _ h2,
      show iseq (ieval (canonCtx o fb se eq) 59) [_] (cnEnv1 f x y) =
        ieval (canonCtx o fb se eq) 59 (cnEnv1 f x y) _ by unfold iseq; rfl,
      ieval_ifte _ (cn_cond2 o fb se eq f x y) rfl]
    cases eq x y with
    | true => exact cn_some o fb se eq f x y
    | false => exact cn_none o fb se eq f x y

end Ed448.Text
