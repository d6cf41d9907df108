import Verif.Text.EncCrate

/-!
# `CompressedDecaf::decompress` in the text

The function leaves early at two places. It is run in parts: the statements before each `if`, its condition,
and the rest. Each part is run with variables for what is computed before.
-/

set_option linter.all false
set_option maxRecDepth 100000

namespace Ed448.Text
variable {D E F : Type}

/-- Statements after which the next one is run. -/
def straight {α : Type} (g : IEnv α → T → Option (IOut α)) : List T → IEnv α → Option (IEnv α)
  | [], env => some env
  | s :: r, env => (g env s).bind fun o => bif o.left then none else straight g r o.env

theorem iseq_straight {α : Type} (g : IEnv α → T → Option (IOut α)) {r : List T} (hr : r ≠ []) (l : List T) :
    ∀ env env', straight g l env = some env' → iseq g (l ++ r) env = iseq g r env' := by
  induction l with
  | nil => intro env env' h; rw [← Option.some_inj.mp h]; rfl
  | cons s l ih =>
    intro env env' h
    have hlr : l ++ r ≠ [] := by simp [hr]
    have e : iseq g (s :: (l ++ r)) env =
        (g env s).bind fun o => bif o.left then some o else iseq g (l ++ r) o.env := by
      cases hh : l ++ r with
      | nil => exact absurd hh hlr
      | cons a b => rfl
    rw [List.cons_append, e]
    have h' : ((g env s).bind fun o => bif o.left then none else straight g l o.env) = some env' := h
    cases hg : g env s with
    | none => rw [hg] at h'; exact nomatch h'
    | some o =>
      rw [hg] at h'
      cases ho : o.left with
      | true => simp [ho] at h'
      | false =>
        simp only [Option.bind_some, ho, cond_false] at h' ⊢
        exact ih _ _ h'

theorem iseq_stop {α : Type} (g : IEnv α → T → Option (IOut α)) {s : T} (r : List T) {env : IEnv α}
    {o : IOut α} (h : g env s = some o) (ho : o.left = true) : iseq g (s :: r) env = some o := by
  cases r with
  | nil => exact h
  | cons a b =>
    show (g env s).bind (fun o => bif o.left then some o else iseq g (a :: b) o.env) = some o
    rw [h]; simp [ho]

/-- `if c { return None; }` -/
def ifNone (c : T) : T := .semi (.ifte c (.blk [.semi (.ret (.var [t! "None"]))]) (.blk []))

theorem ieval_ifNone {α : Type} (cx : ICtx α) {c : T} {env : IEnv α} {o : IOut α} {b : Bool}
    (h : ieval cx 57 env c = some o) (ho : o.val = .bool b) (hn : find (lastName [t! "None"]) env = none)
    (hc : find (lastName [t! "None"]) cx.const = some (.opt none)) :
    ieval cx 59 env (ifNone c) = some (bif b then ⟨env, .opt none, true⟩ else ⟨env, .arr [], false⟩) := by
  show (((ieval cx 57 env c).bind fun o => match o.val with
      | .bool x => bif x then ieval cx 57 env (.blk [.semi (.ret (.var [t! "None"]))]) else ieval cx 57 env (.blk [])
      | _ => none).bind fun o => bif o.left then some o else some ⟨o.env, .arr [], false⟩) = _
  rw [h]
  simp only [Option.bind_some, ho]
  cases b
  · have e : ieval cx 57 env (.blk []) = some ⟨env, .arr [], false⟩ := by
      show some (⟨env.drop (env.length - env.length), .arr [], false⟩ : IOut α) = _
      simp
    simp [e]
  · have e : ieval cx 57 env (.blk [.semi (.ret (.var [t! "None"]))]) = some ⟨env, .opt none, true⟩ := by
      have e1 : ieval cx 54 env (.var [t! "None"]) = some ⟨env, .opt none, false⟩ := by
        show (match find (lastName [t! "None"]) env with
          | some v => some (⟨env, v, false⟩ : IOut α)
          | none => (find (lastName [t! "None"]) cx.const).bind fun v => some ⟨env, v, false⟩) = _
        rw [hn, hc]; rfl
      show (((((ieval cx 54 env (.var [t! "None"])).bind fun o => some (⟨env, o.val, true⟩ : IOut α)).bind
        fun o => bif o.left then some o else some ⟨o.env, .arr [], false⟩)).bind
          fun o => some (ileave env o)) = _
      rw [e1]
      simp [ileave]
    simp [e]

/-- What a function returns after its last statement. -/
def finish {α : Type} (env : IEnv α) (o : IOut α) : Option (IV α) :=
  ((match ((ileave env o).env.map Prod.snd).reverse with
    | .arr l :: r => some (l, o.val, r)
    | _ => none : Option (List (IV α) × IV α × List (IV α)))).bind fun r =>
    bif allTrue r.1 then some r.2.1 else none

theorem icall_blk {α : Type} {file : List Fn} {head : List ℕ} {name : ℕ} {cx : ICtx α} {args : List (IV α)}
    {fn : Fn} {ss : List T} (h : fnOf head name file = some fn) (hb : fn.body = .blk ss)
    (hp : Nat.beq fn.params.length args.length = true) :
    icall file head name cx args =
    (iseq (ieval cx 59) ss ((fn.params.zip args).reverse ++ [(0, .arr [])])).bind
      (finish ((fn.params.zip args).reverse ++ [(0, .arr [])])) := by
  unfold icall
  rw [h]
  simp only [Option.bind_some, Fn.irun, hp, cond_true, hb]
  generalize (fn.params.zip args).reverse ++ [(0, IV.arr [])] = env
  have e : ieval cx 60 env (.blk ss) = (iseq (ieval cx 59) ss env).bind fun o => some (ileave env o) := rfl
  rw [e]
  cases iseq (ieval cx 59) ss env with
  | none => rfl
  | some o => rfl

/-- The text of `CompressedDecaf::decompress`. -/
def dcFn : Fn := (fnOf [t! "CompressedDecaf"] (t! "decompress") Ast.decaf).getD ⟨[], 0, [], .num 0⟩
/-- Its statements. -/
def dcBody : List T := match dcFn.body with | .blk ss => ss | _ => []
/-- The condition of an `if`. -/
def condOf : T → T | .semi (.ifte c _ _) => c | t => t

theorem dc_fn : fnOf [t! "CompressedDecaf"] (t! "decompress") Ast.decaf = some dcFn := by krfl
theorem dc_body : dcFn.body = .blk dcBody := by krfl
theorem dc_split : dcBody = dcBody.take 4 ++ (ifNone (condOf (dcBody.getD 4 (.num 0))) ::
    ((dcBody.drop 5).take 6 ++ (ifNone (condOf (dcBody.getD 11 (.num 0))) :: dcBody.drop 12))) := by krfl

/-- The variables of `CompressedDecaf::decompress` at its first `if`. -/
def dcEnv1 (c : EncOps D E F) (f : ℕ → ℕ) (s : F) (b : Bool) : IEnv (EV D E F) :=
  [(t! "s_is_negative", vE (.cho (c.isNeg s))),
   (t! "s_encoding_is_canonical", vE (.cho b)),
   (t! "s_bytes_check", .arr ((List.range 56).map fun i => vB (c.toB s i))),
   (t! "s", vE (.fe s)),
   (t! "self", .arr ((List.range 56).map fun i => vB (f i))), (0, .arr [])]

/-- Its variables at its second `if`. -/
def dcEnv2 (c : EncOps D E F) (f : ℕ → ℕ) (s ss u1 u2 w v : F) (b : Bool) (p : F × Bool) : IEnv (EV D E F) :=
  [(t! "ok", vE (.cho p.2)), (t! "I", vE (.fe p.1)), (t! "v", vE (.fe v)), (t! "u1_sqr", vE (.fe w)),
   (t! "u2", vE (.fe u2)), (t! "u1", vE (.fe u1)), (t! "ss", vE (.fe ss))] ++ dcEnv1 c f s b

/-- Its variables at the beginning. -/
def dcEnv0 (f : ℕ → ℕ) : IEnv (EV D E F) :=
  [(t! "self", .arr ((List.range 56).map fun i => vB (f i))), (0, .arr [])]

theorem dc_part1 (c : EncOps D E F) (f : ℕ → ℕ) :
    straight (ieval (encCtx c) 59) (dcBody.take 4) (dcEnv0 f) =
    some (dcEnv1 c f (c.ofB ((List.range 56).map f))
      (c.eqB ((List.range 56).map (c.toB (c.ofB ((List.range 56).map f)))) ((List.range 56).map f))) := by
  krfl

theorem dc_cond1 (c : EncOps D E F) (f : ℕ → ℕ) (s : F) (b : Bool) :
    ieval (encCtx c) 57 (dcEnv1 c f s b) (condOf (dcBody.getD 4 (.num 0))) =
    some ⟨dcEnv1 c f s b, .bool ((b.toNat == 0) || ((c.isNeg s).toNat == 1)), false⟩ := by
  krfl

theorem dc_part2 (c : EncOps D E F) (f : ℕ → ℕ) (s : F) (b : Bool) :
    straight (ieval (encCtx c) 59) ((dcBody.drop 5).take 6) (dcEnv1 c f s b) =
    some (dcEnv2 c f s (c.square s) (c.sub c.one (c.square s)) (c.add c.one (c.square s))
        (c.square (c.sub c.one (c.square s)))
        (c.add (c.mul (c.square s) c.negFour) (c.square (c.sub c.one (c.square s)))) b
        (c.invSqrt (c.mul (c.add (c.mul (c.square s) c.negFour) (c.square (c.sub c.one (c.square s))))
          (c.square (c.sub c.one (c.square s)))))) := by
  krfl

theorem dc_cond2 (c : EncOps D E F) (f : ℕ → ℕ) (s ss u1 u2 w v : F) (b : Bool) (p : F × Bool) :
    ieval (encCtx c) 57 (dcEnv2 c f s ss u1 u2 w v b p) (condOf (dcBody.getD 11 (.num 0))) =
    some ⟨dcEnv2 c f s ss u1 u2 w v b p, .bool (p.2.toNat == 0), false⟩ := by
  krfl

theorem dc_part3 (c : EncOps D E F) (f : ℕ → ℕ) (s ss u1 u2 w v : F) (b : Bool) (p : F × Bool) :
    (iseq (ieval (encCtx c) 59) (dcBody.drop 12) (dcEnv2 c f s ss u1 u2 w v b p)).bind (finish (dcEnv0 f)) =
    some (.opt (some (vE (.tw (
      let Dx := c.mul p.1 u1
      let Dxs := c.mul (c.add s s) Dx
      let X := c.condNeg (c.mul (c.mul Dxs p.1) v) (c.isNeg (c.mul Dxs c.factor))
      let Y := c.mul Dx u2
      c.tw X Y c.one (c.mul X Y)))))) := by
  krfl

theorem dc_none1 (c : EncOps D E F) (f : ℕ → ℕ) (s : F) (b : Bool) :
    finish (dcEnv0 f) ⟨dcEnv1 c f s b, .opt none, true⟩ = some (.opt none) := by krfl

theorem dc_none2 (c : EncOps D E F) (f : ℕ → ℕ) (s ss u1 u2 w v : F) (b : Bool) (p : F × Bool) :
    finish (dcEnv0 f) ⟨dcEnv2 c f s ss u1 u2 w v b p, .opt none, true⟩ = some (.opt none) := by krfl

theorem dc_find1 (c : EncOps D E F) (f : ℕ → ℕ) (s : F) (b : Bool) :
    find (lastName [t! "None"]) (dcEnv1 c f s b) = none := by krfl

theorem dc_find2 (c : EncOps D E F) (f : ℕ → ℕ) (s ss u1 u2 w v : F) (b : Bool) (p : F × Bool) :
    find (lastName [t! "None"]) (dcEnv2 c f s ss u1 u2 w v b p) = none := by krfl

theorem dc_const (c : EncOps D E F) : find (lastName [t! "None"]) (encCtx c).const = some (.opt none) := by krfl

theorem dc_last : (dcBody.drop 12).isEmpty = false := by krfl

theorem dc_params (f : ℕ → ℕ) : ((dcFn.params.zip [IV.arr ((List.range 56).map fun i => vB (f i))]).reverse ++
    [(0, .arr [])] : IEnv (EV D E F)) = dcEnv0 f := by krfl

attribute [local irreducible] ieval iseq icall

theorem txt_decaf_decompress (c : EncOps D E F) (f : ℕ → ℕ) {s w v : F} {p : F × Bool}
    (hs : c.ofB ((List.range 56).map f) = s) (hw : c.square (c.sub c.one (c.square s)) = w)
    (hv : c.add (c.mul (c.square s) c.negFour) w = v) (hp : c.invSqrt (c.mul v w) = p) :
    icall Ast.decaf [t! "CompressedDecaf"] (t! "decompress") (encCtx c)
      [.arr ((List.range 56).map fun i => vB (f i))] =
    bif ((c.eqB ((List.range 56).map (c.toB s)) ((List.range 56).map f)).toNat == 0) || ((c.isNeg s).toNat == 1)
    then some (.opt none)
    else bif p.2.toNat == 0 then some (.opt none)
    else some (.opt (some (vE (.tw (
      let Dx := c.mul p.1 (c.sub c.one (c.square s))
      let Dxs := c.mul (c.add s s) Dx
      let X := c.condNeg (c.mul (c.mul Dxs p.1) v) (c.isNeg (c.mul Dxs c.factor))
      let Y := c.mul Dx (c.add c.one (c.square s))
      c.tw X Y c.one (c.mul X Y)))))) := by
  have e := dc_part1 c f
  rw [hs] at e
  generalize c.eqB ((List.range 56).map (c.toB s)) ((List.range 56).map f) = b at e ⊢
  have h2 := dc_part2 c f s b
  rw [hw, hv, hp] at h2
  rw [icall_blk dc_fn dc_body (by krfl), dc_params,
    (congrArg (fun l => iseq (ieval (encCtx c) 59) l (dcEnv0 f)) dc_split).trans
      (iseq_straight _ (List.cons_ne_nil _ _) _ _ _ e)]
  have k1 := ieval_ifNone (encCtx c) (dc_cond1 c f s b) rfl (dc_find1 c f s b) (dc_const c)
  cases hb : ((b.toNat == 0) || ((c.isNeg s).toNat == 1)) with
  | true =>
    rw [hb] at k1
    rw [iseq_stop _ _ k1 rfl]
    exact dc_none1 c f s b
  | false =>
    rw [hb] at k1
    rw [show ∀ t r, t :: r = [t] ++ r from fun _ _ => rfl, iseq_straight _ (by simp) [_] _ (dcEnv1 c f s b)
      (show ((ieval (encCtx c) 59 (dcEnv1 c f s b) _).bind fun o => bif o.left then none else some o.env) = _ by
        rw [k1]; rfl),
      iseq_straight _ (List.cons_ne_nil _ _) _ _ _ h2]
    have k2 := ieval_ifNone (encCtx c) (dc_cond2 c f s (c.square s) (c.sub c.one (c.square s))
      (c.add c.one (c.square s)) w v b p) rfl (dc_find2 c f s _ _ _ w v b p) (dc_const c)
    cases hq : p.2.toNat == 0 with
    | true =>
      rw [hq] at k2
      rw [iseq_stop _ _ k2 rfl]
      exact dc_none2 c f s _ _ _ w v b p
    | false =>
      rw [hq] at k2
      rw [show ∀ t r, t :: r = [t] ++ r from fun _ _ => rfl, iseq_straight _ (List.isEmpty_eq_false_iff.mp dc_last) [_] _
        (dcEnv2 c f s _ _ _ w v b p)
        (show ((ieval (encCtx c) 59 (dcEnv2 c f s _ _ _ w v b p) _).bind fun o =>
          bif o.left then none else some o.env) = _ by rw [k2]; rfl)]
      exact dc_part3 c f s _ _ _ w v b p

end Ed448.Text
