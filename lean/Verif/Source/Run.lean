import Verif.Spec.Source
import Verif.Source.Attr
/-!
# Running source texts: the equations used by the proofs of C72
-/
set_option linter.style.nameCheck false
namespace PyDice.Source
open PyRuntime

theorem rand_bind_assoc {α β γ : Type} (x : Rand α) (f : α → Rand β) (g : β → Rand γ) :
    Rand.bind (Rand.bind x f) g = Rand.bind x fun a => Rand.bind (f a) g := by
  induction x with
  | pure a => rfl
  | draw n k ih => simp only [Rand.bind, ih]

theorem rand_bind_pure {α : Type} (x : Rand α) : Rand.bind x Rand.pure = x := by
  induction x with
  | pure a => rfl
  | draw n k ih => simp only [Rand.bind, ih]

section loops
variable {Ω : Type} [BEq Ω] {m : Type → Type} [Monad m] (W : World Ω m) (Φ : Funs Ω m)

@[src] theorem exec_defn (f : String) (ps : List String) (b rest : PyS) (env : Env Ω) :
    exec W Φ (.defn f ps b rest) env = exec W ((f, defnFun W Φ ps b) :: Φ) rest env := by simp only [exec, defnFun]
@[src] theorem exec_for (t i : PyE) (b : PyS) (env : Env Ω) : exec W Φ (.for_ t i b) env =
    (do let (v, env) ← evalE W Φ i env; let l ← iterV W v; forLoop W Φ t b l env) := by simp only [exec, forLoop]
@[src] theorem exec_while (c : PyE) (b : PyS) (env : Env Ω) : exec W Φ (.while_ c b) env = whileLoop W Φ c b W.fuel env := by
  simp only [exec, whileLoop]
@[src] theorem evalE_listComp (e t i : PyE) (env : Env Ω) : evalE W Φ (.listComp e t i) env =
    (do let (v, env) ← evalE W Φ i env; let l ← iterV W v; let (ys, env) ← compLoop W Φ e t l env; return (.list ys, env)) := by
  simp only [evalE, compLoop]
@[src] theorem evalE_dictComp (k e t i : PyE) (env : Env Ω) : evalE W Φ (.dictComp k e t i) env =
    (do let (v, env) ← evalE W Φ i env; let l ← iterV W v; let (ys, env) ← dictLoop W Φ k e t l env
        return (.dict (ys.foldl (fun d p => dictSet d p.1 p.2) []), env)) := by
  simp only [evalE, dictLoop]
theorem forLoop_nil (t : PyE) (b : PyS) (env : Env Ω) : forLoop W Φ t b [] env = pure (.next, env) := rfl
theorem forLoop_cons (t : PyE) (b : PyS) (v : Val Ω) (l : List (Val Ω)) (env : Env Ω) : forLoop W Φ t b (v :: l) env =
    (do let env ← setTarget W t v env; let (fl, env) ← exec W Φ b env
        match fl with | .next => forLoop W Φ t b l env | .ret r => return (.ret r, env)) := rfl
theorem whileLoop_zero (c : PyE) (b : PyS) (env : Env Ω) : whileLoop W Φ c b 0 env =
    (do let (x, env) ← evalE W Φ c env; if ← truthV W x then W.raise .diverges else return (.next, env)) := rfl
theorem whileLoop_succ (c : PyE) (b : PyS) (n : Nat) (env : Env Ω) : whileLoop W Φ c b (n + 1) env =
    (do let (x, env) ← evalE W Φ c env
        if ← truthV W x then do
          let (fl, env) ← exec W Φ b env
          match fl with | .next => whileLoop W Φ c b n env | .ret r => return (.ret r, env)
        else return (.next, env)) := rfl
@[src] theorem compLoop_nil (e t : PyE) (env : Env Ω) : compLoop W Φ e t [] env = pure ([], env) := rfl
@[src] theorem compLoop_cons (e t : PyE) (v : Val Ω) (l : List (Val Ω)) (env : Env Ω) : compLoop W Φ e t (v :: l) env =
    (do let (y, env) ← (do
          let inner ← pushTarget W t v env
          let (y, inner) ← evalE W Φ e inner
          return (y, inner.drop (targetSize t)))
        let (ys, env) ← compLoop W Φ e t l env
        return (y :: ys, env)) := rfl
@[src] theorem dictLoop_nil (k e t : PyE) (env : Env Ω) : dictLoop W Φ k e t [] env = pure ([], env) := rfl
@[src] theorem dictLoop_cons (k e t : PyE) (v : Val Ω) (l : List (Val Ω)) (env : Env Ω) : dictLoop W Φ k e t (v :: l) env =
    (do let (y, env) ← (do
          let inner ← pushTarget W t v env
          let (a, inner) ← evalE W Φ k inner
          let (b, inner) ← evalE W Φ e inner
          return ((a, b), inner.drop (targetSize t)))
        let (ys, env) ← dictLoop W Φ k e t l env
        return (y :: ys, env)) := rfl
theorem defnFun_apply (ps : List String) (b : PyS) (args : List (Val Ω)) (env : Env Ω) : defnFun W Φ ps b args env =
    (if args.length ≠ ps.length then W.raise .type
     else do
       let (fl, inner) ← exec W Φ b (frame ps args b ++ env)
       return (match fl with | .next => Val.none | .ret v => v, (inner.take ps.length).map Prod.snd,
         inner.drop (assigned b ps).length)) := rfl
end loops

section
variable [R : PyRuntime]

instance : LawfulMonad RollM := LawfulMonad.mk'
  (id_map := by
    intro α x; funext s
    show Rand.bind (x s) _ = _
    conv_rhs => rw [← rand_bind_pure (x s)]
    congr 1; funext ⟨r, s'⟩; cases r <;> rfl)
  (pure_bind := by intros; rfl)
  (bind_assoc := by
    intro α β γ x f g; funext s
    show Rand.bind (Rand.bind (x s) _) _ = Rand.bind (x s) _
    rw [rand_bind_assoc]
    congr 1; funext ⟨r, s'⟩; cases r <;> rfl)

instance : LawfulMonad EvalM := LawfulMonad.mk'
  (id_map := by
    intro α x; funext s
    show EvalM.bind x _ s = _
    unfold EvalM.bind
    rcases h : x s with ⟨_ | _, _⟩ <;> rfl)
  (pure_bind := by intros; rfl)
  (bind_assoc := by
    intro α β γ x f g; funext s
    show EvalM.bind (EvalM.bind x f) g s = EvalM.bind x (fun a => EvalM.bind (f a) g) s
    unfold EvalM.bind
    rcases h : x s with ⟨_ | _, _⟩ <;> rfl)

variable (fl : ℚ → Res ℚ) (rd : ℚ → ℚ) (fu : Nat)

@[src] theorem W_raise {α : Type} (e : Err) : ((world fl rd fu).raise e : RollM α) = throwM e := rfl
@[src] theorem W_attr (o : Obj) (a : String) : (world fl rd fu).attr o a = attrObj o a := rfl
@[src] theorem W_method (o : Obj) (f : String) (args : List V) : (world fl rd fu).method o f args = methodAll fl rd o f args := rfl
@[src] theorem W_func (p : List String) (args : List V) : (world fl rd fu).func p args = funcObj p args := rfl
@[src] theorem W_setAttr (o : Outcome) (s : CSet) :
    (world fl rd fu).setAttr (.outcome o) "constraint_set" (.obj (.cset s)) = pure (.outcome ⟨o.value, s⟩) := rfl
@[src] theorem W_binO (op : BOp) (a b : Outcome) : (world fl rd fu).bin op (.obj (.outcome a)) (.obj (.outcome b)) =
    withDec (bopOf op) fun op => oV <$> liftR (Outcome.combine op a b) := rfl
@[src] theorem W_binD (op : BOp) (a b : Dist) : (world fl rd fu).bin op (.obj (.dist a)) (.obj (.dist b)) =
    withDec (bopOf op) fun op => dV <$> liftR (Dist.binop op a b) := rfl
@[src] theorem W_cmpO (op : COp) (a b : Outcome) : (world fl rd fu).cmp op (.obj (.outcome a)) (.obj (.outcome b)) =
    withDec (copOf op) fun op => oV <$> liftR (Outcome.combine op a b) := rfl
@[src] theorem W_cmpD (op : COp) (a b : Dist) : (world fl rd fu).cmp op (.obj (.dist a)) (.obj (.dist b)) =
    withDec (copOf op) fun op => dV <$> liftR (Dist.binop op a b) := rfl
@[src] theorem W_cmpC (a b : CSet) : (world fl rd fu).cmp .eq (.obj (.cset a)) (.obj (.cset b)) = pure (.bool (csCodeEq a b)) := rfl
@[src] theorem W_getItem (o : Obj) (k : V) : (world fl rd fu).getItem o k =
    (do match dictGet? (← contentOf o) k with | some v => return v | none => throwM .key) := rfl
@[src] theorem W_setConst (n : Str) (v : Int) : (world fl rd fu).setItem .consts (.str n) (.int v) =
    liftE (putConst n v) := rfl
@[src] theorem W_setVar (n : Str) (d : Dist) : (world fl rd fu).setItem .vars (.str n) (.obj (.dist d)) =
    liftE (putVar n d) := rfl
@[src] theorem W_setTimes (n : Str) (v : Int) : (world fl rd fu).setItem .times (.str n) (.int v) =
    liftE (putTimes n v.toNat) := rfl
@[src] theorem W_containsInts (l : List Int) (i : Int) : (world fl rd fu).contains (.ints l) (.int i) = pure (decide (i ∈ l)) := rfl
@[src] theorem W_containsConsts (k : V) : (world fl rd fu).contains .consts k =
    (do return (dictGet? (← contentOf .consts) k).isSome) := rfl
@[src] theorem W_containsVars (k : V) : (world fl rd fu).contains .vars k =
    (do return (dictGet? (← contentOf .vars) k).isSome) := rfl
@[src] theorem W_containsTimes (k : V) : (world fl rd fu).contains .times k =
    (do return (dictGet? (← contentOf .times) k).isSome) := rfl
@[src] theorem W_iterRaw (s : CSet) : (world fl rd fu).iter (.raw s) = pure ((iter s).map fun c => .obj (.con c)) := rfl
@[src] theorem W_iterNoset : (world fl rd fu).iter .noset = pure [] := rfl
@[src] theorem W_iterInts (l : List Int) : (world fl rd fu).iter (.ints l) = pure (l.map .int) := rfl
@[src] theorem W_truth (o : Obj) : (world fl rd fu).truth o = pure true := rfl
@[src] theorem W_strCon (c : Constraint) : (world fl rd fu).str (.con c) = pure c.text := rfl
@[src] theorem W_strCSet (s : CSet) : (world fl rd fu).str (.cset s) = pure (csText s) := rfl
@[src] theorem W_strO (o : Outcome) : (world fl rd fu).str (.outcome o) = pure o.text := rfl
@[src] theorem W_strInts (l : List Int) : (world fl rd fu).str (.ints l) = pure (reprSet (l.map intStr)) := rfl
@[src] theorem W_strRaw (s : CSet) : (world fl rd fu).str (.raw s) = pure (reprSet ((iter s).map Constraint.text)) := rfl
@[src] theorem W_strE (e : Expr) : (world fl rd fu).str (.expr e) = pure e.str := rfl
@[src] theorem W_mkSetC (c : Constraint) : (world fl rd fu).mkSet [.obj (.con c)] = pure (.obj (.raw (insert empty c))) := rfl
@[src] theorem W_mkSetI (v : Int) : (world fl rd fu).mkSet [.int v] = pure (.obj (.ints [v])) := rfl
@[src] theorem W_mkSetN (n : Str) : (world fl rd fu).mkSet [.str n] = pure (.obj (.names [n])) := rfl
@[src] theorem W_instO (o : Outcome) (c : String) : (world fl rd fu).isInst (.outcome o) c = (c == "IProbabilityOutcome") := rfl
@[src] theorem W_instD (d : Dist) (c : String) : (world fl rd fu).isInst (.dist d) c = (c == "IProbabilityDistribution") := rfl
@[src] theorem W_instV (n : Str) (vs : List Int) (c : String) :
    (world fl rd fu).isInst (.con (.varValue n vs)) c = (c == "IVarValueConstraint") := rfl
@[src] theorem W_instN (c : String) : (world fl rd fu).isInst (.con .null) c = false := rfl
@[src] theorem W_instI (c : String) : (world fl rd fu).isInst (.con .impossible) c = false := rfl
@[src] theorem W_callLam (ps : List String) (body : PyE) (args : List V) : (world fl rd fu).callLam ps body args =
    if args.length ≠ ps.length then throwM .type else Prod.fst <$> evalE (world0 fl rd fu) [] body (ps.zip args) := rfl
@[src] theorem W_toFl (q : ℚ) : (world fl rd fu).toFl q = fl q := rfl
@[src] theorem W_fuel : (world fl rd fu).fuel = fu := rfl
@[src] theorem W_rnd (q : ℚ) : (world fl rd fu).rnd q = rd q := rfl
@[src] theorem W_lift {α : Type} (x : Res α) : (world fl rd fu).lift x = liftR x := by cases x <;> rfl

@[src] theorem liftR_ok {α : Type} (a : α) : (liftR (.ok a) : RollM α) = pure a := rfl
@[src] theorem liftR_pure {α : Type} (a : α) : (liftR (pure a) : RollM α) = pure a := rfl
@[src] theorem liftR_error {α : Type} (e : Err) : (liftR (.error e) : RollM α) = throwM e := rfl
@[src] theorem throwM_bind {α β : Type} (e : Err) (f : α → RollM β) : ((throwM e : RollM α) >>= f) = throwM e := rfl
@[src] theorem throwM_map {α β : Type} (e : Err) (f : α → β) : (f <$> (throwM e : RollM α)) = throwM e := rfl
theorem liftR_bind {α β : Type} (x : Res α) (f : α → Res β) : (liftR (x >>= f) : RollM β) = liftR x >>= fun a => liftR (f a) := by
  cases x <;> rfl
theorem liftE_bind {α β : Type} (x : EvalM α) (f : α → EvalM β) :
    (liftE (x >>= f) : RollM β) = liftE x >>= fun a => liftE (f a) := by
  funext s
  show Rand.pure (EvalM.bind x f s) = RollM.bind (RollM.ofEval x) (fun a => RollM.ofEval (f a)) s
  simp only [EvalM.bind, RollM.bind, RollM.ofEval, Rand.bind]
  rcases h : x s with ⟨_ | _, _⟩ <;> rfl
@[src] theorem liftE_map {α β : Type} (f : α → β) (x : EvalM α) : (liftE (f <$> x) : RollM β) = f <$> liftE x := by
  rw [← bind_pure_comp, ← bind_pure_comp, liftE_bind]; rfl
@[src] theorem ofEval_eq {α : Type} (x : EvalM α) : (RollM.ofEval x : RollM α) = liftE x := rfl
@[src] theorem liftE_ite {α : Type} (c : Prop) [Decidable c] (x y : EvalM α) :
    (liftE (if c then x else y) : RollM α) = if c then liftE x else liftE y := by split <;> rfl
@[src] theorem liftR_ite {α : Type} (c : Prop) [Decidable c] (x y : Res α) :
    (liftR (if c then x else y) : RollM α) = if c then liftR x else liftR y := by split <;> rfl
@[src] theorem ite_bind {α β : Type} (c : Prop) [Decidable c] (x y : RollM α) (f : α → RollM β) :
    ((if c then x else y) >>= f) = if c then x >>= f else y >>= f := by split <;> rfl
@[src] theorem map_ite' {α β : Type} (c : Prop) [Decidable c] (x y : RollM α) (f : α → β) :
    (f <$> if c then x else y) = if c then f <$> x else f <$> y := by split <;> rfl
theorem ite_pure' {α : Type} (c : Prop) [Decidable c] (x y : α) :
    (if c then (pure x : RollM α) else pure y) = pure (if c then x else y) := by split <;> rfl
theorem ite_int (c : Prop) [Decidable c] (x y : Int) :
    (if c then (.int x : V) else .int y) = .int (if c then x else y) := by split <;> rfl
theorem ite_boolV (c : Prop) [Decidable c] (x y : Bool) :
    (if c then (.bool x : V) else .bool y) = .bool (if c then x else y) := by split <;> rfl
theorem liftR_map {α β : Type} (f : α → β) (x : Res α) : (liftR (f <$> x) : RollM β) = f <$> liftR x := by
  cases x <;> rfl
@[src] theorem liftE_pure {α : Type} (a : α) : (liftE (pure a) : RollM α) = pure a := rfl
@[src] theorem liftE_ofRes {α : Type} (r : Res α) : (liftE (EvalM.ofRes r) : RollM α) = liftR r := rfl

attribute [src] pure_bind bind_assoc map_pure bind_pure_comp bind_map_left Functor.map_map map_bind

attribute [src] exec.eq_1 exec.eq_2 exec.eq_4 exec.eq_5 exec.eq_6 exec.eq_7 exec.eq_8 exec.eq_9 exec.eq_12 exec.eq_13
attribute [src] evalE.eq_1 evalE.eq_2 evalE.eq_3 evalE.eq_4 evalE.eq_5 evalE.eq_6 evalE.eq_7 evalE.eq_8 evalE.eq_9 evalE.eq_10 evalE.eq_11 evalE.eq_12 evalE.eq_13 evalE.eq_14 evalE.eq_15 evalE.eq_16 evalE.eq_17 evalE.eq_18 evalE.eq_19 evalE.eq_20 evalE.eq_21 evalE.eq_22 evalE.eq_23 evalE.eq_24 evalE.eq_25 evalE.eq_26 evalE.eq_27 evalE.eq_28 evalE.eq_29 evalE.eq_30 evalE.eq_33 evalE.eq_34
attribute [src] assignTo.eq_1 assignTo.eq_2 assignTo.eq_3
attribute [src] selfV
attribute [src] nameV
attribute [src] Env.get?.eq_1 Env.get?.eq_2
attribute [src] Env.set.eq_1 Env.set.eq_2
attribute [src] attrV.eq_1 attrV.eq_2 attrV.eq_3
attribute [src] readP.eq_1 readP.eq_2 readP.eq_3
attribute [src] storeP.eq_1 storeP.eq_2 storeP.eq_3 storeP.eq_4
attribute [src] itemsOf.eq_1 itemsOf.eq_2
attribute [src] binOp.eq_1 binOp.eq_2 binOp.eq_3 binOp.eq_4 binOp.eq_5 binOp.eq_6 binOp.eq_7 binOp.eq_8 binOp.eq_9 binOp.eq_10 binOp.eq_11 binOp.eq_12 binOp.eq_13
attribute [src] cmpOp.eq_1 cmpOp.eq_2 cmpOp.eq_3 cmpOp.eq_4 cmpOp.eq_5 cmpOp.eq_6 cmpOp.eq_7 cmpOp.eq_8 cmpOp.eq_9 cmpOp.eq_10 cmpOp.eq_11 cmpOp.eq_12 cmpOp.eq_13 cmpOp.eq_14 cmpOp.eq_15 cmpOp.eq_16 cmpOp.eq_17 cmpOp.eq_18
attribute [src] truthV.eq_1 truthV.eq_2 truthV.eq_3 truthV.eq_4 truthV.eq_5 truthV.eq_6 truthV.eq_7 truthV.eq_8 truthV.eq_9
attribute [src] iterV.eq_1 iterV.eq_2 iterV.eq_3 iterV.eq_4 iterV.eq_5
attribute [src] indexV.eq_1 indexV.eq_2 indexV.eq_3 indexV.eq_4
attribute [src] callGlob.eq_1 callGlob.eq_2 callGlob.eq_3 callGlob.eq_4 callGlob.eq_5 callGlob.eq_6 callGlob.eq_7 callGlob.eq_8 callGlob.eq_9 callGlob.eq_10 callGlob.eq_11 callGlob.eq_12 callGlob.eq_13 callGlob.eq_14 callGlob.eq_15 callGlob.eq_16 callGlob.eq_17 callGlob.eq_18 callGlob.eq_19 callGlob.eq_20
attribute [src] callMethod.eq_1 callMethod.eq_2 callMethod.eq_3 callMethod.eq_4 callMethod.eq_5 callMethod.eq_6 callMethod.eq_7 callMethod.eq_8 callMethod.eq_9 callMethod.eq_10 callMethod.eq_11 callMethod.eq_12
attribute [src] callV.eq_1 callV.eq_2 callV.eq_3
attribute [src] operatorFn.eq_1 operatorFn.eq_2 operatorFn.eq_3 operatorFn.eq_4 operatorFn.eq_5 operatorFn.eq_6 operatorFn.eq_7 operatorFn.eq_8 operatorFn.eq_9 operatorFn.eq_10 operatorFn.eq_11 operatorFn.eq_12 operatorFn.eq_13 operatorFn.eq_14
attribute [src] isInst.eq_1 isInst.eq_2 isInst.eq_3
attribute [src] bindArgs.eq_1 bindArgs.eq_2 bindArgs.eq_3 bindArgs.eq_4
attribute [src] isPos.eq_1 isPos.eq_2
attribute [src] findKw.eq_1 findKw.eq_2 findKw.eq_3
attribute [src] constV.eq_1 constV.eq_2 constV.eq_3 constV.eq_4
attribute [src] Funs.get?.eq_1 Funs.get?.eq_2
attribute [src] assigned targetNames addName frame
attribute [src] raised.eq_1 raised.eq_2 raised.eq_3
attribute [src] errOf.eq_1 errOf.eq_2 errOf.eq_3 errOf.eq_4 errOf.eq_5
attribute [src] pushTarget.eq_1 pushTarget.eq_2
attribute [src] pushNames.eq_1 pushNames.eq_2
attribute [src] setTarget.eq_1 setTarget.eq_2
attribute [src] setNames.eq_1 setNames.eq_2
attribute [src] targetSize.eq_1 targetSize.eq_2 targetSize.eq_3 targetSize.eq_4
attribute [src] copyOut.eq_1 copyOut.eq_2 copyOut.eq_3
attribute [src] dictOf.eq_1 dictOf.eq_2
attribute [src] joinParts.eq_1 joinParts.eq_2
attribute [src] strV.eq_1 strV.eq_2 strV.eq_3
attribute [src] sliceV
attribute [src] boundOf.eq_1 boundOf.eq_2
attribute [src] toNum.eq_1 toNum.eq_2
attribute [src] attrObj.eq_1 attrObj.eq_2 attrObj.eq_3 attrObj.eq_4 attrObj.eq_5 attrObj.eq_6 attrObj.eq_7 attrObj.eq_8 attrObj.eq_9 attrObj.eq_10
attribute [src] attrOutcome.eq_1 attrOutcome.eq_2 attrOutcome.eq_3 attrOutcome.eq_4
attribute [src] attrDist.eq_1 attrDist.eq_2 attrDist.eq_3
attribute [src] attrCSet.eq_1 attrCSet.eq_2 attrCSet.eq_3
attribute [src] attrCon.eq_1 attrCon.eq_2 attrCon.eq_3 attrCon.eq_4 attrCon.eq_5
attribute [src] attrState.eq_1 attrState.eq_2 attrState.eq_3 attrState.eq_4 attrState.eq_5
attribute [src] attrSvc.eq_1 attrSvc.eq_2 attrSvc.eq_3 attrSvc.eq_4 attrSvc.eq_5 attrSvc.eq_6 attrSvc.eq_7 attrSvc.eq_8 attrSvc.eq_9 attrSvc.eq_10
attribute [src] attrExpr.eq_1 attrExpr.eq_2 attrExpr.eq_3 attrExpr.eq_4 attrExpr.eq_5 attrExpr.eq_6 attrExpr.eq_7 attrExpr.eq_8 attrExpr.eq_9 attrExpr.eq_10 attrExpr.eq_11 attrExpr.eq_12 attrExpr.eq_13 attrExpr.eq_14 attrExpr.eq_15 attrExpr.eq_16 attrExpr.eq_17 attrExpr.eq_18 attrExpr.eq_19 attrExpr.eq_20 attrExpr.eq_21 attrExpr.eq_22 attrExpr.eq_23 attrExpr.eq_24 attrExpr.eq_25 attrExpr.eq_26 attrExpr.eq_27 attrExpr.eq_28 attrExpr.eq_29 attrExpr.eq_30 attrExpr.eq_31 attrExpr.eq_32 attrExpr.eq_33 attrExpr.eq_34 attrExpr.eq_35 attrExpr.eq_36 attrExpr.eq_37 attrExpr.eq_38
attribute [src] methodAll
attribute [src] methodFl.eq_1 methodFl.eq_2 methodFl.eq_3 methodFl.eq_4 methodFl.eq_5
attribute [src] attrParser.eq_1 attrParser.eq_2 attrParser.eq_3
attribute [src] attrInterp.eq_1 attrInterp.eq_2 attrInterp.eq_3
attribute [src] methodObj.eq_1 methodObj.eq_2 methodObj.eq_3 methodObj.eq_4 methodObj.eq_5 methodObj.eq_6 methodObj.eq_7 methodObj.eq_8 methodObj.eq_9 methodObj.eq_10 methodObj.eq_11 methodObj.eq_12 methodObj.eq_13
attribute [src] methodOutcome.eq_1 methodOutcome.eq_2 methodOutcome.eq_3 methodOutcome.eq_4 methodOutcome.eq_5 methodOutcome.eq_6 methodOutcome.eq_7 methodOutcome.eq_8 methodOutcome.eq_9 methodOutcome.eq_10
attribute [src] methodDist.eq_1 methodDist.eq_2 methodDist.eq_3 methodDist.eq_4 methodDist.eq_5 methodDist.eq_6 methodDist.eq_7 methodDist.eq_8 methodDist.eq_9 methodDist.eq_10 methodDist.eq_11
attribute [src] methodPlot.eq_1 methodPlot.eq_2 methodPlot.eq_3 methodPlot.eq_4 methodPlot.eq_5 methodPlot.eq_6
attribute [src] methodCSet.eq_1 methodCSet.eq_2 methodCSet.eq_3 methodCSet.eq_4
attribute [src] methodRaw.eq_1 methodRaw.eq_2 methodRaw.eq_3 methodRaw.eq_4
attribute [src] methodCon.eq_1 methodCon.eq_2 methodCon.eq_3 methodCon.eq_4 methodCon.eq_5 methodCon.eq_6
attribute [src] methodSvc.eq_1 methodSvc.eq_2 methodSvc.eq_3 methodSvc.eq_4 methodSvc.eq_5 methodSvc.eq_6 methodSvc.eq_7
attribute [src] methodState.eq_1 methodState.eq_2 methodState.eq_3 methodState.eq_4 methodState.eq_5 methodState.eq_6 methodState.eq_7 methodState.eq_8
attribute [src] methodExpr.eq_1 methodExpr.eq_2 methodExpr.eq_3 methodExpr.eq_4 methodExpr.eq_5 methodExpr.eq_6 methodExpr.eq_7 methodExpr.eq_8 methodExpr.eq_9 methodExpr.eq_10
attribute [src] contentOf.eq_1 contentOf.eq_2 contentOf.eq_3
attribute [src] funcObj.eq_1 funcObj.eq_2 funcObj.eq_3 funcObj.eq_4 funcObj.eq_5 funcObj.eq_6 funcObj.eq_7 funcObj.eq_8
attribute [src] funcSimple.eq_1 funcSimple.eq_2 funcSimple.eq_3 funcSimple.eq_4 funcSimple.eq_5 funcSimple.eq_6 funcSimple.eq_7 funcSimple.eq_8
attribute [src] funcClass.eq_1 funcClass.eq_2 funcClass.eq_3 funcClass.eq_4 funcClass.eq_5 funcClass.eq_6 funcClass.eq_7
attribute [src] funcExpr.eq_1 funcExpr.eq_2 funcExpr.eq_3 funcExpr.eq_4 funcExpr.eq_5 funcExpr.eq_6 funcExpr.eq_7 funcExpr.eq_8 funcExpr.eq_9 funcExpr.eq_10 funcExpr.eq_11 funcExpr.eq_12 funcExpr.eq_13
attribute [src] funcOther.eq_1 funcOther.eq_2 funcOther.eq_3 funcOther.eq_4 funcOther.eq_5 funcOther.eq_6
attribute [src] funcMerger.eq_1 funcMerger.eq_2
attribute [src] funcOperator.eq_1 funcOperator.eq_2
attribute [src] funcBin.eq_1 funcBin.eq_2
attribute [src] funcCopy.eq_1
attribute [src] funcRandom.eq_1
attribute [src] funcRe.eq_1 funcRe.eq_2 funcRe.eq_3
attribute [src] funcDropKeep.eq_1 funcDropKeep.eq_2 funcDropKeep.eq_3 funcDropKeep.eq_4 funcDropKeep.eq_5 funcDropKeep.eq_6
attribute [src] bitOp.eq_1 bitOp.eq_2 bitOp.eq_3
attribute [src] eqStatic.eq_1 eqStatic.eq_2
attribute [src] asRaw.eq_1 asRaw.eq_2
attribute [src] asNames.eq_1 asNames.eq_2
attribute [src] opOf.eq_1 opOf.eq_2 opOf.eq_3 opOf.eq_4 opOf.eq_5 opOf.eq_6 opOf.eq_7 opOf.eq_8 opOf.eq_9 opOf.eq_10 opOf.eq_11 opOf.eq_12 opOf.eq_13 opOf.eq_14
attribute [src] bopOf.eq_1 bopOf.eq_2 bopOf.eq_3 bopOf.eq_4 bopOf.eq_5
attribute [src] copOf.eq_1 copOf.eq_2 copOf.eq_3 copOf.eq_4
attribute [src] distOpOf.eq_1 distOpOf.eq_2 distOpOf.eq_3 distOpOf.eq_4 distOpOf.eq_5 distOpOf.eq_6 distOpOf.eq_7 distOpOf.eq_8 distOpOf.eq_9 distOpOf.eq_10 distOpOf.eq_11 distOpOf.eq_12 distOpOf.eq_13 distOpOf.eq_14
attribute [src] PyFun.run PyFun.runIn withDec kindOf

@[src] theorem glob_ConstraintMerger (args : List V) : callGlob (world fl rd fu) ["ConstraintMerger"] args = funcObj ["ConstraintMerger"] args := rfl
@[src] theorem glob_ConstraintFactory (args : List V) : callGlob (world fl rd fu) ["ConstraintFactory"] args = funcObj ["ConstraintFactory"] args := rfl
@[src] theorem glob_ConstraintSetFactory (args : List V) : callGlob (world fl rd fu) ["ConstraintSetFactory"] args = funcObj ["ConstraintSetFactory"] args := rfl
@[src] theorem glob_ProbabilityOutcomeFactory (args : List V) : callGlob (world fl rd fu) ["ProbabilityOutcomeFactory"] args = funcObj ["ProbabilityOutcomeFactory"] args := rfl
@[src] theorem glob_ProbabilityDistributionFactory (args : List V) : callGlob (world fl rd fu) ["ProbabilityDistributionFactory"] args = funcObj ["ProbabilityDistributionFactory"] args := rfl
@[src] theorem glob_ProbabilityDistributionStateFactory (args : List V) : callGlob (world fl rd fu) ["ProbabilityDistributionStateFactory"] args = funcObj ["ProbabilityDistributionStateFactory"] args := rfl
@[src] theorem glob_NullConstraint (args : List V) : callGlob (world fl rd fu) ["NullConstraint"] args = funcObj ["NullConstraint"] args := rfl
@[src] theorem glob_ImpossibleConstraint (args : List V) : callGlob (world fl rd fu) ["ImpossibleConstraint"] args = funcObj ["ImpossibleConstraint"] args := rfl
@[src] theorem glob_set (args : List V) : callGlob (world fl rd fu) ["set"] args = funcObj ["set"] args := rfl
@[src] theorem glob_iter (args : List V) : callGlob (world fl rd fu) ["iter"] args = funcObj ["iter"] args := rfl
@[src] theorem glob__find_range (args : List V) : callGlob (world fl rd fu) ["_find_range"] args = funcObj ["_find_range"] args := rfl
@[src] theorem glob_get_single_dice_outcome_map (args : List V) : callGlob (world fl rd fu) ["get_single_dice_outcome_map"] args = funcObj ["get_single_dice_outcome_map"] args := rfl
@[src] theorem glob_ParenthesisEnclosedExpression (args : List V) : callGlob (world fl rd fu) ["ParenthesisEnclosedExpression"] args = funcObj ["ParenthesisEnclosedExpression"] args := rfl
@[src] theorem glob_NotExpression (args : List V) : callGlob (world fl rd fu) ["NotExpression"] args = funcObj ["NotExpression"] args := rfl
@[src] theorem glob_AbsExpression (args : List V) : callGlob (world fl rd fu) ["AbsExpression"] args = funcObj ["AbsExpression"] args := rfl
@[src] theorem glob_AddExpression (args : List V) : callGlob (world fl rd fu) ["AddExpression"] args = funcObj ["AddExpression"] args := rfl
@[src] theorem glob_SubtractExpression (args : List V) : callGlob (world fl rd fu) ["SubtractExpression"] args = funcObj ["SubtractExpression"] args := rfl
@[src] theorem glob_MultiplyExpression (args : List V) : callGlob (world fl rd fu) ["MultiplyExpression"] args = funcObj ["MultiplyExpression"] args := rfl
@[src] theorem glob_IntegerDivisionExpression (args : List V) : callGlob (world fl rd fu) ["IntegerDivisionExpression"] args = funcObj ["IntegerDivisionExpression"] args := rfl
@[src] theorem glob_BinaryOperatorExpression (args : List V) : callGlob (world fl rd fu) ["BinaryOperatorExpression"] args = funcObj ["BinaryOperatorExpression"] args := rfl
@[src] theorem glob_MinMaxExpression (args : List V) : callGlob (world fl rd fu) ["MinMaxExpression"] args = funcObj ["MinMaxExpression"] args := rfl
@[src] theorem glob_VarAssignmentExpression (args : List V) : callGlob (world fl rd fu) ["VarAssignmentExpression"] args = funcObj ["VarAssignmentExpression"] args := rfl
@[src] theorem glob_GetVarExpression (args : List V) : callGlob (world fl rd fu) ["GetVarExpression"] args = funcObj ["GetVarExpression"] args := rfl
@[src] theorem glob_ConstantBinaryExpression (args : List V) : callGlob (world fl rd fu) ["ConstantBinaryExpression"] args = funcObj ["ConstantBinaryExpression"] args := rfl
@[src] theorem glob_DropKeepExpression (args : List V) : callGlob (world fl rd fu) ["DropKeepExpression"] args = funcObj ["DropKeepExpression"] args := rfl
@[src] theorem glob_VarValueConstraint (args : List V) : callGlob (world fl rd fu) ["VarValueConstraint"] args = funcObj ["VarValueConstraint"] args := rfl
@[src] theorem glob_ConstraintSet (args : List V) : callGlob (world fl rd fu) ["ConstraintSet"] args = funcObj ["ConstraintSet"] args := rfl
@[src] theorem glob_ProbabilityOutcome (args : List V) : callGlob (world fl rd fu) ["ProbabilityOutcome"] args = funcObj ["ProbabilityOutcome"] args := rfl
@[src] theorem glob_ProbabilityDistribution (args : List V) : callGlob (world fl rd fu) ["ProbabilityDistribution"] args = funcObj ["ProbabilityDistribution"] args := rfl
@[src] theorem glob_ProbabilityDistributionState (args : List V) : callGlob (world fl rd fu) ["ProbabilityDistributionState"] args = funcObj ["ProbabilityDistributionState"] args := rfl
@[src] theorem glob_ConstantIntegerExpression (args : List V) : callGlob (world fl rd fu) ["ConstantIntegerExpression"] args = funcObj ["ConstantIntegerExpression"] args := rfl
@[src] theorem glob_DiceExpression (args : List V) : callGlob (world fl rd fu) ["DiceExpression"] args = funcObj ["DiceExpression"] args := rfl
@[src] theorem glob2_ConstraintMerger (f : String) (args : List V) : callGlob (world fl rd fu) ["ConstraintMerger", f] args = funcObj ["ConstraintMerger", f] args := rfl
@[src] theorem glob2_BinaryOperatorExpression (f : String) (args : List V) : callGlob (world fl rd fu) ["BinaryOperatorExpression", f] args = funcObj ["BinaryOperatorExpression", f] args := rfl
@[src] theorem glob2_random (f : String) (args : List V) : callGlob (world fl rd fu) ["random", f] args = funcObj ["random", f] args := rfl
@[src] theorem glob2_re (f : String) (args : List V) : callGlob (world fl rd fu) ["re", f] args = funcObj ["re", f] args := rfl
@[src] theorem glob2_DropKeepExpression (f : String) (args : List V) : callGlob (world fl rd fu) ["DropKeepExpression", f] args = funcObj ["DropKeepExpression", f] args := rfl
@[src] theorem glob2_copy (args : List V) : callGlob (world fl rd fu) ["copy", "deepcopy"] args = funcObj ["copy", "deepcopy"] args := rfl
@[src] theorem glob0_Bin (f : String) (args : List V) :
    callGlob (world0 fl rd fu) ["BinaryOperatorExpression", f] args = funcObj ["BinaryOperatorExpression", f] args := rfl
@[src] theorem glob_abs (o : Obj) : callGlob (world fl rd fu) ["abs"] [.obj o] = funcObj ["abs"] [.obj o] := rfl

@[src] theorem args_ConstantIntegerExpression___init__ {β : Type} (args : List V) (k : List V → RollM β) : withArgs Text.ConstantIntegerExpression.__init__ args k =
    match bindArgs [] ["self", "number", "probability_distribution_factory"].tail args with | some vs => k vs | none => throwM .type := rfl
@[src] theorem args_ConstraintFactory_var_value_constraint {β : Type} (args : List V) (k : List V → RollM β) : withArgs Text.ConstraintFactory.var_value_constraint args k =
    match bindArgs [] ["self", "name", "values"].tail args with | some vs => k vs | none => throwM .type := rfl
@[src] theorem args_ConstraintMerger_merge_new_constraints {β : Type} (args : List V) (k : List V → RollM β) : withArgs Text.ConstraintMerger.merge_new_constraints args k =
    match bindArgs [] ["self", "constraint_set", "new_constraint"].tail args with | some vs => k vs | none => throwM .type := rfl
@[src] theorem args_DiceExpression___init__ {β : Type} (args : List V) (k : List V → RollM β) : withArgs Text.DiceExpression.__init__ args k =
    match bindArgs [] ["self", "string_form", "probability_distribution_factory"].tail args with | some vs => k vs | none => throwM .type := rfl
@[src] theorem args_ProbabilityDistribution___init__ {β : Type} (args : List V) (k : List V → RollM β) : withArgs Text.ProbabilityDistribution.__init__ args k =
    match bindArgs [("result_map", .none)] ["self", "probability_outcome_factory", "result_map"].tail args with | some vs => k vs | none => throwM .type := rfl
@[src] theorem args_ProbabilityDistributionFactory_create {β : Type} (args : List V) (k : List V → RollM β) : withArgs Text.ProbabilityDistributionFactory.create args k =
    match bindArgs [("result_map", .none)] ["self", "result_map"].tail args with | some vs => k vs | none => throwM .type := rfl
@[src] theorem args_ProbabilityDistributionState___init__ {β : Type} (args : List V) (k : List V → RollM β) : withArgs Text.ProbabilityDistributionState.__init__ args k =
    match bindArgs [] ["self", "probability_distribution_factory", "constraint_factory"].tail args with | some vs => k vs | none => throwM .type := rfl
@[src] theorem args_ProbabilityOutcome___init__ {β : Type} (args : List V) (k : List V → RollM β) : withArgs Text.ProbabilityOutcome.__init__ args k =
    match bindArgs [] ["self", "value", "constraint_set"].tail args with | some vs => k vs | none => throwM .type := rfl
@[src] theorem args_ProbabilityOutcome__combine {β : Type} (args : List V) (k : List V → RollM β) : withArgs Text.ProbabilityOutcome._combine args k =
    match bindArgs [("binary_values", .false)] ["self", "combination_function", "other", "binary_values"].tail args with | some vs => k vs | none => throwM .type := rfl
@[src] theorem args_ProbabilityOutcomeFactory_create_empty {β : Type} (args : List V) (k : List V → RollM β) : withArgs Text.ProbabilityOutcomeFactory.create_empty args k =
    match bindArgs [] ["self", "value"].tail args with | some vs => k vs | none => throwM .type := rfl
@[src] theorem args_VarValueConstraint___init__ {β : Type} (args : List V) (k : List V → RollM β) : withArgs Text.VarValueConstraint.__init__ args k =
    match bindArgs [] ["self", "name", "values", "constraint_factory"].tail args with | some vs => k vs | none => throwM .type := rfl
@[src] theorem dV_eq : dV = fun d => .obj (.dist d) := rfl
@[src] theorem oV_eq : oV = fun o => .obj (.outcome o) := rfl
@[src] theorem beq_str (a b : Str) : ((.str a : V) == .str b) = decide (a = b) := rfl
@[src] theorem beq_int (a b : Int) : ((.int a : V) == .int b) = decide (a = b) := rfl
attribute [src] dictSet dictGet? decO decI

attribute [src] Option.getD_some Option.getD_none Option.isSome_some Option.isSome_none Option.map_some Option.map_none
  Option.map_eq_map List.cons_append List.nil_append List.append_nil List.zip_cons_cons List.zip_nil_left List.length_cons List.length_nil
  List.map_cons List.map_nil List.drop_succ_cons List.drop_zero List.take_succ_cons List.take_zero List.tail_cons ne_eq not_true_eq_false
  not_false_eq_true if_true if_false Bool.false_eq_true beq_self_eq_true Bool.not_true Bool.not_false List.find?_nil List.find?_cons

end
end PyDice.Source
