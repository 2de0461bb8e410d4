import Verif.Lemmas.SourceConstraint
import Verif.Lemmas.SourceDist
import Verif.Lemmas.Dicts
import Verif.FloatDist
/-!
# Loops of the texts of the interpreter

Each lemma runs one loop for any lines and any continuation.
-/
namespace PyDice.Source
open PyRuntime
section
variable [R : PyRuntime] (fl : ℚ → Res ℚ) (rd : ℚ → ℚ) (fu : Nat)
set_option linter.unusedSimpArgs false
set_option maxHeartbeats 1000000
local notation "W" => world fl rd fu

/-- The dict object a caller gets, as a value. -/
def dictV : IntDict → V
  | .own c => .dict (encC c)
  | .constants => .obj .consts

/-- The body of the loops of `roll`, `max` and `min`, given the method that is called. -/
def valueBody (m : String) : PyS := (.seq (.assign (.tuple (.cons (.name "token") (.cons (.name "_") .nil))) (.callAttr (.self "_parser") "parse" (.cons (.name "line") (.cons (.kw "state" (.self "_state")) .nil))))
    (.seq (.assign (.name "stdout") (.callAttr (.name "token") m .nil))
    (.seq (.assign (.name "return_dict") (.callAttr (.self "_state") "get_constant_dict" .nil))
    (.seq (.assign (.index (.name "return_dict") (.str ['s', 't', 'd', 'o', 'u', 't'])) (.name "stdout"))
    .done))))

/-- The body of the loops of the distribution methods. -/
def distBody : PyS := (.seq (.assign (.tuple (.cons (.name "token") (.cons (.name "_") .nil))) (.callAttr (.self "_parser") "parse" (.cons (.name "line") (.cons (.kw "state" (.self "_state")) .nil))))
    (.seq (.assign (.name "stdout") (.callAttr (.name "token") "get_probability_distribution" .nil))
    (.seq (.assign (.name "return_dict") (.callAttr (.self "_state") "get_var_dict" .nil))
    (.seq (.assign (.index (.name "return_dict") (.str ['s', 't', 'd', 'o', 'u', 't'])) (.name "stdout"))
    .done))))

/-- The variables of these methods. -/
def lineEnv (p : Str → Res Expr) (a r v1 v2 v3 v4 : V) : Env Obj :=
  [("self", .obj (.interp p)), ("input_text", a), ("return_dict", r), ("line", v1), ("token", v2), ("_", v3), ("stdout", v4)]

theorem rollLine_eq (p : Str → Res Expr) (l : Str) : rollLine p l = (do let e ← liftR (p l); let v ← e.roll; liftE (putConst stdoutName v)) := rfl
theorem extremeLine_eq (p : Str → Res Expr) (m : Bool) (l : Str) :
    extremeLine p m l = (do let e ← EvalM.ofRes (p l); let v ← e.extreme m; putConst stdoutName v) := rfl
theorem distLine_eq (p : Str → Res Expr) (l : Str) :
    distLine p l = (do let e ← EvalM.ofRes (p l); let v ← e.dist; putVar stdoutName v) := rfl

theorem rollLoop_text (p : Str → Res Expr) (lines : List Str) (a r v1 v2 v3 v4 : V) {β : Type} (K : Flow Obj × Env Obj → RollM β) (B : V → RollM β)
    (h : ∀ r v1 v2 v3 v4, K (.next, lineEnv p a r v1 v2 v3 v4) = B r) :
    (forLoop W [] (.name "line") (valueBody "roll") (lines.map .str) (lineEnv p a r v1 v2 v3 v4) >>= K) =
      rollLines p lines >>= fun _ => B (if lines = [] then r else .obj .consts) := by
  induction lines generalizing r v1 v2 v3 v4 with
  | nil => simp [forLoop_nil, rollLines, h, src]
  | cons l t ih =>
    simp only [lineEnv, valueBody] at ih ⊢
    simp [src, forLoop_cons, setNames, rollLines, rollLine_eq, stdoutName]
    refine congrArg _ (funext fun e => ?_)
    refine congrArg _ (funext fun v => ?_)
    refine congrArg _ (funext fun _ => ?_)
    simpa [src] using ih (.obj .consts) _ _ _ _

theorem extremeLoop_text (p : Str → Res Expr) (m : Bool) (lines : List Str) (a r v1 v2 v3 v4 : V) {β : Type} (K : Flow Obj × Env Obj → RollM β)
    (B : V → RollM β) (h : ∀ r v1 v2 v3 v4, K (.next, lineEnv p a r v1 v2 v3 v4) = B r) :
    (forLoop W [] (.name "line") (valueBody (if m then "max" else "min")) (lines.map .str) (lineEnv p a r v1 v2 v3 v4) >>= K) =
      liftE (extremeLines p m lines) >>= fun _ => B (if lines = [] then r else .obj .consts) := by
  induction lines generalizing r v1 v2 v3 v4 with
  | nil => simp [forLoop_nil, extremeLines, h, src]
  | cons l t ih =>
    simp only [lineEnv, valueBody] at ih ⊢
    cases m <;> simp only [if_true, if_false, Bool.false_eq_true] at ih ⊢
    all_goals
      simp [src, forLoop_cons, setNames, extremeLines, extremeLine_eq, stdoutName, liftE_bind]
      refine congrArg _ (funext fun e => ?_)
      refine congrArg _ (funext fun v => ?_)
      refine congrArg _ (funext fun _ => ?_)
      simpa [src] using ih (.obj .consts) _ _ _ _

theorem distLoop_text (p : Str → Res Expr) (lines : List Str) (a v1 v2 v3 v4 : V) {β : Type} (K : Flow Obj × Env Obj → RollM β)
    (B : RollM β) (h : ∀ v1 v2 v3 v4, K (.next, lineEnv p a (.obj .vars) v1 v2 v3 v4) = B) :
    (forLoop W [] (.name "line") distBody (lines.map .str) (lineEnv p a (.obj .vars) v1 v2 v3 v4) >>= K) =
      liftE (distLines p lines) >>= fun _ => B := by
  induction lines generalizing v1 v2 v3 v4 with
  | nil => simp [forLoop_nil, distLines, h, src]
  | cons l t ih =>
    simp only [lineEnv, distBody] at ih ⊢
    simp [src, forLoop_cons, setNames, distLines, distLine_eq, stdoutName, liftE_bind]
    refine congrArg _ (funext fun e => ?_)
    refine congrArg _ (funext fun v => ?_)
    refine congrArg _ (funext fun _ => ?_)
    simpa [src] using ih _ _ _ _

theorem distFirst_text (p : Str → Res Expr) (l : Str) (lines : List Str) (a v1 v2 v3 v4 : V) {β : Type} (K : Flow Obj × Env Obj → RollM β)
    (B : RollM β) (h : ∀ v1 v2 v3 v4, K (.next, lineEnv p a (.obj .vars) v1 v2 v3 v4) = B) :
    (forLoop W [] (.name "line") distBody ((l :: lines).map .str) (lineEnv p a (.dict []) v1 v2 v3 v4) >>= K) =
      liftE (distLines p (l :: lines)) >>= fun _ => B := by
  have ih := fun v1 v2 v3 v4 => distLoop_text fl rd fu p lines a v1 v2 v3 v4 K B h
  simp only [lineEnv, distBody] at ih ⊢
  simp [src, forLoop_cons, setNames, distLines, distLine_eq, stdoutName, liftE_bind]
  refine congrArg _ (funext fun e => ?_)
  refine congrArg _ (funext fun v => ?_)
  refine congrArg _ (funext fun _ => ?_)
  simpa [src] using ih _ _ _ _

/-- A dict built by a comprehension over distinct names. -/
theorem foldl_set {α : Type} (f : α → V) (l l0 : List (Str × α)) (h : ((l0 ++ l).map Prod.fst).Nodup) :
    (l.map fun p => ((.str p.1 : V), f p.2)).foldl (fun d p => dictSet d p.1 p.2) (l0.map fun p => ((.str p.1 : V), f p.2)) =
      (l0 ++ l).map fun p => (.str p.1, f p.2) := by
  induction l generalizing l0 with
  | nil => simp
  | cons p t ih =>
    have h0 : p.1 ∉ l0.map Prod.fst := by
      rw [List.map_append, List.nodup_append] at h
      intro hp
      exact h.2.2 _ hp _ (by simp) rfl
    have e : dictSet (l0.map fun p => ((.str p.1 : V), f p.2)) (.str p.1) (f p.2) =
        (l0 ++ [p]).map fun p => ((.str p.1 : V), f p.2) := by
      clear ih h
      induction l0 with
      | nil => rfl
      | cons q u ih =>
        have hq : q.1 ≠ p.1 := fun e => h0 (by simp [e])
        simp only [dictSet, List.map_cons, List.cons_append]
        rw [if_neg, ih]
        · exact fun hr => h0 (List.mem_cons_of_mem _ hr)
        · simpa [src] using hq
    simp only [List.map_cons, List.foldl_cons, e]
    rw [ih]
    · simp
    · simpa using h

theorem foldl_set0 {α : Type} (f : α → V) (l : List (Str × α)) (h : (l.map Prod.fst).Nodup) :
    (l.map fun p => ((.str p.1 : V), f p.2)).foldl (fun d p => dictSet d p.1 p.2) [] = l.map fun p => (.str p.1, f p.2) :=
  foldl_set f l [] h

theorem vars_keys : methodObj .vars "keys" [] =
    (fun l => (.list (l.map fun q => .str q.1), none)) <$> liftE (EvalM.read fun s => .ok s.var) := by
  simp [methodObj, contentOf, encD, src, Function.comp_def]

theorem vars_items : methodObj .vars "items" [] =
    (fun l => (.list (l.map fun q => .tuple [.str q.1, .obj (.dist q.2)]), none)) <$> liftE (EvalM.read fun s => .ok s.var) := by
  simp [methodObj, contentOf, encD, src, Function.comp_def]

/-- Reading the variables of the state under the given names. -/
def readKeys : List Str → RollM (List (V × V))
  | [] => pure []
  | n :: t => do
    let l ← liftE (EvalM.read fun s => .ok s.var)
    let v ← (match dictGet? (encD l) (.str n) with
      | some v => pure v
      | none => throwM .key)
    let r ← readKeys t
    return (.str n, v) :: r

theorem keysLoop_text (env : Env Obj) (he : env.get? "return_dict" = some (.obj .vars)) (l : List Str) :
    dictLoop W [] (.name "key") (.index (.name "return_dict") (.name "key")) (.name "key") (l.map .str) env =
      (fun r => (r, env)) <$> readKeys l := by
  induction l with
  | nil => simp [src, readKeys]
  | cons q t ih =>
    simp [src, dictLoop_cons, he, readKeys, ih]
    refine congrArg _ (funext fun x => ?_)
    cases dictGet? (encD x) (.str q) <;> simp [src]

theorem readKeys_at (s : State) (l : List (Str × Dist)) (h : ∀ q ∈ l, dictGet? s.var q.1 = some q.2) :
    readKeys (l.map Prod.fst) s = .pure (.ok (encD l), s) := by
  induction l with
  | nil => rfl
  | cons q t ih =>
    have ih := ih fun q hq => h q (by simp [hq])
    have hq := h q (by simp)
    simp only [List.map_cons, readKeys]
    rw [liftE_bind_at, read_at]
    simp only [get_encD, hq, Option.map_some]
    show RollM.bind (readKeys (t.map Prod.fst)) _ s = _
    unfold RollM.bind
    rw [ih]
    rfl

theorem formLoop_text (m : String) {α : Type} (g : Dist → Res α) (f : α → V) (env : Env Obj)
    (hm : m = "get_dict_form" ∨ m = "average" ∨ m = "_get_histogram_form" ∨ m = "at_least" ∨ m = "at_most")
    (hg : ∀ d, methodFl fl rd (.dist d) m [] = f <$> liftR (g d)) (l : List (Str × Dist)) :
    dictLoop W [] (.name "key") (.callAttr (.name "value") m .nil) (.tuple (.cons (.name "key") (.cons (.name "value") .nil)))
      (l.map fun q => .tuple [.str q.1, .obj (.dist q.2)]) env =
      (fun r => (r.map fun q => ((.str q.1 : V), f q.2), env)) <$> liftR (mapValues g l) := by
  induction l with
  | nil => rfl
  | cons q t ih =>
    simp [src, dictLoop_cons, ih, mapValues, liftR_bind, setNames, hm, hg]
    refine congrArg _ (funext fun x => ?_)
    cases List.mapM (fun p => Prod.mk p.1 <$> g p.2) t <;> rfl

omit R in
theorem mapValues_keys {α β : Type} {g : α → Res β} {l : List (Str × α)} {r : List (Str × β)} (h : mapValues g l = .ok r) :
    r.map Prod.fst = l.map Prod.fst := by
  induction l generalizing r with
  | nil => cases h; rfl
  | cons q t ih =>
    simp only [mapValues, List.mapM_cons] at h ih
    cases hq : g q.2 with
    | error e => simp [hq, src] at h; cases h
    | ok a =>
      rw [hq] at h
      cases ht : t.mapM (fun p => do return (p.1, ← g p.2)) with
      | error e => rw [ht] at h; cases h
      | ok u => rw [ht] at h; cases h; simp [ih ht]

/-- The body of the loop of the histogram methods. -/
def lastBody : PyS := (.seq (.assign (.tuple (.cons (.name "token") (.cons (.name "_") .nil))) (.callAttr (.self "_parser") "parse" (.cons (.name "line") (.cons (.kw "state" (.self "_state")) .nil))))
    (.seq (.assign (.name "stdout") (.callAttr (.name "token") "get_probability_distribution" .nil))
    .done))

/-- The local variables of the histogram methods. -/
def lastEnv (p : Str → Res Expr) (a r v1 v2 v3 : V) : Env Obj :=
  [("self", .obj (.interp p)), ("input_text", a), ("stdout", r), ("line", v1), ("token", v2), ("_", v3)]

theorem lastLoop_text (p : Str → Res Expr) (lines : List Str) (d : Dist) (a v1 v2 v3 : V) {β : Type} (K : Flow Obj × Env Obj → RollM β)
    (B : Dist → RollM β) (h : ∀ d v1 v2 v3, K (.next, lastEnv p a (dV d) v1 v2 v3) = B d) :
    (forLoop W [] (.name "line") lastBody (lines.map .str) (lastEnv p a (dV d) v1 v2 v3) >>= K) =
      liftE (lastDist p lines d) >>= B := by
  induction lines generalizing d v1 v2 v3 with
  | nil => simpa [forLoop_nil, lastDist, src] using h d v1 v2 v3
  | cons l t ih =>
    simp only [lastEnv, lastBody] at ih ⊢
    simp [src, forLoop_cons, setNames, lastDist, liftE_bind]
    refine congrArg _ (funext fun e => ?_)
    refine congrArg _ (funext fun v => ?_)
    simpa [src] using ih _ _ _ _

/-- The body of the loop of `get_estimated_cost`. -/
def costBody : PyS := (.seq (.assign (.tuple (.cons (.name "token") (.cons (.name "_") .nil))) (.callAttr (.self "_parser") "parse" (.cons (.name "line") (.cons (.kw "state" (.self "_state")) .nil))))
    (.seq (.assign (.name "line_cost") (.callAttr (.name "token") "estimated_cost" .nil))
    (.seq (.aug .add (.name "total_cost") (.name "line_cost"))
    .done)))

/-- The local variables of `get_estimated_cost`. -/
def costEnv (p : Str → Res Expr) (a r v1 v2 v3 v4 : V) : Env Obj :=
  [("self", .obj (.interp p)), ("input_text", a), ("total_cost", r), ("line", v1), ("token", v2), ("_", v3), ("line_cost", v4)]

theorem costLoop_text (p : Str → Res Expr) (lines : List Str) (c : Int) (a v1 v2 v3 v4 : V) {β : Type} (K : Flow Obj × Env Obj → RollM β)
    (B : Int → RollM β) (h : ∀ c v1 v2 v3 v4, K (.next, costEnv p a (.int c) v1 v2 v3 v4) = B c) :
    (forLoop W [] (.name "line") costBody (lines.map .str) (costEnv p a (.int c) v1 v2 v3 v4) >>= K) =
      liftE (costLines p lines c) >>= B := by
  induction lines generalizing c v1 v2 v3 v4 with
  | nil => simp [forLoop_nil, costLines, h, src]
  | cons l t ih =>
    simp only [costEnv, costBody] at ih ⊢
    simp [src, forLoop_cons, setNames, costLines, liftE_bind]
    refine congrArg _ (funext fun e => ?_)
    refine congrArg _ (funext fun v => ?_)
    simpa [src] using ih _ _ _ _ _

theorem interpDists_eq (p : Str → Res Expr) (l : Str) (t : List Str) :
    interpDists p (l :: t) = distLines p (l :: t) >>= fun _ => EvalM.read (fun s => .ok s.var) := by
  unfold interpDists
  simp only [List.cons_ne_nil, if_false]
  rfl

theorem form_end {α : Type} (p : Str → Res Expr) (l : Str) (t : List Str) (f : α → V) (g : Dist → Res α) (s : State) (hs : CleanKeys s) :
    (liftE (distLines p (l :: t)) >>= fun _ => (do
          let l ← liftE (EvalM.read fun s => .ok s.var)
          let r ← liftR (mapValues g l)
          return (.dict ((r.map fun q => ((.str q.1 : V), f q.2)).foldl (fun d p => dictSet d p.1 p.2) []) : V))) s =
      ((fun r => .dict (r.map fun q => (.str q.1, f q.2))) <$>
        liftE (interpDists p (l :: t) >>= fun d => EvalM.ofRes (mapValues g d))) s := by
  have hc := updates_clean.distLines p (l :: t) s hs
  simp only [interpDists_eq, liftE_bind, bind_assoc, map_bind]
  rw [liftE_bind_at, liftE_bind_at]
  cases h : distLines p (l :: t) s with
  | mk r s' =>
    rw [h] at hc
    cases r with
    | error e => rfl
    | ok u =>
      simp only
      rw [liftE_bind_at, read_at]
      rw [liftE_bind_at, read_at]
      simp only
      cases hm : mapValues g s'.var with
      | error e => rfl
      | ok r =>
        show Rand.pure (Except.ok (Val.dict ((r.map fun q => ((.str q.1 : V), f q.2)).foldl (fun d p => dictSet d p.1 p.2) [])), s') = _
        rw [foldl_set0 _ _ (by rw [mapValues_keys hm]; exact hc.1)]
        rfl

theorem dictFormG_ok (d : Dist) : dictFormG .ok d = d.getDictForm := rfl
theorem averageG_ok (d : Dist) : averageG .ok d = d.average := rfl
theorem dictFormG_float (d : Dist) : dictFormG toFloat d = d.getDictFormF := rfl
theorem averageG_float (d : Dist) : averageG toFloat d = d.averageF := rfl
end
end PyDice.Source
