import Verif.Lemmas.SourceInterp
import Verif.Spec.SourceClass
import Verif.Interp
/-!
# C76: the texts of the interpreter do what the model says

`PythonDiceInterpreter` and `PythonDiceParser.parse`.  `_parser` is any function from lines to expressions; the model's own parser is one.
-/
namespace PyDice
open PyRuntime Source

section
variable [R : PyRuntime] (fl : ℚ → Res ℚ) (rd : ℚ → ℚ) (fu : Nat)
set_option linter.unusedSimpArgs false
set_option maxHeartbeats 1000000
local notation "W" => world fl rd fu

/-- `python_dice_parser.py:58-65`.  The parser object is given by what it makes of a line. -/
theorem C76_parse (p : Str → Res Expr) (line : Str) :
    Gives W Text.PythonDiceParser.parse [.obj (.parser p), .str line, .obj .state]
      ((fun e => .tuple [.obj (.expr e), .obj .state]) <$> liftR (p line)) ∧
    Gives W Text.PythonDiceParser.parse [.obj (.parser p), .str line]
      ((fun e => .tuple [.obj (.expr e), .obj .state]) <$> liftR (p line)) := by
  constructor <;> simp [src, Gives, Text.PythonDiceParser.parse, constV]

/-- `python_dice_interpreter.py:25-42` with a parser, with and without a state. -/
theorem C76_init (p : Str → Res Expr) :
    Builds W Text.PythonDiceInterpreter.__init__ [.obj (.parser p)] (.interp p) ["_parser", "_state", "_probability_distribution_factory"] ∧
    Builds W Text.PythonDiceInterpreter.__init__ [.obj (.parser p), .obj .state] (.interp p) ["_parser", "_state", "_probability_distribution_factory"] := by
  constructor <;> simp [src, Builds, mapVals, Text.PythonDiceInterpreter.__init__, constV]

/-- A given argument or `None`. -/
def orNone (given : Bool) (v : V) : V := if given then v else .none

/-- The constructor once more, whichever of the four arguments are given; `p` is the parser given or, without one, what `PythonDiceParser()` makes. -/
theorem C76_init_default (p : Str → Res Expr) (a b c d : Bool) :
    Builds { world fl rd fu with func := fun path args => match path, args with
        | ["PythonDiceParser"], [] => pure (.obj (.parser p))
        | path, args => (world fl rd fu).func path args }
      Text.PythonDiceInterpreter.__init__
      [orNone a (.obj (.parser p)), orNone b (.obj .state), orNone c (.obj (.svc "ProbabilityDistributionStateFactory")),
        orNone d (.obj (.svc "ProbabilityDistributionFactory"))]
      (.interp p) ["_parser", "_state", "_probability_distribution_factory"] := by
  unfold Builds
  cases a <;> cases b <;> cases c <;> cases d <;> rfl

/-- `python_dice_interpreter.py:44-51`: the dict given back is the `_constants` of the state unless there are no lines. -/
theorem C76_roll (p : Str → Res Expr) (lines : List Str) :
    Gives W Text.PythonDiceInterpreter.roll [.obj (.interp p), .list (lines.map .str)] (dictV <$> interpRollObject p lines) := by
  simp [src, Gives, Text.PythonDiceInterpreter.roll, interpRollObject]
  refine (rollLoop_text fl rd fu p lines _ _ _ _ _ _ _ (fun r => pure r) (fun _ _ _ _ _ => by simp [src, lineEnv])).trans ?_
  cases lines <;> simp [src, dictReturned, dictV, encC, liftE_bind]

/-- `python_dice_interpreter.py:53-60`. -/
theorem C76_max (p : Str → Res Expr) (lines : List Str) :
    Gives W Text.PythonDiceInterpreter.max [.obj (.interp p), .list (lines.map .str)] (dictV <$> liftE (interpExtremeObject p true lines)) := by
  simp [src, Gives, Text.PythonDiceInterpreter.max, interpExtremeObject]
  refine (extremeLoop_text fl rd fu p true lines _ _ _ _ _ _ _ (fun r => pure r) (fun _ _ _ _ _ => by simp [src, lineEnv])).trans ?_
  cases lines <;> simp [src, dictReturned, dictV, encC, liftE_bind]

/-- `python_dice_interpreter.py:62-69`. -/
theorem C76_min (p : Str → Res Expr) (lines : List Str) :
    Gives W Text.PythonDiceInterpreter.min [.obj (.interp p), .list (lines.map .str)] (dictV <$> liftE (interpExtremeObject p false lines)) := by
  simp [src, Gives, Text.PythonDiceInterpreter.min, interpExtremeObject]
  refine (extremeLoop_text fl rd fu p false lines _ _ _ _ _ _ _ (fun r => pure r) (fun _ _ _ _ _ => by simp [src, lineEnv])).trans ?_
  cases lines <;> simp [src, dictReturned, dictV, encC, liftE_bind]

/-- `python_dice_interpreter.py:80-87`.  The new dict has the entries of `_var`, which a dict comprehension makes if no name occurs twice in the list that models the dict. -/
theorem C76_dists (p : Str → Res Expr) (lines : List Str) (s : State) (hv : (s.var.map Prod.fst).Nodup) (hk : (s.constants.map Prod.fst).Nodup) :
    PyFun.run W Text.PythonDiceInterpreter.get_probability_distributions [.obj (.interp p), .list (lines.map .str)] s =
      ((fun l => .dict (encD l)) <$> liftE (interpDists p lines)) s := by
  have hs : CleanKeys s := ⟨hv, hk⟩
  cases lines with
  | nil => rfl
  | cons l t =>
    have hc := updates_clean.distLines p (l :: t) s hs
    rw [interpDists_eq]
    simp [src, Text.PythonDiceInterpreter.get_probability_distributions]
    refine (congrFun (distFirst_text fl rd fu p l t _ _ _ _ _ _ 
      (do let l ← liftE (EvalM.read fun s => .ok s.var)
          let r ← readKeys (List.map Prod.fst l)
          return .dict (r.foldl (fun d p => dictSet d p.1 p.2) [])) ?_) s).trans ?_
    · intro _ _ _ _
      have := fun env he (l : List (Str × Dist)) => keysLoop_text fl rd fu env he (l.map (Prod.fst : Str × Dist → Str))
      simp only [List.map_map, Function.comp_def] at this
      simp [src, lineEnv, vars_keys, this]
    · rw [liftE_bind, map_bind, liftE_bind_at, liftE_bind_at]
      cases h : distLines p (l :: t) s with
      | mk r s' =>
        rw [h] at hc
        cases r with
        | error e => rfl
        | ok u =>
          simp only
          rw [liftE_bind_at, read_at]
          show RollM.bind (readKeys _) _ s' = _
          unfold RollM.bind
          rw [readKeys_at s' s'.var (fun q hq => get_of_mem hc.1 hq)]
          show Rand.pure (Except.ok (Val.dict ((encD s'.var).foldl (fun d p => dictSet d p.1 p.2) [])), s') = _
          rw [show encD s'.var = _ from rfl, encD, foldl_set0 (fun d => .obj (.dist d)) s'.var hc.1]
          rfl

/-- `python_dice_interpreter.py:71-78`, with any rounding `fl` of the quotients. -/
theorem C76_dict_forms (p : Str → Res Expr) (lines : List Str) (s : State) (hv : (s.var.map Prod.fst).Nodup) (hk : (s.constants.map Prod.fst).Nodup) :
    PyFun.run W Text.PythonDiceInterpreter.get_probability_distributions_dict [.obj (.interp p), .list (lines.map .str)] s =
      ((fun l => .dict (l.map fun q => (.str q.1, .dict (encQ q.2)))) <$>
        liftE (interpDists p lines >>= fun d => EvalM.ofRes (mapValues (dictFormG fl) d))) s := by
  have hs : CleanKeys s := ⟨hv, hk⟩
  cases lines with
  | nil => rfl
  | cons l t =>
    simp [src, Text.PythonDiceInterpreter.get_probability_distributions_dict]
    refine Eq.trans (congrFun (distFirst_text fl rd fu p l t _ _ _ _ _ _ (do
        let l ← liftE (EvalM.read fun s => .ok s.var)
        let r ← liftR (mapValues (dictFormG fl) l)
        return (.dict ((r.map fun q => ((.str q.1 : V), ((fun a => .dict (encQ a)) : _ → V) q.2)).foldl (fun d p => dictSet d p.1 p.2) []) : V)) ?_) s) (form_end p l t (fun a => .dict (encQ a)) (dictFormG fl) s hs)
    intro _ _ _ _
    simp [src, lineEnv, vars_items, formLoop_text fl rd fu "get_dict_form" (dictFormG fl) (fun a => .dict (encQ a)) _ (by simp) (fun _ => rfl)]

/-- `python_dice_interpreter.py:89-96`, with any rounding `fl` of the quotients. -/
theorem C76_averages (p : Str → Res Expr) (lines : List Str) (s : State) (hv : (s.var.map Prod.fst).Nodup) (hk : (s.constants.map Prod.fst).Nodup) :
    PyFun.run W Text.PythonDiceInterpreter.get_average [.obj (.interp p), .list (lines.map .str)] s =
      ((fun l => .dict (l.map fun q => (.str q.1, .flt q.2))) <$>
        liftE (interpDists p lines >>= fun d => EvalM.ofRes (mapValues (averageG fl) d))) s := by
  have hs : CleanKeys s := ⟨hv, hk⟩
  cases lines with
  | nil => rfl
  | cons l t =>
    simp [src, Text.PythonDiceInterpreter.get_average]
    refine Eq.trans (congrFun (distFirst_text fl rd fu p l t _ _ _ _ _ _ (do
        let l ← liftE (EvalM.read fun s => .ok s.var)
        let r ← liftR (mapValues (averageG fl) l)
        return (.dict ((r.map fun q => ((.str q.1 : V), (.flt : _ → V) q.2)).foldl (fun d p => dictSet d p.1 p.2) []) : V)) ?_) s) (form_end p l t .flt (averageG fl) s hs)
    intro _ _ _ _
    simp [src, lineEnv, vars_items, formLoop_text fl rd fu "average" (averageG fl) .flt _ (by simp) (fun _ => rfl)]

/-- `python_dice_interpreter.py:98-117`: an image is given by what it shows (C78). -/
theorem C76_histograms (p : Str → Res Expr) (lines : List Str) :
    (Gives W Text.PythonDiceInterpreter.get_histogram [.obj (.interp p), .list (lines.map .str)]
      (liftE (interpHistogramDist p lines) >>= fun d => (fun p => .obj (.drawn p)) <$> liftR (histogramG fl rd d))) ∧
    (Gives W Text.PythonDiceInterpreter.get_at_least_histogram [.obj (.interp p), .list (lines.map .str)]
      (liftE (interpHistogramDist p lines) >>= fun d => (fun p => .obj (.drawn p)) <$> liftR (atLeastHistogramG fl rd d))) ∧
    (Gives W Text.PythonDiceInterpreter.get_at_most_histogram [.obj (.interp p), .list (lines.map .str)]
      (liftE (interpHistogramDist p lines) >>= fun d => (fun p => .obj (.drawn p)) <$> liftR (atMostHistogramG fl rd d))) := by
  refine ⟨?_, ?_, ?_⟩
  · simp [src, Gives, Text.PythonDiceInterpreter.get_histogram, interpHistogramDist, constV]
    refine (lastLoop_text fl rd fu p lines _ _ _ _ _ _ (fun d => (fun p => .obj (.drawn p)) <$> liftR (histogramG fl rd d)) (fun _ _ _ _ => by simp [src, lastEnv])).trans ?_
    simp [src]
  · simp [src, Gives, Text.PythonDiceInterpreter.get_at_least_histogram, interpHistogramDist, constV]
    refine (lastLoop_text fl rd fu p lines _ _ _ _ _ _ (fun d => (fun p => .obj (.drawn p)) <$> liftR (atLeastHistogramG fl rd d)) (fun _ _ _ _ => by simp [src, lastEnv])).trans ?_
    simp [src]
  · simp [src, Gives, Text.PythonDiceInterpreter.get_at_most_histogram, interpHistogramDist, constV]
    refine (lastLoop_text fl rd fu p lines _ _ _ _ _ _ (fun d => (fun p => .obj (.drawn p)) <$> liftR (atMostHistogramG fl rd d)) (fun _ _ _ _ => by simp [src, lastEnv])).trans ?_
    simp [src]

/-- `python_dice_interpreter.py:119-125`. -/
theorem C76_cost (p : Str → Res Expr) (lines : List Str) :
    Gives W Text.PythonDiceInterpreter.get_estimated_cost [.obj (.interp p), .list (lines.map .str)] (.int <$> liftE (interpCost p lines)) := by
  simp [src, Gives, Text.PythonDiceInterpreter.get_estimated_cost, interpCost]
  refine (costLoop_text fl rd fu p lines _ _ _ _ _ _ _ (fun c => pure (.int c)) (fun _ _ _ _ _ => by simp [src, costEnv])).trans ?_
  simp [src]

/-- With exact quotients these are the model's figures, with quotients rounded to doubles they are the model's doubles. -/
theorem C76_figures (p : Str → Res Expr) (lines : List Str) (s : State) (hv : (s.var.map Prod.fst).Nodup) (hk : (s.constants.map Prod.fst).Nodup) :
    PyFun.run (world .ok rd fu) Text.PythonDiceInterpreter.get_probability_distributions_dict [.obj (.interp p), .list (lines.map .str)] s =
      ((fun l => .dict (l.map fun q => (.str q.1, .dict (encQ q.2)))) <$> liftE (interpDictForms p lines)) s ∧
    PyFun.run (world .ok rd fu) Text.PythonDiceInterpreter.get_average [.obj (.interp p), .list (lines.map .str)] s =
      ((fun l => .dict (l.map fun q => (.str q.1, .flt q.2))) <$> liftE (interpAverages p lines)) s ∧
    PyFun.run (world toFloat rd fu) Text.PythonDiceInterpreter.get_probability_distributions_dict [.obj (.interp p), .list (lines.map .str)] s =
      ((fun l => .dict (l.map fun q => (.str q.1, .dict (encQ q.2)))) <$> liftE (interpDictFormsF p lines)) s ∧
    PyFun.run (world toFloat rd fu) Text.PythonDiceInterpreter.get_average [.obj (.interp p), .list (lines.map .str)] s =
      ((fun l => .dict (l.map fun q => (.str q.1, .flt q.2))) <$> liftE (interpAveragesF p lines)) s :=
  ⟨C76_dict_forms .ok rd fu p lines s hv hk, C76_averages .ok rd fu p lines s hv hk, C76_dict_forms toFloat rd fu p lines s hv hk,
    C76_averages toFloat rd fu p lines s hv hk⟩

end

section
attribute [local instance] listRuntime

example : (State.new.var.map Prod.fst).Nodup ∧ (State.new.constants.map Prod.fst).Nodup := by decide

example : PyFun.run (world .ok id 0) Text.PythonDiceInterpreter.max
    [.obj (.interp fun t => .ok (.constInt t)), .list [.str ['7'], .str ['4', '2']]] State.new =
    .pure (.ok (.obj .consts), ⟨[], [(['s', 't', 'd', 'o', 'u', 't'], 42)], []⟩) := by
  rw [show ([.str ['7'], .str ['4', '2']] : List V) = [['7'], ['4', '2']].map .str from rfl]
  refine (congrFun (C76_max .ok id 0 _ _) State.new).trans ?_
  rfl

example : PyFun.run (world .ok id 0) Text.PythonDiceInterpreter.get_estimated_cost
    [.obj (.interp fun t => .ok (.constInt t)), .list [.str ['7'], .str ['4', '2']]] State.new = .pure (.ok (.int 4), State.new) := by
  rw [show ([.str ['7'], .str ['4', '2']] : List V) = [['7'], ['4', '2']].map .str from rfl]
  refine (congrFun (C76_cost .ok id 0 _ _) State.new).trans ?_
  rfl

end
end PyDice
