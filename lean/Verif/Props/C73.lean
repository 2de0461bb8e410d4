import Verif.Lemmas.SourceDice
import Verif.Spec.SourceClass
import Verif.Lemmas.DiceToken
/-!
# C73: the texts of the dice classes compute what the model says

`DiceExpression`, `DropKeepExpression` and the helper functions that read a die's faces.
-/
namespace PyDice
open PyRuntime Source

section
variable [R : PyRuntime] (fl : ℚ → Res ℚ) (rd : ℚ → ℚ) (fu : Nat)
set_option linter.unusedSimpArgs false
set_option maxHeartbeats 1000000
local notation "W" => world fl rd fu

/-- `expression/dice_expression_helper.py:5-18`. -/
theorem C73_find_range (t : Str) : Gives W Text._find_range [.str t] ((fun l => .list (l.map .int)) <$> liftR (findRange t)) := by
  cases h1 : Re.isMatch rePosStart t <;> cases h2 : Re.isMatch reNegEnd t <;> simp [h1, h2, src, Gives, Text._find_range, findRange, liftR_bind, liftR_map]
  all_goals
    refine bind_congr fun x => ?_
    refine bind_congr fun y => ?_
    refine bind_congr fun z => ?_
    congr 1; funext w
    split_ifs <;> first | rfl | omega | (congr 3 <;> omega)

/-- `expression/dice_expression_helper.py:21-47`, its local function `safe_add` and its loop over the entries included. -/
theorem C73_get_single_dice_outcome_map (t : Str) : Gives W Text.get_single_dice_outcome_map [.str t]
    ((fun l => .dict (encI l)) <$> liftR (singleDiceMap t)) := by
  unfold singleDiceMap
  cases h1 : Re.isMatch (Re.plus Re.digit) t
  · by_cases h2 : t = ['%']
    · subst h2
      simp [src, Gives, Text.get_single_dice_outcome_map, h1, onesLoop]
    · by_cases h3 : t = ['F']
      · subst h3
        simp [src, Gives, Text.get_single_dice_outcome_map, h1, h2]
        rfl
      · simp [src, Gives, Text.get_single_dice_outcome_map, h1, h2, h3]
        refine (entriesLoop_text fl rd fu _ [] _ _ _ _ _ (fun acc => pure (.dict (encI acc))) _ ?_).trans ?_
        · intro acc v m r k
          simp [src]
        · simp
  · simp [src, Gives, Text.get_single_dice_outcome_map, h1, onesLoop, liftR_bind, liftR_map]

/-- The constructor of `expression/dice_expression.py:27-31` with the method it calls, `:33-35`.  The hypothesis holds of every token of the
    dice (`dice_syntax.py`): they do not begin with a minus sign. -/
theorem C73_DiceExpression_init (form : Str) (h : form.head? ≠ some '-') :
    BuildsBy W Text.DiceExpression.__init__ [("_get_number_of_dice", Text.DiceExpression._get_number_of_dice)] [.str form, .obj (.svc "ProbabilityDistributionFactory")] ((fun d => .expr (.dice d)) <$> mkDice form)
     ["_string_form", "_single_dice_outcome_map", "_number_of_dice", "_probability_distribution_factory"] := by
  have h0 := splitOn_head (fun c => c == 'd') form
  simp [src, BuildsBy, mapVals, Text.DiceExpression.__init__, Text.DiceExpression._get_number_of_dice, asMethod_apply, defnFun_apply, mkDice, liftR_bind, liftR_map]
  refine bind_congr fun p => ?_
  refine bind_congr fun t => ?_
  cases h1 : pyIndex (splitOn (fun x => x == 'd') form) 0 with
  | error e => rfl
  | ok q =>
    simp [src]
    exact number_text q (h0 q h h1) fun n => pure _

/-- The other methods of `expression/dice_expression.py:18-72`. -/
theorem C73_DiceExpression (t : DiceTerm) (s : Token) :
    Produces W Text.DiceExpression.production 4 [.tok s] ∧
    Gives W Text.DiceExpression.roll [.obj (.expr (Expr.dice t))] (.int <$> (Expr.dice t).roll) ∧
    Gives W Text.DiceExpression.max [.obj (.expr (Expr.dice t))] (.int <$> liftE ((Expr.dice t).extreme true)) ∧
    Gives W Text.DiceExpression.min [.obj (.expr (Expr.dice t))] (.int <$> liftE ((Expr.dice t).extreme false)) ∧
    Gives W Text.DiceExpression.estimated_cost [.obj (.expr (Expr.dice t))] (.int <$> liftE (Expr.dice t).cost) ∧
    Gives W Text.DiceExpression.get_probability_distribution [.obj (.expr (Expr.dice t))] (dV <$> liftE (Expr.dice t).dist) ∧
    GivesNames W Text.DiceExpression.get_contained_variables [.obj (.expr (Expr.dice t))] (Expr.dice t).contained ∧
    Gives W Text.DiceExpression.__str__ [.obj (.expr (Expr.dice t))] (pure (.str (Expr.dice t).str)) := by
  refine ⟨?_, ?_, ?_, ?_, ?_, ?_, ?_, ?_⟩
  · simp [src, Produces, symV, build, indexL, Text.DiceExpression.production, liftR_bind, liftR_map]
  · simp [src, Gives, Text.DiceExpression.roll, Expr.roll, DiceTerm.roll]
    rw [zip_unzip', ← ofRand_map List.sum (choices t.table t.number) _ (fun _ => rfl) (fun _ => rfl)]
    simp
  · simp [src, Gives, Text.DiceExpression.max, Expr.extreme, DiceTerm.extreme, liftR_bind, liftR_map]
  · simp [src, Gives, Text.DiceExpression.min, Expr.extreme, DiceTerm.extreme, liftR_bind, liftR_map]
  · simp [src, Gives, Text.DiceExpression.estimated_cost, Expr.cost, DiceTerm.cost, liftR_bind, liftR_map]
  · simp [src, Gives, Text.DiceExpression.get_probability_distribution, Expr.dist, DiceTerm.dist, liftR_bind]
    refine bind_congr fun d => ?_
    refine bind_congr fun e => ?_
    refine (addLoop fl rd fu d _ e _ _ (fun d => pure (dV d)) _ ?_).trans ?_
    · intro d v
      simp [src]
    · simp [pyRange, src]
  · simp [src, GivesNames, Text.DiceExpression.get_contained_variables, Expr.contained, asNames, namesOf]
  · simp [src, Gives, Text.DiceExpression.__str__, Expr.str]

/-- `expression/drop_keep_expression.py:154-157`. -/
theorem C73_string_key_to_list (t : Str) :
    Gives W Text.DropKeepExpression._string_key_to_list [.str t] ((fun l => .list (l.map .int)) <$> liftR (keyToList t)) := by
  unfold keyToList
  by_cases h : t = []
  · subst h
    simp [src, Gives, Text.DropKeepExpression._string_key_to_list]
  · simp [src, Gives, Text.DropKeepExpression._string_key_to_list, h, intsComp]

/-- `expression/drop_keep_expression.py:160-162`. -/
theorem C73_int_list_to_string (l : List Int) :
    Gives W Text.DropKeepExpression._int_list_to_string [.list (l.map .int)] (pure (.str (listToKey l))) := by
  simp [src, Gives, Text.DropKeepExpression._int_list_to_string, strsComp, listToKey]

/-- `expression/drop_keep_expression.py:165-173`. -/
theorem C73_update_key_list (t : Str) (v : Int) (b : Bool) :
    Gives W Text.DropKeepExpression._update_key_list [.str t, .int v, .bool b] (.str <$> liftR (updateKey b t v)) := by
  cases b <;> simp [src, Gives, Text.DropKeepExpression._update_key_list, updateKey, liftR_bind, liftR_map, decInts_dropLast, decInts_tail]

/-- `expression/drop_keep_expression.py:131-151`: three nested loops and a local function that changes its argument. -/
theorem C73_build_dice_dict (n : Int) (table : List (Int × Nat)) :
    Gives W Text.DropKeepExpression._build_dice_dict [.int n, .dict (encI table)]
      ((fun l => .dict (encS l)) <$> liftR (buildDiceDict n.toNat table)) := by
  simp [src, Gives, Text.DropKeepExpression._build_dice_dict, buildDiceDict]
  refine (buildOuter_text fl rd fu table _ [([], 1)] _ _ _ _ _ _ _ _ (fun d => pure (.dict (encS d))) _ ?_).trans ?_
  · intro d a4 u0 u1 u2 v1 v2 v3
    simp [src]
  · simp [pyRange]

/-- `expression/drop_keep_expression.py:176-195`. -/
theorem C73_compute_iterations (d : List (Str × Nat)) (n : Int) (table : List (Int × Nat)) (keep : Bool) :
    Gives W Text.DropKeepExpression._compute_iterations [.dict (encS d), .int n, .dict (encI table), .bool keep]
      ((fun l => .dict (encS l)) <$> liftR (iterKeys (updateKey keep) table n.toNat d)) := by
  simp [src, Gives, Text.DropKeepExpression._compute_iterations]
  refine (iterOuter_text fl rd fu table _ d keep _ _ _ _ _ _ _ _ _ (fun d => pure (.dict (encS d))) _ ?_).trans ?_
  · intro d a4 u0 u1 u2 v1 v2 v3
    simp [src]
  · simp [pyRange]

/-- `expression/drop_keep_expression.py:198-208`. -/
theorem C73_collapse_outcomes (d : List (Str × Nat)) :
    Gives W Text.DropKeepExpression._collapse_outcomes [.dict (encS d)] ((fun l => .dict (encI l)) <$> liftR (collapse d [])) := by
  simp [src, Gives, Text.DropKeepExpression._collapse_outcomes]
  refine (collapse_text fl rd fu d [] _ _ _ _ (fun d => pure (.dict (encI d))) _ ?_).trans ?_
  · intro d v1 v2 v3
    simp [src]
  · simp

/-- The constructor of `expression/drop_keep_expression.py:30-53` with the methods it calls, `:55-66`.  The hypotheses hold of every token of the
    drop and keep dice (`drop_keep_syntax.py`): none of their numbers has a minus sign. -/
theorem C73_DropKeepExpression_init (form : Str) (h : form.head? ≠ some '-')
    (h2 : ∀ p, pyIndex (splitOn (fun c => c == 'd' || c == 'k') form) 2 = .ok p → p.head? ≠ some '-') :
    BuildsBy W Text.DropKeepExpression.__init__ [("_get_number_of_dice", Text.DropKeepExpression._get_number_of_dice),
      ("_get_number_to_keep_or_drop", Text.DropKeepExpression._get_number_to_keep_or_drop),
      ("_is_keep", Text.DropKeepExpression._is_keep), ("_get_number_of_sides_string", Text.DropKeepExpression._get_number_of_sides_string)]
      [.str form, .obj (.svc "ProbabilityDistributionFactory")] ((fun d => .expr (.dropKeep d)) <$> mkDropKeep form)
     ["_string_form", "_number_of_dice", "_single_dice_outcome_map", "_number_to_keep_or_drop", "_simplified_form", "_probability_distribution_factory"] := by
  unfold mkDropKeep
  simp [src, BuildsBy, mapVals, Text.DropKeepExpression.__init__, liftR_bind, liftR_map, getNumber_text fl rd fu form h, getCount_text fl rd fu form h2, getSides_text fl rd fu form, isKeep_text fl rd fu form]
  refine bind_congr fun p => ?_
  refine bind_congr fun n => ?_
  cases e1 : pyIndex (splitOn (fun c => c == 'd' || c == 'k') form) 1 with
  | error e => simp [src]
  | ok sides =>
    simp only [liftR_ok, pure_bind]
    refine bind_congr fun tb => ?_
    refine bind_congr fun q => ?_
    refine bind_congr fun k => ?_
    have e2 : ((n : Int) ≤ k ∨ n = 0) ↔ n ≤ k.toNat := by omega
    have e3 : intStr (n : Int) = natStr n := rfl
    simp only [e2, e3, simplifiedV]

/-- The other methods of `expression/drop_keep_expression.py:21-129,210-213`, on any object the constructor makes. -/
theorem C73_DropKeepExpression (t : DropKeepTerm) (h : mkDropKeep t.form = .ok t) (s : Token) :
    Produces W Text.DropKeepExpression.production 3 [.tok s] ∧
    Gives W Text.DropKeepExpression._is_keep [.obj (.expr (Expr.dropKeep t))] (pure (.bool t.keep)) ∧
    Gives W Text.DropKeepExpression.roll [.obj (.expr (Expr.dropKeep t))] (.int <$> (Expr.dropKeep t).roll) ∧
    Gives W Text.DropKeepExpression.max [.obj (.expr (Expr.dropKeep t))] (.int <$> liftE ((Expr.dropKeep t).extreme true)) ∧
    Gives W Text.DropKeepExpression.min [.obj (.expr (Expr.dropKeep t))] (.int <$> liftE ((Expr.dropKeep t).extreme false)) ∧
    Gives W Text.DropKeepExpression.estimated_cost [.obj (.expr (Expr.dropKeep t))] (.int <$> liftE (Expr.dropKeep t).cost) ∧
    Gives W Text.DropKeepExpression.get_probability_distribution [.obj (.expr (Expr.dropKeep t))] (dV <$> liftE (Expr.dropKeep t).dist) ∧
    GivesNames W Text.DropKeepExpression.get_contained_variables [.obj (.expr (Expr.dropKeep t))] (Expr.dropKeep t).contained ∧
    Gives W Text.DropKeepExpression.__str__ [.obj (.expr (Expr.dropKeep t))] (pure (.str (Expr.dropKeep t).str)) := by
  obtain ⟨-, hk, hc⟩ := mkDropKeep_facts t.form t h
  obtain ⟨form, number, table, count, keep, simplified⟩ := t
  simp only at hk hc
  clear h
  refine ⟨?_, ?_, ?_, ?_, ?_, ?_, ?_, ?_, ?_⟩
  · simp [src, Produces, symV, build, indexL, Text.DropKeepExpression.production, liftR_bind, liftR_map]
  · simp [src, Gives, Text.DropKeepExpression._is_keep, hk]
  · clear hk
    cases simplified with
    | dice d => simp [src, Gives, Text.DropKeepExpression.roll, Expr.roll, DropKeepTerm.roll, simplifiedV, zero_text]
    | zero => 
      simp [src, Gives, Text.DropKeepExpression.roll, Expr.roll, DropKeepTerm.roll, simplifiedV, zero_text]
      rfl
    | none =>
      cases keep
      · simp [src, Gives, Text.DropKeepExpression.roll, Expr.roll, DropKeepTerm.roll, simplifiedV, zero_text, slice_first Val.int _ number count (hc rfl).le, zip_unzip', -List.map_take]
        rw [← ofRand_map (fun l => (List.take (number - count) (sortInts l)).sum)] <;> simp
      · simp [src, Gives, Text.DropKeepExpression.roll, Expr.roll, DropKeepTerm.roll, simplifiedV, zero_text, zip_unzip']
        rw [← ofRand_map (fun l => (pyTail (sortInts l) count).sum)] <;> simp
  · cases simplified <;> cases keep <;>
      simp [src, Gives, Text.DropKeepExpression.max, Expr.extreme, DropKeepTerm.extreme, simplifiedV, zero_text, liftR_bind, liftR_map]
  · cases simplified <;> cases keep <;>
      simp [src, Gives, Text.DropKeepExpression.min, Expr.extreme, DropKeepTerm.extreme, simplifiedV, zero_text, liftR_bind, liftR_map]
  · cases simplified <;> cases keep <;>
      simp [src, Gives, Text.DropKeepExpression.estimated_cost, Expr.cost, DropKeepTerm.cost, simplifiedV, zero_text, liftR_bind, liftR_map]
  · cases simplified <;> cases keep <;>
      simp [src, Gives, Text.DropKeepExpression.get_probability_distribution, Expr.dist, DropKeepTerm.dist, dropKeepMap, simplifiedV, zero_text, liftR_bind, liftR_map]

  · simp [src, GivesNames, Text.DropKeepExpression.get_contained_variables, Expr.contained, asNames, namesOf]
  · simp [src, Gives, Text.DropKeepExpression.__str__, Expr.str]

/-- The constructor of dice on a token the lexer makes of some text: it does what the model says, whatever the text. -/
theorem C73_dice_token (text : Str) (ts : List Token) (h : lex text = .ok ts) (t : Token) (ht : t ∈ ts) (hd : t.type = .dice) :
    BuildsBy W Text.DiceExpression.__init__ [("_get_number_of_dice", Text.DiceExpression._get_number_of_dice)]
      [.str t.text, .obj (.svc "ProbabilityDistributionFactory")] ((fun d => .expr (.dice d)) <$> mkDice t.text)
      ["_string_form", "_single_dice_outcome_map", "_number_of_dice", "_probability_distribution_factory"] := by
  obtain ⟨b, v, hm⟩ := lex_matches h t ht
  rw [hd] at hm
  exact C73_DiceExpression_init fl rd fu t.text (dice_no_minus hm)

/-- The constructor of drop and keep dice on a token the lexer makes of some text. -/
theorem C73_drop_keep_token (text : Str) (ts : List Token) (h : lex text = .ok ts) (t : Token) (ht : t ∈ ts) (hd : t.type = .dropKeep) :
    BuildsBy W Text.DropKeepExpression.__init__ [("_get_number_of_dice", Text.DropKeepExpression._get_number_of_dice),
      ("_get_number_to_keep_or_drop", Text.DropKeepExpression._get_number_to_keep_or_drop),
      ("_is_keep", Text.DropKeepExpression._is_keep), ("_get_number_of_sides_string", Text.DropKeepExpression._get_number_of_sides_string)]
      [.str t.text, .obj (.svc "ProbabilityDistributionFactory")] ((fun d => .expr (.dropKeep d)) <$> mkDropKeep t.text)
      ["_string_form", "_number_of_dice", "_single_dice_outcome_map", "_number_to_keep_or_drop", "_simplified_form", "_probability_distribution_factory"] := by
  obtain ⟨b, v, hm⟩ := lex_matches h t ht
  rw [hd] at hm
  exact C73_DropKeepExpression_init fl rd fu t.text (dropKeep_no_minus hm).1 (dropKeep_no_minus hm).2

end

/-! ### Concrete cases: the hypotheses hold of `2d6` and of `3d[-1,3]k2`, and two of the texts run -/

section
attribute [local instance] listRuntime

example : (['2', 'd', '6'] : Str).head? ≠ some '-' := by decide

example : ∀ p, pyIndex (splitOn (fun c => c == 'd' || c == 'k') "3d[-1,3]k2".toList) 2 = .ok p → p.head? ≠ some '-' := by
  intro p h
  have e : pyIndex (splitOn (fun c => c == 'd' || c == 'k') "3d[-1,3]k2".toList) 2 = .ok ['2'] := by decide
  rw [e] at h
  cases h
  decide

example : ∃ t, mkDropKeep "3d6k2".toList = .ok t ∧ mkDropKeep t.form = .ok t := by
  refine ⟨_, rfl, ?_⟩
  rfl

example : PyFun.run (world .ok id 0) Text._find_range [.str "-1-2".toList] State.new =
    .pure (.ok (.list [.int (-1), .int 0, .int 1, .int 2]), State.new) := by
  rw [C73_find_range .ok id 0 "-1-2".toList]
  rfl

example : PyFun.run (world .ok id 0) Text.DropKeepExpression._collapse_outcomes [.dict (encS [("1|2".toList, 2), ("3".toList, 5)])] State.new =
    .pure (.ok (.dict (encI [(3, 7)])), State.new) := by
  rw [C73_collapse_outcomes .ok id 0 [("1|2".toList, 2), ("3".toList, 5)]]
  rfl

/-- A text with a token of each kind of dice. -/
example : ∃ ts, lex ['2', 'd', '6', '+', '3', 'd', '6', 'k', '2'] = .ok ts ∧ (∃ t ∈ ts, t.type = .dice) ∧ ∃ t ∈ ts, t.type = .dropKeep :=
  ⟨[⟨.dice, ['2', 'd', '6'], 0⟩, ⟨.add, ['+'], 3⟩, ⟨.dropKeep, ['3', 'd', '6', 'k', '2'], 4⟩], by decide +kernel, by decide, by decide⟩

end
end PyDice
