import Verif.Messages
import Verif.Spec.Messages
/-!
# Texts of exceptions
-/

namespace PyDice
open PyRuntime

section
variable [R : PyRuntime]

/-! ### Forgetting the texts -/

/-- The same computation without texts. -/
def Erases {α : Type} (m : EvalX α) (m' : EvalM α) : Prop := ∀ s, m' s = ((m s).1.mapError Exc.cls, (m s).2)

theorem Erases.pure {α : Type} (a : α) : Erases (Pure.pure a : EvalX α) (Pure.pure a) := fun _ => rfl

theorem Erases.bind {α β : Type} {m : EvalX α} {m' : EvalM α} {f : α → EvalX β} {f' : α → EvalM β} (h : Erases m m')
    (hf : ∀ a, Erases (f a) (f' a)) : Erases (m >>= f) (m' >>= f') := by
  intro s
  show EvalM.bind m' f' s = ((EvalX.bind m f s).1.mapError Exc.cls, (EvalX.bind m f s).2)
  unfold EvalM.bind EvalX.bind
  rw [h s]
  rcases hm : m s with ⟨r, s'⟩
  cases r with
  | error x => rfl
  | ok a => exact hf a s'

theorem Erases.plain {α : Type} (m : EvalM α) : Erases (EvalX.plain m) m := by
  intro s
  unfold EvalX.plain
  rcases m s with ⟨r, s'⟩
  cases r <;> rfl

theorem Erases.getVar (n : Str) : Erases (EvalX.read (fun s => s.getVarX n)) (EvalM.read (fun s => s.getVar n)) := by
  intro s
  show (s.getVar n, s) = ((s.getVarX n).mapError Exc.cls, s)
  unfold State.getVarX State.getVar
  cases dictGet? s.var n <;> rfl

theorem Erases.getConstant (n : Str) : Erases (EvalX.read (fun s => s.getConstantX n)) (EvalM.read (fun s => s.getConstant n)) := by
  intro s
  show (s.getConstant n, s) = ((s.getConstantX n).mapError Exc.cls, s)
  unfold State.getConstantX State.getConstant
  cases dictGet? s.constants n <;> rfl

theorem distX_erases (e : Expr) : Erases e.distX e.dist := by
  induction e with
  | paren e ih => exact ih
  | not e ih => exact ih.bind fun _ => .pure _
  | abs e ih => exact ih.bind fun _ => .pure _
  | dropKeep t => exact .plain _
  | dice t => exact .plain _
  | constInt text => exact .plain _
  | constBin text => exact .plain _
  | add a b iha ihb => exact iha.bind fun _ => ihb.bind fun _ => .plain _
  | sub a b iha ihb => exact iha.bind fun _ => ihb.bind fun _ => .plain _
  | mul a b iha ihb => exact iha.bind fun _ => ihb.bind fun _ => .plain _
  | div a b iha ihb => exact iha.bind fun _ => ihb.bind fun _ => .plain _
  | bin op a b iha ihb => exact iha.bind fun _ => ihb.bind fun _ => .plain _
  | minmax k a b iha ihb => exact iha.bind fun _ => ihb.bind fun _ => .plain _
  | assign x e ih => exact ih.bind fun _ => (Erases.plain _).bind fun _ => .pure _
  | getVar n => exact .getVar n

theorem Erases.viaDist (isMax : Bool) {m : EvalX Dist} {m' : EvalM Dist} (h : Erases m m') :
    Erases (viaDistX isMax m) (PyDice.viaDist isMax m') := h.bind fun _ => .plain _

theorem extremeX_erases (isMax : Bool) (e : Expr) : Erases (e.extremeX isMax) (e.extreme isMax) := by
  induction e with
  | paren e ih => exact ih
  | not e ih => exact (distX_erases _).viaDist isMax
  | abs e ih => exact (distX_erases _).viaDist isMax
  | dropKeep t => exact .plain _
  | dice t => exact .plain _
  | constInt text => exact .plain _
  | constBin text => exact .plain _
  | add a b iha ihb => exact (distX_erases _).viaDist isMax
  | sub a b iha ihb => exact (distX_erases _).viaDist isMax
  | mul a b iha ihb => exact (distX_erases _).viaDist isMax
  | div a b iha ihb =>
    refine (distX_erases b).bind fun d => ?_
    cases d.containsZero with
    | true => exact fun s => rfl
    | false => exact (distX_erases _).viaDist isMax
  | bin op a b iha ihb => exact (distX_erases _).viaDist isMax
  | minmax k a b iha ihb => exact iha.bind fun _ => ihb.bind fun _ => .pure _
  | assign x e ih =>
    exact ih.bind fun _ => (Erases.plain _).bind fun _ => (distX_erases e).bind fun _ => (Erases.plain _).bind fun _ => .pure _
  | getVar n => exact .getConstant n

theorem costX_erases (e : Expr) : Erases e.costX e.cost := by
  induction e with
  | paren e ih => exact ih
  | not e ih => exact ih.bind fun _ => .plain _
  | abs e ih => exact ih
  | dropKeep t => exact .pure _
  | dice t => exact .pure _
  | constInt text => exact .pure _
  | constBin text => exact .pure _
  | add a b iha ihb => exact iha.bind fun _ => ihb.bind fun _ => .pure _
  | sub a b iha ihb => exact iha.bind fun _ => ihb.bind fun _ => .pure _
  | mul a b iha ihb => exact iha.bind fun _ => ihb.bind fun _ => .pure _
  | div a b iha ihb => exact iha.bind fun _ => ihb.bind fun _ => .pure _
  | bin op a b iha ihb => exact iha.bind fun _ => ihb.bind fun _ => .pure _
  | minmax k a b iha ihb => exact iha.bind fun _ => ihb.bind fun _ => .pure _
  | assign x e ih => exact ih.bind fun _ => (Erases.plain _).bind fun _ => .pure _
  | getVar n => exact .getConstant n

/-! ### Following the steps -/

/-- A computation that looks at and fills these places in this order: success means that nothing was missing, an own `KeyError` names
    the first that was. -/
def Tracks {α : Type} (m : EvalX α) (st : List Step) : Prop := ∀ s r s', m s = (r, s') →
  (∀ a, r = .ok a → firstMissing s.has st = none ∧ s'.has = filled s.has st) ∧
  (∀ t, r = .error (.own .key t) → ∃ p, firstMissing s.has st = some p ∧ t = some p.complaint) ∧
  r ≠ .error (.other .key)

end

section
theorem firstMissing_append (has : Slot → Bool) (l m : List Step) :
    firstMissing has (l ++ m) = (firstMissing has l).or (firstMissing (filled has l) m) := by
  induction l generalizing has with
  | nil => rfl
  | cons a l ih =>
    cases a with
    | look p =>
      simp only [List.cons_append, firstMissing, filled]
      split
      · exact ih has
      · rfl
    | fill p => simp only [List.cons_append, firstMissing, filled]; exact ih _

theorem filled_append (has : Slot → Bool) (l m : List Step) : filled has (l ++ m) = filled (filled has l) m := by
  induction l generalizing has with
  | nil => rfl
  | cons a l ih => cases a <;> exact ih _
end


/-! ### Only the state raises `KeyError` -/

/-- Anything but a `KeyError`. -/
def NoKey {α : Type} (r : Res α) : Prop := r ≠ .error .key

theorem NoKey.ok {α : Type} (a : α) : NoKey (.ok a : Res α) := nofun

theorem NoKey.pure {α : Type} (a : α) : NoKey (Pure.pure a : Res α) := nofun

theorem NoKey.bind {α β : Type} {r : Res α} {f : α → Res β} (h : NoKey r) (hf : ∀ a, NoKey (f a)) : NoKey (r >>= f) := by
  cases r with
  | error x => intro hx; apply h; cases hx; rfl
  | ok a => exact hf a

theorem NoKey.ite {α : Type} {c : Prop} [Decidable c] {r t : Res α} (h : NoKey r) (h' : NoKey t) : NoKey (if c then r else t) := by
  split <;> assumption

theorem NoKey.mapM {α β : Type} {f : α → Res β} (h : ∀ a, NoKey (f a)) (l : List α) : NoKey (l.mapM f) := by
  induction l with
  | nil => exact .pure _
  | cons a l ih =>
    rw [List.mapM_cons]
    exact (h a).bind fun _ => ih.bind fun _ => .pure _

theorem noKey_pyInt (t : Str) : NoKey (pyInt t) := by
  unfold pyInt
  split <;> split <;> nofun

theorem noKey_listMax (l : List Int) : NoKey (listMax l) := by cases l <;> (unfold listMax; nofun)

theorem noKey_listMin (l : List Int) : NoKey (listMin l) := by cases l <;> (unfold listMin; nofun)

theorem noKey_ends (isMax : Bool) (l : List Int) : NoKey ((if isMax then listMax else listMin) l) := by
  cases isMax
  · exact noKey_listMin l
  · exact noKey_listMax l

theorem noKey_apply (op : BinOp) (x y : Int) : NoKey (op.apply x y) := by
  cases op <;> first | exact .ok _ | exact .ite (fun h => by cases h) (.ok _)

theorem noKey_keyToList (t : Str) : NoKey (keyToList t) := by
  unfold keyToList
  exact .ite (.ok _) (.mapM noKey_pyInt _)

theorem noKey_keyLoop {next : Str → Int → Res Str} (h : ∀ a b, NoKey (next a b)) :
    ∀ l acc, NoKey (keyLoop next l acc) := by
  intro l
  induction l with
  | nil => intro acc; exact .ok _
  | cons a l ih =>
    intro acc
    obtain ⟨⟨face, count⟩, ⟨old, n⟩⟩ := a
    unfold keyLoop
    exact (h _ _).bind fun _ => ih _

theorem noKey_iterKeys {next : Str → Int → Res Str} (h : ∀ a b, NoKey (next a b)) (table : List (Int × Nat)) :
    ∀ n d, NoKey (iterKeys next table n d) := by
  intro n
  induction n with
  | zero => intro d; exact .ok _
  | succ n ih =>
    intro d
    unfold iterKeys
    exact (noKey_keyLoop h _ _).bind fun _ => ih _

theorem noKey_collapse : ∀ l acc, NoKey (collapse l acc) := by
  intro l
  induction l with
  | nil => intro acc; exact .ok _
  | cons a l ih =>
    intro acc
    obtain ⟨key, n⟩ := a
    unfold collapse
    exact (noKey_keyToList _).bind fun _ => ih _

theorem noKey_dropKeepMap (t : DropKeepTerm) : NoKey (dropKeepMap t) := by
  unfold dropKeepMap buildDiceDict
  refine (noKey_iterKeys (fun a b => ?_) _ _ _).bind fun _ => (noKey_iterKeys (fun a b => ?_) _ _ _).bind fun _ => noKey_collapse _ _
  · exact (noKey_keyToList _).bind fun _ => .pure _
  · exact (noKey_keyToList _).bind fun _ => .pure _

theorem noKey_toFloat (q : ℚ) : NoKey (toFloat q) := by
  unfold toFloat
  exact .ite nofun (.ok _)

theorem noKey_notCost (c : Int) : NoKey (notCost c) :=
  (noKey_toFloat _).bind fun _ => (noKey_toFloat _).bind fun _ => .pure _

theorem noKey_diceExtreme (isMax : Bool) (t : DiceTerm) : NoKey (t.extreme isMax) :=
  (noKey_ends isMax _).bind fun _ => .pure _

theorem noKey_dropKeepExtreme (isMax : Bool) (t : DropKeepTerm) : NoKey (t.extreme isMax) := by
  unfold DropKeepTerm.extreme
  split
  · exact noKey_diceExtreme _ _
  · exact .ok _
  · exact (noKey_ends isMax _).bind fun _ => .pure _

section
variable [R : PyRuntime]

theorem noKey_merge (c d : Constraint) : NoKey (c.merge d) := by
  cases c with
  | null => exact .ok _
  | impossible => exact .ok _
  | varValue n vs =>
    unfold Constraint.merge
    refine .ite nofun ?_
    cases d with
    | varValue m ws => exact .ite (.ok _) (.ok _)
    | null => nofun
    | impossible => nofun

theorem noKey_mergeScan (new : Constraint) (set : CSet) : ∀ l, NoKey (mergeScan new set l) := by
  intro l
  induction l with
  | nil => exact .ok _
  | cons c l ih =>
    unfold mergeScan
    exact .ite ((noKey_merge _ _).bind fun _ => .pure _) (.ite ((noKey_merge _ _).bind fun _ => .pure _) ih)

theorem noKey_mergeOne (new : Constraint) (set : CSet) : NoKey (mergeOne new set) := by
  unfold mergeOne
  refine (noKey_mergeScan _ _ _).bind fun r => ?_
  cases r with
  | none => exact .pure _
  | some p => exact .pure _

theorem noKey_mergeLoop : ∀ n l clean, NoKey (mergeLoop n l clean) := by
  intro n
  induction n with
  | zero => intro l clean; cases l <;> (unfold mergeLoop; nofun)
  | succ n ih =>
    intro l clean
    cases l with
    | nil => unfold mergeLoop; nofun
    | cons a l =>
      unfold mergeLoop
      exact (noKey_mergeOne _ _).bind fun _ => ih _ _

theorem noKey_addConstraint (s : CSet) (c : Constraint) : NoKey (addConstraint s c) := noKey_mergeLoop _ _ _

theorem noKey_addAll : ∀ (l : List Constraint) (s : CSet), NoKey (addAll s l) := by
  intro l
  induction l with
  | nil => intro s; exact .ok _
  | cons c l ih => intro s; unfold addAll; exact (noKey_addConstraint _ _).bind fun _ => ih _

theorem noKey_mkConstraintSet (l : List Constraint) : NoKey (mkConstraintSet l) := .ite nofun (noKey_addAll _ _)

theorem noKey_combine (op : BinOp) (a b : Outcome) : NoKey (Outcome.combine op a b) :=
  (noKey_apply _ _ _).bind fun _ => (noKey_mkConstraintSet _).bind fun _ => .pure _

theorem noKey_combineLoop (op : BinOp) : ∀ l acc, NoKey (combineLoop op l acc) := by
  intro l
  induction l with
  | nil => intro acc; exact .ok _
  | cons a l ih =>
    intro acc
    obtain ⟨p, q⟩ := a
    unfold combineLoop
    exact (noKey_combine _ _ _).bind fun o => .ite (ih _) (ih _)

theorem noKey_binop (op : BinOp) (a b : Dist) : NoKey (Dist.binop op a b) := (noKey_combineLoop _ _ _).bind fun _ => .pure _

theorem noKey_mkDistInt (m : List (Int × Nat)) : NoKey (mkDistInt m) :=
  (NoKey.mapM (fun _ => ((noKey_mkConstraintSet _).bind fun _ => .pure _).bind fun _ => .pure _) _).bind fun _ => .pure _

theorem noKey_addDice (single : Dist) : ∀ n d, NoKey (addDice single n d) := by
  intro n
  induction n with
  | zero => intro d; exact .ok _
  | succ n ih => intro d; unfold addDice; exact (noKey_binop _ _ _).bind fun _ => ih _

theorem noKey_diceDist (t : DiceTerm) : NoKey t.dist :=
  (noKey_mkDistInt _).bind fun _ => (noKey_mkDistInt _).bind fun _ => noKey_addDice _ _ _

theorem noKey_dropKeepDist (t : DropKeepTerm) : NoKey t.dist := by
  unfold DropKeepTerm.dist
  split
  · exact noKey_diceDist _
  · exact noKey_mkDistInt _
  · exact (noKey_dropKeepMap t).bind fun _ => noKey_mkDistInt _

theorem noKey_tagLoop (x : Str) : ∀ l acc, NoKey (tagLoop x l acc) := by
  intro l
  induction l with
  | nil => intro acc; exact .ok _
  | cons a l ih =>
    intro acc
    obtain ⟨o, n⟩ := a
    unfold tagLoop
    exact ((noKey_addConstraint _ _).bind fun _ => .pure _).bind fun _ => ih _

theorem noKey_setVar (s : State) (x : Str) (d : Dist) : NoKey (s.setVar x d).1 := by
  unfold State.setVar
  have := noKey_tagLoop (versionName x ((dictGet? (bump s.timesSet x) x).getD 0)) d.getConstraintResultMap []
  dsimp only
  split
  · rename_i e he
    rw [he] at this
    intro h
    cases h
    exact this rfl
  · nofun

/-! ### Every method follows its steps -/

theorem Tracks.pure {α : Type} (a : α) : Tracks (Pure.pure a : EvalX α) [] := by
  intro s r s' h
  cases h
  exact ⟨fun _ _ => ⟨rfl, rfl⟩, nofun, nofun⟩

theorem Tracks.bind {α β : Type} {m : EvalX α} {f : α → EvalX β} {st st' : List Step} (h : Tracks m st)
    (hf : ∀ a, Tracks (f a) st') : Tracks (m >>= f) (st ++ st') := by
  intro s r s' hr
  have hr : EvalX.bind m f s = (r, s') := hr
  unfold EvalX.bind at hr
  rw [firstMissing_append, filled_append]
  rcases hm : m s with ⟨r1, s1⟩
  obtain ⟨h1, h2, h3⟩ := h s r1 s1 hm
  rw [hm] at hr
  cases r1 with
  | error x =>
    cases hr
    refine ⟨nofun, ?_, ?_⟩
    · intro t ht
      cases ht
      obtain ⟨p, h4, h5⟩ := h2 t rfl
      exact ⟨p, by rw [h4]; rfl, h5⟩
    · intro ht
      cases ht
      exact h3 rfl
  | ok a =>
    obtain ⟨h4, h5⟩ := h1 a rfl
    rw [h4, Option.none_or, ← h5]
    exact hf a s1 r s' hr

theorem Tracks.plain {α : Type} {r : Res α} (h : NoKey r) : Tracks (EvalX.plain (EvalM.ofRes r)) [] := by
  intro s r' s' hr
  cases r with
  | ok a => cases hr; exact ⟨fun _ _ => ⟨rfl, rfl⟩, nofun, nofun⟩
  | error x => cases hr; exact ⟨nofun, nofun, fun h' => by cases h'; exact h rfl⟩

theorem Tracks.getVar (n : Str) : Tracks (EvalX.read (fun s => s.getVarX n)) [.look (.var n)] := by
  intro s r s' hr
  have hr : (s.getVarX n, s) = (r, s') := hr
  unfold State.getVarX at hr
  cases h : dictGet? s.var n with
  | none =>
    rw [h] at hr
    cases hr
    refine ⟨nofun, ?_, nofun⟩
    intro t ht
    cases ht
    exact ⟨.var n, by simp [firstMissing, State.has, h], rfl⟩
  | some d =>
    rw [h] at hr
    cases hr
    exact ⟨fun _ _ => ⟨by simp [firstMissing, State.has, h], rfl⟩, nofun, nofun⟩

theorem Tracks.getConstant (n : Str) : Tracks (EvalX.read (fun s => s.getConstantX n)) [.look (.const n)] := by
  intro s r s' hr
  have hr : (s.getConstantX n, s) = (r, s') := hr
  unfold State.getConstantX at hr
  cases h : dictGet? s.constants n with
  | none =>
    rw [h] at hr
    cases hr
    refine ⟨nofun, ?_, nofun⟩
    intro t ht
    cases ht
    exact ⟨.const n, by simp [firstMissing, State.has, h], rfl⟩
  | some d =>
    rw [h] at hr
    cases hr
    exact ⟨fun _ _ => ⟨by simp [firstMissing, State.has, h], rfl⟩, nofun, nofun⟩

omit R in
theorem isSome_dictSet {ν : Type} (l : List (Str × ν)) (x y : Str) (v : ν) :
    (dictGet? (dictSet l x v) y).isSome = (decide (y = x) || (dictGet? l y).isSome) := by
  induction l with
  | nil =>
    by_cases h : y = x
    · subst h; simp [dictSet, dictGet?]
    · have : ¬ x = y := fun h' => h h'.symm
      simp [dictSet, dictGet?, h, this]
  | cons a l ih =>
    obtain ⟨k, w⟩ := a
    by_cases hk : k = x
    · subst hk
      by_cases h : k = y
      · subst h; simp [dictSet, dictGet?]
      · have : ¬ y = k := fun h' => h h'.symm
        simp [dictSet, dictGet?, h, this]
    · by_cases h : k = y
      · subst h; simp [dictSet, dictGet?, hk]
      · simp [dictSet, dictGet?, hk, h, ih]

theorem Tracks.setConstant (x : Str) (v : Int) : Tracks (EvalX.plain (EvalM.setConstant x v)) [.fill (.const x)] := by
  intro s r s' hr
  cases hr
  refine ⟨fun _ _ => ⟨rfl, ?_⟩, nofun, nofun⟩
  funext q
  cases q with
  | var n => simp [filled, State.has, State.setConstant, EvalM.setConstant]
  | const n => simp [filled, State.has, State.setConstant, EvalM.setConstant, isSome_dictSet]

theorem Tracks.setVar (x : Str) (d : Dist) : Tracks (EvalX.plain (EvalM.setVar x d)) [.fill (.var x)] := by
  intro s r s' hr
  have hn := noKey_setVar s x d
  have hr : ((s.setVar x d).1.mapError Exc.other, (s.setVar x d).2) = (r, s') := hr
  rcases hs : s.setVar x d with ⟨r1, s1⟩
  rw [hs] at hr hn
  cases r1 with
  | error y =>
    cases hr
    exact ⟨nofun, nofun, fun h' => by cases h'; exact hn rfl⟩
  | ok u =>
    cases hr
    refine ⟨fun _ _ => ⟨rfl, ?_⟩, nofun, nofun⟩
    unfold State.setVar at hs
    dsimp only at hs
    split at hs
    · cases hs
    · cases hs
      funext q
      cases q with
      | var n => simp [filled, State.has, isSome_dictSet]
      | const n => simp [filled, State.has]

theorem distX_tracks (e : Expr) : Tracks e.distX e.distSteps := by
  have two : ∀ {a b : Expr} {op : Dist → Dist → Res Dist}, Tracks a.distX a.distSteps → Tracks b.distX b.distSteps →
      (∀ x y, NoKey (op x y)) →
      Tracks (do let x ← a.distX; let y ← b.distX; EvalX.plain (EvalM.ofRes (op x y))) (a.distSteps ++ b.distSteps) := by
    intro a b op ha hb hop
    have := ha.bind fun x => hb.bind fun y => Tracks.plain (hop x y)
    rwa [List.append_nil] at this
  have one : ∀ {a : Expr} {op : Dist → Dist}, Tracks a.distX a.distSteps →
      Tracks (do return op (← a.distX)) a.distSteps := by
    intro a op ha
    have := ha.bind fun x => Tracks.pure (op x)
    rwa [List.append_nil] at this
  induction e with
  | paren e ih => exact ih
  | not e ih => exact one ih
  | abs e ih => exact one ih
  | dropKeep t => exact .plain (noKey_dropKeepDist t)
  | dice t => exact .plain (noKey_diceDist t)
  | constInt text => exact .plain ((noKey_pyInt _).bind fun _ => noKey_mkDistInt _)
  | constBin text => exact .plain (noKey_mkDistInt _)
  | add a b iha ihb => exact two iha ihb fun _ _ => noKey_binop _ _ _
  | sub a b iha ihb => exact two iha ihb fun _ _ => noKey_binop _ _ _
  | mul a b iha ihb => exact two iha ihb fun _ _ => noKey_binop _ _ _
  | div a b iha ihb => exact two iha ihb fun _ _ => noKey_binop _ _ _
  | bin op a b iha ihb => exact two iha ihb fun _ _ => noKey_binop _ _ _
  | minmax k a b iha ihb => exact two iha ihb fun _ _ => noKey_binop _ _ _
  | assign x e ih => exact ih.bind fun _ => (Tracks.setVar x _).bind fun _ => .pure _
  | getVar n => exact .getVar n

theorem Tracks.viaDist (isMax : Bool) {m : EvalX Dist} {st : List Step} (h : Tracks m st) : Tracks (viaDistX isMax m) st := by
  have := h.bind fun d : Dist => Tracks.plain (r := if isMax then d.max else d.min) (by
    cases isMax
    · exact noKey_listMin _
    · exact noKey_listMax _)
  rwa [List.append_nil] at this

theorem extremeX_tracks (isMax : Bool) (e : Expr) : Tracks (e.extremeX isMax) e.extremeSteps := by
  induction e with
  | paren e ih => exact ih
  | not e ih => exact (distX_tracks (.not e)).viaDist isMax
  | abs e ih => exact (distX_tracks (.abs e)).viaDist isMax
  | dropKeep t => exact .plain (noKey_dropKeepExtreme _ t)
  | dice t => exact .plain (noKey_diceExtreme _ t)
  | constInt text => exact .plain (noKey_pyInt _)
  | constBin text => exact .plain (.ok _)
  | add a b iha ihb => exact (distX_tracks (.add a b)).viaDist isMax
  | sub a b iha ihb => exact (distX_tracks (.sub a b)).viaDist isMax
  | mul a b iha ihb => exact (distX_tracks (.mul a b)).viaDist isMax
  | div a b iha ihb =>
    refine (distX_tracks b).bind fun d => ?_
    cases d.containsZero with
    | true =>
      intro s r s' h
      cases h
      exact ⟨nofun, nofun, nofun⟩
    | false => exact (distX_tracks (.div a b)).viaDist isMax
  | bin op a b iha ihb => exact (distX_tracks (.bin op a b)).viaDist isMax
  | minmax k a b iha ihb =>
    have := iha.bind fun x => ihb.bind fun y => Tracks.pure (minmaxOp k x y)
    rwa [List.append_nil] at this
  | assign x e ih =>
    have := ih.bind fun v => (Tracks.setConstant x v).bind fun _ => (distX_tracks e).bind fun d => (Tracks.setVar x d).bind fun _ =>
      Tracks.pure v
    rwa [List.append_nil] at this
  | getVar n => exact .getConstant n

theorem costX_tracks (e : Expr) : Tracks e.costX e.costSteps := by
  have two : ∀ {a b : Expr}, Tracks a.costX a.costSteps → Tracks b.costX b.costSteps →
      Tracks (do let x ← a.costX; let y ← b.costX; return x + y) (a.costSteps ++ b.costSteps) := by
    intro a b ha hb
    have := ha.bind fun x => hb.bind fun y => Tracks.pure (x + y)
    rwa [List.append_nil] at this
  induction e with
  | paren e ih => exact ih
  | not e ih =>
    have := ih.bind fun c => Tracks.plain (noKey_notCost c)
    rwa [List.append_nil] at this
  | abs e ih => exact ih
  | dropKeep t => exact .pure _
  | dice t => exact .pure _
  | constInt text => exact .pure _
  | constBin text => exact .pure _
  | add a b iha ihb => exact two iha ihb
  | sub a b iha ihb => exact two iha ihb
  | mul a b iha ihb => exact two iha ihb
  | div a b iha ihb => exact two iha ihb
  | bin op a b iha ihb => exact two iha ihb
  | minmax k a b iha ihb => exact two iha ihb
  | assign x e ih => exact ih.bind fun _ => (Tracks.setConstant x _).bind fun _ => .pure _
  | getVar n => exact .getConstant n

end

end PyDice
