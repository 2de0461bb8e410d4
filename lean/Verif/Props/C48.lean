import Verif.Lemmas.Heap
import Verif.Parser
/-!
# C48: nobody sees an object change

`Heap.Le h h'` (`Spec/Heap.lean`) says that every object of `h` is still in `h'` with the content it had.
-/

namespace PyDice
open PyRuntime

section
variable [R : PyRuntime]

/-- `merge_new_constraints` leaves every existing set, constraint set and dict as it is, and computes what the function on values
    computes. -/
theorem C48_merge (h : Heap) (ok : h.Ok) (a : Nat) (ha : a < h.sets.length) (c : Constraint) :
    h.Le (mergeNewConstraintsH a c h).2 ∧
    (mergeNewConstraintsH a c h).1.map (mergeNewConstraintsH a c h).2.set = mergeNewConstraints (h.set a) c := by
  obtain ⟨h1, -, h3⟩ := mergeNewConstraintsH_sim c ok ha
  refine ⟨h1.le, read_of_rel h3 fun x y hxy => ?_⟩
  exact hxy.2.2

/-- The same for `combine_sets`. -/
theorem C48_combine (h : Heap) (ok : h.Ok) (a b : Nat) (ha : a < h.csets.length) :
    h.Le (combineSetsH a b h).2 ∧ (combineSetsH a b h).1.map (combineSetsH a b h).2.constraints =
      combineSets (h.constraints a) (h.constraints b) := by
  obtain ⟨h1, -, h3⟩ := combineSetsH_sim (b := b) ok ha
  exact ⟨h1.le, read_of_rel h3 fun x y hxy => hxy.2⟩

/-- The operators of distributions leave their operands (and everything else) as they are, and compute what the functions on values
    compute. -/
theorem C48_operators (h : Heap) (ok : h.Ok) (op : BinOp) (a b : DistRef) (ha : a.map < h.dicts.length) (hb : b.map < h.dicts.length) :
    (h.Le (DistRef.binop op a b h).2 ∧
      (DistRef.binop op a b h).1.map (DistRef.binop op a b h).2.dist = Dist.binop op (h.dist a) (h.dist b)) ∧
    (h.Le (a.notOp h).2 ∧ (a.notOp h).1.map (a.notOp h).2.dist = .ok (h.dist a).notOp) ∧
    (h.Le (a.absOp h).2 ∧ (a.absOp h).1.map (a.absOp h).2.dist = .ok (h.dist a).absOp) := by
  obtain ⟨h1, -, h3⟩ := binop_sim op ok ha hb
  obtain ⟨k1, -, k3⟩ := notOp_sim ok ha
  obtain ⟨l1, -, l3⟩ := absOp_sim ok ha
  exact ⟨⟨h1, read_of_rel h3 fun _ _ h => h.2⟩, ⟨k1, read_of_rel k3 fun _ _ h => h.2⟩, l1, read_of_rel l3 fun _ _ h => h.2⟩

/-- `set_var` changes only the dict of variables: the distribution assigned, and every object it shares, stays as it is. -/
theorem C48_assign (s : HState) (ok : s.Ok) (name : Str) (d : DistRef) (hd : d.map < s.heap.dicts.length) :
    s.heap.Le (HEvalM.setVar name d s).2.heap ∧
    (HEvalM.setVar name d s).1 = (s.state.setVar name (s.heap.dist d)).1 ∧
    (HEvalM.setVar name d s).2.state = (s.state.setVar name (s.heap.dist d)).2 := by
  obtain ⟨h1, -, h3, h4⟩ := setVar_simE ok name hd
  refine ⟨h1, ?_, h3⟩
  have := read_of_rel (h := s.heap) (Rel := fun _ _ _ => True) (f := fun u : Unit => u) h4 fun _ _ _ => rfl
  rw [← show _ = (s.state.setVar name (s.heap.dist d)).1 from this]
  cases (HEvalM.setVar name d s).1 <;> rfl

/-- `get_probability_distributions`: the same names, distributions, exceptions and variables as with values; and no object that existed
    before has changed. -/
theorem C48_distributions (parse : Str → Res Expr) (lines : List Str) (s : HState) (ok : s.Ok) :
    (interpDistsH parse lines s).1.map (fun l => l.map fun p => (p.1, (interpDistsH parse lines s).2.heap.dist p.2)) =
      (interpDists parse lines s.state).1 ∧
    (interpDistsH parse lines s).2.state = (interpDists parse lines s.state).2 ∧
    s.heap.Le (interpDistsH parse lines s).2.heap := by
  obtain ⟨h1, -, h3, h4⟩ := interpDistsH_simE parse lines ok
  exact ⟨read_of_rel h4 fun _ _ h => h.2, h3, h1⟩

/-- `max` and `min`: the same exceptions, variables and constants as with values (the dict they return is the dict of constants). -/
theorem C48_extremes (parse : Str → Res Expr) (isMax : Bool) (lines : List Str) (s : HState) (ok : s.Ok) :
    (extremeLinesH parse isMax lines s).1 = (extremeLines parse isMax lines s.state).1 ∧
    (extremeLinesH parse isMax lines s).2.state = (extremeLines parse isMax lines s.state).2 ∧
    s.heap.Le (extremeLinesH parse isMax lines s).2.heap := by
  obtain ⟨h1, -, h3, h4⟩ := extremeLinesH_simE parse isMax lines ok
  refine ⟨?_, h3, h1⟩
  have := read_of_rel (h := s.heap) (Rel := fun _ _ _ => True) (f := fun u : Unit => u) h4 fun _ _ _ => rfl
  rw [← this]
  cases (extremeLinesH parse isMax lines s).1 <;> rfl

/-- The histogram methods: the distribution they draw is the same as with values. -/
theorem C48_histograms (parse : Str → Res Expr) (lines : List Str) (s : HState) (ok : s.Ok) :
    (interpHistogramDistH parse lines s).1.map (interpHistogramDistH parse lines s).2.heap.dist = (interpHistogramDist parse lines s.state).1 ∧
    (interpHistogramDistH parse lines s).2.state = (interpHistogramDist parse lines s.state).2 ∧
    s.heap.Le (interpHistogramDistH parse lines s).2.heap := by
  obtain ⟨h1, -, h3, h4⟩ := interpHistogramDistH_simE parse lines ok
  exact ⟨read_of_rel h4 fun _ _ h => h.2, h3, h1⟩

/-- Whatever calls are made after the first part of a session, every distribution object that was returned in that part, and every
    distribution object a variable held, reads as it did; the objects of the operands are untouched.  (The calls may combine the objects
    returned, in any way, by the operators of distributions.) -/
theorem C48_session (parse : Str → Res Expr) {s s' : HState} {ds es : List DistRef} (first : HSession parse HState.new ds s)
    (later : HSession parse s es s') :
    (∀ d ∈ ds, s'.heap.dist d = s.heap.dist d) ∧ (∀ p ∈ s.var, s'.heap.dist p.2 = s.heap.dist p.2) ∧ s.heap.Le s'.heap := by
  obtain ⟨h1, -, h3⟩ := session_ok first HState.new_ok
  obtain ⟨-, k2, -⟩ := session_ok later h1
  exact ⟨fun d hd => k2.dist h1.heap (h3 d hd), fun p hp => k2.dist h1.heap (h1.var p hp), k2⟩

end

/-! ### Objects are shared, and the heap sees it -/

/-- The addresses of the constraint sets in the keys of a distribution object. -/
def Heap.owners [PyRuntime] (h : Heap) (d : DistRef) : List Nat := (h.dict d.map).map fun p => p.1.cs

/-- `abs(d)` is a new dict, but its keys hold the very `ConstraintSet` objects of `d`: objects are shared between distributions. -/
example : ∃ _ : PyRuntime, ((do
    let d ← mkDistIntH [(1, 1), (2, 1)]
    let d' ← d.absOp
    HeapM.read fun h => decide (d.map ≠ d'.map ∧ h.owners d = h.owners d') : HeapM Bool) ⟨[], [], []⟩).1.toOption = some true :=
  ⟨listRuntime, by decide +kernel⟩

/-- So `add_constraint` on a key of `abs(d)` would be seen in `d` (`set_var` copies first). -/
example : ∃ _ : PyRuntime, ((do
    let d ← mkDistIntH [(1, 1), (2, 1)]
    let before ← HeapM.read fun h => (h.dist d).getConstraintResultMap.map fun p => iter p.1.cs
    let d' ← d.absOp
    addConstraintH ((← HeapM.read fun h => h.owners d').headD 0) (.varValue "x_1".toList [1])
    let after ← HeapM.read fun h => (h.dist d).getConstraintResultMap.map fun p => iter p.1.cs
    return decide (before ≠ after) : HeapM Bool) ⟨[], [], []⟩).1.toOption = some true :=
  ⟨listRuntime, by decide +kernel⟩

section
attribute [local instance] listRuntime

/-- A session to which `C48_session` applies, with the distributions returned by its two parts. -/
example : ∃ ds s es s', HSession parse HState.new ds s ∧ HSession parse s es s' ∧
    ds.map (fun d => (s'.heap.dist d).getResultMap) = [[(1, 1), (2, 1)]] ∧
    es.map (fun d => (s'.heap.dist d).getResultMap) = [[(1, 1), (2, 1)], [(2, 1), (4, 1)]] := by
  refine ⟨_, _, _, _, .call (.histogram _ ["1d2".toList] _ _ Prod.mk.eta.symm) (.nil _),
    .call (.dists _ ["VAR x = 1d2".toList, "x + x".toList] _ _ Prod.mk.eta.symm) (.nil _), ?_, ?_⟩
  · decide +kernel
  · decide +kernel

end

end PyDice
