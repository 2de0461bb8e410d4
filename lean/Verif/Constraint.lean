import Verif.Py
/-!
# `src/constraint/*.py`
-/

namespace PyDice

/-- The three constraint classes: `NullConstraint` (`null_constraint.py:7-33`), `ImpossibleConstraint`
    (`impossible_constraint.py:7-33`) and `VarValueConstraint` (`var_value_constraint.py:8-62`).
    `values` is a Python `set` of ints, modelled by the list of its elements in iteration order.
    `__eq__`/`__hash__` compare the printed forms (`var_value_constraint.py:49-59`), which show exactly the class, the
    name and the values in iteration order: this is structural equality here. -/
inductive Constraint where
  | null
  | impossible
  | varValue (name : Str) (values : List Int)
  deriving DecidableEq, Repr

/-- Replace the value set of a variable constraint (used to say what `copy.deepcopy` may do to it). -/
def Constraint.mapValues (f : List Int → List Int) : Constraint → Constraint
  | .varValue n vs => .varValue n (f vs)
  | c => c

/-- What the code needs of Python's `set` type.  `CSet` is the type of `set` objects holding constraints *with their
    hidden memory layout*; `iter` is the order in which a `for` loop (or `str`) sees the elements.  Nothing is assumed
    about that order, so a theorem for every `PyRuntime` is a theorem for every `PYTHONHASHSEED` and every layout.
    `inter` is `set.intersection` on sets of ints (listed in some order), `recopy` the listing of a deep copy of a set
    of ints. -/
class PyRuntime where
  CSet : Type
  iter : CSet → List Constraint
  empty : CSet
  insert : CSet → Constraint → CSet
  erase : CSet → Constraint → CSet
  union : CSet → CSet → CSet
  copy : CSet → CSet
  deepcopy : CSet → CSet
  inter : List Int → List Int → List Int
  recopy : List Int → List Int
  iter_nodup : ∀ s, (iter s).Nodup
  iter_empty : iter empty = []
  mem_insert : ∀ s c x, x ∈ iter (insert s c) ↔ x ∈ iter s ∨ x = c
  mem_erase : ∀ s c x, x ∈ iter (erase s c) ↔ x ∈ iter s ∧ x ≠ c
  mem_union : ∀ s t x, x ∈ iter (union s t) ↔ x ∈ iter s ∨ x ∈ iter t
  mem_copy : ∀ s x, x ∈ iter (copy s) ↔ x ∈ iter s
  mem_deepcopy : ∀ s x, x ∈ iter (deepcopy s) ↔ ∃ c ∈ iter s, x = c.mapValues recopy
  mem_recopy : ∀ vs a, a ∈ recopy vs ↔ a ∈ vs
  recopy_nodup : ∀ vs, vs.Nodup → (recopy vs).Nodup
  mem_inter : ∀ vs ws a, a ∈ inter vs ws ↔ a ∈ vs ∧ a ∈ ws
  inter_nodup : ∀ vs ws, vs.Nodup → (inter vs ws).Nodup

export PyRuntime (CSet)

section
variable [R : PyRuntime]
open PyRuntime

/-- `can_merge`: `null_constraint.py:11-12`, `impossible_constraint.py:11-12`, `var_value_constraint.py:31-34`. -/
def Constraint.canMerge : Constraint → Constraint → Bool
  | .null, _ => true
  | .impossible, _ => true
  | .varValue n _, .varValue m _ => m == n
  | .varValue _ _, _ => false

/-- `merge`: `null_constraint.py:17-18`, `impossible_constraint.py:17-18`, `var_value_constraint.py:36-47`. -/
def Constraint.merge : Constraint → Constraint → Res Constraint
  | .null, other => .ok other
  | .impossible, _ => .ok .impossible
  | .varValue n vs, other =>
    if !Constraint.canMerge (.varValue n vs) other then .error .value
    else match other with
      | .varValue _ ws =>
        let common := inter vs ws
        if common.length = 0 then .ok .impossible else .ok (.varValue n common)
      | _ => .error .value

/-- `is_possible`: `null_constraint.py:14-15`, `impossible_constraint.py:14-15`, `var_value_constraint.py:28-29`. -/
def Constraint.isPossible : Constraint → Bool
  | .null => true
  | .impossible => false
  | .varValue _ vs => decide (vs.length > 0)

/-- `complies`: `null_constraint.py:8-9`, `impossible_constraint.py:8-9` (which answers `True`!),
    `var_value_constraint.py:22-26`.  The `Dict[str, int]` argument is a partial function. -/
def Constraint.complies (vals : Str → Option Int) : Constraint → Bool
  | .null => true
  | .impossible => true
  | .varValue n vs => match vals n with
    | some v => decide (v ∈ vs)
    | none => true

/-- The `for` loop of `ConstraintMerger.__merge_new_constraint` (`constraint_merger.py:36-48`) over the elements still
    to be visited; `none` when the loop ends without `return`. -/
def mergeScan (new : Constraint) (set : CSet) : List Constraint → Res (Option (Constraint × CSet))
  | [] => .ok none
  | c :: rest =>
    if c.canMerge new then do
      let m ← c.merge new
      return some (m, erase (copy set) c)
    else if new.canMerge c then do
      let m ← new.merge c
      return some (m, erase (copy set) c)
    else mergeScan new set rest

/-- `ConstraintMerger.__merge_new_constraint` (`constraint_merger.py:32-51`): the changed constraints (at most one) and
    the unchanged set. -/
def mergeOne (new : Constraint) (set : CSet) : Res (List Constraint × CSet) := do
  match ← mergeScan new set (iter set) with
  | some (m, s) => return ([m], s)
  | none => return ([], insert set new)

/-- The `while` loop of `ConstraintMerger.__merge_new_constraints` (`constraint_merger.py:21-30`).
    `values_to_merge` is a list used as a stack (`pop()`/`extend`): its end is the head here. -/
def mergeLoop : Nat → List Constraint → CSet → Res CSet
  | _, [], clean => .ok clean
  | 0, _ :: _, _ => .error .diverges
  | fuel + 1, cur :: rest, clean => do
    let (unclean, clean') ← mergeOne cur clean
    mergeLoop fuel (unclean.reverse ++ rest) clean'

/-- Number of loop iterations that always suffices, see `mergeLoop_spec`. -/
def mergeFuel (stack : List Constraint) (clean : CSet) : Nat := 2 * stack.length + (iter clean).length

/-- `ConstraintMerger.__merge_new_constraints` (`constraint_merger.py:14-30`), `new_constraints` given in iteration order. -/
def mergeNewAll (news : List Constraint) (set : CSet) : Res CSet :=
  let stack := news.reverse
  let clean := copy set
  mergeLoop (mergeFuel stack clean) stack clean

/-- `ConstraintMerger.merge_constraints` (`constraint_merger.py:8-9`). -/
def mergeConstraints (set : CSet) : Res CSet := mergeNewAll (iter (copy set)) empty

/-- `ConstraintMerger.merge_new_constraints` (`constraint_merger.py:11-12`): `{new_constraint}` has one element. -/
def mergeNewConstraints (set : CSet) (new : Constraint) : Res CSet := mergeNewAll [new] set

/-- `ConstraintSet.add_constraint` (`constraint_set.py:23-26`); the object is represented by its `_constraints_set`. -/
def addConstraint (s : CSet) (c : Constraint) : Res CSet := mergeNewConstraints s c

/-- The loop of `ConstraintSet.__init__` (`constraint_set.py:16-17`). -/
def addAll (s : CSet) : List Constraint → Res CSet
  | [] => .ok s
  | c :: rest => do addAll (← addConstraint s c) rest

/-- `ConstraintSet.__init__` (`constraint_set.py:10-17`), the argument set given in iteration order. -/
def mkConstraintSet (cs : List Constraint) : Res CSet :=
  if cs.length = 0 then .error .value else addAll empty cs

/-- `ConstraintSet.is_possible` (`constraint_set.py:34-38`). -/
def csPossible (s : CSet) : Bool := (iter s).all Constraint.isPossible

/-- `ConstraintSet.complies` (`constraint_set.py:28-32`). -/
def csComplies (s : CSet) (vals : Str → Option Int) : Bool := (iter s).all (Constraint.complies vals)

/-- `ConstraintSet.combine_sets` (`constraint_set.py:40-42`); `constraints` returns a copy (`:19-21`). -/
def combineSets (s t : CSet) : Res CSet := mkConstraintSet (iter (union s (copy t)))

/-- `ConstraintSet.__eq__` (`constraint_set.py:44-45`): the printed sets agree, i.e. the elements are listed in the
    same order. -/
def csEq (s t : CSet) : Bool := decide (iter s = iter t)

/-- `ConstraintSetFactory.create_constraint_set` (`constraint_set_factory.py:28-29`). -/
def createConstraintSet : Res CSet := mkConstraintSet [.null]

end

/-- Insertion-ordered set insertion, for `listRuntime`. -/
def lsInsert (l : List Constraint) (c : Constraint) : List Constraint := if c ∈ l then l else l ++ [c]

/-- Insertion-ordered set union, for `listRuntime`. -/
def lsUnion (l m : List Constraint) : List Constraint := l ++ m.filter (· ∉ l)

theorem lsInsert_nodup (l : List Constraint) (c : Constraint) (h : l.Nodup) : (lsInsert l c).Nodup := by
  unfold lsInsert
  split
  · exact h
  · rename_i hc
    rw [List.nodup_append]
    refine ⟨h, by simp, ?_⟩
    intro a ha b hb hab
    simp only [List.mem_singleton] at hb
    subst hb; subst hab; exact hc ha

theorem lsUnion_nodup (l m : List Constraint) (h : l.Nodup) (h' : m.Nodup) : (lsUnion l m).Nodup := by
  unfold lsUnion
  rw [List.nodup_append]
  refine ⟨h, h'.filter _, ?_⟩
  intro a ha b hb hab
  subst hab
  simp only [List.mem_filter, decide_eq_true_eq] at hb
  exact hb.2 ha

theorem mem_lsInsert (l : List Constraint) (c x : Constraint) : x ∈ lsInsert l c ↔ x ∈ l ∨ x = c := by
  unfold lsInsert
  split
  · rename_i hc
    constructor
    · exact Or.inl
    · rintro (h' | h')
      · exact h'
      · rw [h']; exact hc
  · simp

theorem mem_lsUnion (l m : List Constraint) (x : Constraint) : x ∈ lsUnion l m ↔ x ∈ l ∨ x ∈ m := by
  simp only [lsUnion, List.mem_append, List.mem_filter, decide_eq_true_eq]
  by_cases h : x ∈ l <;> simp [h]

theorem nodup_rev {α : Type} {l : List α} (h : l.Nodup) : l.reverse.Nodup := by
  unfold List.Nodup
  rw [List.pairwise_reverse]
  exact List.Pairwise.imp (fun h => Ne.symm h) h

theorem mapValues_id (c : Constraint) : c.mapValues (fun vs => vs) = c := by cases c <;> rfl

/-- The simplest runtime: a set is a duplicate-free list in insertion order.  Used for non-vacuity examples. -/
@[reducible] def listRuntime : PyRuntime where
  CSet := { l : List Constraint // l.Nodup }
  iter s := s.1
  empty := ⟨[], by simp⟩
  insert s c := ⟨lsInsert s.1 c, lsInsert_nodup _ _ s.2⟩
  erase s c := ⟨s.1.filter (· ≠ c), s.2.filter _⟩
  union s t := ⟨lsUnion s.1 t.1, lsUnion_nodup _ _ s.2 t.2⟩
  copy s := s
  deepcopy s := s
  inter vs ws := vs.filter (· ∈ ws)
  recopy vs := vs
  iter_nodup s := s.2
  iter_empty := rfl
  mem_insert _ _ _ := mem_lsInsert _ _ _
  mem_erase s c x := by simp
  mem_union _ _ _ := mem_lsUnion _ _ _
  mem_copy s x := Iff.rfl
  mem_deepcopy s x := by simp [mapValues_id]
  mem_recopy _ _ := Iff.rfl
  recopy_nodup _ h := h
  mem_inter vs ws a := by simp
  inter_nodup vs ws h := h.filter _

/-- A second runtime, iterating in reverse insertion order.  Used in non-vacuity examples about hash seeds. -/
@[reducible] def revRuntime : PyRuntime where
  CSet := { l : List Constraint // l.Nodup }
  iter s := s.1.reverse
  empty := ⟨[], by simp⟩
  insert s c := ⟨lsInsert s.1 c, lsInsert_nodup _ _ s.2⟩
  erase s c := ⟨s.1.filter (· ≠ c), s.2.filter _⟩
  union s t := ⟨lsUnion t.1 s.1, lsUnion_nodup _ _ t.2 s.2⟩
  copy s := ⟨s.1.reverse, nodup_rev s.2⟩
  deepcopy s := s
  inter vs ws := (vs.filter (· ∈ ws)).reverse
  recopy vs := vs
  iter_nodup s := nodup_rev s.2
  iter_empty := rfl
  mem_insert s c x := by simp [mem_lsInsert]
  mem_erase s c x := by simp
  mem_union s t x := by simp [mem_lsUnion, or_comm]
  mem_copy s x := by simp
  mem_deepcopy s x := by simp [mapValues_id]
  mem_recopy _ _ := Iff.rfl
  recopy_nodup _ h := h
  mem_inter vs ws a := by simp
  inter_nodup vs ws h := nodup_rev (h.filter _)

end PyDice
