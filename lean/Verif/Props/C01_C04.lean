import Verif.Lemmas.ConstraintElems
import Verif.Lemmas.ConstraintProps
/-!
# C01 - C04: constraint merging
-/

namespace PyDice

open PyRuntime

section
variable [R : PyRuntime]

/-- **C01** (the loop ends).  For every queue and every set, every sufficiently large fuel gives the same result, and
    it is not the out-of-fuel mark. -/
theorem C01_merge_terminates (stack : List Constraint) (clean : CSet) :
    ∃ r, ∀ fuel, mergeFuel stack clean ≤ fuel → mergeLoop fuel stack clean = .ok r := by
  obtain ⟨r, hr, _⟩ := mergeLoop_spec (mergeFuel stack clean) stack clean (Nat.le_refl _)
  refine ⟨r, fun fuel hf => ?_⟩
  obtain ⟨k, rfl⟩ := Nat.le.dest hf
  exact mergeLoop_fuel _ _ _ _ _ hr

/-- **C01** (`merge_constraints`).  Merging always returns a normal form, starting from any set. -/
theorem C01_merge_constraints_normal (s : CSet) :
    ∃ r, mergeConstraints s = .ok r ∧ Normal r ∧ LoneOrDistinct (iter r) := by
  obtain ⟨r, hr, m⟩ := mergeNewAll_spec (iter (copy s)) empty
  exact ⟨r, hr, m.normal normal_empty, loneOrDistinct_of_normal (m.normal normal_empty)⟩

/-- **C01** (`merge_new_constraints`, `add_constraint`).  Adding a constraint to a normal form gives a normal form. -/
theorem C01_add_constraint_normal (s : CSet) (c : Constraint) (hs : Normal s) :
    ∃ r, addConstraint s c = .ok r ∧ Normal r ∧ LoneOrDistinct (iter r) := by
  obtain ⟨r, hr, m⟩ := addConstraint_spec s c
  exact ⟨r, hr, m.normal hs, loneOrDistinct_of_normal (m.normal hs)⟩

/-- **C01** (`ConstraintSet.__init__`).  Building a set from one or more constraints gives a normal form; building it from
    none raises `ValueError`. -/
theorem C01_constraint_set_normal (cs : List Constraint) :
    (cs = [] → mkConstraintSet cs = .error .value) ∧
    (cs ≠ [] → ∃ r, mkConstraintSet cs = .ok r ∧ Normal r ∧ LoneOrDistinct (iter r)) := by
  refine ⟨fun h => by simp [mkConstraintSet, h], fun h => ?_⟩
  obtain ⟨r, hr, m⟩ := mkConstraintSet_spec cs h
  exact ⟨r, hr, m.normal normal_empty, loneOrDistinct_of_normal (m.normal normal_empty)⟩

/-- **C01** (`combine_sets`). -/
theorem C01_combine_sets_normal (s t : CSet) (hne : iter s ≠ [] ∨ iter t ≠ []) :
    ∃ r, combineSets s t = .ok r ∧ Normal r ∧ LoneOrDistinct (iter r) := by
  obtain ⟨r, hr, m⟩ := combineSets_spec s t hne
  exact ⟨r, hr, m.normal, loneOrDistinct_of_normal m.normal⟩

/-- **C02** (`ConstraintSet.__init__`/`add_constraint`): the set built from `cs` is satisfied by exactly the assignments
    that satisfy all of `cs`; `is_possible` says whether there is one; and a possible set `complies` exactly when
    every input does. -/
theorem C02_meaning_of_built_set (cs : List Constraint) (r : CSet) (h : mkConstraintSet cs = .ok r) :
    (∀ ω, Sat ω r ↔ ∀ c ∈ cs, c.Sat ω) ∧
    (csPossible r = true ↔ ∃ ω, ∀ c ∈ cs, c.Sat ω) ∧
    (csPossible r = true → ∀ vals, csComplies r vals = true ↔ ∀ c ∈ cs, c.complies vals = true) := by
  have hne : cs ≠ [] := by
    rintro rfl; simp [mkConstraintSet] at h
  obtain ⟨r', hr, m⟩ := mkConstraintSet_spec cs hne
  rw [h] at hr
  obtain rfl : r = r' := by simpa using hr
  have hsat : ∀ ω, Sat ω r ↔ ∀ c ∈ cs, c.Sat ω := fun ω => by
    rw [m.sat ω]; exact ⟨fun h => h.1, fun h => ⟨h, sat_empty ω⟩⟩
  refine ⟨hsat, ?_, ?_⟩
  · rw [isPossible_iff (m.normal normal_empty)]; simp only [hsat]
  · intro hp vals
    have hi : .impossible ∉ iter r := by
      intro hi
      simp only [csPossible, List.all_eq_true] at hp
      exact absurd (hp _ hi) (by simp [Constraint.isPossible])
    rw [(m.complies hi).2 vals]
    constructor
    · exact fun h => h.1
    · refine fun h => ⟨h, ?_⟩
      simp [csComplies, iter_empty]

/-- **C02** (`merge_new_constraints`, `add_constraint` on an existing set). -/
theorem C02_meaning_of_add (s r : CSet) (c : Constraint) (hs : Normal s) (h : addConstraint s c = .ok r) :
    (∀ ω, Sat ω r ↔ c.Sat ω ∧ Sat ω s) ∧
    (csPossible r = true ↔ ∃ ω, c.Sat ω ∧ Sat ω s) ∧
    (csPossible r = true → ∀ vals, csComplies r vals = true ↔ c.complies vals = true ∧ csComplies s vals = true) := by
  obtain ⟨r', hr, m⟩ := addConstraint_spec s c
  rw [h] at hr
  obtain rfl : r = r' := by simpa using hr
  have hsat : ∀ ω, Sat ω r ↔ c.Sat ω ∧ Sat ω s := fun ω => by rw [m.sat ω]; simp
  refine ⟨hsat, ?_, ?_⟩
  · rw [isPossible_iff (m.normal hs)]; simp only [hsat]
  · intro hp vals
    have hi : .impossible ∉ iter r := by
      intro hi
      simp only [csPossible, List.all_eq_true] at hp
      exact absurd (hp _ hi) (by simp [Constraint.isPossible])
    rw [(m.complies hi).2 vals]; simp

/-- **C02** (`combine_sets`). -/
theorem C02_meaning_of_combine (s t r : CSet) (h : combineSets s t = .ok r) :
    (∀ ω, Sat ω r ↔ Sat ω s ∧ Sat ω t) ∧ (csPossible r = true ↔ ∃ ω, Sat ω s ∧ Sat ω t) := by
  have hne : iter s ≠ [] ∨ iter t ≠ [] := by
    by_contra hno
    simp only [not_or, not_not] at hno
    have : iter (union s (copy t)) = [] := by
      apply List.eq_nil_iff_forall_not_mem.mpr
      intro x hx
      rw [mem_union, mem_copy, hno.1, hno.2] at hx; simp at hx
    simp [combineSets, mkConstraintSet, this] at h
  obtain ⟨r', hr, m⟩ := combineSets_spec s t hne
  rw [h] at hr
  obtain rfl : r = r' := by simpa using hr
  refine ⟨m.sat, ?_⟩
  rw [isPossible_iff m.normal]; simp only [m.sat]

/-- **C02** (`merge_constraints`). -/
theorem C02_meaning_of_merge (s r : CSet) (h : mergeConstraints s = .ok r) :
    (∀ ω, Sat ω r ↔ Sat ω s) ∧ (csPossible r = true ↔ ∃ ω, Sat ω s) := by
  obtain ⟨r', hr, m⟩ := mergeNewAll_spec (iter (copy s)) empty
  unfold mergeConstraints at h
  rw [h] at hr
  obtain rfl : r = r' := by simpa using hr
  have hsat : ∀ ω, Sat ω r ↔ Sat ω s := fun ω => by
    rw [m.sat ω, ← sat_copy ω s]; exact ⟨fun h => h.1, fun h => ⟨h, sat_empty ω⟩⟩
  exact ⟨hsat, by rw [isPossible_iff (m.normal normal_empty)]; simp only [hsat]⟩

/-- **C02** (`complies`): for a possible set, given values for some of the variables comply exactly when they can be extended to an
    assignment that satisfies the set. -/
theorem C02_complies_extends (s : CSet) (hs : Normal s) (hp : csPossible s = true) (vals : Str → Option Int) :
    csComplies s vals = true ↔ ∃ ω : Str → Int, (∀ n v, vals n = some v → ω n = v) ∧ Sat ω s := by
  obtain ⟨ω₀, h₀⟩ := (isPossible_iff hs).mp hp
  simp only [csComplies, List.all_eq_true]
  constructor
  · intro h
    refine ⟨fun n => (vals n).getD (ω₀ n), fun n v hv => by simp [hv], fun c hc => ?_⟩
    have h1 := h c hc
    have h2 := h₀ c hc
    cases c with
    | null => trivial
    | impossible => exact h2
    | varValue n vs =>
      simp only [Constraint.complies] at h1
      simp only [Constraint.Sat] at h2 ⊢
      cases hv : vals n with
      | none => simpa using h2
      | some v => rw [hv] at h1; simpa using h1
  · rintro ⟨ω, h1, h2⟩ c hc
    have h3 := h2 c hc
    cases c with
    | null => rfl
    | impossible => exact h3.elim
    | varValue n vs =>
      simp only [Constraint.complies]
      simp only [Constraint.Sat] at h3
      cases hv : vals n with
      | none => rfl
      | some v => simpa [h1 n v hv] using h3

omit R in
/-- The hypothesis on possibility is needed: a set that nothing satisfies complies with everything. -/
theorem C02_impossible_complies : ∃ (R' : PyRuntime) (s : R'.CSet), Normal s ∧ csPossible s = false ∧ ∀ vals, csComplies s vals = true :=
  ⟨listRuntime, ⟨[.impossible], by decide⟩, by
    intro a ha b hb hab
    exact absurd ((List.mem_singleton.mp ha).trans (List.mem_singleton.mp hb).symm) hab, by decide, fun _ => rfl⟩

/-- **C03**, element by element: building a set from `cs` gives exactly the expected elements. -/
theorem C03_elements_of_built_set (cs : List Constraint) (r : CSet) (h : mkConstraintSet cs = .ok r) :
    ExpectedMerge cs (iter r) := built_expected cs r h

end

/-- **C03**: the same constraints in any order and under any two set implementations give the same elements. -/
theorem C03_order_independent (R1 R2 : PyRuntime) (cs ds : List Constraint) (hp : cs.Perm ds)
    (r1 : R1.CSet) (r2 : R2.CSet) (h1 : mkConstraintSet (R := R1) cs = .ok r1)
    (h2 : mkConstraintSet (R := R2) ds = .ok r2) : SameConstraints (R1.iter r1) (R2.iter r2) :=
  same_of_expected hp (C03_elements_of_built_set (R := R1) cs r1 h1) (C03_elements_of_built_set (R := R2) ds r2 h2)

/-- **C03** for `merge_constraints`: sets with the same elements, held by any two set implementations. -/
theorem C03_merge_order_independent (R1 R2 : PyRuntime) (s : R1.CSet) (t : R2.CSet)
    (hst : ∀ c, c ∈ R1.iter s ↔ c ∈ R2.iter t) (r1 : R1.CSet) (r2 : R2.CSet)
    (h1 : mergeConstraints (R := R1) s = .ok r1) (h2 : mergeConstraints (R := R2) t = .ok r2) :
    SameConstraints (R1.iter r1) (R2.iter r2) := by
  have key : ∀ (R : PyRuntime) (s r : R.CSet), mergeConstraints (R := R) s = .ok r →
      ExpectedMerge (R.iter s) (R.iter r) := by
    intro R s r h
    obtain ⟨r', hr, m⟩ := mergeNewAll_spec (R := R) (R.iter (R.copy s)) R.empty
    have h' := h
    unfold mergeConstraints at h'
    rw [h'] at hr
    obtain rfl : r = r' := by simpa using hr
    have e := mergeLoop_elems (R := R) _ _ _ _ h'
    refine expected_of_eqv (Eqv.trans (eqv_of_perm ?_) e) (expected_self (m.normal normal_empty))
    have : R.iter (R.copy R.empty) = [] := by
      apply List.eq_nil_iff_forall_not_mem.mpr
      intro x hx
      rw [R.mem_copy, R.iter_empty] at hx; simp at hx
    rw [this, List.append_nil]
    refine (perm_of_mem_iff (R.iter_nodup s) (R.iter_nodup (R.copy s)) (fun x => (R.mem_copy s x).symm)).trans ?_
    exact (List.reverse_perm _).symm
  exact same_of_expected (perm_of_mem_iff (R1.iter_nodup s) (R2.iter_nodup t) hst) (key R1 s r1 h1) (key R2 t r2 h2)

section
variable [R : PyRuntime]

/-- **C04**: commutative. -/
theorem C04_combine_comm (s t r r' : CSet) (h : combineSets s t = .ok r) (h' : combineSets t s = .ok r') :
    SameConstraints (iter r) (iter r') := by
  refine same_of_expected ?_ (combine_expected h) (combine_expected h')
  apply perm_of_mem_iff (iter_nodup _) (iter_nodup _)
  intro x; simp only [mem_union, mem_copy, or_comm]

/-- **C04**: idempotent. -/
theorem C04_combine_idem (s r : CSet) (hs : Normal s) (h : combineSets s s = .ok r) :
    SameConstraints (iter r) (iter s) := by
  refine same_of_expected ?_ (combine_expected h) (expected_self hs)
  apply perm_of_mem_iff (iter_nodup _) (iter_nodup _)
  intro x; simp [mem_union, mem_copy]

/-- **C04**: the set made from the null constraint (`create_constraint_set`) is the unit, on both sides. -/
theorem C04_combine_unit (s u r r' : CSet) (hs : Normal s) (hne : iter s ≠ []) (hu : createConstraintSet = .ok u)
    (h : combineSets s u = .ok r) (h' : combineSets u s = .ok r') :
    SameConstraints (iter r) (iter s) ∧ SameConstraints (iter r') (iter s) := by
  have hum : ∀ x, x ∈ iter u ↔ x = .null := by
    have e := C03_elements_of_built_set _ _ hu
    have hn : .null ∈ iter u := e.null.mpr ⟨by simp, by simp⟩
    have hN : Normal u := by
      obtain ⟨u', hu', m⟩ := mkConstraintSet_spec [.null] (by simp)
      unfold createConstraintSet at hu
      rw [hu] at hu'
      obtain rfl : u = u' := by simpa using hu'
      exact m.normal normal_empty
    intro x
    exact ⟨hN.lone_null hn x, fun h => h ▸ hn⟩
  have key : ∀ v : CSet, (∀ x, x ∈ iter v ↔ x ∈ iter s ∨ x = .null) → Eqv (iter v) (iter s) := by
    intro v hv
    by_cases hn : .null ∈ iter s
    · refine eqv_of_perm (perm_of_mem_iff (iter_nodup _) (iter_nodup _) fun x => ?_)
      rw [hv x]
      constructor
      · rintro (h | rfl)
        · exact h
        · exact hn
      · exact Or.inl
    · have hp : (iter v).Perm (.null :: iter s) := by
        apply perm_of_mem_iff (iter_nodup _) (List.nodup_cons.mpr ⟨hn, iter_nodup _⟩)
        intro x; rw [hv x, List.mem_cons, or_comm]
      refine Eqv.trans (eqv_of_perm hp) ?_
      cases hl : iter s with
      | nil => exact absurd hl hne
      | cons b rest => exact eqv_merge .null b b rest rfl
  have hself := expected_self hs
  have e1 : ExpectedMerge (iter (union s (copy u))) (iter s) :=
    expected_of_eqv (key _ fun x => by rw [mem_union, mem_copy, hum]) hself
  have e2 : ExpectedMerge (iter (union u (copy s))) (iter s) :=
    expected_of_eqv (key _ fun x => by rw [mem_union, mem_copy, hum, or_comm]) hself
  exact ⟨same_of_expected (List.Perm.refl _) (combine_expected h) e1,
    same_of_expected (List.Perm.refl _) (combine_expected h') e2⟩

/-- **C04**: associative (for sets whose variable constraints allow at least one value, as in every set the program
    builds; merging never produces an empty value set, see `merge_wf`). -/
theorem C04_combine_assoc (s t u st tu r r' : CSet)
    (ws : ∀ c ∈ iter s, c.WF) (wt : ∀ c ∈ iter t, c.WF) (wu : ∀ c ∈ iter u, c.WF)
    (ns : iter s ≠ []) (nt : iter t ≠ [])
    (h1 : combineSets s t = .ok st) (h2 : combineSets st u = .ok r)
    (h3 : combineSets t u = .ok tu) (h4 : combineSets s tu = .ok r') :
    SameConstraints (iter r) (iter r') := by
  have get : ∀ {a b x : CSet}, (iter a ≠ [] ∨ iter b ≠ []) → combineSets a b = .ok x → Combined a b x := by
    intro a b x hne h
    obtain ⟨x', hx, m⟩ := combineSets_spec a b hne
    rw [h] at hx
    obtain rfl : x = x' := by simpa using hx
    exact m
  have m1 := get (Or.inl ns) h1
  have m2 := get (Or.inl m1.nonempty) h2
  have m3 := get (Or.inl nt) h3
  have m4 := get (Or.inl ns) h4
  apply normal_unique R R m2.normal m4.normal (m2.wf (m1.wf ws wt) wu) (m4.wf ws (m3.wf wt wu)) m2.nonempty m4.nonempty
  intro ω
  rw [m2.sat, m1.sat, m4.sat, m3.sat, and_assoc]

/-- **C04**: a set that is not possible stays not possible. -/
theorem C04_impossible_absorbs (s t r : CSet) (hs : Normal s) (hp : csPossible s = false)
    (h : combineSets s t = .ok r ∨ combineSets t s = .ok r) : csPossible r = false := by
  by_contra hne
  have hr : csPossible r = true := by simpa using hne
  have hsat : ∃ ω, Sat ω s := by
    rcases h with h | h
    · obtain ⟨ω, h1, _⟩ := (C02_meaning_of_combine s t r h).2.mp hr
      exact ⟨ω, h1⟩
    · obtain ⟨ω, _, h1⟩ := (C02_meaning_of_combine t s r h).2.mp hr
      exact ⟨ω, h1⟩
  rw [← isPossible_iff hs, hp] at hsat
  simp at hsat

end

/-! ### Non-vacuity -/

/-- Two constraints on `x` and one on `y` merge to two, under a runtime that iterates in reverse. -/
example : (mkConstraintSet (R := revRuntime)
      [.varValue ['x'] [1, 2], .varValue ['y'] [5], .null, .varValue ['x'] [2, 3]]).map (revRuntime.iter ·)
    = .ok [.varValue ['x'] [2], .varValue ['y'] [5]] := by decide
/-- The same constraints in another order under the insertion-order runtime: another order of the same elements. -/
example : (mkConstraintSet (R := listRuntime)
      [.null, .varValue ['y'] [5], .varValue ['x'] [1, 2], .varValue ['x'] [2, 3]]).map (listRuntime.iter ·)
    = .ok [.varValue ['y'] [5], .varValue ['x'] [2]] := by decide
/-- Contradicting constraints give the lone impossible constraint. -/
example : (mkConstraintSet (R := listRuntime)
      [.varValue ['y'] [5], .varValue ['x'] [1], .varValue ['x'] [2]]).map (listRuntime.iter ·)
    = .ok [.impossible] := by decide
example : ([.null, .varValue ['y'] [5], .varValue ['x'] [1, 2], .varValue ['x'] [2, 3]] : List Constraint).Perm
    [.varValue ['x'] [1, 2], .varValue ['y'] [5], .null, .varValue ['x'] [2, 3]] := by decide
/-- Merging a set that is not in normal form. -/
example : (mergeConstraints (R := listRuntime) ⟨[.varValue ['x'] [1, 2], .null, .varValue ['x'] [2, 3]], by decide⟩).map
    (listRuntime.iter ·) = .ok [.varValue ['x'] [2]] := by decide
/-- `combine_sets` of two normal, non-empty, well-formed sets that share a variable. -/
example : (combineSets (R := listRuntime) ⟨[.varValue ['x'] [1, 2]], by decide⟩
      ⟨[.varValue ['y'] [7], .varValue ['x'] [2]], by decide⟩).map (listRuntime.iter ·)
    = .ok [.varValue ['y'] [7], .varValue ['x'] [2]] := by decide
example : Normal (R := listRuntime) ⟨[.varValue ['y'] [7], .varValue ['x'] [2]], by decide⟩ := by
  show NormalForm _
  unfold NormalForm
  decide
example : (Constraint.varValue ['x'] [1, 2]).WF := ⟨by decide, by decide⟩
/-- A set that is not possible, combined with another one. -/
example : csPossible (R := listRuntime) ⟨[.impossible], by decide⟩ = false ∧
    (combineSets (R := listRuntime) ⟨[.varValue ['x'] [1]], by decide⟩ ⟨[.impossible], by decide⟩).map
      (listRuntime.iter ·) = .ok [.impossible] := by decide
/-- `complies` of a possible merged set. -/
example : csComplies (R := listRuntime) ⟨[.varValue ['y'] [7], .varValue ['x'] [2]], by decide⟩
    (fun n => if n = ['x'] then some 3 else none) = false := by decide

end PyDice
