import Verif.Spec.State
import Verif.Lemmas.State
import Verif.Lemmas.Text
import Verif.Lemmas.Constraint
/-!
# Version names and the counters of the state
-/

namespace PyDice
open PyRuntime

theorem natStr_injective {k j : Nat} (h : natStr k = natStr j) : k = j := by
  have := natOf_natStr k
  rw [h, natOf_natStr] at this
  exact this.symm

theorem append_sep_inj {c : Char} : ∀ (a b u v : Str), (∀ x ∈ u, x ≠ c) → (∀ x ∈ v, x ≠ c) →
    a ++ c :: u = b ++ c :: v → a = b ∧ u = v := by
  intro a
  induction a with
  | nil =>
    intro b u v hu hv h
    cases b with
    | nil => simpa using h
    | cons y b =>
      simp only [List.nil_append, List.cons_append, List.cons.injEq] at h
      exact absurd rfl (hu c (by rw [h.2]; simp))
  | cons x a ih =>
    intro b u v hu hv h
    cases b with
    | nil =>
      simp only [List.nil_append, List.cons_append, List.cons.injEq] at h
      exact absurd rfl (hv c (by rw [← h.2]; simp))
    | cons y b =>
      simp only [List.cons_append, List.cons.injEq] at h
      obtain ⟨h1, h2⟩ := ih b u v hu hv h.2
      exact ⟨by rw [h.1, h1], h2⟩

theorem versionName_injective {n m : Str} {k j : Nat} (h : versionName n k = versionName m j) : n = m ∧ k = j := by
  have hd : ∀ i : Nat, ∀ x ∈ natStr i, x ≠ '_' := by
    intro i x hx he
    have := natStr_digits i x hx
    rw [he] at this
    exact absurd this (by decide)
  obtain ⟨h1, h2⟩ := append_sep_inj n m (natStr k) (natStr j) (hd k) (hd j) h
  exact ⟨h1, natStr_injective h2⟩

section
variable [R : PyRuntime]

/-- The counter of a name. -/
def State.times (s : State) (n : Str) : Nat := (dictGet? s.timesSet n).getD 0

omit R in
theorem times_bump (t : List (Str × Nat)) (x n : Str) :
    (dictGet? (bump t x) n).getD 0 = (dictGet? t n).getD 0 + if x = n then 1 else 0 := by
  unfold bump
  rw [get_safeAdd]
  by_cases h : x = n
  · subst h; simp
  · simp [h]

theorem times_setConstant (s : State) (x : Str) (v : Int) (n : Str) :
    (s.setConstant x v).times n = s.times n + if x = n then 1 else 0 := times_bump _ _ _

theorem tagOutcome_ok (name : Str) (o : Outcome) : ∃ cs, tagOutcome name o = .ok ⟨o.value, cs⟩ ∧
    addConstraint (deepcopy o.cs) (.varValue name [o.value]) = .ok cs ∧
    MergedInto [.varValue name [o.value]] (deepcopy o.cs) cs := by
  obtain ⟨cs, h, hm⟩ := addConstraint_spec (deepcopy o.cs) (.varValue name [o.value])
  exact ⟨cs, by unfold tagOutcome; rw [h]; rfl, h, hm⟩

theorem tagLoop_ok (name : Str) : ∀ (m acc : List (Outcome × Nat)), ∃ r, tagLoop name m acc = .ok r := by
  intro m
  induction m with
  | nil => intro acc; exact ⟨acc, rfl⟩
  | cons p m ih =>
    intro acc
    obtain ⟨cs, h, _⟩ := tagOutcome_ok name p.1
    obtain ⟨r, hr⟩ := ih (dictSet acc ⟨p.1.value, cs⟩ p.2)
    exact ⟨r, by unfold tagLoop; simp only [h]; exact hr⟩

/-- The distribution stored by `set_var`. -/
noncomputable def tagged (name : Str) (d : Dist) : Dist := mkDist (tagLoop_ok name d.getConstraintResultMap []).choose

theorem setVar_eq (s : State) (x : Str) (d : Dist) : s.setVar x d =
    (.ok (), { var := dictSet s.var x (tagged (versionName x (s.times x + 1)) d), constants := s.constants,
               timesSet := bump s.timesSet x }) := by
  unfold State.setVar
  have ht : (dictGet? (bump s.timesSet x) x).getD 0 = s.times x + 1 := by rw [times_bump]; simp [State.times]
  simp only [ht]
  have h := (tagLoop_ok (versionName x (s.times x + 1)) d.getConstraintResultMap []).choose_spec
  rw [h]
  rfl

theorem times_setVar (s : State) (x : Str) (d : Dist) (n : Str) :
    (s.setVar x d).2.times n = s.times n + if x = n then 1 else 0 := by
  rw [setVar_eq]; exact times_bump _ _ _

end

end PyDice
