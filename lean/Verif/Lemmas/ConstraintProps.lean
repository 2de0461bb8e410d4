import Verif.Lemmas.ConstraintElems
/-!
# Helpers for C01 - C04
-/

namespace PyDice

open PyRuntime

section
variable [R : PyRuntime]

theorem loneOrDistinct_of_normal {s : CSet} (h : Normal s) : LoneOrDistinct (iter s) := by
  have lone : ∀ c, c ∈ iter s → (∀ d ∈ iter s, d = c) → iter s = [c] := by
    intro c hc hall
    have hnd := iter_nodup s
    cases hs : iter s with
    | nil => rw [hs] at hc; simp at hc
    | cons x t =>
      have hx := hall x (by rw [hs]; simp)
      cases t with
      | nil => rw [hx]
      | cons y t =>
        have hy := hall y (by rw [hs]; simp)
        rw [hs, hx, hy] at hnd; simp at hnd
  by_cases h1 : .null ∈ iter s
  · exact Or.inl (lone _ h1 (h.lone_null h1))
  · by_cases h2 : .impossible ∈ iter s
    · exact Or.inr (Or.inl (lone _ h2 (h.lone_impossible h2)))
    · right; right
      have hvar : ∀ c ∈ iter s, ∃ p : Str × List Int, c = .varValue p.1 p.2 := by
        intro c hc
        cases c with
        | null => exact absurd hc h1
        | impossible => exact absurd hc h2
        | varValue n vs => exact ⟨(n, vs), rfl⟩
      have hnd := iter_nodup s
      have huniq : ∀ n vs ws, .varValue n vs ∈ iter s → .varValue n ws ∈ iter s → vs = ws :=
        fun n vs ws a b => h.names_unique a b
      clear lone h h1 h2
      generalize iter s = l at hvar hnd huniq
      induction l with
      | nil => exact ⟨[], rfl, by simp⟩
      | cons c l ih =>
        obtain ⟨vs, h1, h2⟩ := ih (fun c hc => hvar c (by simp [hc])) (List.nodup_cons.mp hnd).2
          (fun n vs ws a b => huniq n vs ws (by simp [a]) (by simp [b]))
        obtain ⟨p, hp⟩ := hvar c (by simp)
        refine ⟨p :: vs, by simp [hp, h1], ?_⟩
        rw [List.map_cons, List.nodup_cons]
        refine ⟨?_, h2⟩
        intro hmem
        rw [List.mem_map] at hmem
        obtain ⟨q, hq, hqp⟩ := hmem
        have hqm : Constraint.varValue q.1 q.2 ∈ l := by rw [h1, List.mem_map]; exact ⟨q, hq, rfl⟩
        have : q.2 = p.2 := huniq p.1 _ _ (by rw [← hqp]; simp [hqm]) (by simp [hp])
        apply (List.nodup_cons.mp hnd).1
        rw [hp, ← hqp, ← this]; exact hqm

/-- More fuel never changes the outcome of the merging loop, so the fuel only stands for "the loop ends". -/
theorem mergeLoop_fuel (fuel : Nat) : ∀ (stack : List Constraint) (clean r : CSet) (more : Nat),
    mergeLoop fuel stack clean = .ok r → mergeLoop (fuel + more) stack clean = .ok r := by
  induction fuel with
  | zero =>
    intro stack clean r more h
    cases stack with
    | nil => simp [mergeLoop] at h ⊢; exact h
    | cons => simp [mergeLoop] at h
  | succ fuel ih =>
    intro stack clean r more h
    cases stack with
    | nil => simp [mergeLoop] at h ⊢; exact h
    | cons cur rest =>
      rw [show fuel + 1 + more = (fuel + more) + 1 by omega]
      rcases mergeOne_spec cur clean with ⟨hs, _⟩ | ⟨c, _, m, hs, _⟩
      · simp only [mergeLoop, hs] at h ⊢; exact ih _ _ _ _ h
      · simp only [mergeLoop, hs] at h ⊢; exact ih _ _ _ _ h

end

section
variable [R : PyRuntime]

theorem built_expected (cs : List Constraint) (r : CSet) (h : mkConstraintSet cs = .ok r) :
    ExpectedMerge cs (iter r) := by
  unfold mkConstraintSet at h
  split at h
  · simp at h
  · have := expected_addAll normal_empty h
    rwa [iter_empty, List.append_nil] at this

theorem combine_expected {s t r : CSet} (h : combineSets s t = .ok r) :
    ExpectedMerge (iter (union s (copy t))) (iter r) := built_expected _ _ h

end

end PyDice
