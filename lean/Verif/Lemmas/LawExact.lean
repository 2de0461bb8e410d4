import Verif.Lemmas.Law
import Verif.Spec.Uses
/-!
# The reported probabilities of any straight-line program
-/

namespace PyDice
open PyRuntime

theorem powRuns_runs : ∀ (p : Program) (us : List Nat) (env : Env), us.length = p.length → ∀ r ∈ powRuns p us env, r.1 ∈ runs p env := by
  intro p
  induction p with
  | nil => intro us env _ r hr; cases us <;> simpa [powRuns, runs] using congrArg Prod.fst (List.mem_singleton.mp (by simpa [powRuns] using hr))
  | cons l p ih =>
    obtain ⟨x, e⟩ := l
    intro us env hlen r hr
    cases us with
    | nil => simp at hlen
    | cons u us =>
      simp only [powRuns, List.mem_flatMap, List.mem_map] at hr
      obtain ⟨v, hv, r', hr', rfl⟩ := hr
      simp only [runs, List.mem_flatMap]
      exact ⟨v, List.mem_dedup.mp hv, ih us _ (by simpa using hlen) r' hr'⟩

section
variable [R : PyRuntime]

theorem powRuns_pos {h : List Line} (hg : Good h) : ∀ us : List Nat, us.length = h.length → ∀ env ∈ envWays (programOf h) Env.empty,
    ∃ r ∈ powRuns (programOf h) us.reverse Env.empty, r.1 = env ∧ 0 < r.2 := by
  induction hg with
  | nil =>
    intro us hlen env henv
    cases us with
    | nil => refine ⟨(Env.empty, 1), by simp [programOf, powRuns], ?_, by simp⟩; simpa [programOf, envWays, eq_comm] using henv
    | cons => simp at hlen
  | @cons l h s s' hg hfresh hx he hs hd ih =>
    intro us hlen env henv
    cases us with
    | nil => simp at hlen
    | cons u us =>
      have hlen' : us.length = h.length := by simpa using hlen
      simp only [programOf, envWays_append, envWays, List.mem_flatMap, List.mem_singleton] at henv
      obtain ⟨env1, h1, o, ho, rfl⟩ := henv
      obtain ⟨r, hr, rfl, hpos⟩ := ih us hlen' env1 h1
      obtain ⟨ω, hω, hωe⟩ := envWays_runs hg _ h1
      rw [← hωe] at ho
      obtain ⟨v, hv, rfl⟩ := (expr_run hg hs he hd hω).2.2 o ho
      rw [hωe] at hv ho
      simp only [programOf, List.reverse_cons]
      rw [powRuns_append _ _ _ _ _ _ (by rw [length_programOf, List.length_reverse, hlen'])]
      refine ⟨(r.1.set l.x (some v), r.2 * (ways l.e r.1).count (some v) ^ u), List.mem_flatMap.mpr ⟨r, hr, List.mem_map.mpr
        ⟨v, List.mem_dedup.mpr hv, rfl⟩⟩, rfl, Nat.mul_pos hpos (Nat.pow_pos (List.count_pos_iff.mpr ho))⟩

/-- What is reported for any expression after any lines. -/
theorem reported_lines {g : List Line} (hg : Good g) {e : Expr} (he : e.Straight) {s s' : State} (hm : Matches g s) {d : Dist}
    (hd : e.dist s = (.ok d, s')) (hw : progWays (programOf g) e ≠ []) :
    ∃ f, d.getDictForm = .ok f ∧ none ∉ progWays (programOf g) e ∧ 0 < usedTotal (programOf g) e ∧
      ∀ v, (dictGet? f v).getD 0 = (usedCount (programOf g) e v : ℚ) / (usedTotal (programOf g) e : ℚ) := by
  have hno : none ∉ progWays (programOf g) e := by
    intro ho
    obtain ⟨env, h1, h2⟩ := List.mem_flatMap.mp ho
    obtain ⟨ω, h3, rfl⟩ := envWays_runs hg env h1
    obtain ⟨v, h4, h5⟩ := (expr_run hg hm he hd h3).2.2 _ h2
    cases h5
  have hcons : d.Constructed := (expr_tidy hg hm he hd).constructed
  have hus : ((uses (programOf g) e).map fun u => if u = 0 then 1 else u).length = (programOf g).length := by
    unfold uses; rw [List.length_map, List.length_reverse, length_usesRev, List.length_reverse]
  have htot : unusedWays (programOf g) e * d.outcomeCount = usedTotal (programOf g) e := by
    rw [← E_one d hcons, exact_total hg hm he hd]
    unfold usedTotal usedRuns
    congr 1
    apply List.map_congr_left
    intro r hr
    have h1 := powRuns_runs _ _ _ hus r hr
    obtain ⟨ω, h2, h3⟩ := (mem_runs hg _).mp h1
    rw [waySum_length]
    intro hnone
    rw [← h3] at hnone
    obtain ⟨v, _, h5⟩ := (expr_run hg hm he hd h2).2.2 _ hnone
    cases h5
  have hcnt : ∀ v, unusedWays (programOf g) e * countOf d.getResultMap v = usedCount (programOf g) e v := by
    intro v
    rw [countOf_getResultMap, exact_total hg hm he hd]
    simp only [waySum_count]
    rfl
  have hpos : 0 < usedTotal (programOf g) e := by
    obtain ⟨o, ho⟩ := List.exists_mem_of_ne_nil _ hw
    obtain ⟨env, h1, h2⟩ := List.mem_flatMap.mp ho
    obtain ⟨r, hr, rfl, h3⟩ := powRuns_pos hg ((uses (programOf g) e).map fun u => if u = 0 then 1 else u).reverse
      (by rw [List.length_reverse, hus, length_programOf]) env h1
    rw [List.reverse_reverse] at hr
    have hle : r.2 * (ways e r.1).length ≤ usedTotal (programOf g) e := by
      unfold usedTotal
      exact List.single_le_sum (by simp) _ (List.mem_map.mpr ⟨r, hr, rfl⟩)
    exact lt_of_lt_of_le (Nat.mul_pos h3 (List.length_pos_of_mem h2)) hle
  have hU : unusedWays (programOf g) e ≠ 0 := by
    intro h0; rw [h0, Nat.zero_mul] at htot; omega
  have hN : d.outcomeCount ≠ 0 := by
    intro h0; rw [h0, Nat.mul_zero] at htot; omega
  refine ⟨_, getDictForm_eq d hN, hno, hpos, fun v => ?_⟩
  rw [dictGet_dictForm, ← htot, ← hcnt v]
  push_cast
  rw [mul_div_mul_left _ _ (by exact_mod_cast hU)]

/-- What is reported for any expression after any straight-line program. -/
theorem reported_law (p : Program) (e : Expr) (hp : Straight p) (he : e.Straight) (s s' : State) (hs : Session p s)
    (d : Dist) (hd : e.dist s = (.ok d, s')) (hw : progWays p e ≠ []) :
    ∃ f, d.getDictForm = .ok f ∧ none ∉ progWays p e ∧ 0 < usedTotal p e ∧
      ∀ v, (dictGet? f v).getD 0 = (usedCount p e v : ℚ) / (usedTotal p e : ℚ) := by
  obtain ⟨g, hg, rfl, hm, _⟩ := session_lines hs hp
  exact reported_lines hg he hm hd hw

end

end PyDice
