import Verif.Lemmas.OneDie
import Verif.Props.C21
/-!
# C21, C26 What is reported for any straight-line program, and exactly when it is right
-/

namespace PyDice
open PyRuntime

section
variable [R : PyRuntime]

/-- C26, what is reported instead: after every straight-line program the reported probability of a value is its share of the weights
    in which the ways to a line's value count once for every use of the line. -/
theorem C26_reported (p : Program) (e : Expr) (hp : Straight p) (he : e.Straight) (s s' : State) (hs : Session p s)
    (d : Dist) (hd : e.dist s = (.ok d, s')) (hw : progWays p e ≠ []) :
    ∃ f, d.getDictForm = .ok f ∧ none ∉ progWays p e ∧ 0 < usedTotal p e ∧
      ∀ v, (dictGet? f v).getD 0 = (usedCount p e v : ℚ) / (usedTotal p e : ℚ) := reported_law p e hp he s s' hs d hd hw

/-- C26, exactly: the reported probabilities are those of rolling every line once and reusing it if and only if counting a line's ways
    for every use does not change the proportions. -/
theorem C26_exact (p : Program) (e : Expr) (hp : Straight p) (he : e.Straight) (s s' : State) (hs : Session p s)
    (d : Dist) (hd : e.dist s = (.ok d, s')) (hw : progWays p e ≠ []) :
    ∃ f, d.getDictForm = .ok f ∧
      ((∀ v, (dictGet? f v).getD 0 = ((progWays p e).count (some v) : ℚ) / ((progWays p e).length : ℚ)) ↔
        ∀ v, usedCount p e v * (progWays p e).length = (progWays p e).count (some v) * usedTotal p e) := by
  obtain ⟨f, h1, _, h2, h3⟩ := reported_law p e hp he s s' hs d hd hw
  refine ⟨f, h1, forall_congr' fun v => ?_⟩
  have n1 : (usedTotal p e : ℚ) ≠ 0 := by exact_mod_cast h2.ne'
  have n2 : ((progWays p e).length : ℚ) ≠ 0 := by
    have := List.length_pos_iff.mpr hw
    exact_mod_cast this.ne'
  rw [h3, div_eq_div_iff n1 n2]
  norm_cast

/-- C21 for all straight-line programs, exactly: when the distributions can be computed, `roll` of a new interpreter returns every `v`
    with the probability that the distribution of a new interpreter reports if and only if the numbers of ways are in proportion. -/
theorem C21_report_exact (parse : Str → Res Expr) (lines : List Str) (last : Str) (p : Program) (e : Expr) (hp : Straight p)
    (he : e.Straight) (hlp : ∀ l ∈ p, l.2.Loaded) (hle : e.Loaded)
    (hlines : lines.map parse = p.map (fun l => .ok (.assign l.1 l.2))) (hlast : parse last = .ok e)
    (dict : List (Str × Dist)) (s' : State) (h : interpDists parse (lines ++ [last]) State.new = (.ok dict, s')) :
    ∃ d f, dictGet? dict stdoutName = some d ∧ d.getDictForm = .ok f ∧
      ((∀ v, (interpRoll parse (lines ++ [last]) State.new).prob (fun r => decide (stdoutOf r = some v)) = (dictGet? f v).getD 0) ↔
        ∀ v, (progRolls (p.map (fun l => (some l.1, l.2)) ++ [(none, e)])).count (some v) * usedTotal p e =
          usedCount p e v * (progWays p e).length) := by
  have hw : progWays p e ≠ [] := program_ways hlp hle
  obtain ⟨d, s1, s2, h1, h2, h3, _⟩ := interpDists_last parse hlast h
  obtain ⟨tr, h4⟩ := (distLines_ok parse lines State.new s1).mp h1
  have hs : Session p s1 := by simpa using session_dists parse h4 Session.new hlines
  obtain ⟨f, k1, _, k2, k3⟩ := reported_law p e hp he s1 s2 hs d h2 hw
  refine ⟨d, f, h3, k1, forall_congr' fun v => ?_⟩
  have hlaw := C21_stdout_law parse (lines ++ [last]) (linesOf p e)
    (by
      unfold linesOf
      rw [List.map_append, List.map_append, hlines, List.map_map]
      simp [hlast, AnyLine.expr, Function.comp_def])
    (by
      intro l hl
      unfold linesOf at hl
      rcases List.mem_append.mp hl with h | h
      · obtain ⟨l', h1, rfl⟩ := List.mem_map.mp h
        exact ⟨(hp l' h1).2.noAssign, (hlp l' h1).made⟩
      · rw [List.mem_singleton.mp h]; exact ⟨he.noAssign, hle.made⟩)
    (by simp) (some v)
  have hlen : (progRolls (linesOf p e)).length = (progWays p e).length := by
    unfold progRolls; rw [List.length_map, runRolls_linesOf_length p e hlp hle]
  have n1 : (usedTotal p e : ℚ) ≠ 0 := by exact_mod_cast k2.ne'
  have n2 : ((progWays p e).length : ℚ) ≠ 0 := by
    have := List.length_pos_iff.mpr hw
    exact_mod_cast this.ne'
  rw [hlaw, k3, hlen, div_eq_div_iff n2 n1]
  norm_cast

/-- C26 with terms without dice: what is reported for a program is what is reported for the program with one die in their place. -/
theorem C26_no_dice (parse : Str → Res Expr) (lines : List Str) (hm : ∀ l ∈ lines, ∀ e, parse l = .ok e → e.Made) :
    interpDists parse lines = interpDists (fun l => (parse l).map Expr.oneDie) lines := oneDie_interp parse lines hm

/-- C26 for every program whose lines assign only at the outside and whose dice have faces: the reported probability of a value is its
    share of the weights of the program with one die in place of every term without dice. -/
theorem C26_reported_any (parse : Str → Res Expr) (lines : List Str) (last : Str) (p : Program) (e : Expr)
    (hp : ∀ l ∈ p, l.1 ≠ stdoutName ∧ l.2.Plain) (he : e.Plain)
    (hlines : lines.map parse = p.map (fun l => .ok (.assign l.1 l.2))) (hlast : parse last = .ok e)
    (dict : List (Str × Dist)) (s' : State) (h : interpDists parse (lines ++ [last]) State.new = (.ok dict, s'))
    (hw : progWays p.oneDie e.oneDie ≠ []) :
    ∃ d f, dictGet? dict stdoutName = some d ∧ d.getDictForm = .ok f ∧ none ∉ progWays p.oneDie e.oneDie ∧
      0 < usedTotal p.oneDie e.oneDie ∧
      ∀ v, (dictGet? f v).getD 0 = (usedCount p.oneDie e.oneDie v : ℚ) / (usedTotal p.oneDie e.oneDie : ℚ) := by
  have hm : ∀ l ∈ lines ++ [last], ∀ e, parse l = .ok e → e.Made := by
    intro l hl e' he'
    rcases List.mem_append.mp hl with h | h
    · have h1 : parse l ∈ lines.map parse := List.mem_map_of_mem h
      rw [hlines] at h1
      obtain ⟨l', h2, h3⟩ := List.mem_map.mp h1
      rw [he'] at h3
      cases h3
      exact (hp l' h2).2.made
    · rw [List.mem_singleton.mp h, hlast] at he'
      cases he'
      exact he.made
  rw [C26_no_dice parse _ hm] at h
  have hlast' : (fun l => (parse l).map Expr.oneDie) last = .ok e.oneDie := by simp only [hlast]; rfl
  have hlines' : lines.map (fun l => (parse l).map Expr.oneDie) = p.oneDie.map (fun l => .ok (.assign l.1 l.2)) := by
    have h1 : lines.map (fun l => (parse l).map Expr.oneDie) = (lines.map parse).map (fun r => r.map Expr.oneDie) := by
      rw [List.map_map]; rfl
    rw [h1, hlines]
    unfold Program.oneDie
    rw [List.map_map, List.map_map]
    rfl
  obtain ⟨d, s1, s2, h1, h2, h3, _⟩ := interpDists_last _ hlast' h
  obtain ⟨tr, h4⟩ := (distLines_ok _ lines State.new s1).mp h1
  have hs : Session p.oneDie s1 := by simpa using session_dists _ h4 Session.new hlines'
  obtain ⟨f, k1, k2, k3, k4⟩ := reported_law p.oneDie e.oneDie (oneDie_straight hp) he.oneDie s1 s2 hs d h2 hw
  exact ⟨d, f, h3, k1, k2, k3, k4⟩

end

/-! ### Examples -/

/-- `VAR a = 0d6`, `a + 0d4` meet the hypotheses and are counted as `VAR a = 1d6`, `a + 1d4`. -/
def progNoDice : Program := [(['a'], .dice ⟨"0d6".toList, ones (pyRange 1 7), 0⟩)]

def aPlusNoDice : Expr := .add (.getVar ['a']) (.dice ⟨"0d4".toList, ones (pyRange 1 5), 0⟩)

example : (∀ l ∈ progNoDice, l.1 ≠ stdoutName ∧ l.2.Plain) ∧ aPlusNoDice.Plain ∧
    usedTotal progNoDice.oneDie aPlusNoDice.oneDie = 24 ∧ usedCount progNoDice.oneDie aPlusNoDice.oneDie 7 = 4 := by
  refine ⟨?_, ⟨⟨trivial, trivial⟩, by decide, ⟨trivial, trivial⟩, ⟨trivial, fun h => by cases h⟩⟩, by decide +kernel, by decide +kernel⟩
  intro l hl
  rw [List.mem_singleton.mp hl]
  exact ⟨by decide, trivial, by decide, trivial, fun h => by cases h⟩

/-- `VAR a = 2d2`, `a + a`: the weights are 1, 4, 1 of 6 where the ways are 1, 2, 1 of 4. -/
example : [2, 4, 6, 8].map (usedCount prog2d2 aPlusA) = [0, 1, 4, 1] ∧ usedTotal prog2d2 aPlusA = 6 ∧
    [2, 4, 6, 8].map (fun v => (progWays prog2d2 aPlusA).count (some v)) = [0, 1, 2, 1] ∧
    (progWays prog2d2 aPlusA).length = 4 := by decide +kernel

/-- `VAR a = 2d2`, `MIN(a, a) * 0` is right although `a` is used twice. -/
example :
    usedCount prog2d2 (.mul (.minmax false (.getVar ['a']) (.getVar ['a'])) (.constInt ['0'])) 0 *
      (progWays prog2d2 (.mul (.minmax false (.getVar ['a']) (.getVar ['a'])) (.constInt ['0']))).length =
    (progWays prog2d2 (.mul (.minmax false (.getVar ['a']) (.getVar ['a'])) (.constInt ['0']))).count (some 0) *
      usedTotal prog2d2 (.mul (.minmax false (.getVar ['a']) (.getVar ['a'])) (.constInt ['0'])) ∧
    uses prog2d2 (.mul (.minmax false (.getVar ['a']) (.getVar ['a'])) (.constInt ['0'])) = [2] := by decide +kernel

/-- `prog2d2` and `aPlusA` meet the hypotheses. -/
example : Straight prog2d2 ∧ aPlusA.Straight ∧ progWays prog2d2 aPlusA ≠ [] := ⟨straight_prog2d2, straight_aPlusA, by decide +kernel⟩

end PyDice
