import Verif.Lemmas.SeparateCalls
import Verif.Lemmas.Reach
import Verif.Parser
/-!
# C55: lines that have nothing to do with each other
-/

namespace PyDice
open PyRuntime

section
variable [R : PyRuntime] (parse : Str → Res Expr)

/-- What a session answers depends only on the names it mentions: started from two states that differ only under names no line mentions,
    the same draws lead to answers that say the same about all other names, in every method. -/
theorem C55_session (X : Set Str) (calls : List Call) (s t : State) (hs : Reachable parse s) (ht : Reachable parse t) (hst : AgreeOff X s t)
    (hcalls : ∀ c ∈ calls, Unaware parse X c.lines)
    (hfig : (∃ c ∈ calls, c.AsksFigures) → HasFigures X s ∧ HasFigures X t) :
    Rand.Same (List.Forall₂ (Answer.Alike (X \ {stdoutName}))) (sessionFrom parse calls s) (sessionFrom parse calls t) :=
  session_alike (b := ∃ c ∈ calls, c.AsksFigures) (fun c hc h => ⟨c, hc, h⟩) hcalls hst
    ⟨clean_reachable parse hs, fun h => (hfig h).1⟩ ⟨clean_reachable parse ht, fun h => (hfig h).2⟩

/-- A line that is not used afterwards can be left out: if it does not raise and no later line of the session mentions what it assigns
    (or reads `stdout`), then with it and without it the answers say the same about all other names, in every method (rolls: with the
    same probabilities), but for the estimated cost, which counts it.  There must be a line after it in the same call, because the
    result of a call's last line is part of the answer.  When averages or probabilities are asked for, those of the variables it assigns
    must exist, see the counterexample below. -/
theorem C55_dead_line (c : Call) (hc : ¬ c.IsCost) (pre post : List Str) (l : Str) (cs : List Call) (hpost : post ≠ [])
    (hdead : Unaware parse (touches parse l) post) (hcs : ∀ c ∈ cs, Unaware parse (touches parse l) c.lines)
    (s : State) (hs : Reachable parse s)
    (hruns : ∀ x, Rand.Possible x (runCall parse (c.withLines (pre ++ [l])) s) → x.1.Fine)
    (hfig : (∃ c' ∈ c :: cs, c'.AsksFigures) → ∀ x, (Rand.Possible x (runCall parse (c.withLines pre) s) ∨
      Rand.Possible x (runCall parse (c.withLines (pre ++ [l])) s)) → HasFigures (touches parse l) x.2)
    (f : List Answer → ℚ) (hf : ∀ as bs, List.Forall₂ (Answer.Alike (touches parse l \ {stdoutName})) as bs → f as = f bs) :
    (sessionFrom parse (c.withLines (pre ++ l :: post) :: cs) s).expect f =
      (sessionFrom parse (c.withLines (pre ++ post) :: cs) s).expect f :=
  session_dead hc hpost subset_rfl hdead hcs (clean_reachable parse hs) (b := ∃ c' ∈ c :: cs, c'.AsksFigures) (fun c' hc' h => ⟨c', hc', h⟩)
    (fun hb x hx => hfig hb x (Or.inl hx)) (fun x hx => ⟨hruns x hx, fun hb => hfig hb x (Or.inr hx)⟩) hf

/-- Two neighbouring lines can change places: if neither mentions what the other assigns, neither reads `stdout`, they do not raise, and no
    later line of the session reads `stdout`, then the answers of the session say the same about all names (rolls: with the same
    probabilities), but for the estimated cost.  Only the order of the keys in the returned dicts may differ. -/
theorem C55_swap (c : Call) (hc : ¬ c.IsCost) (pre post : List Str) (l₁ l₂ : Str) (cs : List Call) (hpost : post ≠ [])
    (h₁ : Unaware parse (touches parse l₂) [l₁]) (h₂ : Unaware parse (touches parse l₁) [l₂])
    (hp : Unaware parse {stdoutName} post) (hcs : ∀ c ∈ cs, Unaware parse {stdoutName} c.lines) (s : State) (hs : Reachable parse s)
    (hruns : ∀ x, Rand.Possible x (runCall parse (c.withLines (pre ++ [l₁, l₂])) s) → x.1.Fine)
    (f : List Answer → ℚ) (hf : ∀ as bs, List.Forall₂ (Answer.Alike ∅) as bs → f as = f bs) :
    (sessionFrom parse (c.withLines (pre ++ l₁ :: l₂ :: post) :: cs) s).expect f =
      (sessionFrom parse (c.withLines (pre ++ l₂ :: l₁ :: post) :: cs) s).expect f := by
  refine session_swap hc hpost subset_rfl subset_rfl h₁ h₂ (Y := {stdoutName}) ?_ subset_rfl hp hcs (clean_reachable parse hs) hruns hf
  rintro n ⟨hn1, hn2⟩
  rcases hn1 with rfl | ⟨e, he, hn⟩
  · rfl
  · exact absurd hn2 (h₁ l₁ (by simp) e he n (by simp [Expr.names, hn]))

/-- Two programs can share one interpreter: when the calls of one (the marked ones) and the calls of the other are interleaved in any way,
    and the marked lines neither mention what the others assign nor read `stdout`, then the marked calls are answered as if the others had
    not been made (rolls: with the same probabilities), whatever the other calls ask for and whether they raise or not.  Averages and
    probabilities are left out: they are those of all variables, see the counterexample below. -/
theorem C55_isolation (X : Set Str) (calls : List (Bool × Call))
    (hmine : ∀ p ∈ calls, p.1 = true → ¬ p.2.AsksFigures ∧ Unaware parse X p.2.lines)
    (hother : ∀ p ∈ calls, p.1 = false → ∀ l ∈ p.2.lines, touches parse l ⊆ X)
    (s : State) (hs : Reachable parse s) (f : List Answer → ℚ)
    (hf : ∀ as bs, List.Forall₂ (Answer.Alike (X \ {stdoutName})) as bs → f as = f bs) :
    (sessionFrom parse (calls.map Prod.snd) s).expect (fun as => f (marked (calls.map Prod.fst) as)) =
      (sessionFrom parse ((calls.filter Prod.fst).map Prod.snd) s).expect f :=
  session_isolated hmine hother (clean_reachable parse hs) (clean_reachable parse hs) (agreeOff_refl X s) hf

end

/-! ### Examples -/

theorem unaware_list {parse : Str → Res Expr} {L : List Str} {lines : List Str}
    (h : lines.all (fun l => match parse l with | .ok e => e.names.all fun n => !L.contains n | .error _ => true) = true) :
    Unaware parse {n | n ∈ L} lines := by
  intro l hl e he n hn hL
  have h1 := List.all_eq_true.mp h l hl
  rw [he] at h1
  have h2 := List.all_eq_true.mp h1 n hn
  simp only [Bool.not_eq_true', List.contains_eq_mem, decide_eq_false_iff_not] at h2
  exact h2 hL

theorem touches_list {parse : Str → Res Expr} {l : Str} {e : Expr} (he : parse l = .ok e) : touches parse l = {n | n ∈ stdoutName :: e.assigned} := by
  ext n
  show (n = stdoutName ∨ ∃ e', parse l = .ok e' ∧ n ∈ e'.assigned) ↔ n ∈ stdoutName :: e.assigned
  rw [List.mem_cons, he]
  constructor
  · rintro (h | ⟨e', h1, h2⟩)
    · exact Or.inl h
    · cases h1; exact Or.inr h2
  · rintro (h | h)
    · exact Or.inl h
    · exact Or.inr ⟨e, rfl, h⟩

section
attribute [local instance] listRuntime

/-- The lines `VAR y = 3` and `VAR x = d2` and `x + 1`. -/
def lineY : Str := "VAR y = 3".toList
@[inherit_doc lineY] def lineX : Str := "VAR x = d2".toList
@[inherit_doc lineY] def lineUse : Str := "x + 1".toList

theorem parse_lineY : parse lineY = .ok (.assign ['y'] (.constInt ['3'])) := by decide +kernel
theorem parse_lineX : parse lineX = .ok (.assign ['x'] (.dice ⟨"d2".toList, ones [1, 2], 1⟩)) := by decide +kernel

/-- The hypotheses of `C55_dead_line` and of `C55_swap` hold for these lines, and the answers are those one expects. -/
example : Unaware parse (touches parse lineY) [lineX, lineUse] ∧ Unaware parse (touches parse lineX) [lineY] ∧
    Unaware parse (touches parse lineY) [lineX] ∧ Unaware parse {stdoutName} [lineUse] := by
  rw [touches_list parse_lineY, touches_list parse_lineX, show ({stdoutName} : Set Str) = {n | n ∈ [stdoutName]} by ext n; simp]
  exact ⟨unaware_list (by decide +kernel), unaware_list (by decide +kernel), unaware_list (by decide +kernel), unaware_list (by decide +kernel)⟩

example : (session parse [.extreme true [lineY, lineX, lineUse]]).expect (fun as => if as.length = 1 then 1 else 0) = 1 ∧
    ((interpExtreme parse true [lineY, lineX, lineUse] State.new).1 = .ok [(['y'], 3), (stdoutName, 3), (['x'], 2)]) ∧
    ((interpExtreme parse true [lineX, lineY, lineUse] State.new).1 = .ok [(['x'], 2), (stdoutName, 3), (['y'], 3)]) ∧
    ((interpExtreme parse true [lineX, lineUse] State.new).1 = .ok [(['x'], 2), (stdoutName, 3)]) := by
  decide +kernel

/-- Neither line raises, rolled or looked at. -/
example : (∃ a, (interpDists parse [lineY, lineX] State.new).1 = .ok a) ∧
    (interpRoll parse [lineY, lineX] State.new).expect (fun x => match x.1 with | .ok _ => 1 | .error _ => 0) = 1 :=
  ⟨by rcases h : (interpDists parse [lineY, lineX] State.new).1 with e | a
      · exact absurd (show (interpDists parse [lineY, lineX] State.new).1.toOption.isSome = true by decide +kernel) (by rw [h]; exact Bool.false_ne_true)
      · exact ⟨a, rfl⟩, by decide +kernel⟩

/-- Two programs that share an interpreter as in `C55_isolation`. -/
def sharedCalls : List (Bool × Call) :=
  [(true, .roll [lineX]), (false, .averages [lineY, "z".toList]), (true, .dists [lineX, lineUse]), (false, .extreme false [lineY])]

example : (∀ p ∈ sharedCalls, p.1 = true → ¬ p.2.AsksFigures ∧ Unaware parse {n | n ∈ [stdoutName, ['y']]} p.2.lines) ∧
    (∀ p ∈ sharedCalls, p.1 = false → ∀ l ∈ p.2.lines, touches parse l ⊆ {n | n ∈ [stdoutName, ['y']]}) := by
  have hz : parse "z".toList = .ok (.getVar ['z']) := by decide +kernel
  constructor
  · intro p hp h
    simp only [sharedCalls, List.mem_cons, List.not_mem_nil, or_false] at hp
    rcases hp with rfl | rfl | rfl | rfl
    · exact ⟨id, unaware_list (by decide +kernel)⟩
    · cases h
    · exact ⟨id, unaware_list (by decide +kernel)⟩
    · cases h
  · intro p hp h l hl
    simp only [sharedCalls, List.mem_cons, List.not_mem_nil, or_false] at hp
    rcases hp with rfl | rfl | rfl | rfl
    · cases h
    · rcases List.mem_cons.mp hl with rfl | hl
      · rw [touches_list parse_lineY]; exact subset_rfl
      · rw [List.mem_singleton.mp hl, touches_list hz]
        intro n hn
        exact List.mem_cons.mpr (Or.inl (List.mem_singleton.mp hn))
    · cases h
    · rw [List.mem_singleton.mp hl, touches_list parse_lineY]; exact subset_rfl

end

/-- Averages and probabilities are asked of all variables the interpreter has: after another program's harmless `VAR y = d0` the call
    `get_average(["d2"])` raises ZeroDivisionError, though nothing in it mentions `y`. -/
theorem C55_figures_counterexample : ∃ (_ : PyRuntime) (l post : Str), parse l = .ok (.assign ['y'] (.dice ⟨"d0".toList, [], 1⟩)) ∧
    Unaware parse (touches parse l) [post] ∧
    (interpDists parse [l, post] State.new).1.toOption.isSome = true ∧
    (interpAveragesF parse [post] State.new).1.toOption.isSome = true ∧
    (interpAveragesF parse [l, post] State.new).1.toOption = none ∧
    (interpAveragesF parse [post] (interpDists parse [l] State.new).2).1.toOption = none := by
  refine ⟨listRuntime, "VAR y = d0".toList, "d2".toList, by decide +kernel, ?_, by decide +kernel, by decide +kernel, by decide +kernel, by decide +kernel⟩
  rw [touches_list (show parse "VAR y = d0".toList = .ok (.assign ['y'] (.dice ⟨"d0".toList, [], 1⟩)) by decide +kernel)]
  exact unaware_list (by decide +kernel)

end PyDice
