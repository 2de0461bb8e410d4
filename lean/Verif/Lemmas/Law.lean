import Verif.Lemmas.Gentle
import Verif.Lemmas.Runs
/-!
# The exact weights, and programs run by the interpreter
-/

namespace PyDice
open PyRuntime

theorem powRuns_append (x : Str) (e : Expr) (u : Nat) : ∀ (p : Program) (us : List Nat) (env : Env), us.length = p.length →
    powRuns (p ++ [(x, e)]) (us ++ [u]) env = (powRuns p us env).flatMap fun r => (vals e r.1).dedup.map fun v =>
      (r.1.set x (some v), r.2 * (ways e r.1).count (some v) ^ u) := by
  intro p
  induction p with
  | nil =>
    intro us env h
    cases us with
    | nil => simp only [List.nil_append, powRuns, List.map_cons, List.map_nil, List.flatMap_cons, List.flatMap_nil, List.append_nil,
        mul_one, one_mul]; rw [← List.map_eq_flatMap]
    | cons => simp at h
  | cons l p ih =>
    intro us env h
    obtain ⟨y, d⟩ := l
    cases us with
    | nil => simp at h
    | cons w us =>
      have h' : us.length = p.length := by simpa using h
      simp only [List.cons_append, powRuns, ih us _ h', List.flatMap_assoc, List.map_flatMap, List.flatMap_map, List.map_map]
      simp only [Function.comp_def, mul_assoc]

section
variable [R : PyRuntime]

/-- The product of the lines' ways with exponents, latest line first. -/
def powW : List Line → List Nat → (Str → Int) → Nat
  | l :: h, u :: us, ω => lineW h l ω ^ u * powW h us ω
  | _, _, _ => 1

theorem powW_tags {h : List Line} : ∀ {us : List Nat} {ω ω' : Str → Int}, (∀ l ∈ h, ω l.tag = ω' l.tag) → powW h us ω = powW h us ω' := by
  induction h with
  | nil => intro us _ _ _; cases us <;> rfl
  | cons l h ih =>
    intro us ω ω' hω
    have h' : ∀ l ∈ h, ω l.tag = ω' l.tag := fun l' hl' => hω l' (by simp [hl'])
    cases us with
    | nil => rfl
    | cons u us => simp only [powW, ih h', lineW_tags h' (hω l (by simp))]

theorem length_programOf (h : List Line) : (programOf h).length = h.length := by
  induction h with
  | nil => rfl
  | cons l h ih => simp [programOf, ih]

/-- Weighted sums over the runs with distinct values. -/
theorem sum_powRuns {h : List Line} (hg : Good h) : ∀ (us : List Nat), us.length = h.length → ∀ G : Env → Nat,
    ((powRuns (programOf h) us.reverse Env.empty).map fun r => r.2 * G r.1).sum =
      ((worlds h).map fun ω => powW h us ω * G (envOf h ω)).sum := by
  induction hg with
  | nil =>
    intro us h G
    cases us with
    | nil => simp [programOf, powRuns, worlds, powW, envOf]
    | cons => simp at h
  | @cons l h s s' hg hfresh hx he hs hd ih =>
    intro us hlen G
    cases us with
    | nil => simp at hlen
    | cons u us =>
      have hlen' : us.length = h.length := by simpa using hlen
      rw [sum_worlds]
      simp only [programOf, List.reverse_cons]
      rw [powRuns_append _ _ _ _ _ _ (by rw [length_programOf, List.length_reverse, hlen'])]
      have e1 : ∀ rs : List (Env × Nat), ((rs.flatMap fun r => (vals l.e r.1).dedup.map fun v =>
          (r.1.set l.x (some v), r.2 * (ways l.e r.1).count (some v) ^ u)).map fun r => r.2 * G r.1).sum =
          (rs.map fun r => r.2 * ((vals l.e r.1).dedup.map fun v =>
            (ways l.e r.1).count (some v) ^ u * G (r.1.set l.x (some v))).sum).sum := by
        intro rs
        induction rs with
        | nil => rfl
        | cons r rs ihr =>
          simp only [List.flatMap_cons, List.map_append, List.sum_append, List.map_cons, List.sum_cons, ihr, List.map_map]
          congr 1
          rw [← List.sum_map_mul_left]
          congr 1
          apply List.map_congr_left
          intro v _
          simp only [Function.comp_def]
          ring
      rw [e1, ih us hlen' (fun env => ((vals l.e env).dedup.map fun v =>
            (ways l.e env).count (some v) ^ u * G (env.set l.x (some v))).sum)]
      congr 1
      apply List.map_congr_left
      intro ω hω
      rw [← List.sum_map_mul_left]
      congr 1
      apply List.map_congr_left
      intro v _
      have hag := updAt_tags hfresh ω v
      simp only [powW, envOf]
      rw [lineW_upd hfresh, ← powW_tags hag, ← envOf_tags hag]
      simp only [updAt, if_true]
      ring

theorem length_usesOf (h : List Line) (reads : List Str) : (usesRev (programOf h).reverse reads).length = h.length := by
  rw [length_usesRev, List.length_reverse, length_programOf]

theorem usesRev_cons' (l : Line) (h : List Line) (reads : List Str) :
    usesRev (programOf (l :: h)).reverse reads = reads.count l.x :: usesRev (programOf h).reverse (before l reads) := by
  simp [programOf, usesRev, before]

theorem free_used_pow (ω : Str → Int) : ∀ (h : List Line) (reads : List Str),
    freeW h reads ω * usedW h reads ω = powW h ((usesRev (programOf h).reverse reads).map fun u => if u = 0 then 1 else u) ω := by
  intro h
  induction h with
  | nil => intro reads; simp [freeW, usedW, programOf, usesRev, powW]
  | cons l h ih =>
    intro reads
    rw [usesRev_cons', List.map_cons]
    simp only [powW, ← ih, freeW, usedW]
    by_cases hm : l.x ∈ reads
    · have := (List.count_pos_iff.mpr hm).ne'
      rw [if_pos hm, if_neg this]; ring
    · have := List.count_eq_zero_of_not_mem hm
      rw [if_neg hm, if_pos this, this]; ring

theorem freeT_unused (e : Expr) (h : List Line) : freeT h e.reads = unusedWays (programOf h) e := by
  unfold unusedWays uses
  have : ∀ (h : List Line) (reads : List Str), freeT h reads =
      (((programOf h).zip (usesRev (programOf h).reverse reads).reverse).map fun l =>
        if l.2 = 0 then (ways l.1.2 Env.empty).length else 1).prod := by
    intro h
    induction h with
    | nil => intro reads; simp [freeT, programOf]
    | cons l h ih =>
      intro reads
      rw [usesRev_cons]
      simp only [freeT, programOf]
      rw [List.zip_append (by rw [List.length_reverse, length_usesOf, length_programOf]), List.map_append, List.prod_append, ← ih]
      simp only [List.zip_cons_cons, List.zip_nil_left, List.map_cons, List.map_nil, List.prod_cons, List.prod_nil, mul_one]
      rw [mul_comm]
      congr 1
      by_cases hm : l.x ∈ reads
      · have := (List.count_pos_iff.mpr hm).ne'
        rw [if_pos hm, if_neg this]
      · have := List.count_eq_zero_of_not_mem hm
        rw [if_neg hm, if_pos this]
  exact this h e.reads

/-- The counts of any expression after any straight-line program. -/
theorem exact_total {h : List Line} (hg : Good h) {s s' : State} (hs : Matches h s) {e : Expr} (he : e.Straight) {d : Dist}
    (hd : e.dist s = (.ok d, s')) (f : Int → Nat) : unusedWays (programOf h) e * d.E f =
    ((powRuns (programOf h) ((uses (programOf h) e).map fun u => if u = 0 then 1 else u) Env.empty).map fun r =>
      r.2 * waySum (ways e r.1) f).sum := by
  rw [← freeT_unused, expr_total hg hs he hd]
  have : (uses (programOf h) e).map (fun u => if u = 0 then 1 else u) =
      ((usesRev (programOf h).reverse e.reads).map fun u => if u = 0 then 1 else u).reverse := by
    unfold uses; rw [List.map_reverse]
  rw [this, sum_powRuns hg _ (by rw [List.length_map, length_usesOf]) (fun env => waySum (ways e env) f)]
  congr 1
  apply List.map_congr_left
  intro ω _
  rw [← mul_assoc, free_used_pow]

/-- What an evaluation gives, from what it computes. -/
theorem evalOk {α β : Type} {x : Res α × State} (f : α → β) {y : β} (h : x.1.toOption.map f = some y) :
    ∃ a, x = (.ok a, x.2) ∧ f a = y := by
  rcases x with ⟨r, s⟩
  cases r with
  | ok a => exact ⟨a, rfl, by simpa [Except.toOption] using h⟩
  | error e => simp [Except.toOption] at h

/-! ### Programs run by the interpreter -/

variable (parse : Str → Res Expr)

theorem session_dists {lines : List Str} {tr : List (Expr × Dist)} {s s' : State} (h : DistRun parse s lines tr s') :
    ∀ {p q : Program}, Session p s → lines.map parse = q.map (fun l => .ok (.assign l.1 l.2)) → Session (p ++ q) s' := by
  induction h with
  | nil s =>
    intro p q hs hq
    have : q = [] := by simpa using hq.symm
    subst this
    simpa using hs
  | @cons s s1 s2 l ls e d tr hp hd h ih =>
    intro p q hs hq
    cases q with
    | nil => simp at hq
    | cons k q =>
      obtain ⟨x, e'⟩ := k
      simp only [List.map_cons, List.cons.injEq] at hq
      rw [hp] at hq
      obtain ⟨h1, h2⟩ := hq
      cases h1
      have h3 : Session (p ++ [(x, e')]) { s1 with var := dictSet s1.var stdoutName d } := by
        refine Session.other (Session.dist hs hd) ?_ (fun _ => le_refl _)
        intro n hn
        show dictGet? (dictSet s1.var stdoutName d) n = _
        rw [get_set, if_neg]
        simpa [eq_comm] using hn
      have := ih h3 h2
      simpa using this

theorem session_extremes {isMax : Bool} {lines : List Str} {tr : List (Expr × Int)} {s s' : State}
    (h : LinesRun parse (extremeStep isMax) s lines tr s') : ∀ {p q : Program}, ExtremeSession isMax p s →
    lines.map parse = q.map (fun l => .ok (.assign l.1 l.2)) → ExtremeSession isMax (p ++ q) s' := by
  induction h with
  | nil s =>
    intro p q hs hq
    have : q = [] := by simpa using hq.symm
    subst this
    simpa using hs
  | @cons s s1 s2 l ls e v tr hp hd h ih =>
    intro p q hs hq
    cases q with
    | nil => simp at hq
    | cons k q =>
      obtain ⟨x, e'⟩ := k
      simp only [List.map_cons, List.cons.injEq] at hq
      rw [hp] at hq
      obtain ⟨h1, h2⟩ := hq
      cases h1
      have h3 : ExtremeSession isMax (p ++ [(x, e')]) (s1.setStdout v) := by
        refine ExtremeSession.other (ExtremeSession.step hs hd) (fun _ _ => rfl) ?_ (fun _ => le_refl _)
        intro n hn
        show dictGet? (dictSet s1.constants stdoutName v) n = _
        rw [get_set, if_neg]
        simpa [eq_comm] using hn
      have := ih h3 h2
      simpa using this

theorem interpDists_last {lines : List Str} {last : Str} {e : Expr} (hlast : parse last = .ok e) {s s' : State}
    {dict : List (Str × Dist)} (h : interpDists parse (lines ++ [last]) s = (.ok dict, s')) :
    ∃ d s1 s2, distLines parse lines s = (.ok (), s1) ∧ e.dist s1 = (.ok d, s2) ∧ dictGet? dict stdoutName = some d ∧
      s' = { s2 with var := dictSet s2.var stdoutName d } ∧ dict = s'.var := by
  rw [interpDists_eq] at h
  obtain ⟨_, s3, h1, h2⟩ := evalBind_eq_ok.mp h
  rw [distLines_append] at h1
  obtain ⟨_, s1, h3, h4⟩ := evalBind_eq_ok.mp h1
  obtain ⟨_, s4, h5, h6⟩ := evalBind_eq_ok.mp h4
  obtain ⟨e', d, s2, h7, h8, h9⟩ := (distLine_ok parse).mp h5
  rw [hlast] at h7
  cases h7
  have e3 : s3 = s4 := (Prod.mk.inj h6).2.symm
  subst e3
  have h2' := Prod.mk.inj h2
  have e5 : s3 = s' := h2'.2
  have hdict : dict = s3.var := by
    have := h2'.1
    rw [if_neg (by simp)] at this
    exact (Except.ok.inj this).symm
  refine ⟨d, s1, s2, h3, h8, ?_, ?_, ?_⟩
  · rw [hdict, h9]
    show dictGet? (dictSet s2.var stdoutName d) stdoutName = _
    rw [get_set]; simp
  · rw [← e5, h9]
  · rw [hdict, e5]

theorem ExtremeSession.session {isMax : Bool} {p : Program} {s : State} (h : ExtremeSession isMax p s) : Session p s := by
  induction h with
  | new => exact .new
  | step h hv ih => exact .extreme ih hv
  | other h hv hc ht ih => exact .other ih hv ht

end

end PyDice
