import Verif.Lemmas.Worlds
/-!
# When the weights of runs are proportional to their probabilities
-/

namespace PyDice
open PyRuntime

/-- All faces have positive weight: everything written down is possible. -/
theorem weighted_vals : ∀ (e : Expr), e.Weighted → ∀ (env : Env) (v : Int), v ∈ vals e env → some v ∈ ways e env := by
  have faces : ∀ t : List (Int × Nat), (∀ p ∈ t, 0 < p.2) → ∀ x ∈ t.map Prod.fst, x ∈ facesOf t := by
    intro t ht x hx
    obtain ⟨p, hp, rfl⟩ := List.mem_map.mp hx
    exact (mem_facesOf t _).mpr ⟨p, hp, rfl, ht p hp⟩
  have two : ∀ {e : Expr} {op : BinOp} {a b : Expr}, Bin2 e op a b →
      (∀ (env : Env) (v : Int), v ∈ vals a env → some v ∈ ways a env) →
      (∀ (env : Env) (v : Int), v ∈ vals b env → some v ∈ ways b env) →
      ∀ (env : Env) (v : Int), v ∈ vals e env → some v ∈ ways e env := by
    intro e op a b hB ha hb env v hv
    rw [hB.vals] at hv
    simp only [List.mem_flatMap, List.mem_filterMap] at hv
    obtain ⟨x, hx, y, hy, h⟩ := hv
    rw [hB.ways, mem_combine]
    exact ⟨_, ha env x hx, _, hb env y hy, h.symm⟩
  intro e
  induction e with
  | paren e ih => intro h env v hv; exact ih h env v hv
  | not e ih =>
    intro h env v hv
    obtain ⟨x, hx, rfl⟩ := List.mem_map.mp hv
    exact List.mem_map.mpr ⟨_, ih h env x hx, rfl⟩
  | abs e ih =>
    intro h env v hv
    obtain ⟨x, hx, rfl⟩ := List.mem_map.mp hv
    exact List.mem_map.mpr ⟨_, ih h env x hx, rfl⟩
  | dropKeep t =>
    intro h env v hv
    by_cases hc : t.counted = 0
    · simp [vals, hc] at hv; simp [ways, hc, hv]
    · simp only [vals, hc, if_false, List.mem_map] at hv
      obtain ⟨l, hl, rfl⟩ := hv
      simp only [ways, hc, if_false, List.mem_map]
      rw [mem_tuples] at hl
      exact ⟨l, (mem_tuples _ _ _).mpr ⟨hl.1, fun x hx => faces _ h x (hl.2 x hx)⟩, rfl⟩
  | dice t =>
    intro h env v hv
    simp only [vals, List.mem_map] at hv
    obtain ⟨l, hl, rfl⟩ := hv
    simp only [ways, List.mem_map]
    rw [mem_tuples] at hl
    exact ⟨l, (mem_tuples _ _ _).mpr ⟨hl.1, fun x hx => faces _ h x (hl.2 x hx)⟩, rfl⟩
  | constInt t => intro _ env v hv; simp [vals] at hv; simp [ways, hv]
  | constBin t => intro _ env v hv; simp [vals] at hv; simp [ways, hv]
  | add a b iha ihb => intro h; exact two (.add a b) (iha h.1) (ihb h.2)
  | sub a b iha ihb => intro h; exact two (.sub a b) (iha h.1) (ihb h.2)
  | mul a b iha ihb => intro h; exact two (.mul a b) (iha h.1) (ihb h.2)
  | div a b iha ihb => intro h; exact two (.div a b) (iha h.1) (ihb h.2)
  | bin op a b iha ihb => intro h; exact two (.bin op a b) (iha h.1) (ihb h.2)
  | minmax k a b iha ihb => intro h; exact two (.minmax k a b) (iha h.1) (ihb h.2)
  | assign n e ih => intro h env v hv; exact ih h env v hv
  | getVar n => intro _ env v hv; simp [vals] at hv; simp [ways, hv]

theorem length_usesRev : ∀ (p : Program) (reads : List Str), (usesRev p reads).length = p.length := by
  intro p
  induction p with
  | nil => intro reads; rfl
  | cons l p ih => intro reads; obtain ⟨x, e⟩ := l; simp [usesRev, ih]

section
variable [R : PyRuntime]

theorem usesRev_cons (l : Line) (h : List Line) (reads : List Str) :
    (usesRev (programOf (l :: h)).reverse reads).reverse =
      (usesRev (programOf h).reverse (before l reads)).reverse ++ [reads.count l.x] := by
  simp [programOf, usesRev, before]

/-- Every line is used at most once, or all its values are equally likely. -/
def GentleH : List Line → List Str → Prop
  | [], _ => True
  | l :: h, reads => (reads.count l.x ≤ 1 ∨ FlatLine (programOf h) l.e) ∧ GentleH h (before l reads)

theorem gentleH : ∀ (h : List Line) (reads : List Str),
    (∀ before x d after, programOf h = before ++ (x, d) :: after →
      (usesRev (programOf h).reverse reads).reverse[before.length]? = some 0 ∨
      (usesRev (programOf h).reverse reads).reverse[before.length]? = some 1 ∨ FlatLine before d) → GentleH h reads := by
  intro h
  induction h with
  | nil => intro _ _; trivial
  | cons l h ih =>
    intro reads hyp
    have hlen : ((usesRev (programOf h).reverse (before l reads)).reverse).length = (programOf h).length := by
      simp [length_usesRev]
    refine ⟨?_, ih (before l reads) ?_⟩
    · have h1 := hyp (programOf h) l.x l.e [] rfl
      rw [usesRev_cons, List.getElem?_append_right (by rw [hlen])] at h1
      simp only [hlen, Nat.sub_self, List.getElem?_cons_zero, Option.some.injEq] at h1
      rcases h1 with h1 | h1 | h1
      · left; omega
      · left; omega
      · right; exact h1
    · intro bef x d after heq
      have h1 := hyp bef x d (after ++ [(l.x, l.e)]) (by simp [programOf, heq])
      have hlt : bef.length < (programOf h).length := by rw [heq]; simp
      rw [usesRev_cons, List.getElem?_append_left (by rw [hlen]; exact hlt)] at h1
      exact h1

/-- Then the weights of all runs are proportional to the ways they can come about. -/
theorem gentle_weights {h : List Line} (hg : Good h) : ∀ {reads : List Str}, GentleH h reads →
    ∃ C : Nat, ∀ ω, IsRun h ω → freeW h reads ω * usedW h reads ω = C * allW h ω := by
  induction hg with
  | nil => intro reads _; exact ⟨1, fun ω _ => by simp [freeW, usedW, allW]⟩
  | @cons l h s s' hg hfresh hx he hs hd ih =>
    rintro reads ⟨h1, h2⟩
    obtain ⟨C, hC⟩ := ih h2
    have key : ∃ c : Nat, ∀ ω, IsRun (l :: h) ω →
        (if l.x ∈ reads then 1 else lineW h l ω) * lineW h l ω ^ reads.count l.x = c * lineW h l ω := by
      rcases h1 with h1 | ⟨c, hc⟩
      · refine ⟨1, fun ω _ => ?_⟩
        by_cases hm : l.x ∈ reads
        · have : reads.count l.x = 1 := by have := List.count_pos_iff.mpr hm; omega
          simp [hm, this]
        · simp [hm, List.count_eq_zero_of_not_mem hm]
      · by_cases hm : l.x ∈ reads
        · have hpos := List.count_pos_iff.mpr hm
          refine ⟨c ^ (reads.count l.x - 1), fun ω hr => ?_⟩
          have hL : lineW h l ω = c := hc _ ((mem_runs hg _).mpr ⟨ω, hr.1, rfl⟩) _ hr.2
          rw [if_pos hm, one_mul, hL, ← pow_succ, Nat.sub_add_cancel hpos]
        · exact ⟨1, fun ω _ => by simp [hm, List.count_eq_zero_of_not_mem hm]⟩
    obtain ⟨c, hc⟩ := key
    refine ⟨c * C, fun ω hr => ?_⟩
    simp only [freeW, usedW, allW]
    have e1 := hc ω hr
    have e2 := hC ω hr.1
    calc _ = ((if l.x ∈ reads then 1 else lineW h l ω) * lineW h l ω ^ reads.count l.x) *
          (freeW h (before l reads) ω * usedW h (before l reads) ω) := by ring
      _ = _ := by rw [e1, e2]; ring

theorem freeT_zero {h : List Line} : ∀ {reads : List Str}, freeT h reads = 0 → envWays (programOf h) Env.empty = [] := by
  induction h with
  | nil => intro reads hz; simp [freeT] at hz
  | cons l h ih =>
    intro reads hz
    simp only [freeT, mul_eq_zero] at hz
    simp only [programOf, envWays_append, envWays]
    rcases hz with hz | hz
    · split at hz
      · omega
      · have : ∀ env, ways l.e env = [] := fun env => List.length_eq_zero_iff.mp ((ways_length l.e env Env.empty).trans hz)
        simp [this]
    · rw [ih hz]; rfl

/-- The values in an equally likely run are possible ones. -/
theorem envWays_runs {h : List Line} (hg : Good h) : ∀ env ∈ envWays (programOf h) Env.empty, ∃ ω, IsRun h ω ∧ envOf h ω = env := by
  induction hg with
  | nil => intro env henv; simp [programOf, envWays] at henv; exact ⟨fun _ => 0, trivial, henv.symm⟩
  | @cons l h s s' hg hfresh hx he hs hd ih =>
    intro env henv
    simp only [programOf, envWays_append, envWays, List.mem_flatMap, List.mem_singleton] at henv
    obtain ⟨_, h1, o, ho, rfl⟩ := henv
    obtain ⟨ω, hr, rfl⟩ := ih _ h1
    obtain ⟨v, hv, rfl⟩ := (expr_run hg hs he hd hr).2.2 o ho
    rw [← mem_runs (.cons hg hfresh hx he hs hd)]
    simp only [programOf, runs_append, List.mem_flatMap, runs, List.mem_singleton]
    exact ⟨_, (mem_runs hg _).mpr ⟨ω, hr, rfl⟩, v, hv, rfl⟩

/-- With positive weights, all runs are equally likely ones. -/
theorem runs_envWays {h : List Line} (hg : Good h) (hw : ∀ l ∈ h, l.e.Weighted) :
    ∀ env ∈ runs (programOf h) Env.empty, env ∈ envWays (programOf h) Env.empty := by
  induction hg with
  | nil => intro env henv; exact henv
  | @cons l h s s' hg hfresh hx he hs hd ih =>
    intro env henv
    simp only [programOf, runs_append, List.mem_flatMap, runs, List.mem_singleton] at henv
    obtain ⟨env0, h1, v, hv, rfl⟩ := henv
    simp only [programOf, envWays_append, envWays, List.mem_flatMap, List.mem_singleton]
    exact ⟨env0, ih (fun l' hl' => hw l' (by simp [hl'])) env0 h1, some v, weighted_vals l.e (hw l (by simp)) env0 v hv, rfl⟩

omit R in
theorem waySum_progWays (p : Program) (e : Expr) (f : Int → Nat) :
    waySum (progWays p e) f = ((envWays p Env.empty).map fun env => waySum (ways e env) f).sum := by
  unfold progWays waySum
  induction envWays p Env.empty with
  | nil => rfl
  | cons env envs ih => simp only [List.flatMap_cons, List.map_append, List.sum_append, List.map_cons, List.sum_cons, ih]

omit R in
theorem waySum_count (ws : List (Option Int)) (v : Int) : waySum ws (fun x => if x = v then 1 else 0) = ws.count (some v) := by
  have h := waySum_single ws v (fun _ => (1 : Nat))
  rw [smul_eq_mul, mul_one] at h
  rw [← h]
  unfold waySum
  congr 1
  apply List.map_congr_left
  intro o _
  cases o with
  | none => rfl
  | some x => simp only [onSome, eq_comm]

omit R in
theorem waySum_length (ws : List (Option Int)) (h : none ∉ ws) : waySum ws (fun _ => 1) = ws.length := by
  unfold waySum
  induction ws with
  | nil => rfl
  | cons o ws ih =>
    cases o with
    | none => simp at h
    | some x =>
      rw [List.map_cons, List.sum_cons, ih (fun hm => h (by simp [hm]))]
      simp [onSome]; omega

theorem weights_pos {h : List Line} {ω : Str → Int} : ∀ {reads : List Str}, allW h ω ≠ 0 → freeW h reads ω * usedW h reads ω ≠ 0 := by
  induction h with
  | nil => intro reads _; simp [freeW, usedW]
  | cons l h ih =>
    intro reads hA
    simp only [allW] at hA
    have h1 : lineW h l ω ≠ 0 := fun h0 => hA (by rw [h0, zero_mul])
    have h2 := ih (reads := before l reads) (fun h0 => hA (by rw [h0, mul_zero]))
    have h3 : freeW h (before l reads) ω ≠ 0 := fun h0 => h2 (by rw [h0, zero_mul])
    have h4 : usedW h (before l reads) ω ≠ 0 := fun h0 => h2 (by rw [h0, mul_zero])
    simp only [freeW, usedW]
    refine mul_ne_zero (mul_ne_zero ?_ h3) (mul_ne_zero (pow_ne_zero _ h1) h4)
    split
    · exact one_ne_zero
    · exact h1

/-- When the dice of the program and the expression can fall in some way, the counts are proportional with factors that are not
    zero. -/
theorem gentle_factors {h : List Line} (hg : Good h) {s s' : State} (hs : Matches h s) {e : Expr} (he : e.Straight) {d : Dist}
    (hd : e.dist s = (.ok d, s')) (hq : GentleH h e.reads) (hw : progWays (programOf h) e ≠ []) :
    ∃ B C : Nat, B ≠ 0 ∧ C ≠ 0 ∧ ∀ f : Int → Nat, B * d.E f = C * waySum (progWays (programOf h) e) f := by
  obtain ⟨C, hC⟩ := gentle_weights hg hq
  have hne : envWays (programOf h) Env.empty ≠ [] := by
    intro h0; apply hw; unfold progWays; rw [h0]; rfl
  refine ⟨freeT h e.reads, C, fun h0 => hne (freeT_zero h0), ?_, fun f => ?_⟩
  · intro h0
    have h1 : ((envWays (programOf h) Env.empty).map fun _ => 1).sum = 0 := by
      rw [sum_envWays hg]
      apply List.sum_eq_zero
      intro x hx
      obtain ⟨ω, hω, rfl⟩ := List.mem_map.mp hx
      by_contra hA
      rw [mul_one] at hA
      have h2 := weights_pos (reads := e.reads) hA
      rw [hC ω (worlds_run hg ω hω), h0, zero_mul] at h2
      exact h2 rfl
    simp only [List.map_const', List.sum_replicate, smul_eq_mul, mul_one, List.length_eq_zero_iff] at h1
    exact hne h1
  · rw [expr_total hg hs he hd, waySum_progWays, sum_envWays hg, ← List.sum_map_mul_left]
    congr 1
    apply List.map_congr_left
    intro ω hω
    rw [← mul_assoc, hC ω (worlds_run hg ω hω), mul_assoc]

end

end PyDice
