import Verif.Lemmas.History
/-!
# Weights of runs
-/

namespace PyDice
open PyRuntime

theorem sum_single {S : List Int} (hS : S.Nodup) {a : Int} (ha : a ∈ S) (k : Nat) : (S.map fun v => if v = a then k else 0).sum = k := by
  induction S with
  | nil => simp at ha
  | cons b S ih =>
    obtain ⟨h1, h2⟩ := List.nodup_cons.mp hS
    rw [List.map_cons, List.sum_cons]
    rcases List.mem_cons.mp ha with rfl | ha
    · have : (S.map fun v => if v = a then k else 0).sum = 0 := by
        apply List.sum_eq_zero
        intro x hx
        obtain ⟨v, hv, rfl⟩ := List.mem_map.mp hx
        rw [if_neg]
        intro h; subst h; exact h1 hv
      simp [this]
    · rw [ih h2 ha, if_neg (by intro h; subst h; exact h1 ha), zero_add]

/-- A sum over results, grouped by value. -/
theorem sum_group {S : List Int} (hS : S.Nodup) (ws : List (Option Int)) (hw : ∀ o ∈ ws, ∃ v ∈ S, o = some v) (F : Option Int → Nat) :
    (ws.map F).sum = (S.map fun v => ws.count (some v) * F (some v)).sum := by
  induction ws with
  | nil =>
    symm
    apply List.sum_eq_zero
    intro x hx
    obtain ⟨v, _, rfl⟩ := List.mem_map.mp hx
    simp
  | cons o ws ih =>
    obtain ⟨a, ha, rfl⟩ := hw o (by simp)
    rw [List.map_cons, List.sum_cons, ih (fun o ho => hw o (by simp [ho]))]
    have : ∀ v, (some a :: ws).count (some v) * F (some v) = ws.count (some v) * F (some v) + (if v = a then F (some a) else 0) := by
      intro v
      rw [List.count_cons]
      by_cases h : v = a
      · subst h; simp; ring
      · have : ¬ (some a == some v) = true := by
          intro h'; exact h (Option.some.inj (by simpa using h')).symm
        rw [if_neg this, if_neg h, add_zero, add_zero]
    simp only [this]
    rw [List.sum_map_add, sum_single hS ha, add_comm]

theorem waySum_single {M : Type} [AddCommMonoid M] (ws : List (Option Int)) (a : Int) (f : Int → M) :
    waySum ws (fun v => if a = v then f v else 0) = ws.count (some a) • f a := by
  unfold waySum
  induction ws with
  | nil => simp
  | cons o ws ih =>
    rw [List.map_cons, List.sum_cons, ih, List.count_cons]
    cases o with
    | none => simp [onSome]
    | some b =>
      by_cases h : a = b
      · subst h; simp [onSome, add_smul, add_comm]
      · have h' : ¬ b = a := fun h' => h h'.symm
        simp [onSome, h, h']

section
variable [R : PyRuntime]

/-- How many ways lead to the line's value. -/
def lineW (h : List Line) (l : Line) (ω : Str → Int) : Nat := (ways l.e (envOf h ω)).count (some (ω l.tag))

/-- What is read before the line, by something that reads `reads` after it. -/
def before (l : Line) (reads : List Str) : List Str :=
  reads.filter (· ≠ l.x) ++ (List.replicate (reads.count l.x) l.e.reads).flatten

/-- The factor of a stored variable. -/
def varW : List Line → (Str → Int) → Str → Nat
  | [], _, _ => 1
  | l :: h, ω, n => if n = l.x then lineW h l ω * (l.e.reads.map (varW h ω)).prod else varW h ω n

/-- Every line's ways, raised to the number of times it is used. -/
def usedW : List Line → List Str → (Str → Int) → Nat
  | [], _, _ => 1
  | l :: h, reads, ω => lineW h l ω ^ reads.count l.x * usedW h (before l reads) ω

/-- The ways of the lines not used. -/
def freeW : List Line → List Str → (Str → Int) → Nat
  | [], _, _ => 1
  | l :: h, reads, ω => (if l.x ∈ reads then 1 else lineW h l ω) * freeW h (before l reads) ω

/-- The number of ways the lines not used can fall. -/
def freeT : List Line → List Str → Nat
  | [], _ => 1
  | l :: h, reads => (if l.x ∈ reads then 1 else (ways l.e Env.empty).length) * freeT h (before l reads)

/-- The ways of all lines. -/
def allW : List Line → (Str → Int) → Nat
  | [], _ => 1
  | l :: h, ω => lineW h l ω * allW h ω

/-- All runs. -/
def worlds : List Line → List (Str → Int)
  | [] => [fun _ => 0]
  | l :: h => (worlds h).flatMap fun ω => (vals l.e (envOf h ω)).dedup.map fun v => updAt ω l.tag v

theorem mem_before {l : Line} {reads : List Str} {m : Str} :
    m ∈ before l reads ↔ (m ∈ reads ∧ m ≠ l.x) ∨ (l.x ∈ reads ∧ m ∈ l.e.reads) := by
  unfold before
  rw [List.mem_append, List.mem_filter]
  simp only [List.mem_flatten, List.mem_replicate, ne_eq, decide_not, Bool.not_eq_eq_eq_not, Bool.not_true, decide_eq_false_iff_not]
  refine or_congr_right ?_
  constructor
  · rintro ⟨L, ⟨h1, rfl⟩, h2⟩
    exact ⟨List.count_pos_iff.mp (Nat.pos_of_ne_zero h1), h2⟩
  · rintro ⟨h1, h2⟩
    exact ⟨_, ⟨(List.count_pos_iff.mpr h1).ne', rfl⟩, h2⟩

theorem pins_cons {l : Line} {h : List Line} {reads : List Str} {t : Str} :
    pins (l :: h) reads t ↔ (l.x ∈ reads ∧ t = l.tag) ∨ pins h (before l reads) t := by
  unfold pins
  constructor
  · rintro ⟨n, hn, hp⟩
    by_cases hnx : n = l.x
    · simp only [pin, hnx, if_true] at hp
      rcases hp with hp | ⟨m, hm, hp⟩
      · exact Or.inl ⟨hnx ▸ hn, hp⟩
      · exact Or.inr ⟨m, mem_before.mpr (Or.inr ⟨hnx ▸ hn, hm⟩), hp⟩
    · simp only [pin, hnx, if_false] at hp
      exact Or.inr ⟨n, mem_before.mpr (Or.inl ⟨hn, hnx⟩), hp⟩
  · rintro (⟨h1, h2⟩ | ⟨m, hm, hp⟩)
    · exact ⟨l.x, h1, by simp [pin, h2]⟩
    · rcases mem_before.mp hm with ⟨h1, h2⟩ | ⟨h1, h2⟩
      · exact ⟨m, h1, by simpa [pin, h2] using hp⟩
      · refine ⟨l.x, h1, ?_⟩
        simp only [pin, if_true]
        exact Or.inr ⟨m, h2, hp⟩

theorem prod_varW (h : List Line) (ω : Str → Int) : ∀ reads : List Str, (reads.map (varW h ω)).prod = usedW h reads ω := by
  induction h with
  | nil => intro reads; simp [varW, usedW]
  | cons l h ih =>
    intro reads
    simp only [usedW]
    rw [← ih]
    unfold before
    induction reads with
    | nil => simp
    | cons n reads ihr =>
      rw [List.map_cons, List.prod_cons, ihr]
      by_cases hnx : n = l.x
      · subst hnx
        simp only [varW, if_true, List.count_cons_self, pow_succ, List.replicate_succ, List.flatten_cons, List.map_append,
          List.prod_append, List.filter_cons, ne_eq, not_true_eq_false, decide_false, Bool.false_eq_true, if_false]
        ring
      · simp only [varW, hnx, if_false, List.count_cons_of_ne hnx, List.map_append, List.prod_append, List.filter_cons, ne_eq,
          not_false_eq_true, decide_true, if_true, List.map_cons, List.prod_cons]
        ring

/-- The factor of a stored variable in a run. -/
theorem stored_weight {h : List Line} (hg : Good h) : ∀ {ω : Str → Int}, IsRun h ω → ∀ {n : Str} {V : Dist}, stored h n = some V →
    V.Proper ∧ ∃ a, envOf h ω n = some a ∧ ∀ {M : Type} [AddCommMonoid M] (f : Int → M), V.EGiven ω f = varW h ω n • f a := by
  induction hg with
  | nil => intro ω _ n V hV; simp [stored] at hV
  | @cons l h s s' hg hfresh hx he hs hd ih =>
    intro ω hr n V hV
    have hg' : Good (l :: h) := .cons hg hfresh hx he hs hd
    obtain ⟨ht, hn⟩ := hg'.line_tidy
    unfold stored at hV
    split at hV
    · rename_i hnx
      injection hV with hV
      subst hV
      refine ⟨(tidy_tagged ht hn).proper, ω l.tag, by simp [envOf, Env.set, hnx], fun f => ?_⟩
      rw [tagged_EGiven ht hn, (dist_ways (w := varW h ω) (env := envOf h ω) l.e he.noAssign he.faces
        (fun m hm W hW => ih hr.1 ((hs.getVar he hm).mp hW)) l.d s' hd).2, waySum_single]
      simp only [varW, hnx, if_true, lineW]
      rw [← mul_smul, mul_comm]
    · rename_i hnx
      have := ih hr.1 hV
      simpa [varW, hnx, envOf, Env.set] using this

/-- The weight of an expression's outcomes in a run. -/
theorem expr_weight {h : List Line} (hg : Good h) {s s' : State} (hs : Matches h s) {e : Expr} (he : e.Straight) {d : Dist}
    (hd : e.dist s = (.ok d, s')) {ω : Str → Int} (hr : IsRun h ω) {M : Type} [AddCommMonoid M] (f : Int → M) :
    d.EGiven ω f = usedW h e.reads ω • waySum (ways e (envOf h ω)) f := by
  rw [(dist_ways (w := varW h ω) (env := envOf h ω) e he.noAssign he.faces
    (fun m hm W hW => stored_weight hg hr ((hs.getVar he hm).mp hW)) d s' hd).2, prod_varW]

theorem lineW_tags {h : List Line} {l : Line} {ω ω' : Str → Int} (hω : ∀ l' ∈ h, ω l'.tag = ω' l'.tag) (hl : ω l.tag = ω' l.tag) :
    lineW h l ω = lineW h l ω' := by
  unfold lineW
  rw [envOf_tags hω, hl]

theorem freeW_tags {h : List Line} : ∀ {reads : List Str} {ω ω' : Str → Int}, (∀ l ∈ h, ω l.tag = ω' l.tag) →
    freeW h reads ω = freeW h reads ω' := by
  induction h with
  | nil => intro _ _ _ _; rfl
  | cons l h ih =>
    intro reads ω ω' hω
    have h' : ∀ l ∈ h, ω l.tag = ω' l.tag := fun l' hl' => hω l' (by simp [hl'])
    simp only [freeW, ih h', lineW_tags h' (hω l (by simp))]

theorem allW_tags {h : List Line} : ∀ {ω ω' : Str → Int}, (∀ l ∈ h, ω l.tag = ω' l.tag) → allW h ω = allW h ω' := by
  induction h with
  | nil => intro _ _ _; rfl
  | cons l h ih =>
    intro ω ω' hω
    have h' : ∀ l ∈ h, ω l.tag = ω' l.tag := fun l' hl' => hω l' (by simp [hl'])
    simp only [allW, ih h', lineW_tags h' (hω l (by simp))]

theorem worlds_run {h : List Line} (hg : Good h) : ∀ ω ∈ worlds h, IsRun h ω := by
  induction hg with
  | nil => intro ω _; trivial
  | @cons l h s s' hg hfresh hx he hs hd ih =>
    intro ω hω
    simp only [worlds, List.mem_flatMap, List.mem_map] at hω
    obtain ⟨ω0, h0, v, hv, rfl⟩ := hω
    have hag : ∀ l' ∈ h, ω0 l'.tag = updAt ω0 l.tag v l'.tag := fun l' hl' => by simp [updAt, hfresh l' hl']
    refine ⟨isRun_tags hag (ih ω0 h0), ?_⟩
    rw [← envOf_tags hag]
    simpa [updAt] using hv

theorem sum_worlds (l : Line) (h : List Line) (F : (Str → Int) → Nat) : ((worlds (l :: h)).map F).sum =
    ((worlds h).map fun ω => ((vals l.e (envOf h ω)).dedup.map fun v => F (updAt ω l.tag v)).sum).sum := by
  simp only [worlds]
  induction worlds h with
  | nil => rfl
  | cons ω ws ih => simp only [List.flatMap_cons, List.map_append, List.sum_append, List.map_cons, List.sum_cons, ih, List.map_map]; rfl

theorem updAt_tags {h : List Line} {t : Str} (hfresh : ∀ l' ∈ h, l'.tag ≠ t) (ω : Str → Int) (v : Int) :
    ∀ l' ∈ h, ω l'.tag = updAt ω t v l'.tag := fun l' hl' => by simp [updAt, hfresh l' hl']

theorem lineW_upd {h : List Line} {l : Line} (hfresh : ∀ l' ∈ h, l'.tag ≠ l.tag) (ω : Str → Int) (v : Int) :
    lineW h l (updAt ω l.tag v) = (ways l.e (envOf h ω)).count (some v) := by
  unfold lineW
  rw [← envOf_tags (updAt_tags hfresh ω v)]
  simp [updAt]

open Classical in
/-- The runs that agree with marks possible for the lines used, weighted by the lines not used. -/
theorem marginal {h : List Line} (hg : Good h) : ∀ {reads : List Str} {ρ : Str → Int}, RunOn (pins h reads) h ρ →
    ((worlds h).map fun ω => if (∀ t, pins h reads t → ω t = ρ t) then freeW h reads ω else 0).sum = freeT h reads := by
  induction hg with
  | nil =>
    intro reads ρ _
    simp [worlds, freeW, freeT, pins, pin]
  | @cons l h s s' hg hfresh hx he hs hd ih =>
    intro reads ρ hr
    rw [sum_worlds]
    have hnext : RunOn (pins h (before l reads)) h ρ :=
      runOn_mono hr.1 (fun l' _ hp => pins_cons.mpr (Or.inr hp))
    rw [show freeT (l :: h) reads = (if l.x ∈ reads then 1 else (ways l.e Env.empty).length) * freeT h (before l reads) from rfl,
      ← ih hnext, ← List.sum_map_mul_left]
    congr 1
    apply List.map_congr_left
    intro ω hω
    have hrun := worlds_run hg ω hω
    have hcond : ∀ v, (∀ t, pins (l :: h) reads t → updAt ω l.tag v t = ρ t) ↔
        (l.x ∈ reads → v = ρ l.tag) ∧ ∀ t, pins h (before l reads) t → ω t = ρ t := by
      intro v
      have hne : ∀ t, pins h (before l reads) t → t ≠ l.tag := fun t ht he => fresh_pins hfresh _ (he ▸ ht)
      constructor
      · intro h1
        refine ⟨fun hm => by simpa [updAt] using h1 l.tag (pins_cons.mpr (Or.inl ⟨hm, rfl⟩)), fun t ht => ?_⟩
        simpa [updAt, hne t ht] using h1 t (pins_cons.mpr (Or.inr ht))
      · rintro ⟨h1, h2⟩ t ht
        rcases pins_cons.mp ht with ⟨hm, rfl⟩ | ht
        · simpa [updAt] using h1 hm
        · simpa [updAt, hne t ht] using h2 t ht
    have hfree : ∀ v, freeW (l :: h) reads (updAt ω l.tag v) =
        (if l.x ∈ reads then 1 else (ways l.e (envOf h ω)).count (some v)) * freeW h (before l reads) ω := by
      intro v
      simp only [freeW]
      rw [lineW_upd hfresh, ← freeW_tags (updAt_tags hfresh ω v)]
    simp only [hcond, hfree]
    by_cases hc : ∀ t, pins h (before l reads) t → ω t = ρ t
    · simp only [eq_true hc, and_true, if_true]
      by_cases hm : l.x ∈ reads
      · simp only [hm, true_implies, if_true, one_mul]
        apply sum_single (List.nodup_dedup _)
        rw [List.mem_dedup]
        have := hr.2 (pins_cons.mpr (Or.inl ⟨hm, rfl⟩))
        rwa [vals_congr l.e (envOf h ω) (envOf h ρ)]
        intro n hn
        exact envOf_congr (fun t ht => hc t ⟨n, mem_before.mpr (Or.inr ⟨hm, hn⟩), ht⟩)
      · simp only [hm, false_implies, if_true, if_false]
        rw [List.sum_map_mul_right]
        congr 1
        have h1 := sum_group (List.nodup_dedup (vals l.e (envOf h ω))) (ways l.e (envOf h ω))
          (fun o ho => by
            obtain ⟨v, hv, h2⟩ := (expr_run hg hs he hd hrun).2.2 o ho
            exact ⟨v, List.mem_dedup.mpr hv, h2⟩) (fun _ => 1)
        simp only [mul_one] at h1
        rw [← h1]
        simp only [List.map_const', List.sum_replicate, smul_eq_mul, mul_one]
        exact ways_length _ _ _
    · simp only [eq_false hc, and_false, if_false, mul_zero]
      apply List.sum_eq_zero
      intro x hx
      obtain ⟨v, _, rfl⟩ := List.mem_map.mp hx
      rfl

/-- Sums over all ways the program's dice can fall are weighted sums over the runs. -/
theorem sum_envWays {h : List Line} (hg : Good h) : ∀ G : Env → Nat, ((envWays (programOf h) Env.empty).map G).sum =
    ((worlds h).map fun ω => allW h ω * G (envOf h ω)).sum := by
  induction hg with
  | nil => intro G; simp [programOf, envWays, worlds, allW, envOf]
  | @cons l h s s' hg hfresh hx he hs hd ih =>
    intro G
    rw [sum_worlds]
    simp only [programOf, envWays_append, envWays]
    have e1 : ((List.flatMap (fun env => (ways l.e env).flatMap fun v => [env.set l.x v]) (envWays (programOf h) Env.empty)).map G).sum
        = ((envWays (programOf h) Env.empty).map fun env => ((ways l.e env).map fun v => G (env.set l.x v)).sum).sum := by
      induction envWays (programOf h) Env.empty with
      | nil => rfl
      | cons env envs ihe =>
        simp only [List.flatMap_cons, List.map_append, List.sum_append, List.map_cons, List.sum_cons, ihe]
        congr 1
        rw [← List.map_eq_flatMap, List.map_map]; rfl
    rw [e1, ih]
    congr 1
    apply List.map_congr_left
    intro ω hω
    have hrun := worlds_run hg ω hω
    rw [sum_group (List.nodup_dedup (vals l.e (envOf h ω))) (ways l.e (envOf h ω))
          (fun o ho => by
            obtain ⟨v, hv, h2⟩ := (expr_run hg hs he hd hrun).2.2 o ho
            exact ⟨v, List.mem_dedup.mpr hv, h2⟩) (fun o => G ((envOf h ω).set l.x o)), ← List.sum_map_mul_left]
    congr 1
    apply List.map_congr_left
    intro v _
    have hag := updAt_tags hfresh ω v
    simp only [allW, envOf]
    rw [lineW_upd hfresh, ← allW_tags hag, ← envOf_tags hag]
    simp only [updAt, if_true]
    ring

open Classical in
/-- The weighted sum over all outcomes, as a sum over the runs. -/
theorem expr_total {h : List Line} (hg : Good h) {s s' : State} (hs : Matches h s) {e : Expr} (he : e.Straight) {d : Dist}
    (hd : e.dist s = (.ok d, s')) (f : Int → Nat) : freeT h e.reads * d.E f =
    ((worlds h).map fun ω => freeW h e.reads ω * (usedW h e.reads ω * waySum (ways e (envOf h ω)) f)).sum := by
  have ht := expr_tidy hg hs he hd
  have e1 : ((worlds h).map fun ω => freeW h e.reads ω * (usedW h e.reads ω * waySum (ways e (envOf h ω)) f)).sum =
      ((worlds h).map fun ω => freeW h e.reads ω * d.EGiven ω f).sum := by
    congr 1
    apply List.map_congr_left
    intro ω hω
    rw [expr_weight hg hs he hd (worlds_run hg ω hω), smul_eq_mul]
  rw [e1]
  unfold Dist.E Dist.EGiven wsum
  have key : ∀ p ∈ d.resultMap, ((worlds h).map fun ω => freeW h e.reads ω * (p.2 • given ω f p.1)).sum =
      freeT h e.reads * (p.2 • f p.1.value) := by
    intro p hp
    obtain ⟨ρ, hρ⟩ := ht.pins p hp
    have hsat : Sat ρ p.1.cs := (hρ ρ).mpr (fun _ _ => rfl)
    have hr := runOn_pins hg (expr_live hg hs he hd (v := p.1.value) ⟨p, hp, rfl, hsat⟩)
    rw [← marginal hg hr, ← List.sum_map_mul_right]
    congr 1
    apply List.map_congr_left
    intro ω _
    unfold given
    simp only [hρ ω]
    split <;> simp
  have swap : ∀ m : List (Outcome × Nat), (∀ p ∈ m, ((worlds h).map fun ω => freeW h e.reads ω * (p.2 • given ω f p.1)).sum =
      freeT h e.reads * (p.2 • f p.1.value)) → freeT h e.reads * (m.map fun p => p.2 • f p.1.value).sum =
      ((worlds h).map fun ω => freeW h e.reads ω * (m.map fun p => p.2 • given ω f p.1).sum).sum := by
    intro m
    induction m with
    | nil => intro _; simp
    | cons p m ih =>
      intro hk
      simp only [List.map_cons, List.sum_cons, mul_add, List.sum_map_add]
      rw [← hk p (by simp), ih (fun q hq => hk q (by simp [hq]))]
  exact swap d.resultMap key

end

end PyDice
