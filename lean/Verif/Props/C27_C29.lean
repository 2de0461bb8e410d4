import Verif.Lemmas.Reach
import Verif.Lemmas.Convolve
/-!
# C27 Assigning a variable keeps its distribution; C28 Constraint names are fresh; C29 State is a faithful store
-/

namespace PyDice
open PyRuntime

section
variable [R : PyRuntime]

/-! ### C29 -/

/-- C29: after any history `get_constant` returns what the latest `set_constant` of the name was given, and what it returned before
    if there was none; `KeyError` from a new state. -/
theorem C29_constant (ops : List StateOp) : ∀ (s : State) (n : Str), (runOps s ops).getConstant n =
    match latestConstant n ops with
    | some v => .ok v
    | none => s.getConstant n := by
  induction ops with
  | nil => intro s n; rfl
  | cons op ops ih =>
    intro s n
    have hrun : runOps s (op :: ops) = runOps (op.run s) ops := rfl
    rw [hrun, ih]
    cases op with
    | setConstant x v =>
      simp only [latestConstant]
      cases h : latestConstant n ops with
      | some w => simp
      | none =>
        simp only [Option.none_or, StateOp.run, State.setConstant, State.getConstant, get_set]
        by_cases hx : x = n <;> simp [hx]
    | setVar x d =>
      simp only [latestConstant, StateOp.run, State.getConstant]
      rw [setVar_eq]

/-- C29: what `set_var` stored is what `get_var` returns until the next `set_var` of that name, whatever else happens. -/
theorem C29_var (s : State) (x : Str) (d : Dist) (ops : List StateOp) (h : ¬ SetsVar x ops) :
    ∃ V, (s.setVar x d).1 = .ok () ∧ (s.setVar x d).2.getVar x = .ok V ∧ (runOps (s.setVar x d).2 ops).getVar x = .ok V := by
  have key : ∀ (ops : List StateOp), ¬ SetsVar x ops → ∀ t : State, (runOps t ops).getVar x = t.getVar x := by
    intro ops
    induction ops with
    | nil => intro _ t; rfl
    | cons op ops ih =>
      intro h t
      have hrun : runOps t (op :: ops) = runOps (op.run t) ops := rfl
      rw [hrun, ih (fun ⟨d, hd⟩ => h ⟨d, by simp [hd]⟩)]
      cases op with
      | setConstant y v => rfl
      | setVar y d' =>
        have hy : y ≠ x := fun he => h ⟨d', by simp [he]⟩
        simp only [StateOp.run, State.getVar, setVar_eq, get_set, hy, if_false]
  have h1 : (s.setVar x d).2.getVar x = .ok (tagged (versionName x (s.times x + 1)) d) := by
    rw [setVar_eq]; simp [State.getVar, get_set]
  exact ⟨_, by rw [setVar_eq], h1, by rw [key ops h]; exact h1⟩

/-- C29: histories that do not `set_var` a name leave `get_var` of it unchanged. -/
theorem C29_var_untouched (x : Str) (ops : List StateOp) (h : ¬ SetsVar x ops) (s : State) :
    (runOps s ops).getVar x = s.getVar x := by
  induction ops generalizing s with
  | nil => rfl
  | cons op ops ih =>
    have hrun : runOps s (op :: ops) = runOps (op.run s) ops := rfl
    rw [hrun, ih (fun ⟨d, hd⟩ => h ⟨d, by simp [hd]⟩)]
    cases op with
    | setConstant y v => rfl
    | setVar y d' =>
      have hy : y ≠ x := fun he => h ⟨d', by simp [he]⟩
      simp only [StateOp.run, State.getVar, setVar_eq, get_set, hy, if_false]

/-- C29: `has_constant`, `has_var` and the getters agree; a name never set raises `KeyError`. -/
theorem C29_has (s : State) (n : Str) :
    (s.hasConstant n = true ↔ ∃ v, s.getConstant n = .ok v) ∧ (s.hasConstant n = false ↔ s.getConstant n = .error .key) ∧
    (s.hasVar n = true ↔ ∃ d, s.getVar n = .ok d) ∧ (s.hasVar n = false ↔ s.getVar n = .error .key) ∧
    (State.new : State).getConstant n = .error .key ∧ (State.new : State).getVar n = .error .key := by
  refine ⟨?_, ?_, ?_, ?_, rfl, rfl⟩
  · unfold State.hasConstant State.getConstant; cases dictGet? s.constants n <;> simp
  · unfold State.hasConstant State.getConstant; cases dictGet? s.constants n <;> simp
  · unfold State.hasVar State.getVar; cases dictGet? s.var n <;> simp
  · unfold State.hasVar State.getVar; cases dictGet? s.var n <;> simp

/-- C29: the two stores do not interfere: `set_constant` keeps every variable, `set_var` every constant. -/
theorem C29_separate (s : State) (x : Str) (v : Int) (d : Dist) :
    (∀ n, (s.setConstant x v).getVar n = s.getVar n) ∧ (∀ n, (s.setVar x d).2.getConstant n = s.getConstant n) :=
  ⟨fun _ => rfl, fun _ => by rw [setVar_eq]; rfl⟩

/-- C29: the counter of a name goes up by the number of times it was set. -/
theorem C29_counter (ops : List StateOp) : ∀ (s : State) (n : Str),
    (dictGet? (runOps s ops).timesSet n).getD 0 = (dictGet? s.timesSet n).getD 0 + timesIn n ops := by
  induction ops with
  | nil => intro s n; simp [timesIn, runOps]
  | cons op ops ih =>
    intro s n
    have hrun : runOps s (op :: ops) = runOps (op.run s) ops := rfl
    rw [hrun, ih]
    cases op with
    | setConstant x v =>
      have := times_setConstant s x v n
      unfold State.times at this
      simp only [StateOp.run, timesIn, this]
      omega
    | setVar x d =>
      have := times_setVar s x d n
      unfold State.times at this
      simp only [StateOp.run, timesIn, this]
      omega

/-! ### C27 -/

/-- C27: in every reachable state, storing the distribution of any expression keeps its result map and its total. -/
theorem C27_set_var (parse : Str → Res Expr) (s : State) (h : Reachable parse s) (e : Expr) (d : Dist) (s1 : State)
    (he : e.dist s = (.ok d, s1)) (x : Str) :
    ∃ V s2, s1.setVar x d = (.ok (), s2) ∧ s2.getVar x = .ok V ∧ V.getResultMap = d.getResultMap ∧
      V.outcomeCount = d.outcomeCount := by
  obtain ⟨_, _, h3⟩ := keeps_dist e s (tidy_reachable parse h)
  rw [he] at h3
  obtain ⟨A, hA, hU⟩ := h3 d rfl
  have hf : ¬ A (versionName x (s1.times x + 1)) := fun h => fresh_version s1 x (hU _ h)
  have hm := tagged_resultMap hA hf
  refine ⟨_, _, setVar_eq s1 x d, by simp [State.getVar, get_set]; rfl, ?_, ?_⟩
  · unfold Dist.getResultMap
    rw [hm, List.foldl_map]
    rfl
  · rw [outcomeCount_constructed (tagged_constructed _ _), outcomeCount_constructed hA.constructed, hm]
    exact wsum_map d.resultMap (tagO _) (fun _ => 1)

/-- C27 for a line `VAR x = e`: the variable read back has the reported distribution of the line. -/
theorem C27_assignment (parse : Str → Res Expr) (s : State) (h : Reachable parse s) (x : Str) (e : Expr) (d : Dist) (s2 : State)
    (he : (Expr.assign x e).dist s = (.ok d, s2)) :
    ∃ V, (Expr.getVar x).dist s2 = (.ok V, s2) ∧ V.getResultMap = d.getResultMap ∧ V.outcomeCount = d.outcomeCount := by
  obtain ⟨d', s1, h1, h2⟩ := evalBind_eq_ok.mp he
  obtain ⟨_, s3, h3, h4⟩ := evalBind_eq_ok.mp h2
  obtain ⟨h5, rfl⟩ := Prod.mk.inj h4
  cases h5
  obtain ⟨V, s2', hs, hg, hm, hc⟩ := C27_set_var parse s h e d s1 h1 x
  have : s2' = s3 := by
    have := h3
    unfold EvalM.setVar at this
    rw [hs] at this
    exact (Prod.mk.inj this).2
  subst this
  exact ⟨V, by simp only [Expr.dist, EvalM.read, hg], hm, hc⟩

/-! ### C28 -/

omit R in
/-- C28: the text of a version name determines the variable name and the number. -/
theorem C28_injective (n m : Str) (k j : Nat) (h : versionName n k = versionName m j) : n = m ∧ k = j := versionName_injective h

/-- C28: over any history of any state, no two `set_var` calls use the same constraint name. -/
theorem C28_tags_distinct (ops : List StateOp) : ∀ s : State, (tagsOf s ops).Nodup ∧
    ∀ t ∈ tagsOf s ops, ∀ n k, t = versionName n k → (dictGet? s.timesSet n).getD 0 < k := by
  induction ops with
  | nil => intro s; simp [tagsOf]
  | cons op ops ih =>
    intro s
    cases op with
    | setConstant x v =>
      obtain ⟨h1, h2⟩ := ih (s.setConstant x v)
      refine ⟨h1, fun t ht n k hk => ?_⟩
      have h3 := h2 t ht n k hk
      have h4 := later_setConstant s x v n
      unfold State.times at h4
      exact lt_of_le_of_lt h4 h3
    | setVar x d =>
      obtain ⟨h1, h2⟩ := ih (s.setVar x d).2
      have hc := times_setVar s x d x
      simp only [if_true] at hc
      unfold State.times at hc
      simp only [tagsOf, StateOp.run, List.nodup_cons, List.mem_cons]
      refine ⟨⟨?_, h1⟩, ?_⟩
      · intro hm
        exact absurd (h2 _ hm x _ rfl) (lt_irrefl _)
      · rintro t (rfl | ht) n k hk
        · obtain ⟨rfl, rfl⟩ := versionName_injective hk
          rw [hc]; omega
        · have h3 := h2 t ht n k hk
          have h4 := later_setVar s x d n
          unfold State.times at h4
          exact lt_of_le_of_lt h4 h3

/-- C28: in every reachable state, the name `set_var` is about to use appears in no constraint of the distribution being stored nor
    of any stored distribution. -/
theorem C28_fresh (parse : Str → Res Expr) (s : State) (h : Reachable parse s) (e : Expr) (d : Dist) (s1 : State)
    (he : e.dist s = (.ok d, s1)) (x : Str) (k : Nat) (hk : (dictGet? s1.timesSet x).getD 0 < k) :
    (∀ p ∈ d.resultMap, ∀ vs, .varValue (versionName x k) vs ∉ iter p.1.cs) ∧
    (∀ y Y, s1.getVar y = .ok Y → ∀ p ∈ Y.resultMap, ∀ vs, .varValue (versionName x k) vs ∉ iter p.1.cs) := by
  obtain ⟨h1, _, h3⟩ := keeps_dist e s (tidy_reachable parse h)
  rw [he] at h1 h3
  have key : ∀ D : Dist, TidyIn s1 D → ∀ p ∈ D.resultMap, ∀ vs, .varValue (versionName x k) vs ∉ iter p.1.cs := by
    rintro D ⟨A, hA, hU⟩ p hp vs hm
    obtain ⟨ρ, hρ⟩ := hA.pins p hp
    obtain ⟨a, ha⟩ := exists_not_mem vs
    have hs : Sat (updAt ρ (versionName x k) a) p.1.cs := by
      rw [hρ]
      intro n hn
      have : n ≠ versionName x k := by
        rintro rfl
        obtain ⟨n', k', h4, _, h6⟩ := hU _ hn
        obtain ⟨rfl, rfl⟩ := versionName_injective h4
        unfold State.times at h6
        omega
      simp [updAt, this]
    have := hs _ hm
    simp only [Constraint.Sat, updAt, if_true] at this
    exact ha this
  refine ⟨key d (h3 d rfl), fun y Y hy => key Y ?_⟩
  unfold State.getVar at hy
  split at hy
  · rename_i D hD; cases hy; exact h1 y _ hD
  · cases hy

/-- C28: reassigning a variable to an expression without variables makes it independent of every other stored variable, in
    particular of those computed from its old value, and these keep their distributions. -/
theorem C28_independent (parse : Str → Res Expr) (s : State) (h : Reachable parse s) (x : Str) (e : Expr) (hn : e.NoAssign)
    (hr : e.reads = []) (d : Dist) (s2 : State) (he : (Expr.assign x e).dist s = (.ok d, s2)) (y : Str) (hy : y ≠ x) (Y : Dist)
    (hY : s.getVar y = .ok Y) :
    s2.getVar y = .ok Y ∧ ∃ V, s2.getVar x = .ok V ∧
      ∀ (op : BinOp) (r : Dist), Dist.binop op V Y = .ok r → ∀ v, countOf r.getResultMap v = pairCount op V.getResultMap Y.getResultMap v := by
  obtain ⟨d', s1, h1, h2⟩ := evalBind_eq_ok.mp he
  obtain ⟨_, s3, h3, h4⟩ := evalBind_eq_ok.mp h2
  obtain ⟨h5, rfl⟩ := Prod.mk.inj h4
  cases h5
  have hs := tidy_reachable parse h
  obtain ⟨_, k2, k3⟩ := keeps_dist e s hs
  rw [h1] at k2 k3
  have hs1 : s1 = s := by
    obtain ⟨r, hr⟩ := dist_steady s e hn
    have := hr s (agree_refl _ s)
    rw [h1] at this
    exact (Prod.mk.inj this).2
  subst hs1
  obtain ⟨hu, hp⟩ := untied_expr e hn hr _ _ _ h1
  have hset : s3 = (s1.setVar x d).2 := by
    have := h3
    unfold EvalM.setVar at this
    rw [this]
  subst hset
  obtain ⟨A, hA, hU⟩ := k3 d rfl
  have hf : ¬ A (versionName x (s1.times x + 1)) := fun h => fresh_version s1 x (hU _ h)
  refine ⟨?_, tagged (versionName x (s1.times x + 1)) d, ?_, ?_⟩
  · rw [setVar_eq]
    unfold State.getVar at hY ⊢
    simp only [get_set, hy.symm, if_false]
    exact hY
  · rw [setVar_eq]; simp [State.getVar, get_set]
  · intro op r hb v
    have htag := tidy_tagged hA hf
    have hYt : TidyIn s1 Y := by
      unfold State.getVar at hY
      split at hY
      · rename_i D hD; cases hY; exact hs y _ hD
      · cases hY
    obtain ⟨B, hB, hUB⟩ := hYt
    have hc : ∀ p ∈ (tagged (versionName x (s1.times x + 1)) d).resultMap, ∀ q ∈ Y.resultMap, ∃ ω, Sat ω p.1.cs ∧ Sat ω q.1.cs := by
      intro p hp q hq
      rw [tagged_resultMap hA hf, List.mem_map] at hp
      obtain ⟨p0, hp0, rfl⟩ := hp
      obtain ⟨ρ, hρ⟩ := hB.pins q hq
      refine ⟨updAt ρ (versionName x (s1.times x + 1)) p0.1.value, ?_, ?_⟩
      · refine (tagCS_sat _ p0.1 _).mpr ⟨by simp [updAt], hu p0 hp0 _⟩
      · rw [hρ]
        intro n hn
        have : n ≠ versionName x (s1.times x + 1) := fun he => fresh_version s1 x (hUB _ (he ▸ hn))
        simp [updAt, this]
    rw [countOf_getResultMap, binop_E_all hb htag.proper hc, pairCount_wsum, wsum_getResultMap]
    simp only [wsum_getResultMap]

end

/-! ### Examples -/

/-- A history: two assignments to `a`, one to `a_1`; the tags are `a_1`, `a_1_1`, `a_2`. -/
example : let _ := listRuntime
    ∃ d : Dist, mkDistInt [(1, 1), (2, 1)] = .ok d ∧
      tagsOf State.new [.setVar ['a'] d, .setConstant ['b'] 4, .setVar ['a', '_', '1'] d, .setVar ['a'] d] =
        ["a_1".toList, "a_1_1".toList, "a_2".toList] ∧
      latestConstant ['b'] [.setConstant ['b'] 4, .setVar ['b'] d] = some 4 := ⟨_, rfl, rfl, rfl⟩

/-- `VAR x = 2d2` then `VAR y = x + d2` from a new state: the variable `y` has the counts of its line. -/
example : let _ := listRuntime
    let two : Expr := .dice ⟨"2d2".toList, ones [1, 2], 2⟩
    let one : Expr := .dice ⟨"d2".toList, ones [1, 2], 1⟩
    let after := (Expr.assign ['y'] (.add (.getVar ['x']) one)).dist ((Expr.assign ['x'] two).dist State.new).2
    after.1.map Dist.getResultMap = .ok [(3, 1), (4, 3), (5, 3), (6, 1)] ∧
      (after.2.getVar ['y']).map Dist.getResultMap = .ok [(3, 1), (4, 3), (5, 3), (6, 1)] := by
  decide +kernel

end PyDice
