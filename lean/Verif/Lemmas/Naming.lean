import Verif.Spec.Naming
import Verif.Lemmas.Algebra
import Verif.Lemmas.Frame
import Verif.Lemmas.History
import Verif.Lemmas.RollLaw
/-!
# Naming a sub-expression that is used once
-/

namespace PyDice
open PyRuntime

section
variable [R : PyRuntime]

/-- `t` is `s` with `x` bound to a freshly tagged copy of `de`; only names in `X` have changed. -/
structure Named (X : List Str) (x : Str) (de : Dist) (s t : State) : Prop where
  stored : ∃ tag, ¬ s.Used tag ∧ dictGet? t.var x = some (tagged tag de)
  rest : ∀ n, n ∉ X → dictGet? s.var n = dictGet? t.var n ∧ dictGet? s.constants n = dictGet? t.constants n

theorem named_setVar (s : State) (x : Str) (de : Dist) : Named [x] x de s (s.setVar x de).2 := by
  rw [setVar_eq]
  refine ⟨⟨_, fresh_version s x, by simp [get_set]⟩, fun n hn => ?_⟩
  have : x ≠ n := fun h => hn (by simp [h])
  simp [get_set, this]

theorem named_setBoth (s : State) (x : Str) (v : Int) (de : Dist) : Named [x] x de s ((s.setConstant x v).setVar x de).2 := by
  rw [setVar_eq]
  refine ⟨⟨_, fun h => fresh_version (s.setConstant x v) x ((later_setConstant s x v).used h), by simp [get_set]⟩, fun n hn => ?_⟩
  have : x ≠ n := fun h => hn (by simp [h])
  simp [get_set, this, State.setConstant]

theorem Named.stdoutVar {x : Str} {de : Dist} {s t : State} (h : Named [x] x de s t) (hx : x ≠ stdoutName) (d : Dist) :
    Named [x, stdoutName] x de s { t with var := dictSet t.var stdoutName d } := by
  obtain ⟨tag, h1, h2⟩ := h.stored
  refine ⟨⟨tag, h1, by simp [get_set, Ne.symm hx, h2]⟩, fun n hn => ?_⟩
  simp only [List.mem_cons, List.not_mem_nil, or_false, not_or] at hn
  have := h.rest n (by simp [hn.1])
  simpa [get_set, Ne.symm hn.2] using this

theorem Named.stdoutConstant {x : Str} {de : Dist} {s t : State} (h : Named [x] x de s t) (v : Int) :
    Named [x, stdoutName] x de s { t with constants := dictSet t.constants stdoutName v } := by
  obtain ⟨tag, h1, h2⟩ := h.stored
  refine ⟨⟨tag, h1, h2⟩, fun n hn => ?_⟩
  simp only [List.mem_cons, List.not_mem_nil, or_false, not_or] at hn
  have := h.rest n (by simp [hn.1])
  simpa [get_set, Ne.symm hn.2] using this

theorem Named.agree {X : List Str} {x : Str} {de : Dist} {s t : State} (h : Named X x de s t) {l : List Str} (hl : ∀ n ∈ X, n ∉ l) :
    AgreeOn l s t :=
  fun n hn => h.rest n fun hX => hl n hX hn

omit R in
theorem contained_reads {e : Expr} (h : e.NoAssign) : ∀ n ∈ e.contained, n ∈ e.reads := by
  induction e with
  | paren e ih => exact ih h
  | not e ih => exact ih h
  | abs e ih => exact ih h
  | dropKeep t => intro n hn; simp [Expr.contained] at hn
  | dice t => intro n hn; simp [Expr.contained] at hn
  | constInt t => intro n hn; simp [Expr.contained] at hn
  | constBin t => intro n hn; simp [Expr.contained] at hn
  | assign x e => exact absurd h id
  | getVar n => intro m hm; simpa [Expr.contained, Expr.reads] using hm
  | _ => 
    rename_i a b iha ihb
    intro n hn
    simp only [Expr.contained, Expr.reads, List.mem_append] at hn ⊢
    exact hn.imp (iha h.1 n) (ihb h.2 n)

theorem steady_eq {α : Type} {m : EvalM α} {l : List Str} {s t : State} (h : Steady m (AgreeOn l s)) (ht : AgreeOn l s t) :
    m t = ((m s).1, t) ∧ m s = ((m s).1, s) := by
  obtain ⟨r, hr⟩ := h
  have h1 := hr s (agree_refl _ s)
  have h2 := hr t ht
  rw [h1]
  exact ⟨h2, rfl⟩

/-! ### Sums over tuples of mapped outcomes -/

theorem tupleSum_mapped {ds ds' : Nat → Dist} {T : Nat → Outcome → Outcome} : ∀ (l : List Nat), l.Nodup →
    (∀ j ∈ l, (ds' j).resultMap = (ds j).resultMap.map fun q => (T j q.1, q.2)) → ∀ (ρ ρ' : Nat → Outcome) (g g' : (Nat → Outcome) → Nat),
    (∀ σ σ' : Nat → Outcome, (∀ j ∈ l, (∃ q ∈ (ds j).resultMap, σ j = q.1) ∧ σ' j = T j (σ j)) → g σ = g' σ') →
    tupleSum ds l ρ g = tupleSum ds' l ρ' g' := by
  suffices h : ∀ (l : List Nat), l.Nodup →
      (∀ j ∈ l, (ds' j).resultMap = (ds j).resultMap.map fun q => (T j q.1, q.2)) → ∀ (ρ ρ' : Nat → Outcome) (g g' : (Nat → Outcome) → Nat),
      (∀ σ σ' : Nat → Outcome, (∀ j ∈ l, (∃ q ∈ (ds j).resultMap, σ j = q.1) ∧ σ' j = T j (σ j)) →
        (∀ j, j ∉ l → σ j = ρ j ∧ σ' j = ρ' j) → g σ = g' σ') →
      tupleSum ds l ρ g = tupleSum ds' l ρ' g' from
    fun l hl hm ρ ρ' g g' hg => h l hl hm ρ ρ' g g' fun σ σ' h1 _ => hg σ σ' h1
  intro l
  induction l with
  | nil => intro _ _ ρ ρ' g g' hg; exact hg ρ ρ' (by simp) (fun _ _ => ⟨rfl, rfl⟩)
  | cons i l ih =>
    intro hn hm ρ ρ' g g' hg
    obtain ⟨hil, hnl⟩ := List.nodup_cons.mp hn
    show wsum _ _ = wsum _ _
    rw [hm i (by simp), wsum_map (ds i).resultMap (T i) (fun o => tupleSum ds' l (Function.update ρ' i o) g')]
    refine wsum_congr fun q hq => ih hnl (fun j hj => hm j (by simp [hj])) _ _ _ _ fun σ σ' h1 h2 => hg σ σ' ?_ ?_
    · intro j hj
      by_cases hji : j = i
      · subst hji
        obtain ⟨h3, h4⟩ := h2 j hil
        rw [Function.update_self] at h3 h4
        exact ⟨⟨q, hq, h3⟩, by rw [h4, h3]⟩
      · exact h1 j ((List.mem_cons.mp hj).resolve_left hji)
    · intro j hj
      rw [List.mem_cons, not_or] at hj
      obtain ⟨h3, h4⟩ := h2 j hj.2
      rw [Function.update_of_ne hj.1] at h3 h4
      exact ⟨h3, h4⟩

/-! ### Distributions -/

theorem sameCounts_tagged {A : Str → Prop} {d : Dist} (h : Tidy A d) {t : Str} (hn : ¬ A t) : SameCounts d (tagged t d) := by
  have hm := tagged_resultMap h hn
  have : (tagged t d).getResultMap = d.getResultMap := by
    unfold Dist.getResultMap
    rw [hm, List.foldl_map]
    rfl
  refine ⟨fun v => by rw [this], fun v => by rw [this], ?_⟩
  rw [outcomeCount_constructed (tagged_constructed _ _), outcomeCount_constructed h.constructed, hm]
  exact (wsum_map d.resultMap (tagO _) (fun _ => 1)).symm

section
variable {s t : State} {X : List Str} {x : Str} {de : Dist} {es : Nat → Expr} {i : Nat}

omit R in
theorem update_noAssign (hn : ∀ j, (es j).NoAssign) : ∀ j, (Function.update es i (.getVar x) j).NoAssign := by
  intro j
  by_cases h : j = i
  · subst h; rw [Function.update_self]; trivial
  · rw [Function.update_of_ne h]; exact hn j

theorem named_counts (hs : TidyState s) (ht : TidyState t) (hN : Named X x de s t) (p : Pat) (hp : p.holes.Nodup)
    (hn : ∀ j, (es j).NoAssign) (hx : ∀ j ∈ p.holes, j ≠ i → ∀ n ∈ X, n ∉ (es j).reads) (hde : (es i).dist s = (.ok de, s)) {d d' : Dist}
    (hd : (p.fill es).dist s = (.ok d, s)) (hd' : (p.fill (Function.update es i (.getVar x))).dist t = (.ok d', t)) :
    SameCounts d d' := by
  classical
  obtain ⟨tag, htag, hV⟩ := hN.stored
  have hdef := fill_defined p (fun j _ => hn j) hd
  let ds : Nat → Dist := fun j => if h : j ∈ p.holes then (hdef j h).choose else de
  have hds : ∀ j ∈ p.holes, (es j).dist s = (.ok (ds j), s) := by
    intro j hj
    have := (hdef j hj).choose_spec
    simp only [ds, hj, dif_pos]
    exact this
  let ds' : Nat → Dist := Function.update ds i (tagged tag de)
  have hds' : ∀ j ∈ p.holes, (Function.update es i (.getVar x) j).dist t = (.ok (ds' j), t) := by
    intro j hj
    by_cases h : j = i
    · subst h
      simp only [ds', Function.update_self]
      show (t.getVar x, t) = _
      rw [getVar_ok.mpr hV]
    · simp only [ds', Function.update_of_ne h]
      have := (steady_eq (dist_steady s (es j) (hn j)) (hN.agree fun n hX hc => hx j hj h n hX (contained_reads (hn j) n hc))).1
      rw [this, hds j hj]
  have hdsi : i ∈ p.holes → ds i = de := by
    intro hi
    have := hds i hi
    rw [hde] at this
    exact (Except.ok.inj (Prod.mk.inj this).1).symm
  have tidy : ∀ j ∈ p.holes, TidyIn s (ds j) := by
    intro j hj
    have := (keeps_dist (es j) s hs).2.2 (ds j) (by rw [hds j hj])
    rw [hds j hj] at this
    exact this
  rw [fill_dist p hds] at hd
  rw [fill_dist p hds'] at hd'
  have e1 : p.dist ds = .ok d := (Prod.mk.inj hd).1
  have e2 : p.dist ds' = .ok d' := (Prod.mk.inj hd').1
  have key : ∀ {u : State}, TidyState u → ∀ {fs : Nat → Expr} {f : Dist}, (p.fill fs).dist u = (.ok f, u) → ∃ A, Tidy A f := by
    intro u hu fs f h
    obtain ⟨A, hA, _⟩ := (keeps_dist (p.fill fs) u hu).2.2 f (by rw [h])
    exact ⟨A, hA⟩
  obtain ⟨A, hA⟩ := key hs (by rw [fill_dist p hds, e1])
  obtain ⟨A', hA'⟩ := key ht (by rw [fill_dist p hds', e2])
  have tde : TidyIn s de := by
    have := (keeps_dist (es i) s hs).2.2 de (by rw [hde])
    rw [hde] at this
    exact this
  obtain ⟨B, hB, hBU⟩ := tde
  have hBt : ¬ B tag := fun h => htag (hBU _ h)
  let T : Nat → Outcome → Outcome := fun j => if j = i then tagO tag else id
  have hmap : ∀ j ∈ p.holes, (ds' j).resultMap = (ds j).resultMap.map fun q => (T j q.1, q.2) := by
    intro j hj
    by_cases h : j = i
    · subst h
      simp only [ds', T, Function.update_self, if_true, hdsi hj]
      exact tagged_resultMap hB hBt
    · simp only [ds', T, Function.update_of_ne h, h, if_false, id_eq]
      simp
  have prop : ∀ j ∈ p.holes, (ds j).Proper := fun j hj => by
    obtain ⟨C, hC, _⟩ := tidy j hj
    exact hC.proper
  have prop' : ∀ j ∈ p.holes, (ds' j).Proper := by
    intro j hj
    by_cases h : j = i
    · subst h
      simp only [ds', Function.update_self]
      exact (tidy_tagged hB hBt).proper
    · simp only [ds', Function.update_of_ne h]
      exact prop j hj
  -- what an outcome of a hole says does not depend on the fresh name
  have free : ∀ j ∈ p.holes, ∀ q ∈ (ds j).resultMap, ∀ ω v, Sat ω q.1.cs ↔ Sat (updAt ω tag v) q.1.cs := by
    intro j hj q hq ω v
    obtain ⟨C, hC, hCU⟩ := tidy j hj
    refine hC.local hq fun n hn => ?_
    rw [updAt_ne]
    rintro rfl
    exact htag (hCU _ hn)
  have sums : ∀ g : Int → Nat, wsum d.resultMap (fun o => g o.value) = wsum d'.resultMap (fun o => g o.value) := by
    intro g
    rw [patDist_E p prop hp e1 (fun o ho => hA.sat ho) g fun _ => ⟨0, nullCS⟩,
      patDist_E p prop' hp e2 (fun o ho => hA'.sat ho) g fun _ => ⟨0, nullCS⟩]
    refine tupleSum_mapped (T := T) p.holes hp hmap _ _ _ _ fun σ σ' hσ => ?_
    have hval : ∀ j ∈ p.holes, (σ' j).value = (σ j).value := by
      intro j hj
      rw [(hσ j hj).2]
      by_cases h : j = i <;> simp [T, h, tagO]
    have hc : Compatible p.holes σ ↔ Compatible p.holes σ' := by
      constructor
      · rintro ⟨ω, hω⟩
        refine ⟨updAt ω tag (σ i).value, fun j hj => ?_⟩
        obtain ⟨⟨q, hq, h1⟩, h2⟩ := hσ j hj
        have h3 : Sat (updAt ω tag (σ i).value) (σ j).cs := by
          have := hω j hj
          rw [h1] at this ⊢
          exact (free j hj q hq ω _).mp this
        rw [h2]
        by_cases h : j = i
        · subst h
          simp only [T, if_true]
          exact (tagCS_sat tag (σ j) _).mpr ⟨updAt_same _ _ _, h3⟩
        · simpa only [T, h, if_false, id_eq] using h3
      · rintro ⟨ω, hω⟩
        refine ⟨ω, fun j hj => ?_⟩
        have := hω j hj
        rw [(hσ j hj).2] at this
        by_cases h : j = i
        · subst h
          simp only [T, if_true] at this
          exact ((tagCS_sat tag (σ j) _).mp this).2
        · simpa only [T, h, if_false, id_eq] using this
    rw [value_congr p hval]
    by_cases h : Compatible p.holes σ
    · rw [if_pos h, if_pos (hc.mp h)]
    · rw [if_neg h, if_neg (fun h' => h (hc.mpr h'))]
  refine ⟨fun v => ?_, fun v => ?_, ?_⟩
  · rw [countOf_getResultMap, countOf_getResultMap]
    exact sums fun u => if u = v then 1 else 0
  · have supp : ∀ {f : Dist} {C : Str → Prop}, Tidy C f → (hasKey f.getResultMap v ↔ ∃ ω, Supp f ω v) := by
      intro f C hC
      rw [hasKey_getResultMap]
      constructor
      · rintro ⟨q, hq, h⟩
        obtain ⟨ω, hω⟩ := hC.sat hq
        exact ⟨ω, q, hq, h, hω⟩
      · rintro ⟨ω, q, hq, h, _⟩
        exact ⟨q, hq, h⟩
    rw [supp hA, supp hA']
    simp only [patDist_supp p prop hp d e1, patDist_supp p prop' hp d' e2]
    constructor
    · rintro ⟨ω, y, h1, h2⟩
      refine ⟨updAt ω tag (y i), y, fun j hj => ?_, h2⟩
      obtain ⟨q, hq, h3, h4⟩ := h1 j hj
      have h5 : Supp (ds j) (updAt ω tag (y i)) (y j) := ⟨q, hq, h3, (free j hj q hq ω _).mp h4⟩
      by_cases h : j = i
      · subst h
        simp only [ds', Function.update_self]
        rw [supp_tagged hB hBt]
        rw [hdsi hj] at h5
        exact ⟨(updAt_same _ _ _).symm, h5⟩
      · simpa only [ds', Function.update_of_ne h] using h5
    · rintro ⟨ω, y, h1, h2⟩
      refine ⟨ω, y, fun j hj => ?_, h2⟩
      have h3 := h1 j hj
      by_cases h : j = i
      · subst h
        simp only [ds', Function.update_self] at h3
        rw [supp_tagged hB hBt] at h3
        rw [hdsi hj]
        exact h3.2
      · simpa only [ds', Function.update_of_ne h] using h3
  · rw [outcomeCount_constructed hA.constructed, outcomeCount_constructed hA'.constructed]
    exact sums fun _ => 1

theorem SameCounts.refl (d : Dist) : SameCounts d d := ⟨fun _ => rfl, fun _ => Iff.rfl, rfl⟩

theorem sameCounts_binop {op : BinOp} {a b a' b' : Dist} (ha : a.Proper) (ha' : a'.Proper) (h1 : SameCounts a a') (h2 : SameCounts b b') :
    (∃ d, Dist.binop op a b = .ok d) ↔ ∃ d, Dist.binop op a' b' = .ok d := by
  have vals : ∀ {a a' : Dist}, SameCounts a a' → ∀ p ∈ a.resultMap, ∃ p' ∈ a'.resultMap, p'.1.value = p.1.value := by
    intro a a' h p hp
    exact (hasKey_getResultMap a' p.1.value).mp ((h.keys _).mp ((hasKey_getResultMap a _).mpr ⟨p, hp, rfl⟩))
  have vals' : ∀ {a a' : Dist}, SameCounts a a' → ∀ p ∈ a'.resultMap, ∃ p' ∈ a.resultMap, p'.1.value = p.1.value := by
    intro a a' h p hp
    exact (hasKey_getResultMap a p.1.value).mp ((h.keys _).mpr ((hasKey_getResultMap a' _).mpr ⟨p, hp, rfl⟩))
  rw [binop_ok_iff ha, binop_ok_iff ha']
  constructor
  · intro h p hp q hq
    obtain ⟨p', hp', e1⟩ := vals' h1 p hp
    obtain ⟨q', hq', e2⟩ := vals' h2 q hq
    rw [← e1, ← e2]
    exact h p' hp' q' hq'
  · intro h p hp q hq
    obtain ⟨p', hp', e1⟩ := vals h1 p hp
    obtain ⟨q', hq', e2⟩ := vals h2 q hq
    rw [← e1, ← e2]
    exact h p' hp' q' hq'

/-- The distribution of an operation on two expressions without assignments. -/
theorem opExpr_dist (op : BinOp) {a b : Expr} (ha : a.NoAssign) (hb : b.NoAssign) (u : State) : (opExpr op a b).dist u =
    ((a.dist u).1.bind fun y => (b.dist u).1.bind fun z => Dist.binop op y z, u) := by
  have h1 : a.dist u = ((a.dist u).1, u) := Prod.ext rfl (noAssign_dist ha u)
  have h2 : b.dist u = ((b.dist u).1, u) := Prod.ext rfl (noAssign_dist hb u)
  have key : (do let y ← a.dist; let z ← b.dist; EvalM.ofRes (Dist.binop op y z) : EvalM Dist) u =
      ((a.dist u).1.bind fun y => (b.dist u).1.bind fun z => Dist.binop op y z, u) := by
    rw [evalBind_pure h1]
    cases (a.dist u).1 with
    | error er => rfl
    | ok y =>
      show (do let z ← b.dist; EvalM.ofRes (Dist.binop op y z) : EvalM Dist) u = _
      rw [evalBind_pure h2]
      cases (b.dist u).1 <;> rfl
  cases op <;> exact key

theorem named_dist (hs : TidyState s) (ht : TidyState t) (hN : Named X x de s t) (p : Pat) (hp : p.holes.Nodup)
    (hn : ∀ j, (es j).NoAssign) (hx : ∀ j ∈ p.holes, j ≠ i → ∀ n ∈ X, n ∉ (es j).reads) (hde : (es i).dist s = (.ok de, s)) :
    SameResult ((p.fill es).dist s).1 ((p.fill (Function.update es i (.getVar x))).dist t).1 := by
  have hn' := update_noAssign (i := i) (x := x) hn
  have st : ∀ q : Pat, (q.fill es).dist s = (((q.fill es).dist s).1, s) := fun q =>
    Prod.ext rfl (noAssign_dist (fill_noAssign q fun j _ => hn j) s)
  have st' : ∀ q : Pat, (q.fill (Function.update es i (.getVar x))).dist t = (((q.fill (Function.update es i (.getVar x))).dist t).1, t) :=
    fun q => Prod.ext rfl (noAssign_dist (fill_noAssign q fun j _ => hn' j) t)
  induction p with
  | hole j =>
    simp only [Pat.fill]
    by_cases h : j = i
    · subst h
      rw [Function.update_self, hde]
      obtain ⟨tag, htag, hV⟩ := hN.stored
      have : (Expr.getVar x).dist t = (.ok (tagged tag de), t) := by
        show (t.getVar x, t) = _
        rw [getVar_ok.mpr hV]
      rw [this]
      have tde := (keeps_dist (es j) s hs).2.2 de (by rw [hde])
      rw [hde] at tde
      obtain ⟨B, hB, hBU⟩ := tde
      exact .ok (sameCounts_tagged hB fun h => htag (hBU _ h))
    · rw [Function.update_of_ne h]
      have := (steady_eq (dist_steady s (es j) (hn j)) (hN.agree fun n hX hc => hx j (by simp [Pat.holes]) h n hX (contained_reads (hn j) n hc))).1
      rw [this]
      cases ((es j).dist s).1 with
      | ok d => exact .ok (.refl d)
      | error er => exact .error er
  | const k =>
    show SameResult (do constDist (← pyInt (intStr k))) (do constDist (← pyInt (intStr k)))
    cases (do constDist (← pyInt (intStr k)) : Res Dist) with
    | ok d => exact .ok (.refl d)
    | error er => exact .error er
  | bin op a b iha ihb =>
    obtain ⟨na, nb, _⟩ := List.nodup_append.mp (show (a.holes ++ b.holes).Nodup from hp)
    have ra := iha na fun j hj => hx j (by simp [Pat.holes, hj])
    have rb := ihb nb fun j hj => hx j (by simp [Pat.holes, hj])
    have ea := opExpr_dist op (fill_noAssign a fun j _ => hn j) (fill_noAssign b fun j _ => hn j) s
    have ea' := opExpr_dist op (fill_noAssign a fun j _ => hn' j) (fill_noAssign b fun j _ => hn' j) t
    have all := fun d d' (h : (opExpr op (a.fill es) (b.fill es)).dist s = (.ok d, s)) h' =>
      named_counts hs ht hN (.bin op a b) hp hn hx hde (d := d) (d' := d') h h'
    have pa : ∀ da, ((a.fill es).dist s).1 = .ok da → da.Proper := by
      intro da h
      obtain ⟨C, hC, _⟩ := (keeps_dist (a.fill es) s hs).2.2 da h
      exact hC.proper
    have pa' : ∀ da, ((a.fill (Function.update es i (.getVar x))).dist t).1 = .ok da → da.Proper := by
      intro da h
      obtain ⟨C, hC, _⟩ := (keeps_dist (a.fill (Function.update es i (.getVar x))) t ht).2.2 da h
      exact hC.proper
    simp only [Pat.fill] at all ⊢
    rw [ea, ea'] at all ⊢
    revert ra rb pa pa' all
    generalize ((a.fill es).dist s).1 = r1
    generalize ((b.fill es).dist s).1 = r2
    generalize ((a.fill (Function.update es i (.getVar x))).dist t).1 = r1'
    generalize ((b.fill (Function.update es i (.getVar x))).dist t).1 = r2'
    intro ra rb all pa pa'
    cases ra with
    | error er => exact .error er
    | ok h1 =>
      cases rb with
      | error er => exact .error er
      | ok h2 =>
        rename_i da da' db db'
        have hb := sameCounts_binop (op := op) (pa da rfl) (pa' da' rfl) h1 h2
        show SameResult (Dist.binop op da db) (Dist.binop op da' db')
        have all' : ∀ d d', Dist.binop op da db = .ok d → Dist.binop op da' db' = .ok d' → SameCounts d d' := fun d d' h h' =>
          all d d' (Prod.ext h rfl) (Prod.ext h' rfl)
        by_cases hok : ∃ d, Dist.binop op da db = .ok d
        · obtain ⟨d, hd⟩ := hok
          obtain ⟨d', hd'⟩ := hb.mp ⟨d, hd⟩
          rw [hd, hd']
          exact .ok (all' d d' hd hd')
        · rw [binop_error (pa da rfl) fun d hd => hok ⟨d, hd⟩, binop_error (pa' da' rfl) fun d hd => hok (hb.mpr ⟨d, hd⟩)]
          exact .error _
  | not a ih =>
    have ra := ih hp hx
    have all := fun d d' h h' => named_counts hs ht hN (.not a) hp hn hx hde (d := d) (d' := d') h h'
    have e1 : ((Pat.not a).fill es).dist s = goOn (fun y => pure y.notOp) s ((a.fill es).dist s).1 := evalBind_pure (st a) _
    have e2 : ((Pat.not a).fill (Function.update es i (.getVar x))).dist t =
      goOn (fun y => pure y.notOp) t ((a.fill (Function.update es i (.getVar x))).dist t).1 := evalBind_pure (st' a) _
    rw [e1, e2] at all ⊢
    revert ra all
    generalize ((a.fill es).dist s).1 = r1
    generalize ((a.fill (Function.update es i (.getVar x))).dist t).1 = r1'
    intro ra all
    cases ra with
    | error er => exact .error er
    | ok h1 => exact .ok (all _ _ rfl rfl)
  | abs a ih =>
    have ra := ih hp hx
    have all := fun d d' h h' => named_counts hs ht hN (.abs a) hp hn hx hde (d := d) (d' := d') h h'
    have e1 : ((Pat.abs a).fill es).dist s = goOn (fun y => pure y.absOp) s ((a.fill es).dist s).1 := evalBind_pure (st a) _
    have e2 : ((Pat.abs a).fill (Function.update es i (.getVar x))).dist t =
      goOn (fun y => pure y.absOp) t ((a.fill (Function.update es i (.getVar x))).dist t).1 := evalBind_pure (st' a) _
    rw [e1, e2] at all ⊢
    revert ra all
    generalize ((a.fill es).dist s).1 = r1
    generalize ((a.fill (Function.update es i (.getVar x))).dist t).1 = r1'
    intro ra all
    cases ra with
    | error er => exact .error er
    | ok h1 => exact .ok (all _ _ rfl rfl)

/-! ### Largest and smallest values -/

omit R in
theorem listMax_congr {l m : List Int} (h : ∀ v, v ∈ l ↔ v ∈ m) : listMax l = listMax m := by
  cases l with
  | nil =>
    cases m with
    | nil => rfl
    | cons y m => exact absurd ((h y).mpr (by simp)) (by simp)
  | cons y l =>
    obtain ⟨v, hv⟩ := listMax_nonempty (l := y :: l) (by simp)
    rw [hv]
    rw [listMax_spec] at hv
    exact ((listMax_spec m v).mpr ⟨(h v).mp hv.1, fun z hz => hv.2 z ((h z).mpr hz)⟩).symm

omit R in
theorem listMin_congr {l m : List Int} (h : ∀ v, v ∈ l ↔ v ∈ m) : listMin l = listMin m := by
  cases l with
  | nil =>
    cases m with
    | nil => rfl
    | cons y m => exact absurd ((h y).mpr (by simp)) (by simp)
  | cons y l =>
    obtain ⟨v, hv⟩ := listMin_nonempty (l := y :: l) (by simp)
    rw [hv]
    rw [listMin_spec] at hv
    exact ((listMin_spec m v).mpr ⟨(h v).mp hv.1, fun z hz => hv.2 z ((h z).mpr hz)⟩).symm

theorem SameCounts.mem {d d' : Dist} (h : SameCounts d d') (v : Int) :
    v ∈ d.getResultMap.map Prod.fst ↔ v ∈ d'.getResultMap.map Prod.fst := by
  have := h.keys v
  rw [hasKey_iff, hasKey_iff] at this
  simpa [List.mem_map] using this

theorem SameCounts.extreme {d d' : Dist} (h : SameCounts d d') (isMax : Bool) :
    (if isMax then d.max else d.min) = if isMax then d'.max else d'.min := by
  cases isMax
  · exact listMin_congr h.mem
  · exact listMax_congr h.mem

theorem SameCounts.containsZero {d d' : Dist} (h : SameCounts d d') : d.containsZero = d'.containsZero := by
  have e : ∀ m : List (Int × Nat), ((dictGet? m 0).isSome && true) = true ↔ hasKey m 0 := by
    intro m
    induction m with
    | nil => simp [dictGet?, hasKey]
    | cons q m ih => 
      obtain ⟨a, b⟩ := q
      by_cases h : a = 0
      · subst h; simp [dictGet?, hasKey]
      · have h' : ¬ 0 = a := Ne.symm h
        simp_all [dictGet?, hasKey]
  unfold Dist.containsZero
  rw [Bool.eq_iff_iff, e, e]
  exact h.keys 0

/-- The largest (smallest) value of a computed distribution. -/
def distExtreme (isMax : Bool) (r : Res Dist) : Res Int := r.bind fun d => if isMax then d.max else d.min

theorem SameResult.extreme {r r' : Res Dist} (h : SameResult r r') (isMax : Bool) : distExtreme isMax r = distExtreme isMax r' := by
  cases h with
  | ok h => exact h.extreme isMax
  | error e => rfl

theorem viaDist_eq (isMax : Bool) {m : EvalM Dist} {u : State} (h : (m u).2 = u) : viaDist isMax m u = (distExtreme isMax (m u).1, u) := by
  have h1 : m u = ((m u).1, u) := Prod.ext rfl h
  show (m >>= fun d => EvalM.ofRes (if isMax then d.max else d.min)) u = _
  rw [evalBind_pure h1]
  cases (m u).1 <;> rfl

theorem named_extreme (isMax : Bool) (hs : TidyState s) (ht : TidyState t) (hN : Named X x de s t) (p : Pat) (hp : p.holes.Nodup)
    (hn : ∀ j, (es j).NoAssign) (hx : ∀ j ∈ p.holes, j ≠ i → ∀ n ∈ X, n ∉ (es j).reads) (hde : (es i).dist s = (.ok de, s)) {v : Int}
    (hv : (es i).extreme isMax s = (.ok v, s)) (hc : dictGet? t.constants x = some v) :
    ((p.fill es).extreme isMax s).1 = ((p.fill (Function.update es i (.getVar x))).extreme isMax t).1 := by
  have hn' := update_noAssign (i := i) (x := x) hn
  have via : ∀ q : Pat, q.holes.Nodup → (∀ j ∈ q.holes, j ≠ i → ∀ n ∈ X, n ∉ (es j).reads) →
      (viaDist isMax (q.fill es).dist s).1 = (viaDist isMax (q.fill (Function.update es i (.getVar x))).dist t).1 := by
    intro q hq hxq
    rw [viaDist_eq isMax (noAssign_dist (fill_noAssign q fun j _ => hn j) s), viaDist_eq isMax (noAssign_dist (fill_noAssign q fun j _ => hn' j) t)]
    exact (named_dist hs ht hN q hq hn hxq hde).extreme isMax
  induction p with
  | hole j =>
    simp only [Pat.fill]
    by_cases h : j = i
    · subst h
      rw [Function.update_self, hv]
      show _ = t.getConstant x
      simp only [State.getConstant, hc]
    · rw [Function.update_of_ne h]
      have := (steady_eq (extreme_steady isMax s (es j) (hn j))
        (hN.agree fun n hX hc => hx j (by simp [Pat.holes]) h n hX (contained_reads (hn j) n hc))).1
      rw [this]
  | const k => rfl
  | not a ih => exact via (.not a) hp hx
  | abs a ih => exact via (.abs a) hp hx
  | bin op a b iha ihb =>
    obtain ⟨na, nb, _⟩ := List.nodup_append.mp (show (a.holes ++ b.holes).Nodup from hp)
    have xa : ∀ j ∈ a.holes, j ≠ i → ∀ n ∈ X, n ∉ (es j).reads := fun j hj => hx j (by simp [Pat.holes, hj])
    have xb : ∀ j ∈ b.holes, j ≠ i → ∀ n ∈ X, n ∉ (es j).reads := fun j hj => hx j (by simp [Pat.holes, hj])
    have hv := via (.bin op a b) hp hx
    have mm : ∀ k, ((Expr.minmax k (a.fill es) (b.fill es)).extreme isMax s).1 =
        ((Expr.minmax k (a.fill (Function.update es i (.getVar x))) (b.fill (Function.update es i (.getVar x)))).extreme isMax t).1 := by
      intro k
      have ra := iha na xa
      have rb := ihb nb xb
      have g : ∀ {y z : Expr} {u : State}, y.NoAssign → z.NoAssign → (Expr.minmax k y z).extreme isMax u =
          ((y.extreme isMax u).1.bind fun m => (z.extreme isMax u).1.bind fun n => .ok (minmaxOp k m n), u) := by
        intro y z u hy hz
        have h1 : y.extreme isMax u = ((y.extreme isMax u).1, u) := Prod.ext rfl (noAssign_extreme hy isMax u)
        have h2 : z.extreme isMax u = ((z.extreme isMax u).1, u) := Prod.ext rfl (noAssign_extreme hz isMax u)
        show (do let m ← y.extreme isMax; let n ← z.extreme isMax; pure (minmaxOp k m n) : EvalM Int) u = _
        rw [evalBind_pure h1]
        cases (y.extreme isMax u).1 with
        | error er => rfl
        | ok m =>
          show (do let n ← z.extreme isMax; pure (minmaxOp k m n) : EvalM Int) u = _
          rw [evalBind_pure h2]
          cases (z.extreme isMax u).1 <;> rfl
      rw [g (fill_noAssign a fun j _ => hn j) (fill_noAssign b fun j _ => hn j),
        g (fill_noAssign a fun j _ => hn' j) (fill_noAssign b fun j _ => hn' j), ra, rb]
    have dv : ((Expr.div (a.fill es) (b.fill es)).extreme isMax s).1 =
        ((Expr.div (a.fill (Function.update es i (.getVar x))) (b.fill (Function.update es i (.getVar x)))).extreme isMax t).1 := by
      have hdiv := via (.bin .floordiv a b) hp hx
      have rb := named_dist hs ht hN b nb hn xb hde
      have g : ∀ {y z : Expr} {u : State}, z.NoAssign → (Expr.div y z).extreme isMax u = goOn (fun d =>
          if d.containsZero then EvalM.ofRes (.error .zeroDivision) else viaDist isMax (Expr.dist (.div y z))) u (z.dist u).1 := by
        intro y z u hz
        have h2 : z.dist u = ((z.dist u).1, u) := Prod.ext rfl (noAssign_dist hz u)
        exact evalBind_pure h2 _
      rw [g (fill_noAssign b fun j _ => hn j), g (fill_noAssign b fun j _ => hn' j)]
      revert rb
      generalize ((b.fill es).dist s).1 = r2
      generalize ((b.fill (Function.update es i (.getVar x))).dist t).1 = r2'
      intro rb
      cases rb with
      | error er => rfl
      | ok h =>
        simp only [goOn, h.containsZero]
        split
        · rfl
        · exact hdiv
    cases op with
    | floordiv => exact dv
    | max => exact mm true
    | min => exact mm false
    | _ => exact hv

/-! ### Rolls -/

/-- The expected value of a function of the value; a run that raises counts as zero. -/
def Expr.hits (e : Expr) (u : State) (φ : Int → ℚ) : ℚ := (e.roll u).expect (okValue φ)

omit R in
theorem Rand.expect_swap {α β : Type} (r : Rand α) (q : Rand β) (f : α → β → ℚ) :
    r.expect (fun a => q.expect fun b => f a b) = q.expect (fun b => r.expect fun a => f a b) := by
  have add : ∀ {β : Type} (q : Rand β) (l : List Nat) (G : Nat → β → ℚ) (c : ℚ),
      (l.map fun k => q.expect (G k)).sum / c = q.expect fun b => (l.map fun k => G k b).sum / c := by
    intro β q l G c
    induction q with
    | pure b => rfl
    | draw n k ih =>
      simp only [Rand.expect]
      rw [← List.map_congr_left (fun m _ => ih m)]
      clear ih
      induction l with
      | nil => simp
      | cons x l ihl =>
        simp only [List.map_cons, List.sum_cons, add_div]
        rw [ihl, List.sum_map_add, add_div]
        congr 1
        rw [div_eq_mul_inv, div_eq_mul_inv, div_eq_mul_inv, ← List.sum_map_mul_right]
        simp only [div_eq_mul_inv]
        rw [List.sum_map_mul_right, List.sum_map_mul_right]
        ring
  induction r with
  | pure a => rfl
  | draw n k ih =>
    simp only [Rand.expect, ih]
    exact add q _ _ _

theorem expect_bind_hits {m : RollM Int} {f : Int → RollM Int} {u : State} (hm : ∀ y, Rand.Possible y (m u) → y.2 = u) (φ : Int → ℚ) :
    ((m >>= f) u).expect (okValue φ) = (m u).expect (okValue fun v => (f v u).expect (okValue φ)) := by
  rw [expect_rollBind]
  refine Rand.expect_congr fun y hy => ?_
  obtain ⟨r, u'⟩ := y
  obtain rfl : u' = u := hm _ hy
  cases r <;> rfl

theorem opExpr_hits {op : BinOp} (hop : op ≠ .floordiv) : ∃ g : Int → Int → Int, ∀ (a b : Expr), a.NoAssign → b.NoAssign → ∀ (u : State)
    (φ : Int → ℚ), (opExpr op a b).hits u φ = a.hits u fun y => b.hits u fun z => φ (g y z) := by
  have key : ∀ (g : Int → Int → Int) (a b : Expr), a.NoAssign → b.NoAssign → ∀ (u : State) (φ : Int → ℚ),
      ((do let y ← a.roll; let z ← b.roll; return g y z : RollM Int) u).expect (okValue φ) =
        a.hits u fun y => b.hits u fun z => φ (g y z) := by
    intro g a b ha hb u φ
    rw [expect_bind_hits fun y hy => noAssign_roll ha hy]
    unfold Expr.hits
    congr 2
    funext y
    exact expect_bind_hits (fun z hz => noAssign_roll hb hz) φ
  cases op with
  | floordiv => exact absurd rfl hop
  | _ => exact ⟨_, fun a b => key _ a b⟩

theorem div_hits {a b : Expr} (ha : a.NoAssign) (hb : b.NoAssign) (u : State) (φ : Int → ℚ) :
    (Expr.div a b).hits u φ = b.hits u fun y => if y = 0 then 0 else a.hits u fun z => φ (z.fdiv y) := by
  unfold Expr.hits
  refine (expect_bind_hits (fun y hy => noAssign_roll hb hy) φ).trans ?_
  congr 2
  funext y
  by_cases h : y = 0
  · simp only [h, if_true]; rfl
  · simp only [h, if_false]
    exact expect_bind_hits (fun z hz => noAssign_roll ha hz) φ

theorem hits_agree {e : Expr} (he : e.NoAssign) {u w : State} (h : AgreeOn e.contained u w) (φ : Int → ℚ) : e.hits w φ = e.hits u φ := by
  obtain ⟨r, hr⟩ := roll_steady u e he
  unfold Expr.hits
  rw [hr w h, hr u (agree_refl _ u), Rand.expect_bind, Rand.expect_bind]
  congr 1
  funext a
  cases a <;> rfl

theorem hits_zero (e : Expr) (u : State) : (e.hits u fun _ => 0) = 0 := by
  have : okValue (fun _ => (0 : ℚ)) = fun _ : Res Int × State => (0 : ℚ) := by
    funext ⟨y, w⟩
    cases y <;> rfl
  unfold Expr.hits
  rw [this]
  induction e.roll u with
  | pure => rfl
  | draw n k ih => simp [Rand.expect, ih]

theorem hits_swap {a b : Expr} {u : State} (f : Int → Int → ℚ) :
    (a.hits u fun y => b.hits u fun z => f y z) = b.hits u fun z => a.hits u fun y => f y z := by
  unfold Expr.hits
  have e : ∀ (r q : Rand (Res Int × State)) (f : Int → Int → ℚ), r.expect (okValue fun y => q.expect (okValue fun z => f y z)) =
      r.expect fun y => q.expect fun z => okValue (fun y => okValue (fun z => f y z) z) y := by
    intro r q f
    refine Rand.expect_congr fun y _ => ?_
    obtain ⟨y, w⟩ := y
    cases y with
    | ok y => rfl
    | error er =>
      show (0 : ℚ) = q.expect fun _ => 0
      clear f
      induction q with
      | pure => rfl
      | draw n k ih => simp [Rand.expect, ← ih]
  rw [e, e, Rand.expect_swap]
  congr 1
  funext z
  congr 1
  funext y
  obtain ⟨y, w⟩ := y
  obtain ⟨z, w'⟩ := z
  cases y <;> cases z <;> rfl

omit R in
theorem fill_unchanged (p : Pat) {es : Nat → Expr} {i : Nat} (e : Expr) (h : i ∉ p.holes) : p.fill (Function.update es i e) = p.fill es := by
  induction p with
  | hole j =>
    have : j ≠ i := fun he => h (by simp [Pat.holes, he])
    simp [Pat.fill, Function.update_of_ne this]
  | const k => rfl
  | not a ih => simp only [Pat.fill, ih h]
  | abs a ih => simp only [Pat.fill, ih h]
  | bin op a b iha ihb =>
    simp only [Pat.holes, List.mem_append, not_or] at h
    simp only [Pat.fill, iha h.1, ihb h.2]

omit R in
theorem fill_contained (p : Pat) {es : Nat → Expr} {n : Str} (h : n ∈ (p.fill es).contained) : ∃ j ∈ p.holes, n ∈ (es j).contained := by
  induction p with
  | hole j => exact ⟨j, by simp [Pat.holes], h⟩
  | const k => simp [Pat.fill, Expr.contained] at h
  | not a ih => exact ih h
  | abs a ih => exact ih h
  | bin op a b iha ihb =>
    have : n ∈ (a.fill es).contained ++ (b.fill es).contained := by cases op <;> exact h
    rcases List.mem_append.mp this with h | h
    · obtain ⟨j, h1, h2⟩ := iha h
      exact ⟨j, by simp [Pat.holes, h1], h2⟩
    · obtain ⟨j, h1, h2⟩ := ihb h
      exact ⟨j, by simp [Pat.holes, h1], h2⟩

theorem named_roll {w : Int → State} (hw : ∀ v, dictGet? (w v).constants x = some v)
    (hW : ∀ v n, n ∉ X → dictGet? s.var n = dictGet? (w v).var n ∧ dictGet? s.constants n = dictGet? (w v).constants n) (p : Pat) (hp : p.holes.Nodup) (hi : i ∈ p.holes) (hn : ∀ j, (es j).NoAssign)
    (hx : ∀ j ∈ p.holes, j ≠ i → ∀ n ∈ X, n ∉ (es j).reads) : ∀ φ : Int → ℚ,
    ((es i).hits s fun v => (p.fill (Function.update es i (.getVar x))).hits (w v) φ) = (p.fill es).hits s φ := by
  have hn' := update_noAssign (i := i) (x := x) hn
  have other : ∀ q : Pat, i ∉ q.holes → (∀ j ∈ q.holes, j ≠ i → ∀ n ∈ X, n ∉ (es j).reads) → ∀ v φ,
      (q.fill (Function.update es i (.getVar x))).hits (w v) φ = (q.fill es).hits s φ := by
    intro q hq hxq v φ
    rw [fill_unchanged q _ hq]
    refine hits_agree (fill_noAssign q fun j _ => hn j) (fun n hc => ?_) φ
    obtain ⟨j, hj, hc⟩ := fill_contained q hc
    have hji : j ≠ i := fun he => hq (he ▸ hj)
    exact hW v n fun hX => hxq j hj hji n hX (contained_reads (hn j) n hc)
  induction p with
  | hole j =>
    intro φ
    obtain rfl : i = j := by simpa [Pat.holes] using hi
    simp only [Pat.fill, Function.update_self]
    unfold Expr.hits
    congr 2
    funext v
    show okValue φ ((w v).getConstant x, _) = _
    simp [State.getConstant, hw, okValue]
  | const k => simp [Pat.holes] at hi
  | not a ih =>
    intro φ
    have g : ∀ (e : Expr), e.NoAssign → ∀ (u : State) (φ : Int → ℚ), (Expr.not e).hits u φ = e.hits u fun y => φ (if y ≠ 0 then 0 else 1) :=
      fun e he u φ => expect_bind_hits (fun y hy => noAssign_roll he hy) φ
    simp only [Pat.fill, g _ (fill_noAssign a fun j _ => hn j), g _ (fill_noAssign a fun j _ => hn' j)]
    exact ih hp hi hx _
  | abs a ih =>
    intro φ
    have g : ∀ (e : Expr), e.NoAssign → ∀ (u : State) (φ : Int → ℚ), (Expr.abs e).hits u φ = e.hits u fun y => φ (pyAbs y) :=
      fun e he u φ => expect_bind_hits (fun y hy => noAssign_roll he hy) φ
    simp only [Pat.fill, g _ (fill_noAssign a fun j _ => hn j), g _ (fill_noAssign a fun j _ => hn' j)]
    exact ih hp hi hx _
  | bin op a b iha ihb =>
    intro φ
    obtain ⟨na, nb, hdis⟩ := List.nodup_append.mp (show (a.holes ++ b.holes).Nodup from hp)
    have xa : ∀ j ∈ a.holes, j ≠ i → ∀ n ∈ X, n ∉ (es j).reads := fun j hj => hx j (by simp [Pat.holes, hj])
    have xb : ∀ j ∈ b.holes, j ≠ i → ∀ n ∈ X, n ∉ (es j).reads := fun j hj => hx j (by simp [Pat.holes, hj])
    have fa := fill_noAssign a fun j _ => hn j
    have fb := fill_noAssign b fun j _ => hn j
    have fa' := fill_noAssign a fun j _ => hn' j
    have fb' := fill_noAssign b fun j _ => hn' j
    rcases List.mem_append.mp (show i ∈ a.holes ++ b.holes from hi) with hj | hj
    · have hib : i ∉ b.holes := fun h => hdis _ hj _ h rfl
      by_cases hop : op = .floordiv
      · subst hop
        show ((es i).hits s fun v => (Expr.div _ _).hits _ _) = (Expr.div _ _).hits _ _
        simp only [div_hits fa fb, div_hits fa' fb', other b hib xb]
        rw [hits_swap]
        congr 1
        funext y
        by_cases h : y = 0
        · simp only [h, if_true]
          exact hits_zero _ _
        · simp only [h, if_false]
          exact iha na hj xa _
      · obtain ⟨g, hg⟩ := opExpr_hits hop
        simp only [Pat.fill, hg _ _ fa fb, hg _ _ fa' fb', other b hib xb]
        exact iha na hj xa _
    · have hia : i ∉ a.holes := fun h => hdis _ h _ hj rfl
      by_cases hop : op = .floordiv
      · subst hop
        show ((es i).hits s fun v => (Expr.div _ _).hits _ _) = (Expr.div _ _).hits _ _
        simp only [div_hits fa fb, div_hits fa' fb', other a hia xa]
        exact ihb nb hj xb _
      · obtain ⟨g, hg⟩ := opExpr_hits hop
        simp only [Pat.fill, hg _ _ fa fb, hg _ _ fa' fb', other a hia xa]
        rw [hits_swap]
        congr 1
        funext y
        exact ihb nb hj xb _

end

/-! ### Assignments -/

theorem assign_dist_parts {x : Str} {e : Expr} (he : e.NoAssign) {s t : State} {d : Dist} (h : (Expr.assign x e).dist s = (.ok d, t)) :
    e.dist s = (.ok d, s) ∧ t = (s.setVar x d).2 := by
  obtain ⟨d', s1, h1, h2⟩ := evalBind_eq_ok.mp h
  obtain ⟨_, s3, h3, h4⟩ := evalBind_eq_ok.mp h2
  have hst := noAssign_dist he s
  rw [h1] at hst
  obtain rfl : s1 = s := hst
  unfold EvalM.setVar at h3
  cases h4
  exact ⟨h1, by rw [h3]⟩

/-- Distributions do not depend on the stored constants. -/
theorem dist_vars (s : State) : ∀ (e : Expr), e.NoAssign → Steady e.dist (fun t => t.var = s.var) := by
  intro e
  have two : ∀ (a b : Expr) (op : BinOp), Steady a.dist (fun t => t.var = s.var) → Steady b.dist (fun t => t.var = s.var) →
      Steady (do let y ← a.dist; let z ← b.dist; EvalM.ofRes (Dist.binop op y z)) (fun t => t.var = s.var) :=
    fun a b op ha hb => steady_bind ha fun y => steady_bind hb fun z => steady_ofRes _ _
  induction e with
  | paren e ih => exact ih
  | not e ih => exact fun h => steady_bind (ih h) fun _ => steady_pure _ _
  | abs e ih => exact fun h => steady_bind (ih h) fun _ => steady_pure _ _
  | dropKeep t => exact fun _ => steady_ofRes _ _
  | dice t => exact fun _ => steady_ofRes _ _
  | constInt t => exact fun _ => steady_ofRes _ _
  | constBin t => exact fun _ => steady_ofRes _ _
  | assign x e => exact fun h => absurd h id
  | getVar n => exact fun _ => ⟨s.getVar n, fun t ht => by simp only [Expr.dist, EvalM.read, State.getVar, ht]⟩
  | _ =>
    rename_i a b iha ihb
    exact fun h => two a b _ (iha h.1) (ihb h.2)

theorem assign_extreme_parts {isMax : Bool} {x : Str} {e : Expr} (he : e.NoAssign) {s t : State} {v : Int}
    (h : (Expr.assign x e).extreme isMax s = (.ok v, t)) :
    ∃ d, e.extreme isMax s = (.ok v, s) ∧ e.dist s = (.ok d, s) ∧ t = ((s.setConstant x v).setVar x d).2 := by
  obtain ⟨v', s1, h1, h2⟩ := evalBind_eq_ok.mp h
  obtain ⟨_, s2, h3, h4⟩ := evalBind_eq_ok.mp h2
  obtain ⟨d, s3, h5, h6⟩ := evalBind_eq_ok.mp h4
  obtain ⟨_, s4, h7, h8⟩ := evalBind_eq_ok.mp h6
  have hst := noAssign_extreme he isMax s
  rw [h1] at hst
  obtain rfl : s1 = s := hst
  cases h8
  cases h3
  obtain ⟨r, hr⟩ := dist_vars s1 e he
  have e1 : e.dist (s1.setConstant x v) = (r, s1.setConstant x v) := hr _ rfl
  have e2 := hr s1 rfl
  rw [e1] at h5
  cases h5
  unfold EvalM.setVar at h7
  exact ⟨d, h1, e2, by rw [h7]⟩

theorem expect_assign_roll {x : Str} {e e' : Expr} (he : e.NoAssign) {s : State} (φ : Int → ℚ) :
    (((Expr.assign x e).roll >>= fun _ => e'.roll) s).expect (okValue φ) = e.hits s fun v => e'.hits (s.setConstant x v) φ := by
  rw [expect_rollBind]
  show ((e.roll >>= fun v => RollM.ofEval (EvalM.setConstant x v) >>= fun _ => pure v) s).expect _ = _
  rw [expect_rollBind]
  refine Rand.expect_congr fun y hy => ?_
  obtain ⟨y, u⟩ := y
  obtain rfl : u = s := noAssign_roll he hy
  cases y <;> rfl

/-! ### Calls -/

/-- What `get_probability_distributions` does with the last line's distribution. -/
def storeOut : Res Dist × State → Res (List (Str × Dist)) × State
  | (.ok d, u) => (.ok (dictSet u.var stdoutName d), { u with var := dictSet u.var stdoutName d })
  | (.error er, u) => (.error er, u)

theorem tidyState_stdout {u : State} (h : TidyState u) {d : Dist} (hd : TidyIn u d) :
    TidyState { u with var := dictSet u.var stdoutName d } := by
  intro n d' hd'
  simp only [get_set] at hd'
  split at hd'
  · cases hd'; exact hd
  · exact h n d' hd'

variable {parse : Str → Res Expr}

theorem interpDists_one {l : Str} {e : Expr} (h : parse l = .ok e) (s : State) : interpDists parse [l] s = storeOut (e.dist s) := by
  have h1 : distLine parse l s = (e.dist >>= fun d => (fun s => (.ok (), { s with var := dictSet s.var stdoutName d }) : EvalM Unit)) s := by
    unfold distLine
    exact evalBind_ok (m := EvalM.ofRes (parse l)) (s' := s) (a := e) (by rw [h]; rfl)
  rcases hr : e.dist s with ⟨r, u⟩
  cases r with
  | error er =>
    replace h1 := h1.trans (evalBind_error hr)
    refine evalBind_error (m := distLines parse [l]) (s' := u) ?_
    exact evalBind_error h1
  | ok d =>
    replace h1 := h1.trans (evalBind_ok hr)
    refine (evalBind_ok (m := distLines parse [l]) (s' := { u with var := dictSet u.var stdoutName d }) (a := ()) ?_).trans ?_
    · exact (evalBind_ok h1).trans rfl
    · simp [storeOut]

theorem interpDists_two {l l' : Str} {e : Expr} (h : parse l = .ok e) {s u : State} {d : Dist} (hr : e.dist s = (.ok d, u)) :
    interpDists parse [l, l'] s = interpDists parse [l'] { u with var := dictSet u.var stdoutName d } := by
  have h1 : distLine parse l s = (.ok (), { u with var := dictSet u.var stdoutName d }) := by
    unfold distLine
    exact (evalBind_ok (m := EvalM.ofRes (parse l)) (s' := s) (a := e) (by rw [h]; rfl)).trans (evalBind_ok hr)
  have h2 : distLines parse [l, l'] s = distLines parse [l'] { u with var := dictSet u.var stdoutName d } := evalBind_ok h1
  refine (evalBind (distLines parse [l, l']) _ s).trans (Eq.trans ?_ (evalBind (distLines parse [l']) _ _).symm)
  rw [h2]
  rfl

theorem histogram_one {l : Str} {e : Expr} (h : parse l = .ok e) (s : State) : interpHistogramDist parse [l] s = e.dist s := by
  show (EvalM.ofRes (parse l) >>= fun e => e.dist >>= fun d => pure d) s = _
  rw [evalBind_ok (m := EvalM.ofRes (parse l)) (s' := s) (a := e) (by rw [h]; rfl), evalBind]
  rcases e.dist s with ⟨r, u⟩
  cases r <;> rfl

theorem histogram_two {l l' : Str} {e : Expr} (h : parse l = .ok e) {s u : State} {d : Dist} (hr : e.dist s = (.ok d, u)) :
    interpHistogramDist parse [l, l'] s = interpHistogramDist parse [l'] u := by
  show (EvalM.ofRes (parse l) >>= fun e => e.dist >>= fun d => lastDist parse [l'] d) s = _
  rw [evalBind_ok (m := EvalM.ofRes (parse l)) (s' := s) (a := e) (by rw [h]; rfl), evalBind_ok hr]
  rfl

/-- What `max` and `min` do with the last line's number. -/
def storeInt : Res Int × State → Res (List (Str × Int)) × State
  | (.ok v, u) => (.ok (dictSet u.constants stdoutName v), { u with constants := dictSet u.constants stdoutName v })
  | (.error er, u) => (.error er, u)

theorem interpExtreme_one {isMax : Bool} {l : Str} {e : Expr} (h : parse l = .ok e) (s : State) :
    interpExtreme parse isMax [l] s = storeInt (e.extreme isMax s) := by
  have h1 : extremeLine parse isMax l s =
      (e.extreme isMax >>= fun v => (fun s => (.ok (), { s with constants := dictSet s.constants stdoutName v }) : EvalM Unit)) s := by
    unfold extremeLine
    exact evalBind_ok (m := EvalM.ofRes (parse l)) (s' := s) (a := e) (by rw [h]; rfl)
  rcases hr : e.extreme isMax s with ⟨r, u⟩
  cases r with
  | error er =>
    replace h1 := h1.trans (evalBind_error hr)
    refine evalBind_error (m := extremeLines parse isMax [l]) (s' := u) ?_
    exact evalBind_error h1
  | ok v =>
    replace h1 := h1.trans (evalBind_ok hr)
    refine (evalBind_ok (m := extremeLines parse isMax [l]) (s' := { u with constants := dictSet u.constants stdoutName v }) (a := ()) ?_).trans ?_
    · exact (evalBind_ok h1).trans rfl
    · simp [storeInt, constantsReturned]

theorem interpExtreme_two {isMax : Bool} {l l' : Str} {e : Expr} (h : parse l = .ok e) {s u : State} {v : Int}
    (hr : e.extreme isMax s = (.ok v, u)) :
    interpExtreme parse isMax [l, l'] s = interpExtreme parse isMax [l'] { u with constants := dictSet u.constants stdoutName v } := by
  have h1 : extremeLine parse isMax l s = (.ok (), { u with constants := dictSet u.constants stdoutName v }) := by
    unfold extremeLine
    exact (evalBind_ok (m := EvalM.ofRes (parse l)) (s' := s) (a := e) (by rw [h]; rfl)).trans (evalBind_ok hr)
  have h2 : extremeLines parse isMax [l, l'] s = extremeLines parse isMax [l'] { u with constants := dictSet u.constants stdoutName v } :=
    evalBind_ok h1
  refine (evalBind (extremeLines parse isMax [l, l']) _ s).trans (Eq.trans ?_ (evalBind (extremeLines parse isMax [l']) _ _).symm)
  rw [h2]
  rfl

theorem expect_rollLine {l : Str} {e : Expr} (h : parse l = .ok e) (s : State) (F : Res Unit × State → ℚ) :
    (rollLine parse l s).expect F = (e.roll s).expect fun r => match r with
      | (.ok v, u) => F (.ok (), { u with constants := dictSet u.constants stdoutName v })
      | (.error er, u) => F (.error er, u) := by
  unfold rollLine
  rw [expect_rollBind]
  have h1 : RollM.ofEval (EvalM.ofRes (parse l)) s = .pure (.ok e, s) := by rw [h]; rfl
  rw [h1]
  refine (expect_rollBind e.roll
    (fun v => (fun s => .pure (.ok (), { s with constants := dictSet s.constants stdoutName v }) : RollM Unit)) s F).trans ?_
  refine Rand.expect_congr fun y _ => ?_
  obtain ⟨y, u⟩ := y
  cases y <;> rfl

theorem interpRoll_one {l : Str} {e : Expr} (h : parse l = .ok e) (s : State) (φ : Int → ℚ) :
    (interpRoll parse [l] s).expect (outputValue φ) = e.hits s φ := by
  refine (expect_rollBind (rollLines parse [l]) _ s _).trans ?_
  show ((rollLine parse l >>= fun _ => pure ()) s).expect _ = _
  rw [expect_rollBind, expect_rollLine h]
  refine Rand.expect_congr fun y _ => ?_
  obtain ⟨y, u⟩ := y
  cases y with
  | error er => rfl
  | ok v =>
    show outputValue φ (.ok (constantsReturned [l] { u with constants := dictSet u.constants stdoutName v }),
      { u with constants := dictSet u.constants stdoutName v }) = φ v
    simp [constantsReturned, outputValue, get_set]

theorem interpRoll_two {l l' : Str} {x : Str} {e e' : Expr} (h : parse l = .ok (.assign x e)) (h' : parse l' = .ok e') (he : e.NoAssign)
    (s : State) (φ : Int → ℚ) : (interpRoll parse [l, l'] s).expect (outputValue φ) = e.hits s fun v =>
      e'.hits { s.setConstant x v with constants := dictSet (s.setConstant x v).constants stdoutName v } φ := by
  refine (expect_rollBind (rollLines parse [l, l']) _ s _).trans ?_
  show ((rollLine parse l >>= fun _ => rollLines parse [l']) s).expect _ = _
  rw [expect_rollBind, expect_rollLine h]
  show ((e.roll >>= fun v => RollM.ofEval (EvalM.setConstant x v) >>= fun _ => pure v) s).expect _ = _
  rw [expect_rollBind]
  refine Rand.expect_congr fun y hy => ?_
  obtain ⟨y, u⟩ := y
  obtain rfl : u = s := noAssign_roll he hy
  cases y with
  | error er => rfl
  | ok v =>
    have := interpRoll_one h' { u.setConstant x v with constants := dictSet (u.setConstant x v).constants stdoutName v } φ
    show _ = e'.hits { u.setConstant x v with constants := dictSet (u.setConstant x v).constants stdoutName v } φ
    rw [← this]
    exact (expect_rollBind (rollLines parse [l']) _ _ _).symm

end

end PyDice
