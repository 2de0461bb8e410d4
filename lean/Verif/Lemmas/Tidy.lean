import Verif.Lemmas.Names
import Verif.Lemmas.Dist
import Verif.Lemmas.Eval
/-!
# The shape of every distribution that expressions compute and the state stores
-/

namespace PyDice
open PyRuntime

section
variable [R : PyRuntime]

/-- Every outcome fixes exactly the variables in `A`; outcomes that can hold together carry the same constraint-set object. -/
structure Tidy (A : Str → Prop) (d : Dist) : Prop where
  constructed : d.Constructed
  proper : d.Proper
  normal : ∀ p ∈ d.resultMap, Normal p.1.cs
  pins : ∀ p ∈ d.resultMap, ∃ ρ : Str → Int, ∀ ω, Sat ω p.1.cs ↔ ∀ n, A n → ω n = ρ n
  coherent : ∀ p ∈ d.resultMap, ∀ q ∈ d.resultMap, (∃ ω, Sat ω p.1.cs ∧ Sat ω q.1.cs) → p.1.cs = q.1.cs

theorem Tidy.sat {A : Str → Prop} {d : Dist} (h : Tidy A d) {p : Outcome × Nat} (hp : p ∈ d.resultMap) : ∃ ω, Sat ω p.1.cs := by
  obtain ⟨ρ, hρ⟩ := h.pins p hp
  exact ⟨ρ, (hρ ρ).mpr (fun _ _ => rfl)⟩

/-- Whether an outcome holds depends on the variables in `A` only. -/
theorem Tidy.local {A : Str → Prop} {d : Dist} (h : Tidy A d) {p : Outcome × Nat} (hp : p ∈ d.resultMap) {ω ω' : Str → Int}
    (hω : ∀ n, A n → ω n = ω' n) : Sat ω p.1.cs ↔ Sat ω' p.1.cs := by
  obtain ⟨ρ, hρ⟩ := h.pins p hp
  rw [hρ, hρ]
  exact forall_congr' fun n => imp_congr_right fun hn => by rw [hω n hn]

theorem tidy_mkDistInt {m : List (Int × Nat)} {d : Dist} (h : mkDistInt m = .ok d) : Tidy (fun _ => False) d := by
  rw [mkDistInt_eq] at h
  injection h with h
  subst h
  have hcs : ∀ p ∈ (mkDist (m.map fun p => ((⟨p.1, (nullCS : CSet)⟩ : Outcome), p.2))).resultMap, p.1.cs = nullCS := by
    intro p hp
    obtain ⟨q, hq, h⟩ := mem_mkDist _ hp
    rw [List.mem_map] at hq
    obtain ⟨r, _, rfl⟩ := hq
    rw [← h]
  refine ⟨⟨_, rfl⟩, ?_, ?_, ?_, ?_⟩
  · intro p hp; rw [hcs p hp]; exact nullCS_ne_nil
  · intro p hp; rw [hcs p hp]; exact normal_nullCS
  · intro p hp; exact ⟨fun _ => 0, fun ω => by rw [hcs p hp]; simp [sat_nullCS]⟩
  · intro p hp q hq _; rw [hcs p hp, hcs q hq]

theorem tidy_mapValue {A : Str → Prop} {d : Dist} (g : Int → Int) (h : Tidy A d) : Tidy A (d.mapValue g) := by
  have hcs : ∀ e ∈ (d.mapValue g).resultMap, ∃ p ∈ d.resultMap, e.1.cs = p.1.cs := by
    intro e he
    obtain ⟨p, hp, h⟩ := mapValue_mem he
    exact ⟨p, hp, by rw [h]⟩
  refine ⟨mapValue_constructed g d, mapValue_proper g h.proper, ?_, ?_, ?_⟩
  · intro e he; obtain ⟨p, hp, he⟩ := hcs e he; rw [he]; exact h.normal p hp
  · intro e he; obtain ⟨p, hp, he⟩ := hcs e he; rw [he]; exact h.pins p hp
  · intro e he f hf hs
    obtain ⟨p, hp, he⟩ := hcs e he
    obtain ⟨q, hq, hf⟩ := hcs f hf
    rw [he, hf] at hs ⊢
    exact h.coherent p hp q hq hs

theorem tidy_binop {A B : Str → Prop} {op : BinOp} {a b d : Dist} (ha : Tidy A a) (hb : Tidy B b)
    (h : Dist.binop op a b = .ok d) : Tidy (fun n => A n ∨ B n) d := by
  refine ⟨binop_constructed h, binop_proper h ha.proper, ?_, ?_, ?_⟩
  · intro e he
    obtain ⟨p, hp, q, hq, _, hc, _⟩ := binop_mem h ha.proper he
    exact hc.normal
  · intro e he
    obtain ⟨p, hp, q, hq, _, hc, hpos, _⟩ := binop_mem h ha.proper he
    obtain ⟨ω₀, h₀⟩ := (isPossible_iff hc.normal).mp hpos
    rw [hc.sat] at h₀
    obtain ⟨ρ, hρ⟩ := ha.pins p hp
    obtain ⟨σ, hσ⟩ := hb.pins q hq
    have h1 := (hρ ω₀).mp h₀.1
    have h2 := (hσ ω₀).mp h₀.2
    refine ⟨ω₀, fun ω => ?_⟩
    rw [hc.sat, hρ, hσ]
    constructor
    · rintro ⟨hA, hB⟩ n (hn | hn)
      · rw [hA n hn, h1 n hn]
      · rw [hB n hn, h2 n hn]
    · intro hn
      exact ⟨fun n hA => by rw [hn n (Or.inl hA), h1 n hA], fun n hB => by rw [hn n (Or.inr hB), h2 n hB]⟩
  · intro e he e' he' hs
    obtain ⟨p, hp, q, hq, _, hc, _, hcomb⟩ := binop_mem h ha.proper he
    obtain ⟨p', hp', q', hq', _, hc', _, hcomb'⟩ := binop_mem h ha.proper he'
    obtain ⟨ω, h1, h2⟩ := hs
    rw [hc.sat] at h1
    rw [hc'.sat] at h2
    have e1 := ha.coherent p hp p' hp' ⟨ω, h1.1, h2.1⟩
    have e2 := hb.coherent q hq q' hq' ⟨ω, h1.2, h2.2⟩
    rw [e1, e2, hcomb'] at hcomb
    injection hcomb with hcomb
    exact hcomb.symm

/-! ### Tagging -/

/-- The constraint set given to an outcome by `set_var`. -/
noncomputable def tagCS (name : Str) (o : Outcome) : CSet := (tagOutcome_ok name o).choose

theorem tagOutcome_eq (name : Str) (o : Outcome) : tagOutcome name o = .ok ⟨o.value, tagCS name o⟩ :=
  (tagOutcome_ok name o).choose_spec.1

theorem tagCS_merged (name : Str) (o : Outcome) : MergedInto [.varValue name [o.value]] (deepcopy o.cs) (tagCS name o) :=
  (tagOutcome_ok name o).choose_spec.2.2

theorem tagCS_sat (name : Str) (o : Outcome) (ω : Str → Int) : Sat ω (tagCS name o) ↔ ω name = o.value ∧ Sat ω o.cs := by
  rw [(tagCS_merged name o).sat, sat_deepcopy]
  simp [Constraint.Sat]

/-- The tagged outcome. -/
noncomputable def tagO (name : Str) (o : Outcome) : Outcome := ⟨o.value, tagCS name o⟩

theorem tagLoop_eq (name : Str) : ∀ m acc : List (Outcome × Nat),
    tagLoop name m acc = .ok (m.foldl (fun a p => dictSet a (tagO name p.1) p.2) acc) := by
  intro m
  induction m with
  | nil => intro acc; rfl
  | cons p m ih =>
    intro acc
    unfold tagLoop
    rw [tagOutcome_eq]
    exact ih _

theorem tagged_eq (name : Str) (d : Dist) :
    tagged name d = mkDist (d.resultMap.foldl (fun a p => dictSet a (tagO name p.1) p.2) []) := by
  unfold tagged
  have h := (tagLoop_ok name d.getConstraintResultMap []).choose_spec
  have h' := h.symm.trans (tagLoop_eq name d.getConstraintResultMap [])
  injection h' with h'
  rw [h']; rfl

omit R in
theorem dictSet_fresh {κ ν : Type} [BEq κ] (k : κ) (v : ν) : ∀ acc : List (κ × ν), (∀ q ∈ acc, (q.1 == k) = false) →
    dictSet acc k v = acc ++ [(k, v)] := by
  intro acc
  induction acc with
  | nil => intro _; rfl
  | cons q acc ih =>
    intro h
    unfold dictSet
    rw [h q (by simp)]
    simp only [Bool.false_eq_true, if_false, List.cons_append]
    rw [ih (fun r hr => h r (by simp [hr]))]

omit R in
theorem safeAdd_fresh {κ : Type} [BEq κ] (k : κ) (v : Nat) : ∀ acc : List (κ × Nat), (∀ q ∈ acc, (q.1 == k) = false) →
    safeAdd acc k v = acc ++ [(k, v)] := by
  intro acc
  induction acc with
  | nil => intro _; simp [safeAdd]
  | cons q acc ih =>
    intro h
    unfold safeAdd
    rw [h q (by simp)]
    simp only [Bool.false_eq_true, if_false, List.cons_append]
    rw [ih (fun r hr => h r (by simp [hr]))]

omit R in
theorem foldl_dictSet_distinct {κ ν : Type} [BEq κ] : ∀ m acc : List (κ × ν), DistinctKeys (acc ++ m) →
    m.foldl (fun a p => dictSet a p.1 p.2) acc = acc ++ m := by
  intro m
  induction m with
  | nil => intro acc _; simp
  | cons p m ih =>
    intro acc h
    have hf : ∀ q ∈ acc, (q.1 == p.1) = false := fun q hq => (List.pairwise_append.mp h).2.2 q hq p (by simp)
    rw [List.foldl_cons, dictSet_fresh _ _ _ hf, ih _ (by simpa using h)]
    simp

omit R in
theorem foldl_safeAdd_distinct {κ : Type} [BEq κ] : ∀ m acc : List (κ × Nat), DistinctKeys (acc ++ m) →
    m.foldl (fun a p => safeAdd a p.1 p.2) acc = acc ++ m := by
  intro m
  induction m with
  | nil => intro acc _; simp
  | cons p m ih =>
    intro acc h
    have hf : ∀ q ∈ acc, (q.1 == p.1) = false := fun q hq => (List.pairwise_append.mp h).2.2 q hq p (by simp)
    rw [List.foldl_cons, safeAdd_fresh _ _ _ hf, ih _ (by simpa using h)]
    simp

/-- Tagging with a fresh name keeps all outcomes apart. -/
theorem tagged_resultMap {A : Str → Prop} {d : Dist} (h : Tidy A d) {name : Str} (hn : ¬ A name) :
    (tagged name d).resultMap = d.resultMap.map fun p => (tagO name p.1, p.2) := by
  have hd : DistinctKeys (d.resultMap.map fun p => (tagO name p.1, p.2)) := by
    unfold DistinctKeys
    rw [List.pairwise_map]
    have h0 := distinct_constructed h.constructed
    refine List.Pairwise.imp_of_mem ?_ h0
    intro p q hp hq hpq
    by_contra hc
    simp only [Bool.not_eq_false] at hc
    obtain ⟨h1, h2⟩ := outcome_beq.mp hc
    have hv : p.1.value = q.1.value := h1
    obtain ⟨ρ, hρ⟩ := h.pins p hp
    have hs : Sat (updAt ρ name p.1.value) (tagCS name p.1) := by
      rw [tagCS_sat, hρ]
      refine ⟨by simp [updAt], fun n hA => ?_⟩
      have : n ≠ name := fun he => hn (he ▸ hA)
      simp [updAt, this]
    have hs' : Sat (updAt ρ name p.1.value) (tagCS name q.1) := by
      have : iter (tagCS name p.1) = iter (tagCS name q.1) := h2
      unfold Sat at hs ⊢
      rwa [← this]
    rw [tagCS_sat] at hs hs'
    have := h.coherent p hp q hq ⟨_, hs.2, hs'.2⟩
    have : (p.1 == q.1) = true := outcome_beq.mpr ⟨hv, by rw [this]⟩
    rw [this] at hpq
    exact absurd hpq (by simp)
  have e1 := foldl_dictSet_distinct (d.resultMap.map fun p => (tagO name p.1, p.2)) [] (by simpa using hd)
  rw [List.foldl_map] at e1
  rw [tagged_eq, e1]
  unfold mkDist
  simpa using foldl_safeAdd_distinct (d.resultMap.map fun p => (tagO name p.1, p.2)) [] (by simpa using hd)

theorem tagged_constructed (name : Str) (d : Dist) : (tagged name d).Constructed := ⟨_, rfl⟩

theorem tidy_tagged {A : Str → Prop} {d : Dist} (h : Tidy A d) {name : Str} (hn : ¬ A name) :
    Tidy (fun n => n = name ∨ A n) (tagged name d) := by
  have hm := tagged_resultMap h hn
  have key : ∀ e ∈ (tagged name d).resultMap, ∃ p ∈ d.resultMap, e.1 = tagO name p.1 := by
    intro e he
    rw [hm, List.mem_map] at he
    obtain ⟨p, hp, rfl⟩ := he
    exact ⟨p, hp, rfl⟩
  refine ⟨tagged_constructed _ _, ?_, ?_, ?_, ?_⟩
  · intro e he
    obtain ⟨p, hp, h1⟩ := key e he
    rw [h1]
    exact (tagCS_merged name p.1).nonempty (Or.inl (by simp))
  · intro e he
    obtain ⟨p, hp, h1⟩ := key e he
    rw [h1]
    exact (tagCS_merged name p.1).normal (normal_deepcopy _ (h.normal p hp))
  · intro e he
    obtain ⟨p, hp, h1⟩ := key e he
    obtain ⟨ρ, hρ⟩ := h.pins p hp
    refine ⟨updAt ρ name p.1.value, fun ω => ?_⟩
    rw [h1]
    have : Sat ω (tagO name p.1).cs ↔ ω name = p.1.value ∧ Sat ω p.1.cs := tagCS_sat name p.1 ω
    rw [this, hρ]
    constructor
    · rintro ⟨h2, h3⟩ n (rfl | hA)
      · simpa [updAt] using h2
      · have hne : n ≠ name := fun he => hn (he ▸ hA)
        simpa [updAt, hne] using h3 n hA
    · intro h2
      refine ⟨by simpa [updAt] using h2 name (Or.inl rfl), fun n hA => ?_⟩
      have hne : n ≠ name := fun he => hn (he ▸ hA)
      simpa [updAt, hne] using h2 n (Or.inr hA)
  · intro e he e' he' hs
    obtain ⟨p, hp, h1⟩ := key e he
    obtain ⟨q, hq, h2⟩ := key e' he'
    obtain ⟨ω, h3, h4⟩ := hs
    rw [h1] at h3
    rw [h2] at h4
    obtain ⟨h5, h6⟩ := (tagCS_sat name p.1 ω).mp h3
    obtain ⟨h7, h8⟩ := (tagCS_sat name q.1 ω).mp h4
    have hcs := h.coherent p hp q hq ⟨ω, h6, h8⟩
    have hv : p.1.value = q.1.value := h5.symm.trans h7
    have : p.1 = q.1 := by
      cases hpo : p.1 with
      | mk v cs => cases hqo : q.1 with
        | mk w cs' => rw [hpo, hqo] at hv hcs; simp only at hv hcs; rw [hv, hcs]
    rw [h1, h2, this]

theorem tagged_EGiven {M : Type} [AddCommMonoid M] {A : Str → Prop} {d : Dist} (h : Tidy A d) {name : Str} (hn : ¬ A name)
    (ω : Str → Int) (f : Int → M) :
    (tagged name d).EGiven ω f = d.EGiven ω (fun v => if ω name = v then f v else 0) := by
  classical
  unfold Dist.EGiven
  rw [tagged_resultMap h hn, wsum_map d.resultMap (tagO name) (given ω f)]
  apply wsum_congr
  intro p _
  unfold given
  have : Sat ω (tagO name p.1).cs ↔ ω name = p.1.value ∧ Sat ω p.1.cs := tagCS_sat name p.1 ω
  simp only [this]
  have hv : (tagO name p.1).value = p.1.value := rfl
  rw [hv]
  by_cases h1 : ω name = p.1.value <;> by_cases h2 : Sat ω p.1.cs <;> simp [h1, h2]

/-! ### All distributions in all states are tidy -/

/-- The names that `set_var` has used so far. -/
def State.Used (s : State) (m : Str) : Prop := ∃ n k, m = versionName n k ∧ 1 ≤ k ∧ k ≤ s.times n

/-- The distribution fixes names already used only. -/
def TidyIn (s : State) (d : Dist) : Prop := ∃ A : Str → Prop, Tidy A d ∧ ∀ m, A m → s.Used m

/-- All stored distributions are tidy. -/
def TidyState (s : State) : Prop := ∀ n d, dictGet? s.var n = some d → TidyIn s d

/-- The counters never decrease. -/
def Later (s t : State) : Prop := ∀ n, s.times n ≤ t.times n

theorem later_refl (s : State) : Later s s := fun _ => le_refl _
theorem Later.trans {s t u : State} (h : Later s t) (h' : Later t u) : Later s u := fun n => le_trans (h n) (h' n)

theorem Later.used {s t : State} (h : Later s t) {m : Str} (hm : s.Used m) : t.Used m := by
  obtain ⟨n, k, h1, h2, h3⟩ := hm
  exact ⟨n, k, h1, h2, le_trans h3 (h n)⟩

theorem Later.tidyIn {s t : State} (h : Later s t) {d : Dist} (hd : TidyIn s d) : TidyIn t d := by
  obtain ⟨A, h1, h2⟩ := hd
  exact ⟨A, h1, fun m hm => h.used (h2 m hm)⟩

theorem fresh_version (s : State) (x : Str) : ¬ s.Used (versionName x (s.times x + 1)) := by
  rintro ⟨n, k, h1, _, h3⟩
  obtain ⟨rfl, rfl⟩ := versionName_injective h1
  omega

theorem tidyState_new : TidyState State.new := by intro n d h; simp [State.new, dictGet?] at h

theorem later_setConstant (s : State) (x : Str) (v : Int) : Later s (s.setConstant x v) := by
  intro n; rw [times_setConstant]; omega

theorem later_setVar (s : State) (x : Str) (d : Dist) : Later s (s.setVar x d).2 := by
  intro n; rw [times_setVar]; omega

theorem tidyState_setConstant {s : State} (h : TidyState s) (x : Str) (v : Int) : TidyState (s.setConstant x v) :=
  fun n d hd => (later_setConstant s x v).tidyIn (h n d hd)

theorem tidyState_setVar {s : State} (h : TidyState s) (x : Str) {d : Dist} (hd : TidyIn s d) : TidyState (s.setVar x d).2 := by
  intro n d' hd'
  have hl := later_setVar s x d
  have hv : (s.setVar x d).2.var = dictSet s.var x (tagged (versionName x (s.times x + 1)) d) := by rw [setVar_eq]
  rw [hv, get_set] at hd'
  split at hd'
  · cases hd'
    obtain ⟨A, h1, h2⟩ := hd
    have hf : ¬ A (versionName x (s.times x + 1)) := fun hA => fresh_version s x (h2 _ hA)
    refine ⟨_, tidy_tagged h1 hf, ?_⟩
    rintro m (rfl | hA)
    · refine ⟨x, s.times x + 1, rfl, by omega, ?_⟩
      rw [times_setVar]; simp
    · exact hl.used (h2 m hA)
  · exact hl.tidyIn (h n d' hd')

/-- A computation keeps states tidy and its result satisfies `Q`. -/
def Keeps {α : Type} (m : EvalM α) (Q : State → α → Prop) : Prop :=
  ∀ s, TidyState s → TidyState (m s).2 ∧ Later s (m s).2 ∧ ∀ a, (m s).1 = .ok a → Q (m s).2 a

theorem keeps_bind {α β : Type} {m : EvalM α} {f : α → EvalM β} {Q : State → α → Prop} {Q' : State → β → Prop}
    (hm : Keeps m Q) (hf : ∀ a s, TidyState s → Q s a →
      TidyState (f a s).2 ∧ Later s (f a s).2 ∧ ∀ b, (f a s).1 = .ok b → Q' (f a s).2 b) : Keeps (m >>= f) Q' := by
  intro s hs
  obtain ⟨h1, h2, h3⟩ := hm s hs
  rw [evalBind]
  rcases hr : m s with ⟨r, s'⟩
  rw [hr] at h1 h2 h3
  cases r with
  | error e => exact ⟨h1, h2, by intro a ha; cases ha⟩
  | ok a =>
    obtain ⟨h4, h5, h6⟩ := hf a s' h1 (h3 a rfl)
    exact ⟨h4, h2.trans h5, h6⟩

theorem keeps_ofRes {α : Type} (r : Res α) (Q : State → α → Prop) (h : ∀ s a, r = .ok a → Q s a) : Keeps (EvalM.ofRes r) Q :=
  fun s hs => ⟨hs, later_refl s, fun a ha => h s a ha⟩

theorem tidyIn_int {s : State} {m : List (Int × Nat)} {d : Dist} (h : mkDistInt m = .ok d) : TidyIn s d :=
  ⟨_, tidy_mkDistInt h, fun _ h => h.elim⟩

theorem tidyIn_binop {s : State} {op : BinOp} {a b d : Dist} (ha : TidyIn s a) (hb : TidyIn s b)
    (h : Dist.binop op a b = .ok d) : TidyIn s d := by
  obtain ⟨A, h1, h2⟩ := ha
  obtain ⟨B, h3, h4⟩ := hb
  refine ⟨_, tidy_binop h1 h3 h, ?_⟩
  rintro m (hA | hB)
  · exact h2 m hA
  · exact h4 m hB

theorem tidyIn_addDice {s : State} {single : Dist} (hs : TidyIn s single) : ∀ (n : Nat) (d r : Dist), TidyIn s d →
    addDice single n d = .ok r → TidyIn s r := by
  intro n
  induction n with
  | zero => intro d r hd h; cases h; exact hd
  | succ n ih =>
    intro d r hd h
    unfold addDice at h
    obtain ⟨d', h1, h2⟩ := bind_eq_ok.mp h
    exact ih d' r (tidyIn_binop hd hs h1) h2

theorem tidyIn_dice (s : State) {t : DiceTerm} {d : Dist} (h : t.dist = .ok d) : TidyIn s d := by
  unfold DiceTerm.dist at h
  obtain ⟨single, h1, h⟩ := bind_eq_ok.mp h
  obtain ⟨d0, h2, h⟩ := bind_eq_ok.mp h
  exact tidyIn_addDice (tidyIn_int h1) _ _ _ (tidyIn_int h2) h

theorem tidyIn_dropKeep (s : State) {t : DropKeepTerm} {d : Dist} (h : t.dist = .ok d) : TidyIn s d := by
  unfold DropKeepTerm.dist at h
  split at h
  · exact tidyIn_dice s h
  · exact tidyIn_int h
  · obtain ⟨m, h1, h⟩ := bind_eq_ok.mp h
    exact tidyIn_int h

theorem keeps_two {a b : EvalM Dist} (op : BinOp) (ha : Keeps a TidyIn) (hb : Keeps b TidyIn) :
    Keeps (do let x ← a; let y ← b; EvalM.ofRes (Dist.binop op x y)) TidyIn := by
  refine keeps_bind ha ?_
  intro x s hs hx
  have h := keeps_bind (Q' := fun s d => TidyIn s x → TidyIn s d) (f := fun y => EvalM.ofRes (Dist.binop op x y)) hb
    (fun y s' hs' hy => ⟨hs', later_refl s', fun d hd hx' => tidyIn_binop hx' hy hd⟩)
  obtain ⟨h1, h2, h3⟩ := h s hs
  exact ⟨h1, h2, fun d hd => h3 d hd (h2.tidyIn hx)⟩

theorem keeps_dist : ∀ e : Expr, Keeps e.dist TidyIn := by
  intro e
  induction e with
  | paren e ih => exact ih
  | not e ih =>
    refine keeps_bind ih ?_
    rintro d s hs ⟨A, h1, h2⟩
    refine ⟨hs, later_refl s, fun d' hd' => ?_⟩
    cases hd'
    exact ⟨A, by rw [notOp_eq]; exact tidy_mapValue _ h1, h2⟩
  | abs e ih =>
    refine keeps_bind ih ?_
    rintro d s hs ⟨A, h1, h2⟩
    refine ⟨hs, later_refl s, fun d' hd' => ?_⟩
    cases hd'
    exact ⟨A, by rw [absOp_eq]; exact tidy_mapValue _ h1, h2⟩
  | dropKeep t => exact keeps_ofRes _ _ (fun s d h => tidyIn_dropKeep s h)
  | dice t => exact keeps_ofRes _ _ (fun s d h => tidyIn_dice s h)
  | constInt t =>
    refine keeps_ofRes _ _ (fun s d h => ?_)
    obtain ⟨v, _, h⟩ := bind_eq_ok.mp h
    exact tidyIn_int h
  | constBin t => exact keeps_ofRes _ _ (fun s d h => tidyIn_int h)
  | add a b iha ihb => exact keeps_two .add iha ihb
  | sub a b iha ihb => exact keeps_two .sub iha ihb
  | mul a b iha ihb => exact keeps_two .mul iha ihb
  | div a b iha ihb => exact keeps_two .floordiv iha ihb
  | bin op a b iha ihb => exact keeps_two op.toBinOp iha ihb
  | minmax k a b iha ihb => exact keeps_two (if k then .max else .min) iha ihb
  | assign x e ih =>
    refine keeps_bind ih ?_
    intro d s hs hd
    have hset : (do EvalM.setVar x d; return d : EvalM Dist) s = (.ok d, (s.setVar x d).2) := by
      rw [evalBind]
      unfold EvalM.setVar
      rw [setVar_eq]; rfl
    rw [hset]
    refine ⟨tidyState_setVar hs x hd, later_setVar s x d, fun d' hd' => ?_⟩
    cases hd'
    exact (later_setVar s x d).tidyIn hd
  | getVar n =>
    intro s hs
    refine ⟨hs, later_refl s, fun d hd => ?_⟩
    simp only [Expr.dist, EvalM.read, State.getVar] at hd
    split at hd
    · rename_i v hv; cases hd; exact hs n _ hv
    · cases hd

end

end PyDice
