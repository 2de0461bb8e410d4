import Verif.Lemmas.Dict
import Verif.Lemmas.ConstraintUnique
/-!
# Lemmas about distributions
-/

namespace PyDice
open PyRuntime

section
variable [R : PyRuntime]

theorem outcome_beq {a b : Outcome} : (a == b) = true ↔ a.value = b.value ∧ iter a.cs = iter b.cs := by
  simp [BEq.beq, csEq]

theorem outcome_beq_refl (a : Outcome) : (a == a) = true := outcome_beq.mpr ⟨rfl, rfl⟩

theorem resp_value {α : Type} (f : Int → α) : Resp (fun o : Outcome => f o.value) := by
  intro a b h
  simp only [(outcome_beq.mp h).1]

theorem resp_iter {α : Type} (f : Int → List Constraint → α) : Resp (fun o : Outcome => f o.value (iter o.cs)) := by
  intro a b h
  simp only [(outcome_beq.mp h).1, (outcome_beq.mp h).2]

open Classical in
/-- `f(value)` on the outcomes that agree with the assignment, 0 elsewhere. -/
noncomputable def given {M : Type} [Zero M] (ω : Str → Int) (f : Int → M) (o : Outcome) : M :=
  if Sat ω o.cs then f o.value else 0

theorem resp_given {M : Type} [Zero M] (ω : Str → Int) (f : Int → M) : Resp (given ω f) := by
  classical
  intro a b h
  obtain ⟨h1, h2⟩ := outcome_beq.mp h
  have hs : Sat ω a.cs ↔ Sat ω b.cs := by simp only [Sat, h2]
  unfold given
  by_cases hb : Sat ω b.cs
  · rw [if_pos hb, if_pos (hs.mpr hb), h1]
  · rw [if_neg hb, if_neg (fun h => hb (hs.mp h))]

/-- Sum of `count * f(value)` over the outcomes agreeing with the assignment. -/
noncomputable def Dist.EGiven {M : Type} [AddCommMonoid M] (d : Dist) (ω : Str → Int) (f : Int → M) : M :=
  wsum d.resultMap (given ω f)

/-- Sum of `count * f(value)` over all outcomes. -/
def Dist.E {M : Type} [AddCommMonoid M] (d : Dist) (f : Int → M) : M := wsum d.resultMap (fun o => f o.value)

theorem wsum_mkDist {M : Type} [AddCommMonoid M] (m : List (Outcome × Nat)) (f : Outcome → M) (hf : Resp f) :
    wsum (mkDist m).resultMap f = wsum m f := by
  unfold mkDist
  simp only
  rw [wsum_foldl_safeAdd m (fun p => p.1) (fun p => p.2) f hf]
  simp [wsum]

theorem exists_mkDist (m : List (Outcome × Nat)) (P : Outcome → Prop) (hP : Resp P) :
    (∃ p ∈ (mkDist m).resultMap, P p.1) ↔ ∃ p ∈ m, P p.1 := by
  unfold mkDist
  simp only
  rw [exists_foldl_safeAdd m (fun p => p.1) (fun p => p.2) P hP]
  simp

theorem mem_mkDist (m : List (Outcome × Nat)) {p : Outcome × Nat} (h : p ∈ (mkDist m).resultMap) :
    ∃ q ∈ m, q.1 = p.1 := by
  unfold mkDist at h
  simp only at h
  rcases mem_foldl_safeAdd_key m (fun p => p.1) (fun p => p.2) [] p h with h | ⟨q, hq, _⟩
  · exact h
  · simp at hq

theorem pos_mkDist (m : List (Outcome × Nat)) (h : ∀ p ∈ m, 0 < p.2) : ∀ p ∈ (mkDist m).resultMap, 0 < p.2 := by
  unfold mkDist
  exact pos_foldl_safeAdd m (fun p => p.1) (fun p => p.2) h [] (by simp)

theorem distinct_mkDist (m : List (Outcome × Nat)) : DistinctKeys (mkDist m).resultMap := by
  unfold mkDist
  exact distinct_foldl_safeAdd m (fun p => p.1) (fun p => p.2) [] (by simp [DistinctKeys])

omit R in
theorem foldl_count {κ : Type} (l : List (κ × Nat)) : ∀ c : Nat,
    l.foldl (fun c p => c + p.2) c = c + wsum l (fun _ => 1) := by
  induction l with
  | nil => intro c; simp
  | cons p l ih => intro c; simp only [List.foldl_cons, ih, wsum_cons]; simp [add_assoc]

theorem outcomeCount_constructed {d : Dist} (h : d.Constructed) : d.outcomeCount = wsum d.resultMap (fun _ => 1) := by
  obtain ⟨m, rfl⟩ := h
  unfold mkDist
  simp only [foldl_count]
  simp

theorem distinct_constructed {d : Dist} (h : d.Constructed) : DistinctKeys d.resultMap := by
  obtain ⟨m, rfl⟩ := h; exact distinct_mkDist m

theorem wsum_getResultMap {M : Type} [AddCommMonoid M] (d : Dist) (f : Int → M) :
    wsum d.getResultMap f = d.E f := by
  unfold Dist.getResultMap
  rw [wsum_foldl_safeAdd d.resultMap (fun p => p.1.value) (fun p => p.2) f (resp_of_lawful f)]
  simp [wsum, Dist.E]

theorem hasKey_getResultMap (d : Dist) (v : Int) : hasKey d.getResultMap v ↔ ∃ p ∈ d.resultMap, p.1.value = v := by
  rw [hasKey_iff]
  unfold Dist.getResultMap
  rw [exists_foldl_safeAdd d.resultMap (fun p => p.1.value) (fun p => p.2) (fun x => x = v) (resp_of_lawful _)]
  simp

theorem distinct_getResultMap (d : Dist) : DistinctKeys d.getResultMap :=
  distinct_foldl_safeAdd d.resultMap (fun p => p.1.value) (fun p => p.2) [] (by simp [DistinctKeys])

theorem countOf_getResultMap (d : Dist) (v : Int) :
    countOf d.getResultMap v = d.E (fun x => if x = v then 1 else 0) := by
  rw [countOf_eq_wsum _ _ (distinct_getResultMap d), wsum_getResultMap]

theorem EGiven_untied {M : Type} [AddCommMonoid M] {d : Dist} (h : d.Untied) (ω : Str → Int) (f : Int → M) :
    d.EGiven ω f = d.E f := by
  unfold Dist.EGiven Dist.E
  apply wsum_congr
  intro p hp
  simp [given, h p hp ω]

theorem countGiven_eq (d : Dist) (ω : Str → Int) (v : Int) :
    d.countGiven ω v = d.EGiven ω (fun x => if x = v then 1 else 0) := by
  classical
  unfold Dist.countGiven Dist.EGiven
  apply wsum_congr
  intro p _
  unfold given
  by_cases h : Sat ω p.1.cs <;> simp [h]

/-! ### Construction from ints -/

theorem createConstraintSet_ok : ∃ u : CSet, createConstraintSet = .ok u ∧ (∀ ω, Sat ω u) ∧ Normal u ∧
    iter u ≠ [] ∧ ∀ c ∈ iter u, c = .null := by
  obtain ⟨u, hu, m⟩ := mkConstraintSet_spec (R := R) [.null] (by simp)
  have hn := m.normal normal_empty
  have hs : ∀ ω, Sat ω u := fun ω => by
    rw [m.sat ω]; exact ⟨by simp [Constraint.Sat], sat_empty ω⟩
  have hne := m.nonempty (Or.inl (by simp))
  refine ⟨u, hu, hs, hn, hne, ?_⟩
  intro c hc
  cases c with
  | null => rfl
  | impossible => exact (hs (fun _ => 0) _ hc).elim
  | varValue n vs =>
    obtain ⟨a, ha⟩ := exists_not_mem vs
    exact absurd (hs (fun _ => a) _ hc) ha

/-- The constraint set of outcomes tied to nothing. -/
noncomputable def nullCS : CSet := createConstraintSet_ok.choose

theorem createConstraintSet_eq : createConstraintSet = .ok (nullCS : CSet) := createConstraintSet_ok.choose_spec.1
theorem sat_nullCS (ω : Str → Int) : Sat ω (nullCS : CSet) := createConstraintSet_ok.choose_spec.2.1 ω
theorem normal_nullCS : Normal (nullCS : CSet) := createConstraintSet_ok.choose_spec.2.2.1
theorem nullCS_ne_nil : iter (nullCS : CSet) ≠ [] := createConstraintSet_ok.choose_spec.2.2.2.1

theorem createEmpty_eq (v : Int) : createEmpty v = .ok ⟨v, (nullCS : CSet)⟩ := by
  simp only [createEmpty, createConstraintSet_eq]; rfl

theorem mkDistInt_eq (m : List (Int × Nat)) :
    mkDistInt m = .ok (mkDist (m.map fun p => (⟨p.1, (nullCS : CSet)⟩, p.2))) := by
  unfold mkDistInt
  have : m.mapM (m := Res) (fun p => do return ((← createEmpty p.1), p.2)) =
      .ok (m.map fun p => ((⟨p.1, (nullCS : CSet)⟩ : Outcome), p.2)) := by
    induction m with
    | nil => rfl
    | cons p m ih =>
      rw [List.mapM_cons, ih]
      simp only [createEmpty_eq]; rfl
  rw [this]; rfl

/-- Everything needed to know of a distribution made from an int dict. -/
theorem mkDistInt_spec (m : List (Int × Nat)) : ∃ d, mkDistInt m = .ok d ∧ d.Constructed ∧ d.Untied ∧ d.Proper ∧
    (∀ {M : Type} [AddCommMonoid M] (f : Int → M), d.E f = wsum m f) ∧
    (∀ v, hasKey d.getResultMap v ↔ hasKey m v) := by
  refine ⟨_, mkDistInt_eq m, ⟨_, rfl⟩, ?_, ?_, ?_, ?_⟩
  · intro p hp ω
    obtain ⟨q, hq, h⟩ := mem_mkDist _ hp
    rw [List.mem_map] at hq
    obtain ⟨r, _, rfl⟩ := hq
    rw [← h]; exact sat_nullCS ω
  · intro p hp
    obtain ⟨q, hq, h⟩ := mem_mkDist _ hp
    rw [List.mem_map] at hq
    obtain ⟨r, _, rfl⟩ := hq
    rw [← h]; exact nullCS_ne_nil
  · intro M _ f
    unfold Dist.E
    rw [wsum_mkDist _ _ (resp_value f)]
    exact wsum_map m (fun x => (⟨x, nullCS⟩ : Outcome)) (fun o => f o.value)
  · intro v
    rw [hasKey_getResultMap, exists_mkDist _ (fun o => o.value = v) (resp_value (fun x => x = v)), hasKey_iff]
    simp

/-! ### Binary operators -/

theorem outcome_combine_spec (op : BinOp) (a b : Outcome) (ha : iter a.cs ≠ []) :
    (∀ e, op.apply a.value b.value = .error e → Outcome.combine op a b = .error e) ∧
    (∀ v, op.apply a.value b.value = .ok v →
      ∃ cs, Outcome.combine op a b = .ok ⟨v, cs⟩ ∧ Combined a.cs b.cs cs) := by
  obtain ⟨cs, hcs, m⟩ := combineSets_spec a.cs b.cs (Or.inl ha)
  constructor
  · intro e he; simp only [Outcome.combine, he]; rfl
  · intro v hv; exact ⟨cs, by simp only [Outcome.combine, hv, hcs]; rfl, m⟩

/-- What the loop over the pairs does, in one statement: it succeeds iff the operator is defined on all pairs. -/
theorem combineLoop_ok (op : BinOp) : ∀ (ps : List ((Outcome × Nat) × (Outcome × Nat))) (acc : List (Outcome × Nat)),
    (∀ x ∈ ps, iter x.1.1.cs ≠ []) → (∀ x ∈ ps, ∃ v, op.apply x.1.1.value x.2.1.value = .ok v) →
    ∃ m, combineLoop op ps acc = .ok m := by
  intro ps
  induction ps with
  | nil => intro acc _ _; exact ⟨acc, rfl⟩
  | cons x ps ih =>
    obtain ⟨p, q⟩ := x
    intro acc h1 h2
    obtain ⟨v, hv⟩ := h2 (p, q) (by simp)
    obtain ⟨cs, hcs, _⟩ := (outcome_combine_spec op p.1 q.1 (h1 (p, q) (by simp))).2 v hv
    have h1' : ∀ x ∈ ps, iter x.1.1.cs ≠ [] := fun x hx => h1 x (by simp [hx])
    have h2' : ∀ x ∈ ps, ∃ v, op.apply x.1.1.value x.2.1.value = .ok v := fun x hx => h2 x (by simp [hx])
    unfold combineLoop
    simp only [hcs]
    by_cases hp : Outcome.isPossible ⟨v, cs⟩ = true
    · obtain ⟨m, hm⟩ := ih (safeAdd acc ⟨v, cs⟩ (p.2 * q.2)) h1' h2'
      exact ⟨m, by simp only [bind, Except.bind, hp, if_true]; exact hm⟩
    · obtain ⟨m, hm⟩ := ih acc h1' h2'
      exact ⟨m, by simp only [bind, Except.bind, hp]; exact hm⟩

theorem combineLoop_error (op : BinOp) : ∀ (ps : List ((Outcome × Nat) × (Outcome × Nat))) (acc : List (Outcome × Nat)),
    (∀ x ∈ ps, iter x.1.1.cs ≠ []) → (∃ x ∈ ps, ∀ v, op.apply x.1.1.value x.2.1.value ≠ .ok v) →
    combineLoop op ps acc = .error .zeroDivision := by
  have happly : ∀ x y, (∀ v, op.apply x y ≠ .ok v) → op.apply x y = .error .zeroDivision := by
    intro x y h
    cases op <;> simp [BinOp.apply] at h ⊢
    by_contra hy
    exact h (x.fdiv y) (by simp [hy])
  intro ps
  induction ps with
  | nil => intro acc _ h; obtain ⟨x, hx, _⟩ := h; simp at hx
  | cons x ps ih =>
    obtain ⟨p, q⟩ := x
    intro acc h1 h2
    have h1' : ∀ x ∈ ps, iter x.1.1.cs ≠ [] := fun x hx => h1 x (by simp [hx])
    have hspec := outcome_combine_spec op p.1 q.1 (h1 (p, q) (by simp))
    unfold combineLoop
    by_cases hv : ∀ v, op.apply p.1.value q.1.value ≠ .ok v
    · rw [hspec.1 _ (happly _ _ hv)]; rfl
    · simp only [not_forall, not_not] at hv
      obtain ⟨v, hv⟩ := hv
      obtain ⟨cs, hcs, _⟩ := hspec.2 v hv
      have h2' : ∃ x ∈ ps, ∀ v, op.apply x.1.1.value x.2.1.value ≠ .ok v := by
        obtain ⟨x, hx, hxv⟩ := h2
        rcases List.mem_cons.mp hx with rfl | hx
        · exact absurd hv (hxv v)
        · exact ⟨x, hx, hxv⟩
      simp only [hcs, bind, Except.bind]
      by_cases hp : Outcome.isPossible ⟨v, cs⟩ = true
      · simp only [hp, if_true]; exact ih _ h1' h2'
      · simp only [hp]; exact ih _ h1' h2'

/-- `f(op x y)`, 0 where the operator fails. -/
def onOk {M : Type} [Zero M] (r : Res Int) (f : Int → M) : M :=
  match r with
  | .ok v => f v
  | .error _ => 0

theorem combineLoop_wsum {M : Type} [AddCommMonoid M] (op : BinOp) (ω : Str → Int) (f : Int → M) :
    ∀ (ps : List ((Outcome × Nat) × (Outcome × Nat))) (acc m : List (Outcome × Nat)),
    (∀ x ∈ ps, iter x.1.1.cs ≠ []) → combineLoop op ps acc = .ok m →
    wsum m (given ω f) = wsum acc (given ω f) + (ps.map fun x =>
      (x.1.2 * x.2.2) • given ω (fun a => given ω (fun b => onOk (op.apply a b) f) x.2.1) x.1.1).sum := by
  classical
  intro ps
  induction ps with
  | nil => intro acc m _ h; simp [combineLoop] at h; subst h; simp
  | cons x ps ih =>
    obtain ⟨p, q⟩ := x
    intro acc m h1 h
    have h1' : ∀ x ∈ ps, iter x.1.1.cs ≠ [] := fun x hx => h1 x (by simp [hx])
    have hspec := outcome_combine_spec op p.1 q.1 (h1 (p, q) (by simp))
    unfold combineLoop at h
    cases hv : op.apply p.1.value q.1.value with
    | error e => rw [hspec.1 _ hv] at h; simp [bind, Except.bind] at h
    | ok v =>
      obtain ⟨cs, hcs, hm⟩ := hspec.2 v hv
      have hg : given ω f (⟨v, cs⟩ : Outcome) =
          given ω (fun a => given ω (fun b => onOk (op.apply a b) f) q.1) p.1 := by
        simp only [given, hm.sat ω, hv, onOk]
        by_cases hp : Sat ω p.1.cs <;> by_cases hq : Sat ω q.1.cs <;> simp [hp, hq]
      simp only [hcs, bind, Except.bind] at h
      simp only [List.map_cons, List.sum_cons]
      by_cases hp : Outcome.isPossible ⟨v, cs⟩ = true
      · simp only [hp, if_true] at h
        rw [ih _ _ h1' h, wsum_safeAdd _ _ _ _ (resp_given ω f), hg, add_assoc]
      · simp only [hp] at h
        rw [ih _ _ h1' h, ← hg]
        have : given ω f (⟨v, cs⟩ : Outcome) = 0 := by
          unfold given
          rw [if_neg]
          intro hs
          exact hp ((isPossible_iff hm.normal).mpr ⟨ω, hs⟩)
        rw [this]; simp

omit R in
theorem sum_pairs {α β M : Type} [AddCommMonoid M] (a : List (α × Nat)) (b : List (β × Nat)) (g : α → β → M) :
    ((pairsOf a b).map fun x => (x.1.2 * x.2.2) • g x.1.1 x.2.1).sum = wsum a (fun p => wsum b (fun q => g p q)) := by
  unfold pairsOf
  induction a with
  | nil => simp
  | cons p a ih =>
    simp only [List.flatMap_cons, List.map_append, List.sum_append, wsum_cons, ih]
    congr 1
    rw [← wsum_smul]
    unfold wsum
    rw [List.map_map]
    congr 1
    apply List.map_congr_left
    intro q _
    simp only [Function.comp_apply, mul_smul]
    rw [smul_comm]

omit R in
theorem mem_pairsOf {α β : Type} (a : List α) (b : List β) (x : α × β) : x ∈ pairsOf a b ↔ x.1 ∈ a ∧ x.2 ∈ b := by
  unfold pairsOf
  simp only [List.mem_flatMap, List.mem_map]
  constructor
  · rintro ⟨p, hp, q, hq, rfl⟩; exact ⟨hp, hq⟩
  · rintro ⟨hp, hq⟩; exact ⟨x.1, hp, x.2, hq, rfl⟩

theorem binop_constructed {op : BinOp} {a b d : Dist} (h : Dist.binop op a b = .ok d) : d.Constructed := by
  unfold Dist.binop at h
  cases hm : combineLoop op (pairsOf a.resultMap b.getConstraintResultMap) [] with
  | error e => rw [hm] at h; simp [bind, Except.bind] at h
  | ok m => rw [hm] at h; simp [bind, Except.bind, pure, Except.pure] at h; exact ⟨m, h.symm⟩

/-- The key lemma: conditionally on an assignment, combination is bilinear. -/
theorem binop_EGiven {M : Type} [AddCommMonoid M] {op : BinOp} {a b d : Dist} (h : Dist.binop op a b = .ok d)
    (ha : a.Proper) (ω : Str → Int) (f : Int → M) :
    d.EGiven ω f = a.EGiven ω (fun x => b.EGiven ω (fun y => onOk (op.apply x y) f)) := by
  unfold Dist.binop at h
  cases hm : combineLoop op (pairsOf a.resultMap b.getConstraintResultMap) [] with
  | error e => rw [hm] at h; simp [bind, Except.bind] at h
  | ok m =>
    rw [hm] at h; simp [bind, Except.bind, pure, Except.pure] at h
    subst h
    unfold Dist.EGiven
    rw [wsum_mkDist _ _ (resp_given ω f), combineLoop_wsum op ω f _ _ _ ?_ hm, wsum_nil, zero_add]
    · rw [show b.getConstraintResultMap = b.resultMap from rfl,
        sum_pairs a.resultMap b.resultMap (fun p q => given ω (fun a => given ω (fun b => onOk (op.apply a b) f) q) p)]
      apply wsum_congr
      intro p _
      unfold given
      by_cases hs : Sat ω p.1.cs
      · simp only [hs, if_true]
      · simp [hs, wsum_zero]
    · intro x hx
      exact ha _ ((mem_pairsOf _ _ _).mp hx).1

theorem binop_ok_iff {op : BinOp} {a b : Dist} (ha : a.Proper) :
    (∃ d, Dist.binop op a b = .ok d) ↔
      ∀ p ∈ a.resultMap, ∀ q ∈ b.resultMap, ∃ v, op.apply p.1.value q.1.value = .ok v := by
  have hne : ∀ x ∈ pairsOf a.resultMap b.getConstraintResultMap, iter x.1.1.cs ≠ [] :=
    fun x hx => ha _ ((mem_pairsOf _ _ _).mp hx).1
  constructor
  · rintro ⟨d, h⟩ p hp q hq
    by_contra hno
    simp only [not_exists] at hno
    have := combineLoop_error op (pairsOf a.resultMap b.getConstraintResultMap) [] hne
      ⟨(p, q), (mem_pairsOf _ _ _).mpr ⟨hp, hq⟩, hno⟩
    unfold Dist.binop at h
    rw [this] at h
    simp [bind, Except.bind] at h
  · intro h
    obtain ⟨m, hm⟩ := combineLoop_ok op (pairsOf a.resultMap b.getConstraintResultMap) [] hne
      (fun x hx => h _ ((mem_pairsOf _ _ _).mp hx).1 _ ((mem_pairsOf _ _ _).mp hx).2)
    exact ⟨mkDist m, by unfold Dist.binop; rw [hm]; rfl⟩

theorem binop_error {op : BinOp} {a b : Dist} (ha : a.Proper) (h : ∀ d, Dist.binop op a b ≠ .ok d) :
    Dist.binop op a b = .error .zeroDivision := by
  have hne : ∀ x ∈ pairsOf a.resultMap b.getConstraintResultMap, iter x.1.1.cs ≠ [] :=
    fun x hx => ha _ ((mem_pairsOf _ _ _).mp hx).1
  have h' : ¬ ∃ d, Dist.binop op a b = .ok d := fun ⟨d, hd⟩ => h d hd
  rw [binop_ok_iff ha] at h'
  simp only [not_forall, not_exists] at h'
  obtain ⟨p, hp, q, hq, hno⟩ := h'
  unfold Dist.binop
  rw [combineLoop_error op _ [] hne ⟨(p, q), (mem_pairsOf _ _ _).mpr ⟨hp, hq⟩, hno⟩]
  rfl

/-- Where the entries of a combined distribution come from. -/
theorem combineLoop_mem (op : BinOp) :
    ∀ (ps : List ((Outcome × Nat) × (Outcome × Nat))) (acc m : List (Outcome × Nat)),
    (∀ x ∈ ps, iter x.1.1.cs ≠ []) → combineLoop op ps acc = .ok m →
    ∀ e ∈ m, (∃ e' ∈ acc, e'.1 = e.1) ∨ ∃ x ∈ ps, op.apply x.1.1.value x.2.1.value = .ok e.1.value ∧
      Combined x.1.1.cs x.2.1.cs e.1.cs ∧ csPossible e.1.cs = true ∧ combineSets x.1.1.cs x.2.1.cs = .ok e.1.cs := by
  intro ps
  induction ps with
  | nil => intro acc m _ h e he; simp [combineLoop] at h; subst h; exact Or.inl ⟨e, he, rfl⟩
  | cons x ps ih =>
    obtain ⟨p, q⟩ := x
    intro acc m h1 h e he
    have h1' : ∀ x ∈ ps, iter x.1.1.cs ≠ [] := fun x hx => h1 x (by simp [hx])
    have hspec := outcome_combine_spec op p.1 q.1 (h1 (p, q) (by simp))
    unfold combineLoop at h
    cases hv : op.apply p.1.value q.1.value with
    | error e => rw [hspec.1 _ hv] at h; simp [bind, Except.bind] at h
    | ok v =>
      obtain ⟨cs, hcs, hm⟩ := hspec.2 v hv
      have hcomb : combineSets p.1.cs q.1.cs = .ok cs := by
        unfold Outcome.combine at hcs
        rw [hv] at hcs
        cases hc : combineSets p.1.cs q.1.cs with
        | error e => rw [hc] at hcs; simp [bind, Except.bind] at hcs
        | ok c =>
          rw [hc] at hcs
          simp [bind, Except.bind, pure, Except.pure] at hcs
          rw [hcs]
      simp only [hcs, bind, Except.bind] at h
      by_cases hp : Outcome.isPossible ⟨v, cs⟩ = true
      · simp only [hp, if_true] at h
        rcases ih _ _ h1' h e he with ⟨e', he', heq⟩ | ⟨x, hx, hh⟩
        · rcases mem_safeAdd_key _ _ _ _ he' with h' | ⟨e'', he'', h'⟩
          · right
            refine ⟨(p, q), by simp, ?_⟩
            rw [← heq, h']
            exact ⟨hv, hm, hp, hcomb⟩
          · left; exact ⟨e'', he'', by rw [h', heq]⟩
        · right; exact ⟨x, by simp [hx], hh⟩
      · simp only [hp] at h
        rcases ih _ _ h1' h e he with hh | ⟨x, hx, hh⟩
        · exact Or.inl hh
        · right; exact ⟨x, by simp [hx], hh⟩

theorem binop_mem {op : BinOp} {a b d : Dist} (h : Dist.binop op a b = .ok d) (ha : a.Proper)
    {e : Outcome × Nat} (he : e ∈ d.resultMap) :
    ∃ p ∈ a.resultMap, ∃ q ∈ b.resultMap, op.apply p.1.value q.1.value = .ok e.1.value ∧
      Combined p.1.cs q.1.cs e.1.cs ∧ csPossible e.1.cs = true ∧ combineSets p.1.cs q.1.cs = .ok e.1.cs := by
  unfold Dist.binop at h
  cases hm : combineLoop op (pairsOf a.resultMap b.getConstraintResultMap) [] with
  | error e => rw [hm] at h; simp [bind, Except.bind] at h
  | ok m =>
    rw [hm] at h; simp [bind, Except.bind, pure, Except.pure] at h
    subst h
    obtain ⟨e', he', heq⟩ := mem_mkDist _ he
    rcases combineLoop_mem op _ _ _ (fun x hx => ha _ ((mem_pairsOf _ _ _).mp hx).1) hm e' he' with ⟨_, hf, _⟩ | ⟨x, hx, hh⟩
    · simp at hf
    · rw [mem_pairsOf] at hx
      exact ⟨x.1, hx.1, x.2, hx.2, by rw [← heq]; exact hh⟩

theorem combineLoop_exists (op : BinOp) (P : Outcome → Prop) (hP : Resp P) :
    ∀ (ps : List ((Outcome × Nat) × (Outcome × Nat))) (acc m : List (Outcome × Nat)),
    combineLoop op ps acc = .ok m →
    ((∃ e ∈ m, P e.1) ↔ (∃ e ∈ acc, P e.1) ∨
      ∃ x ∈ ps, ∃ o, Outcome.combine op x.1.1 x.2.1 = .ok o ∧ o.isPossible = true ∧ P o) := by
  intro ps
  induction ps with
  | nil => intro acc m h; simp [combineLoop] at h; subst h; simp
  | cons x ps ih =>
    obtain ⟨p, q⟩ := x
    intro acc m h
    unfold combineLoop at h
    cases ho : Outcome.combine op p.1 q.1 with
    | error e => rw [ho] at h; simp [bind, Except.bind] at h
    | ok o =>
      simp only [ho, bind, Except.bind] at h
      by_cases hp : o.isPossible = true
      · simp only [hp, if_true] at h
        rw [ih _ _ h, exists_safeAdd _ _ _ _ hP]
        simp only [List.mem_cons, exists_eq_or_imp, ho]
        simp only [Except.ok.injEq, exists_eq_left', hp, true_and, or_assoc]
      · simp only [hp] at h
        rw [ih _ _ h]
        simp only [List.mem_cons, exists_eq_or_imp, ho]
        simp [hp]

/-- When does a combined distribution contain an outcome with value `v` that agrees with `ω`. -/
theorem binop_support_given {op : BinOp} {a b d : Dist} (h : Dist.binop op a b = .ok d) (ha : a.Proper)
    (ω : Str → Int) (v : Int) :
    (∃ e ∈ d.resultMap, e.1.value = v ∧ Sat ω e.1.cs) ↔
      ∃ p ∈ a.resultMap, ∃ q ∈ b.resultMap, op.apply p.1.value q.1.value = .ok v ∧ Sat ω p.1.cs ∧ Sat ω q.1.cs := by
  constructor
  · rintro ⟨e, he, hv, hs⟩
    obtain ⟨p, hp, q, hq, h1, h2, _⟩ := binop_mem h ha he
    exact ⟨p, hp, q, hq, hv ▸ h1, (h2.sat ω).mp hs⟩
  · rintro ⟨p, hp, q, hq, h1, h2, h3⟩
    unfold Dist.binop at h
    cases hm : combineLoop op (pairsOf a.resultMap b.getConstraintResultMap) [] with
    | error e => rw [hm] at h; simp [bind, Except.bind] at h
    | ok m =>
      rw [hm] at h; simp [bind, Except.bind, pure, Except.pure] at h
      subst h
      have hresp : Resp (fun o : Outcome => o.value = v ∧ Sat ω o.cs) := by
        intro x y hxy
        obtain ⟨h1, h2⟩ := outcome_beq.mp hxy
        simp only [Sat, h1, h2]
      rw [exists_mkDist _ (fun o => o.value = v ∧ Sat ω o.cs) hresp,
        combineLoop_exists op (fun o => o.value = v ∧ Sat ω o.cs) hresp _ _ _ hm]
      right
      obtain ⟨cs, hcs, hm⟩ := (outcome_combine_spec op p.1 q.1 (ha p hp)).2 v h1
      have hs : Sat ω cs := (hm.sat ω).mpr ⟨h2, h3⟩
      exact ⟨(p, q), (mem_pairsOf _ _ _).mpr ⟨hp, hq⟩, ⟨v, cs⟩, hcs, (isPossible_iff hm.normal).mpr ⟨ω, hs⟩, rfl, hs⟩

theorem combineLoop_pos (op : BinOp) :
    ∀ (ps : List ((Outcome × Nat) × (Outcome × Nat))) (acc m : List (Outcome × Nat)),
    (∀ x ∈ ps, 0 < x.1.2 ∧ 0 < x.2.2) → (∀ e ∈ acc, 0 < e.2) → combineLoop op ps acc = .ok m → ∀ e ∈ m, 0 < e.2 := by
  intro ps
  induction ps with
  | nil => intro acc m _ ha h; simp [combineLoop] at h; subst h; exact ha
  | cons x ps ih =>
    obtain ⟨p, q⟩ := x
    intro acc m h1 ha h
    have h1' : ∀ x ∈ ps, 0 < x.1.2 ∧ 0 < x.2.2 := fun x hx => h1 x (by simp [hx])
    have hpq := h1 (p, q) (by simp)
    unfold combineLoop at h
    cases ho : Outcome.combine op p.1 q.1 with
    | error e => rw [ho] at h; simp [bind, Except.bind] at h
    | ok o =>
      simp only [ho, bind, Except.bind] at h
      by_cases hp : o.isPossible = true
      · simp only [hp, if_true] at h
        exact ih _ _ h1' (pos_safeAdd _ _ _ ha (Nat.mul_pos hpq.1 hpq.2)) h
      · simp only [hp] at h
        exact ih _ _ h1' ha h

theorem binop_pos {op : BinOp} {a b d : Dist} (h : Dist.binop op a b = .ok d)
    (ha : ∀ p ∈ a.resultMap, 0 < p.2) (hb : ∀ p ∈ b.resultMap, 0 < p.2) : ∀ p ∈ d.resultMap, 0 < p.2 := by
  unfold Dist.binop at h
  cases hm : combineLoop op (pairsOf a.resultMap b.getConstraintResultMap) [] with
  | error e => rw [hm] at h; simp [bind, Except.bind] at h
  | ok m =>
    rw [hm] at h; simp [bind, Except.bind, pure, Except.pure] at h
    subst h
    apply pos_mkDist
    apply combineLoop_pos op _ _ _ _ (by simp) hm
    intro x hx
    rw [mem_pairsOf] at hx
    exact ⟨ha _ hx.1, hb _ hx.2⟩

/-! ### Unary operators: both keep the constraint sets -/

/-- A unary operator on outcomes, as `not_operator` and `__abs__` use it. -/
def Dist.mapValue (g : Int → Int) (d : Dist) : Dist :=
  mkDist (d.resultMap.foldl (fun m p => safeAdd m (⟨g p.1.value, p.1.cs⟩ : Outcome) p.2) [])

/-- Value of `not_operator`. -/
def notVal (x : Int) : Int := if valueToBinary x then 0 else 1
/-- Value of `__abs__`. -/
def absVal (x : Int) : Int := if x < 0 then -x else x

theorem notOp_eq (d : Dist) : d.notOp = d.mapValue notVal := rfl
theorem absOp_eq (d : Dist) : d.absOp = d.mapValue absVal := rfl

theorem mapValue_EGiven {M : Type} [AddCommMonoid M] (g : Int → Int) (d : Dist) (ω : Str → Int) (f : Int → M) :
    (d.mapValue g).EGiven ω f = d.EGiven ω (fun x => f (g x)) := by
  unfold Dist.EGiven Dist.mapValue
  rw [wsum_mkDist _ _ (resp_given ω f),
    wsum_foldl_safeAdd d.resultMap (fun p => (⟨g p.1.value, p.1.cs⟩ : Outcome)) (fun p => p.2) _ (resp_given ω f)]
  simp [wsum, given]

theorem mapValue_E {M : Type} [AddCommMonoid M] (g : Int → Int) (d : Dist) (f : Int → M) :
    (d.mapValue g).E f = d.E (fun x => f (g x)) := by
  unfold Dist.E Dist.mapValue
  rw [wsum_mkDist _ _ (resp_value f),
    wsum_foldl_safeAdd d.resultMap (fun p => (⟨g p.1.value, p.1.cs⟩ : Outcome)) (fun p => p.2) _ (resp_value f)]
  simp [wsum]

theorem mapValue_mem {g : Int → Int} {d : Dist} {e : Outcome × Nat} (he : e ∈ (d.mapValue g).resultMap) :
    ∃ p ∈ d.resultMap, e.1 = ⟨g p.1.value, p.1.cs⟩ := by
  obtain ⟨e', he', heq⟩ := mem_mkDist _ he
  rcases mem_foldl_safeAdd_key d.resultMap (fun p => (⟨g p.1.value, p.1.cs⟩ : Outcome)) (fun p => p.2) [] e' he' with
    ⟨q, hq, h⟩ | ⟨q, hq, _⟩
  · exact ⟨q, hq, by rw [← heq, ← h]⟩
  · simp at hq

theorem mapValue_exists (g : Int → Int) (d : Dist) (P : Outcome → Prop) (hP : Resp P) :
    (∃ e ∈ (d.mapValue g).resultMap, P e.1) ↔ ∃ p ∈ d.resultMap, P ⟨g p.1.value, p.1.cs⟩ := by
  unfold Dist.mapValue
  rw [exists_mkDist _ P hP,
    exists_foldl_safeAdd d.resultMap (fun p => (⟨g p.1.value, p.1.cs⟩ : Outcome)) (fun p => p.2) P hP]
  simp

theorem mapValue_pos (g : Int → Int) (d : Dist) (h : ∀ p ∈ d.resultMap, 0 < p.2) :
    ∀ p ∈ (d.mapValue g).resultMap, 0 < p.2 := by
  unfold Dist.mapValue
  exact pos_mkDist _ (pos_foldl_safeAdd d.resultMap _ (fun p => p.2) h [] (by simp))

theorem mapValue_constructed (g : Int → Int) (d : Dist) : (d.mapValue g).Constructed := ⟨_, rfl⟩

theorem mapValue_proper (g : Int → Int) {d : Dist} (h : d.Proper) : (d.mapValue g).Proper := by
  intro e he
  obtain ⟨p, hp, heq⟩ := mapValue_mem he
  rw [heq]; exact h p hp

theorem mapValue_untied (g : Int → Int) {d : Dist} (h : d.Untied) : (d.mapValue g).Untied := by
  intro e he ω
  obtain ⟨p, hp, heq⟩ := mapValue_mem he
  rw [heq]; exact h p hp ω

theorem binop_proper {op : BinOp} {a b d : Dist} (h : Dist.binop op a b = .ok d) (ha : a.Proper) : d.Proper := by
  intro e he
  obtain ⟨p, hp, q, hq, _, h2, _⟩ := binop_mem h ha he
  exact h2.nonempty

theorem binop_untied {op : BinOp} {a b d : Dist} (h : Dist.binop op a b = .ok d) (ha : a.Proper)
    (ua : a.Untied) (ub : b.Untied) : d.Untied := by
  intro e he ω
  obtain ⟨p, hp, q, hq, _, h2, _⟩ := binop_mem h ha he
  exact (h2.sat ω).mpr ⟨ua p hp ω, ub q hq ω⟩

theorem binop_E {M : Type} [AddCommMonoid M] {op : BinOp} {a b d : Dist} (h : Dist.binop op a b = .ok d)
    (ha : a.Proper) (ua : a.Untied) (ub : b.Untied) (f : Int → M) :
    d.E f = a.E (fun x => b.E (fun y => onOk (op.apply x y) f)) := by
  have := binop_EGiven h ha (fun _ => 0) f
  rw [EGiven_untied (binop_untied h ha ua ub), EGiven_untied ua] at this
  rw [this]
  unfold Dist.E
  apply wsum_congr
  intro p _
  exact EGiven_untied ub _ _

end

end PyDice
