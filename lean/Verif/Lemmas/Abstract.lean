import Verif.Lemmas.Algebra
/-!
# Distributions without set orders

An outcome is a value with the set of assignments of the variables that agree with it.  Computations on such distributions mirror the
model's; `absD` maps the model's distributions to them.
-/

namespace PyDice
open PyRuntime

/-- A value with the assignments that agree with it. -/
abbrev AOut := Int × Set (Str → Int)
/-- A result map over such outcomes. -/
abbrev AMap := List (AOut × Nat)
/-- A distribution: result map and total. -/
@[ext] structure ADist where
  items : AMap
  total : Nat

open Classical in
/-- `safe_add`. -/
noncomputable def aAdd (m : AMap) (k : AOut) (n : Nat) : AMap := safeAdd m k n

/-- The constructor's loop. -/
noncomputable def aSum (m : AMap) : AMap := m.foldl (fun a p => aAdd a p.1 p.2) []

/-- The total of a map. -/
def aTotal (m : AMap) : Nat := m.foldl (fun c p => c + p.2) 0

/-- The constructor. -/
noncomputable def aMake (m : AMap) : ADist := ⟨aSum m, aTotal (aSum m)⟩

/-- A distribution tied to nothing. -/
noncomputable def aInt (m : List (Int × Nat)) : ADist := aMake (m.map fun p => ((p.1, Set.univ), p.2))

open Classical in
/-- The loop over pairs. -/
noncomputable def aLoop (op : BinOp) : List ((AOut × Nat) × (AOut × Nat)) → AMap → Res AMap
  | [], acc => .ok acc
  | (p, q) :: rest, acc => do
    let v ← op.apply p.1.1 q.1.1
    aLoop op rest (if p.1.2 ∩ q.1.2 = ∅ then acc else aAdd acc (v, p.1.2 ∩ q.1.2) (p.2 * q.2))

/-- Binary operators. -/
noncomputable def aBinop (op : BinOp) (a b : ADist) : Res ADist := do return aMake (← aLoop op (pairsOf a.items b.items) [])

/-- Unary operators. -/
noncomputable def aMap (g : Int → Int) (d : ADist) : ADist := aMake (d.items.foldl (fun m p => aAdd m (g p.1.1, p.1.2) p.2) [])

/-- The outcomes tied to a new name. -/
def aTagMap (t : Str) (m : AMap) : AMap := m.map fun p => ((p.1.1, {ω | ω t = p.1.1} ∩ p.1.2), p.2)

/-- Tagging. -/
def aTag (t : Str) (d : ADist) : ADist := ⟨aTagMap t d.items, aTotal (aTagMap t d.items)⟩

/-- The values and their counts. -/
def aResult (d : ADist) : List (Int × Nat) := d.items.foldl (fun m p => safeAdd m p.1.1 p.2) []

section
variable [R : PyRuntime]

/-- An outcome without its listing. -/
def absO (o : Outcome) : AOut := (o.value, satSet o)
/-- An item of a result map. -/
def absP (p : Outcome × Nat) : AOut × Nat := (absO p.1, p.2)
/-- A distribution. -/
def absD (d : Dist) : ADist := ⟨d.resultMap.map absP, d.outcomeCount⟩

/-- Outcomes with the same value and the same assignments are equal. -/
def Sharp (K : Outcome → Prop) : Prop := ∀ o o', K o → K o' → absO o = absO o' → (o == o') = true

theorem absO_of_beq {o o' : Outcome} (h : (o == o') = true) : absO o = absO o' := by
  obtain ⟨h1, h2⟩ := outcome_beq.mp h
  unfold absO
  rw [h1]
  congr 1
  ext ω
  simp only [satSet, Set.mem_ofPred_eq, Sat, h2]

theorem abs_safeAdd {K : Outcome → Prop} (hK : Sharp K) {o : Outcome} (ho : K o) (n : Nat) : ∀ m : List (Outcome × Nat),
    (∀ p ∈ m, K p.1) → (safeAdd m o n).map absP = aAdd (m.map absP) (absO o) n := by
  intro m
  induction m with
  | nil => intro _; simp [safeAdd, aAdd, absP]
  | cons p m ih =>
    intro h
    have ih := ih fun q hq => h q (by simp [hq])
    by_cases hb : (p.1 == o) = true
    · have e := absO_of_beq hb
      simp [safeAdd, aAdd, hb, absP, e]
    · have e : ¬ absO p.1 = absO o := fun e => hb (hK _ _ (h p (by simp)) ho e)
      simp only [safeAdd, hb, aAdd, absP, List.map_cons] at ih ⊢
      simp only [Bool.false_eq_true, if_false, beq_iff_eq, e, List.map_cons]
      rw [ih]
      rfl

theorem safeAdd_class {K : Outcome → Prop} {o : Outcome} (ho : K o) (n : Nat) : ∀ m : List (Outcome × Nat),
    (∀ p ∈ m, K p.1) → ∀ p ∈ safeAdd m o n, K p.1 := by
  intro m
  induction m with
  | nil => intro _ p hp; simp [safeAdd] at hp; rw [hp]; exact ho
  | cons q m ih =>
    intro h p hp
    unfold safeAdd at hp
    split at hp
    · rcases List.mem_cons.mp hp with rfl | hp
      · exact h q (by simp)
      · exact h p (by simp [hp])
    · rcases List.mem_cons.mp hp with rfl | hp
      · exact h _ (by simp)
      · exact ih (fun r hr => h r (by simp [hr])) p hp

theorem abs_foldl {K : Outcome → Prop} (hK : Sharp K) {α : Type} (f : α → Outcome) (c : α → Nat) : ∀ (l : List α) (acc : List (Outcome × Nat)),
    (∀ x ∈ l, K (f x)) → (∀ p ∈ acc, K p.1) →
    (l.foldl (fun a x => safeAdd a (f x) (c x)) acc).map absP = l.foldl (fun a x => aAdd a (absO (f x)) (c x)) (acc.map absP) ∧
    ∀ p ∈ l.foldl (fun a x => safeAdd a (f x) (c x)) acc, K p.1 := by
  intro l
  induction l with
  | nil => intro acc _ h; exact ⟨rfl, h⟩
  | cons x l ih =>
    intro acc h1 h2
    have := ih (safeAdd acc (f x) (c x)) (fun y hy => h1 y (by simp [hy])) (safeAdd_class (h1 x (by simp)) _ acc h2)
    rw [abs_safeAdd hK (h1 x (by simp)) _ acc h2] at this
    exact this

theorem abs_mkDist {K : Outcome → Prop} (hK : Sharp K) (m : List (Outcome × Nat)) (h : ∀ p ∈ m, K p.1) :
    absD (mkDist m) = aMake (m.map absP) := by
  have := (abs_foldl hK (fun p : Outcome × Nat => p.1) (fun p => p.2) m [] h (by simp)).1
  have h' : (m.foldl (fun d p => safeAdd d p.1 p.2) []).map absP = aSum (m.map absP) := by
    unfold aSum
    rw [List.foldl_map]
    exact this
  unfold absD mkDist aMake aTotal
  rw [← h', List.foldl_map]
  rfl

theorem abs_mkDistInt {m : List (Int × Nat)} {d : Dist} (h : mkDistInt m = .ok d) : absD d = aInt m := by
  rw [mkDistInt_eq] at h
  cases h
  rw [abs_mkDist (K := fun o => o.cs = nullCS) ?_ _ ?_, aInt, List.map_map]
  · congr 1
    refine List.map_congr_left fun p _ => ?_
    have : satSet (⟨p.1, nullCS⟩ : Outcome) = Set.univ := by
      ext ω
      simp [satSet, sat_nullCS]
    simp [absP, absO, this]
  · intro o o' h1 h2 h
    exact outcome_beq.mpr ⟨(Prod.mk.inj h).1, by rw [h1, h2]⟩
  · intro p hp
    obtain ⟨q, _, rfl⟩ := List.mem_map.mp hp
    rfl

theorem Tidy.satSet_nonempty {A : Str → Prop} {d : Dist} (h : Tidy A d) {p : Outcome × Nat} (hp : p ∈ d.resultMap) :
    (satSet p.1).Nonempty := h.sat hp

theorem abs_mapValue {A : Str → Prop} {d : Dist} (h : Tidy A d) (g : Int → Int) : absD (d.mapValue g) = aMap g (absD d) := by
  have hK : Sharp (fun o => ∃ p ∈ d.resultMap, o = ⟨g p.1.value, p.1.cs⟩) := by
    rintro _ _ ⟨p, hp, rfl⟩ ⟨q, hq, rfl⟩ he
    obtain ⟨h1, h2⟩ := Prod.mk.inj he
    obtain ⟨ω, hω⟩ := h.sat hp
    have h2' : Sat ω q.1.cs := by
      have : ω ∈ satSet (⟨g q.1.value, q.1.cs⟩ : Outcome) := by rw [← h2]; exact hω
      exact this
    exact outcome_beq.mpr ⟨h1, by rw [h.coherent p hp q hq ⟨ω, hω, h2'⟩]⟩
  have h1 := abs_foldl hK (fun p : Outcome × Nat => (⟨g p.1.value, p.1.cs⟩ : Outcome)) (fun p => p.2) d.resultMap []
    (fun p hp => ⟨p, hp, rfl⟩) (by simp)
  unfold Dist.mapValue
  rw [abs_mkDist hK _ h1.2, aMap, h1.1]
  unfold absD
  rw [List.foldl_map]
  rfl

theorem abs_combineLoop (op : BinOp) {K : Outcome → Prop} (hK : Sharp K) : ∀ (ps : List ((Outcome × Nat) × (Outcome × Nat)))
    (acc : List (Outcome × Nat)), (∀ x ∈ ps, iter x.1.1.cs ≠ []) →
    (∀ x ∈ ps, ∀ o, Outcome.combine op x.1.1 x.2.1 = .ok o → o.isPossible = true → K o) → (∀ p ∈ acc, K p.1) →
    (combineLoop op ps acc).map (List.map absP) = aLoop op (ps.map fun x => (absP x.1, absP x.2)) (acc.map absP) ∧
    ∀ m, combineLoop op ps acc = .ok m → ∀ p ∈ m, K p.1 := by
  intro ps
  induction ps with
  | nil =>
    intro acc _ _ h
    refine ⟨rfl, ?_⟩
    intro m hm
    cases hm
    exact h
  | cons x ps ih =>
    obtain ⟨p, q⟩ := x
    intro acc h1 h2 h3
    have hspec := outcome_combine_spec op p.1 q.1 (h1 (p, q) (by simp))
    have h1' : ∀ x ∈ ps, iter x.1.1.cs ≠ [] := fun x hx => h1 x (by simp [hx])
    have h2' : ∀ x ∈ ps, ∀ o, Outcome.combine op x.1.1 x.2.1 = .ok o → o.isPossible = true → K o := fun x hx => h2 x (by simp [hx])
    unfold combineLoop
    rw [List.map_cons, aLoop]
    cases hv : op.apply p.1.value q.1.value with
    | error e =>
      rw [hspec.1 _ hv]
      simp [absP, absO, hv, bind, Except.bind, Except.map]
    | ok v =>
      obtain ⟨cs, hcs, hm⟩ := hspec.2 v hv
      have hset : satSet (⟨v, cs⟩ : Outcome) = satSet p.1 ∩ satSet q.1 := by
        ext ω
        exact hm.sat ω
      have hpos : Outcome.isPossible ⟨v, cs⟩ = true ↔ satSet p.1 ∩ satSet q.1 ≠ ∅ := by
        rw [← hset, ← Set.nonempty_iff_ne_empty]
        exact isPossible_iff hm.normal
      simp only [hcs, bind, Except.bind, absP, absO, hv]
      by_cases hp : Outcome.isPossible ⟨v, cs⟩ = true
      · have hK' := h2 (p, q) (by simp) _ hcs hp
        have := ih (safeAdd acc ⟨v, cs⟩ (p.2 * q.2)) h1' h2' (safeAdd_class hK' _ acc h3)
        rw [abs_safeAdd hK hK' _ acc h3] at this
        simp only [hp, if_true, hpos.mp hp, if_false]
        simpa only [absO, hset, absP] using this
      · have := ih acc h1' h2' h3
        have he : satSet p.1 ∩ satSet q.1 = ∅ := by
          by_contra h
          exact hp (hpos.mpr h)
        simp only [hp, he, if_true, Bool.false_eq_true, if_false]
        simpa only [absO, absP] using this

omit R in
theorem pairsOf_map2 {α β γ δ : Type} (f : α → γ) (g : β → δ) (a : List α) (b : List β) :
    (pairsOf a b).map (fun x => (f x.1, g x.2)) = pairsOf (a.map f) (b.map g) := by
  unfold pairsOf
  rw [List.map_flatMap, List.flatMap_map]
  refine List.flatMap_congr fun p _ => ?_
  rw [List.map_map, List.map_map]
  rfl

theorem outcome_combine_cs {op : BinOp} {a b : Outcome} {v : Int} {cs : CSet} (h : Outcome.combine op a b = .ok ⟨v, cs⟩) :
    combineSets a.cs b.cs = .ok cs := by
  unfold Outcome.combine at h
  obtain ⟨w, _, h⟩ := bind_eq_ok.mp h
  obtain ⟨c, hc, h⟩ := bind_eq_ok.mp h
  cases h
  exact hc

theorem abs_binop {A B : Str → Prop} (op : BinOp) {a b : Dist} (ha : Tidy A a) (hb : Tidy B b) :
    (Dist.binop op a b).map absD = aBinop op (absD a) (absD b) := by
  have hK : Sharp (fun o => ∃ p ∈ a.resultMap, ∃ q ∈ b.resultMap, Outcome.combine op p.1 q.1 = .ok o ∧ o.isPossible = true) := by
    rintro o o' ⟨p, hp, q, hq, hc, hpos⟩ ⟨p', hp', q', hq', hc', hpos'⟩ he
    have hspec := outcome_combine_spec op p.1 q.1 (ha.proper p hp)
    have hspec' := outcome_combine_spec op p'.1 q'.1 (ha.proper p' hp')
    cases hv : op.apply p.1.value q.1.value with
    | error e => rw [hspec.1 _ hv] at hc; cases hc
    | ok v =>
      cases hv' : op.apply p'.1.value q'.1.value with
      | error e => rw [hspec'.1 _ hv'] at hc'; cases hc'
      | ok v' =>
        obtain ⟨cs, h1, hm⟩ := hspec.2 v hv
        obtain ⟨cs', h1', hm'⟩ := hspec'.2 v' hv'
        rw [h1] at hc; cases hc
        rw [h1'] at hc'; cases hc'
        obtain ⟨e1, e2⟩ := Prod.mk.inj he
        obtain ⟨ω, hω⟩ := (isPossible_iff hm.normal).mp hpos
        have hω' : Sat ω cs' := by
          have : ω ∈ satSet (⟨v', cs'⟩ : Outcome) := by rw [← e2]; exact hω
          exact this
        have w1 := (hm.sat ω).mp hω
        have w2 := (hm'.sat ω).mp hω'
        have g1 := ha.coherent p hp p' hp' ⟨ω, w1.1, w2.1⟩
        have g2 := hb.coherent q hq q' hq' ⟨ω, w1.2, w2.2⟩
        have c1 := outcome_combine_cs h1
        have c2 := outcome_combine_cs h1'
        rw [g1, g2, c2] at c1
        injection c1 with c1
        exact outcome_beq.mpr ⟨e1, by rw [c1]⟩
  have h := abs_combineLoop op hK (pairsOf a.resultMap b.getConstraintResultMap) []
    (fun x hx => ha.proper _ ((mem_pairsOf _ _ _).mp hx).1)
    (fun x hx o ho hp => ⟨x.1, ((mem_pairsOf _ _ _).mp hx).1, x.2, ((mem_pairsOf _ _ _).mp hx).2, ho, hp⟩) (by simp)
  rw [pairsOf_map2 absP absP] at h
  unfold Dist.binop aBinop
  show Except.map absD (combineLoop op _ [] >>= _) = (aLoop op (pairsOf (a.resultMap.map absP) (b.resultMap.map absP)) [] >>= _)
  have h1 : (combineLoop op (pairsOf a.resultMap b.getConstraintResultMap) []).map (List.map absP) =
    aLoop op (pairsOf (a.resultMap.map absP) (b.resultMap.map absP)) [] := h.1
  rw [← h1]
  cases hm : combineLoop op (pairsOf a.resultMap b.getConstraintResultMap) [] with
  | error e => rfl
  | ok m =>
    show Except.ok (absD (mkDist m)) = Except.ok (aMake (m.map absP))
    rw [abs_mkDist hK m (h.2 m hm)]

theorem abs_tagged {A : Str → Prop} {d : Dist} (h : Tidy A d) {t : Str} (ht : ¬ A t) : absD (tagged t d) = aTag t (absD d) := by
  have hm : (tagged t d).resultMap.map absP = aTagMap t (d.resultMap.map absP) := by
    unfold aTagMap
    rw [tagged_resultMap h ht, List.map_map, List.map_map]
    refine List.map_congr_left fun p _ => ?_
    have : satSet (tagO t p.1) = {ω | ω t = p.1.value} ∩ satSet p.1 := by
      ext ω
      exact tagCS_sat t p.1 ω
    simp only [Function.comp, absP, absO, this]
    rfl
  have hc : (tagged t d).outcomeCount = aTotal ((tagged t d).resultMap.map absP) := by
    unfold aTotal
    rw [List.foldl_map]
    rfl
  unfold absD aTag
  rw [hc, hm]

theorem abs_result (d : Dist) : aResult (absD d) = d.getResultMap := by
  unfold aResult absD Dist.getResultMap
  rw [List.foldl_map]
  rfl

end

end PyDice
