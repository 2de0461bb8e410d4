import Verif.Spec.Algebra
import Verif.Lemmas.Reach
import Verif.Lemmas.Ways
import Verif.Lemmas.Extreme
/-!
# The distribution of a filled pattern
-/

namespace PyDice
open PyRuntime

section
variable [R : PyRuntime]

/-- The assignments with which an outcome agrees. -/
def satSet (o : Outcome) : Set (Str → Int) := {ω | Sat ω o.cs}

theorem resp_satSet {M : Type} (F : Int → Set (Str → Int) → M) : Resp (fun o : Outcome => F o.value (satSet o)) := by
  intro a b h
  obtain ⟨h1, h2⟩ := outcome_beq.mp h
  have : satSet a = satSet b := by
    ext ω
    simp only [satSet, Set.mem_ofPred_eq, Sat, h2]
  simp only [h1, this]

theorem combineLoop_sets {M : Type} [AddCommMonoid M] (op : BinOp) (F : Int → Set (Str → Int) → M) (hF : ∀ v, F v ∅ = 0) :
    ∀ (ps : List ((Outcome × Nat) × (Outcome × Nat))) (acc m : List (Outcome × Nat)),
    (∀ x ∈ ps, iter x.1.1.cs ≠ []) → combineLoop op ps acc = .ok m →
    wsum m (fun o => F o.value (satSet o)) = wsum acc (fun o => F o.value (satSet o)) + (ps.map fun x =>
      (x.1.2 * x.2.2) • onOk (op.apply x.1.1.value x.2.1.value) fun v => F v (satSet x.1.1 ∩ satSet x.2.1)).sum := by
  intro ps
  induction ps with
  | nil => intro acc m _ h; simp [combineLoop] at h; subst h; simp
  | cons x ps ih =>
    obtain ⟨p, q⟩ := x
    intro acc m h1 h
    have h1' : ∀ x ∈ ps, iter x.1.1.cs ≠ [] := fun x hx => h1 x (by simp [hx])
    have hspec := outcome_combine_spec op p.1 q.1 (h1 (p, q) (by simp))
    unfold combineLoop at h
    cases hv : op.apply p.1.value q.1.value with
    | error e => rw [hspec.1 _ hv] at h; simp [bind, Except.bind] at h
    | ok v =>
      obtain ⟨cs, hcs, hm⟩ := hspec.2 v hv
      have hset : satSet (⟨v, cs⟩ : Outcome) = satSet p.1 ∩ satSet q.1 := by
        ext ω
        exact hm.sat ω
      simp only [hcs, bind, Except.bind] at h
      simp only [List.map_cons, List.sum_cons, hv]
      by_cases hp : Outcome.isPossible ⟨v, cs⟩ = true
      · simp only [hp, if_true] at h
        rw [ih _ _ h1' h, wsum_safeAdd _ _ _ _ (resp_satSet F), hset, add_assoc]
        rfl
      · simp only [hp] at h
        rw [ih _ _ h1' h]
        have : satSet p.1 ∩ satSet q.1 = ∅ := by
          rw [← hset, Set.eq_empty_iff_forall_notMem]
          intro ω hω
          exact hp ((isPossible_iff hm.normal).mpr ⟨ω, hω⟩)
        simp only [onOk, this, hF, smul_zero, zero_add]

/-- Combining two distributions: all pairs of outcomes, with the assignments that agree with both. -/
theorem binop_sets {M : Type} [AddCommMonoid M] {op : BinOp} {a b d : Dist} (h : Dist.binop op a b = .ok d) (ha : a.Proper)
    (F : Int → Set (Str → Int) → M) (hF : ∀ v, F v ∅ = 0) :
    wsum d.resultMap (fun o => F o.value (satSet o)) = wsum a.resultMap (fun p => wsum b.resultMap (fun q =>
      onSome (fun v => F v (satSet p ∩ satSet q)) (opValue op p.value q.value))) := by
  unfold Dist.binop at h
  cases hm : combineLoop op (pairsOf a.resultMap b.getConstraintResultMap) [] with
  | error e => rw [hm] at h; simp [bind, Except.bind] at h
  | ok m =>
    rw [hm] at h; simp [bind, Except.bind, pure, Except.pure] at h
    subst h
    rw [wsum_mkDist _ _ (resp_satSet F), combineLoop_sets op F hF _ _ _ ?_ hm, wsum_nil, zero_add]
    · rw [show b.getConstraintResultMap = b.resultMap from rfl,
        sum_pairs a.resultMap b.resultMap (fun p q => onOk (op.apply p.value q.value) fun v => F v (satSet p ∩ satSet q))]
      simp only [onOk_apply]
    · intro x hx
      exact ha _ ((mem_pairsOf _ _ _).mp hx).1

theorem mapValue_sets {M : Type} [AddCommMonoid M] (g : Int → Int) (d : Dist) (F : Int → Set (Str → Int) → M) :
    wsum (d.mapValue g).resultMap (fun o => F o.value (satSet o)) = wsum d.resultMap (fun o => F (g o.value) (satSet o)) := by
  unfold Dist.mapValue
  rw [wsum_mkDist _ _ (resp_satSet F),
    wsum_foldl_safeAdd d.resultMap (fun p => (⟨g p.1.value, p.1.cs⟩ : Outcome)) (fun p => p.2) _ (resp_satSet F)]
  simp [wsum, satSet]

/-! ### Sums over tuples -/

theorem tupleSum_append (ds : Nat → Dist) : ∀ (l l' : List Nat) (ρ : Nat → Outcome) (g : (Nat → Outcome) → Nat),
    tupleSum ds (l ++ l') ρ g = tupleSum ds l ρ (fun ρ' => tupleSum ds l' ρ' g) := by
  intro l
  induction l with
  | nil => intros; rfl
  | cons i l ih =>
    intro l' ρ g
    show wsum _ _ = wsum _ _
    exact wsum_congr fun p _ => ih _ _ _

/-- Only the assignments that keep everything outside the list matter. -/
theorem tupleSum_congr (ds : Nat → Dist) : ∀ (l : List Nat) (ρ : Nat → Outcome) (g g' : (Nat → Outcome) → Nat),
    (∀ ρ', (∀ i, i ∉ l → ρ' i = ρ i) → (∀ i ∈ l, ∃ p ∈ (ds i).resultMap, ρ' i = p.1) → g ρ' = g' ρ') →
    tupleSum ds l ρ g = tupleSum ds l ρ g' := by
  intro l
  induction l with
  | nil => intro ρ g g' h; exact h ρ (fun _ _ => rfl) (by simp)
  | cons i l ih =>
    intro ρ g g' h
    refine wsum_congr fun p hp => ih _ _ _ fun ρ' h1 h2 => h ρ' ?_ ?_
    · intro j hj
      rw [List.mem_cons, not_or] at hj
      rw [h1 j hj.2, Function.update_of_ne hj.1]
    · intro j hj
      by_cases hjl : j ∈ l
      · exact h2 j hjl
      · rcases List.mem_cons.mp hj with rfl | hj
        · exact ⟨p, hp, by rw [h1 _ hjl, Function.update_self]⟩
        · exact absurd hj hjl

theorem tupleSum_zero (ds : Nat → Dist) : ∀ (l : List Nat) (ρ : Nat → Outcome), tupleSum ds l ρ (fun _ => 0) = 0 := by
  intro l
  induction l with
  | nil => intro ρ; rfl
  | cons i l ih =>
    intro ρ
    show wsum _ (fun _ => tupleSum ds l _ fun _ => 0) = 0
    simp only [ih]
    exact wsum_zero _

theorem tupleSum_perm (ds : Nat → Dist) {l l' : List Nat} (h : l.Perm l') : l.Nodup → ∀ (ρ : Nat → Outcome) (g : (Nat → Outcome) → Nat),
    tupleSum ds l ρ g = tupleSum ds l' ρ g := by
  induction h with
  | nil => intros; rfl
  | cons i _ ih =>
    intro hn ρ g
    exact wsum_congr fun p _ => ih (List.nodup_cons.mp hn).2 _ _
  | swap i j l =>
    intro hn ρ g
    have hij : j ≠ i := fun h => by subst h; simp at hn
    show wsum _ (fun o => wsum _ (fun o' => _)) = wsum _ (fun o => wsum _ (fun o' => _))
    rw [wsum_comm]
    refine wsum_congr fun p _ => wsum_congr fun q _ => ?_
    rw [Function.update_comm hij]
  | trans h1 _ ih1 ih2 => intro hn ρ g; rw [ih1 hn, ih2 (h1.nodup_iff.mp hn)]

/-! ### Patterns over distributions -/

/-- A constant's distribution has its one outcome. -/
theorem constDist_sets (k : Int) : ∃ d : Dist, constDist k = .ok d ∧ d.Proper ∧ (∀ p ∈ d.resultMap, ∃ ω, Sat ω p.1.cs) ∧
    (∀ F : Int → Set (Str → Int) → Nat, wsum d.resultMap (fun o => F o.value (satSet o)) = F k Set.univ) ∧
    ∀ ω v, Supp d ω v ↔ v = k := by
  refine ⟨_, mkDistInt_eq _, ?_⟩
  have hd : mkDistInt [(k, 1)] = .ok (mkDist ([(k, 1)].map fun p => ((⟨p.1, (nullCS : CSet)⟩ : Outcome), p.2))) := mkDistInt_eq _
  have ht := tidy_mkDistInt hd
  refine ⟨ht.proper, fun p hp => ht.sat hp, fun F => ?_, fun ω v => ?_⟩
  · rw [wsum_mkDist _ _ (resp_satSet F)]
    have : satSet (⟨k, nullCS⟩ : Outcome) = Set.univ := by
      ext ω
      simp [satSet, sat_nullCS]
    simp [wsum, this]
  · rw [supp_untied (untied_mkDistInt hd).1]
    obtain ⟨d', h1, _, _, _, _, h2⟩ := mkDistInt_spec (R := R) [(k, 1)]
    rw [hd] at h1
    cases h1
    rw [h2]
    simp [hasKey]

/-- The distribution of a pattern whose holes hold distributions. -/
def Pat.dist (ds : Nat → Dist) : Pat → Res Dist
  | .hole i => .ok (ds i)
  | .const k => constDist k
  | .bin op a b => do let x ← a.dist ds; let y ← b.dist ds; Dist.binop op x y
  | .not a => do return (← a.dist ds).notOp
  | .abs a => do return (← a.dist ds).absOp

/-- The assignments that agree with all chosen outcomes. -/
def jointSet (l : List Nat) (ρ : Nat → Outcome) : Set (Str → Int) := {ω | ∀ i ∈ l, ω ∈ satSet (ρ i)}

theorem jointSet_append (l l' : List Nat) (ρ : Nat → Outcome) : jointSet (l ++ l') ρ = jointSet l ρ ∩ jointSet l' ρ := by
  ext ω
  simp only [jointSet, Set.mem_ofPred_eq, List.mem_append, Set.mem_inter_iff]
  constructor
  · intro h; exact ⟨fun i hi => h i (.inl hi), fun i hi => h i (.inr hi)⟩
  · rintro ⟨h1, h2⟩ i (hi | hi)
    · exact h1 i hi
    · exact h2 i hi

omit R in
theorem value_congr (p : Pat) {x y : Nat → Int} (h : ∀ i ∈ p.holes, x i = y i) : p.value x = p.value y := by
  induction p with
  | hole i => simp [Pat.value, h i (by simp [Pat.holes])]
  | const k => rfl
  | bin op a b iha ihb =>
    simp only [Pat.value, iha fun i hi => h i (by simp [Pat.holes, hi]), ihb fun i hi => h i (by simp [Pat.holes, hi])]
  | not a ih => simp only [Pat.value, ih h]
  | abs a ih => simp only [Pat.value, ih h]

theorem jointSet_congr {l : List Nat} {ρ ρ' : Nat → Outcome} (h : ∀ i ∈ l, ρ i = ρ' i) : jointSet l ρ = jointSet l ρ' := by
  ext ω
  simp only [jointSet, Set.mem_ofPred_eq]
  exact forall₂_congr fun i hi => by rw [h i hi]

theorem patDist_proper {ds : Nat → Dist} (p : Pat) (hp : ∀ i ∈ p.holes, (ds i).Proper) {d : Dist} (h : p.dist ds = .ok d) : d.Proper := by
  induction p generalizing d with
  | hole i => cases h; exact hp i (by simp [Pat.holes])
  | const k =>
    obtain ⟨d', h1, h2, _⟩ := constDist_sets (R := R) k
    rw [show (Pat.const k).dist ds = constDist k from rfl, h1] at h
    cases h; exact h2
  | bin op a b iha ihb =>
    obtain ⟨x, hx, h⟩ := bind_eq_ok.mp h
    obtain ⟨y, hy, h⟩ := bind_eq_ok.mp h
    exact binop_proper h (iha (fun i hi => hp i (by simp [Pat.holes, hi])) hx)
  | not a ih =>
    obtain ⟨x, hx, h⟩ := bind_eq_ok.mp h
    cases h
    rw [notOp_eq]
    exact mapValue_proper _ (ih hp hx)
  | abs a ih =>
    obtain ⟨x, hx, h⟩ := bind_eq_ok.mp h
    cases h
    rw [absOp_eq]
    exact mapValue_proper _ (ih hp hx)

/-- The distribution of a pattern lists, for every choice of one outcome per hole, the value of the pattern with the assignments that
    agree with all of them. -/
theorem patDist_sets {ds : Nat → Dist} (p : Pat) (hp : ∀ i ∈ p.holes, (ds i).Proper) : p.holes.Nodup → ∀ (d : Dist), p.dist ds = .ok d →
    ∀ (F : Int → Set (Str → Int) → Nat), (∀ v, F v ∅ = 0) → ∀ ρ : Nat → Outcome,
    wsum d.resultMap (fun o => F o.value (satSet o)) =
      tupleSum ds p.holes ρ (fun ρ' => onSome (fun v => F v (jointSet p.holes ρ')) (p.value fun i => (ρ' i).value)) := by
  induction p with
  | hole i =>
    intro _ d h F hF ρ
    cases h
    refine wsum_congr fun q _ => ?_
    have : jointSet [i] (Function.update ρ i q.1) = satSet q.1 := by
      ext ω
      simp [jointSet]
    simp [tupleSum, Pat.holes, Pat.value, onSome, this]
  | const k =>
    intro _ d h F hF ρ
    obtain ⟨d', h1, _, _, h2, _⟩ := constDist_sets (R := R) k
    rw [show (Pat.const k).dist ds = constDist k from rfl, h1] at h
    cases h
    rw [h2]
    have : jointSet [] ρ = Set.univ := by ext ω; simp [jointSet]
    simp [tupleSum, Pat.holes, Pat.value, onSome, this]
  | not a ih =>
    intro hn d h F hF ρ
    obtain ⟨x, hx, h⟩ := bind_eq_ok.mp h
    cases h
    rw [notOp_eq, mapValue_sets notVal x F, ih hp hn x hx (fun v S => F (notVal v) S) (fun v => hF _) ρ]
    show _ = tupleSum ds a.holes ρ _
    congr 1
    funext ρ'
    simp only [Pat.value, Pat.holes]
    cases a.value fun i => (ρ' i).value <;> simp [onSome, notVal_eq]
  | abs a ih =>
    intro hn d h F hF ρ
    obtain ⟨x, hx, h⟩ := bind_eq_ok.mp h
    cases h
    rw [absOp_eq, mapValue_sets absVal x F, ih hp hn x hx (fun v S => F (absVal v) S) (fun v => hF _) ρ]
    show _ = tupleSum ds a.holes ρ _
    congr 1
    funext ρ'
    simp only [Pat.value, Pat.holes]
    cases a.value fun i => (ρ' i).value <;> simp [onSome, absVal_eq]
  | bin op a b iha ihb =>
    intro hn d h F hF ρ
    obtain ⟨x, hx, h⟩ := bind_eq_ok.mp h
    obtain ⟨y, hy, h⟩ := bind_eq_ok.mp h
    have hn' : (a.holes ++ b.holes).Nodup := hn
    obtain ⟨na, nb, hdis⟩ := List.nodup_append.mp hn'
    have hpa : ∀ i ∈ a.holes, (ds i).Proper := fun i hi => hp i (by simp [Pat.holes, hi])
    have hpb : ∀ i ∈ b.holes, (ds i).Proper := fun i hi => hp i (by simp [Pat.holes, hi])
    rw [binop_sets h (patDist_proper a hpa hx) F hF]
    rw [iha hpa na x hx (fun u S => wsum y.resultMap (fun q => onSome (fun v => F v (S ∩ satSet q)) (opValue op u q.value)))
      (fun u => by
        simp only [Set.empty_inter, hF]
        have : (fun q : Outcome => onSome (fun _ => (0 : Nat)) (opValue op u q.value)) = fun _ => 0 := by
          funext q
          cases opValue op u q.value <;> rfl
        rw [this, wsum_zero]) ρ]
    rw [show (Pat.bin op a b).holes = a.holes ++ b.holes from rfl, tupleSum_append]
    refine tupleSum_congr ds _ _ _ _ fun ρ1 h1 _ => ?_
    have hval : ∀ ρ2 : Nat → Outcome, (∀ i, i ∉ b.holes → ρ2 i = ρ1 i) → (a.value fun i => (ρ2 i).value) = a.value fun i => (ρ1 i).value := by
      intro ρ2 h2
      refine value_congr a fun i hi => ?_
      rw [h2 i fun hb => hdis _ hi _ hb rfl]
    cases hu : a.value fun i => (ρ1 i).value with
    | none =>
      show 0 = _
      refine (tupleSum_zero ds b.holes ρ1).symm.trans (tupleSum_congr ds _ _ _ _ fun ρ2 h2 _ => ?_)
      simp only [Pat.value, hval ρ2 h2, hu]
      rfl
    | some u =>
      show wsum y.resultMap (fun q => onSome (fun v => F v (jointSet a.holes ρ1 ∩ satSet q)) (opValue op u q.value)) = _
      rw [ihb hpb nb y hy (fun w S => onSome (fun v => F v (jointSet a.holes ρ1 ∩ S)) (opValue op u w))
        (fun w => by
          simp only [Set.inter_empty, hF]
          cases opValue op u w <;> rfl) ρ1]
      refine tupleSum_congr ds _ _ _ _ fun ρ2 h2 _ => ?_
      simp only [Pat.value, hval ρ2 h2, hu, Option.bind_some]
      rw [jointSet_append, jointSet_congr (l := a.holes) (ρ := ρ2) (ρ' := ρ1) fun i hi => h2 i fun hb => hdis _ hi _ hb rfl]
      cases b.value fun i => (ρ2 i).value <;> rfl

/-- Which values a pattern's distribution lists, given an assignment. -/
theorem patDist_supp {ds : Nat → Dist} (p : Pat) (hp : ∀ i ∈ p.holes, (ds i).Proper) : p.holes.Nodup → ∀ (d : Dist), p.dist ds = .ok d →
    ∀ ω v, Supp d ω v ↔ ∃ x : Nat → Int, (∀ i ∈ p.holes, Supp (ds i) ω (x i)) ∧ p.value x = some v := by
  induction p with
  | hole i =>
    intro _ d h ω v
    cases h
    constructor
    · intro h
      exact ⟨fun _ => v, by simpa [Pat.holes] using h, rfl⟩
    · rintro ⟨x, h1, h2⟩
      cases h2
      exact h1 i (by simp [Pat.holes])
  | const k =>
    intro _ d h ω v
    obtain ⟨d', h1, _, _, _, h2⟩ := constDist_sets (R := R) k
    rw [show (Pat.const k).dist ds = constDist k from rfl, h1] at h
    cases h
    rw [h2]
    constructor
    · rintro rfl
      exact ⟨fun _ => 0, by simp [Pat.holes], rfl⟩
    · rintro ⟨x, _, h⟩
      cases h; rfl
  | not a ih =>
    intro hn d h ω v
    obtain ⟨y, hy, h⟩ := bind_eq_ok.mp h
    cases h
    rw [notOp_eq, supp_mapValue]
    simp only [ih hp hn y hy, notVal_eq]
    constructor
    · rintro ⟨u, ⟨x, h1, h2⟩, rfl⟩
      exact ⟨x, h1, by simp [Pat.value, h2]⟩
    · rintro ⟨x, h1, h2⟩
      obtain ⟨u, hu, rfl⟩ := Option.map_eq_some_iff.mp h2
      exact ⟨u, ⟨x, h1, hu⟩, rfl⟩
  | abs a ih =>
    intro hn d h ω v
    obtain ⟨y, hy, h⟩ := bind_eq_ok.mp h
    cases h
    rw [absOp_eq, supp_mapValue]
    simp only [ih hp hn y hy, absVal_eq]
    constructor
    · rintro ⟨u, ⟨x, h1, h2⟩, rfl⟩
      exact ⟨x, h1, by simp [Pat.value, h2]⟩
    · rintro ⟨x, h1, h2⟩
      obtain ⟨u, hu, rfl⟩ := Option.map_eq_some_iff.mp h2
      exact ⟨u, ⟨x, h1, hu⟩, rfl⟩
  | bin op a b iha ihb =>
    intro hn d h ω v
    obtain ⟨da, hda, h⟩ := bind_eq_ok.mp h
    obtain ⟨db, hdb, h⟩ := bind_eq_ok.mp h
    have hn' : (a.holes ++ b.holes).Nodup := hn
    obtain ⟨na, nb, hdis⟩ := List.nodup_append.mp hn'
    have hpa : ∀ i ∈ a.holes, (ds i).Proper := fun i hi => hp i (by simp [Pat.holes, hi])
    have hpb : ∀ i ∈ b.holes, (ds i).Proper := fun i hi => hp i (by simp [Pat.holes, hi])
    rw [supp_binop h (patDist_proper a hpa hda)]
    simp only [iha hpa na da hda, ihb hpb nb db hdb]
    constructor
    · rintro ⟨u, w, ⟨x, h1, h2⟩, ⟨y, h3, h4⟩, hv⟩
      refine ⟨fun i => if i ∈ a.holes then x i else y i, ?_, ?_⟩
      · intro i hi
        rcases List.mem_append.mp hi with hi | hi
        · simpa [hi] using h1 i hi
        · have : i ∉ a.holes := fun ha => hdis _ ha _ hi rfl
          simpa [this] using h3 i hi
      · have e1 : (a.value fun i => if i ∈ a.holes then x i else y i) = some u := by
          rw [← h2]
          exact value_congr a fun i hi => by simp [hi]
        have e2 : (b.value fun i => if i ∈ a.holes then x i else y i) = some w := by
          rw [← h4]
          refine value_congr b fun i hi => ?_
          have : i ∉ a.holes := fun ha => hdis _ ha _ hi rfl
          simp [this]
        simp [Pat.value, e1, e2, hv]
    · rintro ⟨x, h1, h2⟩
      simp only [Pat.value] at h2
      obtain ⟨u, hu, h2⟩ := Option.bind_eq_some_iff.mp h2
      obtain ⟨w, hw, h2⟩ := Option.bind_eq_some_iff.mp h2
      exact ⟨u, w, ⟨x, fun i hi => h1 i (by simp [Pat.holes, hi]), hu⟩, ⟨x, fun i hi => h1 i (by simp [Pat.holes, hi]), hw⟩, h2⟩

theorem compatible_iff {l : List Nat} {ρ : Nat → Outcome} : Compatible l ρ ↔ jointSet l ρ ≠ ∅ := by
  rw [← Set.nonempty_iff_ne_empty]
  rfl

open Classical in
/-- A sum over a pattern's distribution. -/
theorem patDist_E {ds : Nat → Dist} (p : Pat) (hp : ∀ i ∈ p.holes, (ds i).Proper) (hn : p.holes.Nodup) {d : Dist}
    (hd : p.dist ds = .ok d) (hsat : ∀ o ∈ d.resultMap, ∃ ω, Sat ω o.1.cs) (g : Int → Nat) (ρ : Nat → Outcome) :
    wsum d.resultMap (fun o => g o.value) = tupleSum ds p.holes ρ fun ρ' =>
      if Compatible p.holes ρ' then onSome g (p.value fun i => (ρ' i).value) else 0 := by
  have h := patDist_sets p hp hn d hd (fun u S => if S = ∅ then 0 else g u) (by simp) ρ
  refine Eq.trans (wsum_congr fun o ho => ?_) (h.trans ?_)
  · obtain ⟨ω, hω⟩ := hsat o ho
    have : satSet o.1 ≠ ∅ := Set.nonempty_iff_ne_empty.mp ⟨ω, hω⟩
    simp [this]
  · congr 1
    funext ρ'
    by_cases hc : jointSet p.holes ρ' = ∅
    · have : ¬ Compatible p.holes ρ' := fun h => compatible_iff.mp h hc
      cases p.value fun i => (ρ' i).value <;> simp [onSome, hc, this]
    · have : Compatible p.holes ρ' := compatible_iff.mpr hc
      cases p.value fun i => (ρ' i).value <;> simp [onSome, hc, this]

omit R in
theorem bin2_opExpr (op : BinOp) (a b : Expr) : Bin2 (opExpr op a b) op a b := by
  cases op <;> constructor

omit R in
theorem fill_noAssign {es : Nat → Expr} (p : Pat) (h : ∀ i ∈ p.holes, (es i).NoAssign) : (p.fill es).NoAssign := by
  induction p with
  | hole i => exact h i (by simp [Pat.holes])
  | const k => trivial
  | bin op a b iha ihb =>
    have ha := iha fun i hi => h i (by simp [Pat.holes, hi])
    have hb := ihb fun i hi => h i (by simp [Pat.holes, hi])
    cases op <;> exact ⟨ha, hb⟩
  | not a ih => exact ih h
  | abs a ih => exact ih h

/-- Going on with the result of a computation that left the state alone. -/
def goOn {α β : Type} (f : α → EvalM β) (s : State) : Res α → Res β × State
  | .ok a => f a s
  | .error e => (.error e, s)

theorem evalBind_pure {α β : Type} {m : EvalM α} {s : State} {r : Res α} (h : m s = (r, s)) (f : α → EvalM β) :
    (m >>= f) s = goOn f s r := by
  show EvalM.bind m f s = _
  cases r <;> simp only [EvalM.bind, h, goOn]

/-- A filled pattern's distribution is the pattern's over the distributions of the holes. -/
theorem fill_dist {es : Nat → Expr} {ds : Nat → Dist} {s : State} (p : Pat) (h : ∀ i ∈ p.holes, (es i).dist s = (.ok (ds i), s)) :
    (p.fill es).dist s = (p.dist ds, s) := by
  induction p with
  | hole i => exact h i (by simp [Pat.holes])
  | const k =>
    show EvalM.ofRes (do constDist (← pyInt (intStr k))) s = _
    rw [pyInt_intStr]
    rfl
  | bin op a b iha ihb =>
    have ha := iha fun i hi => h i (by simp [Pat.holes, hi])
    have hb := ihb fun i hi => h i (by simp [Pat.holes, hi])
    have key : (do let x ← (a.fill es).dist; let y ← (b.fill es).dist; EvalM.ofRes (Dist.binop op x y) : EvalM Dist) s =
        ((Pat.bin op a b).dist ds, s) := by
      have hval : (Pat.bin op a b).dist ds = (a.dist ds).bind fun x => (b.dist ds).bind fun y => Dist.binop op x y := rfl
      rw [evalBind_pure ha, hval]
      cases a.dist ds with
      | error e => rfl
      | ok x =>
        show (do let y ← (b.fill es).dist; EvalM.ofRes (Dist.binop op x y) : EvalM Dist) s = _
        rw [evalBind_pure hb]
        cases b.dist ds <;> rfl
    cases op <;> exact key
  | not a ih =>
    have hval : (Pat.not a).dist ds = (a.dist ds).bind fun x => .ok x.notOp := rfl
    show (do let x ← (a.fill es).dist; pure x.notOp : EvalM Dist) s = _
    rw [evalBind_pure (ih h), hval]
    cases a.dist ds <;> rfl
  | abs a ih =>
    have hval : (Pat.abs a).dist ds = (a.dist ds).bind fun x => .ok x.absOp := rfl
    show (do let x ← (a.fill es).dist; pure x.absOp : EvalM Dist) s = _
    rw [evalBind_pure (ih h), hval]
    cases a.dist ds <;> rfl

/-- When the distribution of a filled pattern exists, so do those of the holes. -/
theorem fill_defined {es : Nat → Expr} {s s' : State} (p : Pat) (hn : ∀ i ∈ p.holes, (es i).NoAssign) {d : Dist}
    (hd : (p.fill es).dist s = (.ok d, s')) : ∀ i ∈ p.holes, ∃ di, (es i).dist s = (.ok di, s) := by
  have state : ∀ {e : Expr}, e.NoAssign → ∀ {d : Dist} {s' : State}, e.dist s = (.ok d, s') → e.dist s = (.ok d, s) := by
    intro e he d s' h
    have := noAssign_dist he s
    rw [h] at this
    rw [h]
    exact Prod.ext rfl this
  induction p generalizing d s' with
  | hole i =>
    intro j hj
    obtain rfl : j = i := by simpa [Pat.holes] using hj
    exact ⟨d, state (hn _ (by simp [Pat.holes])) hd⟩
  | const k => intro j hj; simp [Pat.holes] at hj
  | bin op a b iha ihb =>
    obtain ⟨da, db, h1, h2, _⟩ := dist_two (bin2_opExpr op _ _) (fill_noAssign (.bin op a b) hn) hd
    intro j hj
    rcases List.mem_append.mp hj with hj | hj
    · exact iha (fun i hi => hn i (by simp [Pat.holes, hi])) h1 j hj
    · exact ihb (fun i hi => hn i (by simp [Pat.holes, hi])) h2 j hj
  | not a ih =>
    obtain ⟨d1, s1, h1, _⟩ := evalBind_eq_ok.mp hd
    exact ih hn h1
  | abs a ih =>
    obtain ⟨d1, s1, h1, _⟩ := evalBind_eq_ok.mp hd
    exact ih hn h1

/-- Without division a pattern's distribution exists when those of the holes do. -/
theorem patDist_ok {ds : Nat → Dist} (p : Pat) (hp : ∀ i ∈ p.holes, (ds i).Proper) (h : p.NoDiv) : ∃ d, p.dist ds = .ok d := by
  induction p with
  | hole i => exact ⟨_, rfl⟩
  | const k =>
    obtain ⟨d, h, _⟩ := constDist_sets (R := R) k
    exact ⟨d, h⟩
  | bin op a b iha ihb =>
    have hpa : ∀ i ∈ a.holes, (ds i).Proper := fun i hi => hp i (by simp [Pat.holes, hi])
    obtain ⟨x, hx⟩ := iha hpa h.2.1
    obtain ⟨y, hy⟩ := ihb (fun i hi => hp i (by simp [Pat.holes, hi])) h.2.2
    obtain ⟨d, hd⟩ := binop_ok_of_total h.1 (b := y) (patDist_proper a hpa hx)
    exact ⟨d, bind_eq_ok.mpr ⟨x, hx, bind_eq_ok.mpr ⟨y, hy, hd⟩⟩⟩
  | not a ih =>
    obtain ⟨x, hx⟩ := ih hp h
    exact ⟨_, bind_eq_ok.mpr ⟨x, hx, rfl⟩⟩
  | abs a ih =>
    obtain ⟨x, hx⟩ := ih hp h
    exact ⟨_, bind_eq_ok.mpr ⟨x, hx, rfl⟩⟩

theorem fill_tidy {parse : Str → Res Expr} {s : State} (hs : Reachable parse s) {e : Expr} {d : Dist} {s' : State}
    (h : e.dist s = (.ok d, s')) : ∃ A, Tidy A d := by
  obtain ⟨A, hA, _⟩ := (keeps_dist e s (tidy_reachable parse hs)).2.2 d (by rw [h])
  exact ⟨A, hA⟩


end

end PyDice
