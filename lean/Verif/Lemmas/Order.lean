import Verif.Spec.Order
import Verif.Lemmas.Algebra
import Verif.Lemmas.Sources
import Mathlib.Data.Finset.Max
import Mathlib.Algebra.BigOperators.Ring.Finset
import Mathlib.Algebra.BigOperators.Field
import Mathlib.Algebra.Order.BigOperators.Group.Finset
/-!
# Helper lemmas: better parts
-/

namespace PyDice
open PyRuntime

section
variable [R : PyRuntime]

/-! ### Means of rising functions -/

omit R in
/-- Summation by parts: weights whose upper sums are not negative give a rising function at least its lowest value. -/
theorem upper_sums (w g : Int → ℚ) (S : Finset Int) :
    (∀ v, 0 ≤ ∑ x ∈ S.filter (v ≤ ·), w x) → (∀ x ∈ S, ∀ y ∈ S, x ≤ y → g x ≤ g y) → ∀ c, (∀ x ∈ S, c ≤ g x) →
      c * ∑ x ∈ S, w x ≤ ∑ x ∈ S, g x * w x := by
  induction S using Finset.induction_on_min with
  | empty => intro _ _ c _; simp
  | insert a S ha ih =>
    intro hw hg c hc
    have hna : a ∉ S := fun h => lt_irrefl _ (ha a h)
    have tail : ∀ v, a < v → ∑ x ∈ (insert a S).filter (v ≤ ·), w x = ∑ x ∈ S.filter (v ≤ ·), w x := by
      intro v hv
      rw [Finset.filter_insert, if_neg (by omega)]
    have hS : ∀ v, 0 ≤ ∑ x ∈ S.filter (v ≤ ·), w x := by
      intro v
      by_cases hv : a < v
      · rw [← tail v hv]; exact hw v
      · have : S.filter (v ≤ ·) = S.filter (a + 1 ≤ ·) := by
          apply Finset.filter_congr
          intro x hx
          have := ha x hx
          omega
        rw [this, ← tail (a + 1) (by omega)]
        exact hw _
    have hall : 0 ≤ ∑ x ∈ insert a S, w x := by
      have h := hw a
      rwa [Finset.filter_true_of_mem] at h
      intro x hx
      rcases Finset.mem_insert.mp hx with rfl | hx
      · exact le_refl _
      · exact (ha x hx).le
    have h1 := ih hS (fun x hx y hy => hg x (Finset.mem_insert_of_mem hx) y (Finset.mem_insert_of_mem hy)) (g a)
      (fun x hx => hg a (Finset.mem_insert_self _ _) x (Finset.mem_insert_of_mem hx) (ha x hx).le)
    have h2 := mul_le_mul_of_nonneg_right (hc a (Finset.mem_insert_self _ _)) hall
    rw [Finset.sum_insert hna] at h2 ⊢
    rw [Finset.sum_insert hna]
    linarith

theorem wsum_by_value (l : List (Outcome × Nat)) (S : Finset Int) (h : ∀ p ∈ l, p.1.value ∈ S) (f : Int → ℚ) :
    wsum l (fun o => f o.value) = ∑ x ∈ S, f x * wsum l (fun o => if o.value = x then 1 else 0) := by
  induction l with
  | nil => simp
  | cons p l ih =>
    simp only [wsum_cons, ih fun q hq => h q (List.mem_cons_of_mem _ hq), mul_add, Finset.sum_add_distrib]
    congr 1
    rw [Finset.sum_eq_single p.1.value]
    · simp [mul_comm]
    · intro x _ hx
      simp [Ne.symm hx]
    · intro hn
      exact absurd (h p List.mem_cons_self) hn

/-- The mean over the possible values. -/
theorem mean_by_value (d : Dist) (S : Finset Int) (h : ∀ p ∈ d.resultMap, p.1.value ∈ S) (f : Int → ℚ) :
    d.mean f = ∑ x ∈ S, f x * d.mean (fun y => if y = x then 1 else 0) := by
  unfold Dist.mean Dist.E
  rw [wsum_by_value _ S h, Finset.sum_div]
  simp only [mul_div_assoc]

theorem mean_mono_on (d : Dist) {f g : Int → ℚ} (h : ∀ p ∈ d.resultMap, f p.1.value ≤ g p.1.value) : d.mean f ≤ d.mean g := by
  unfold Dist.mean
  refine div_le_div_of_nonneg_right ?_ (by positivity)
  unfold Dist.E
  generalize d.resultMap = l at h
  induction l with
  | nil => simp
  | cons p l ih =>
    rw [wsum_cons, wsum_cons]
    exact add_le_add (nsmul_le_nsmul_right (h _ List.mem_cons_self) _) (ih fun q hq => h q (List.mem_cons_of_mem _ hq))

/-- The second distribution is at least as likely to reach any value. -/
def Above (a b : Dist) : Prop :=
  a.Constructed ∧ b.Constructed ∧ 0 < a.outcomeCount ∧ 0 < b.outcomeCount ∧
    ∀ v : Int, a.mean (fun x => if v ≤ x then 1 else 0) ≤ b.mean (fun x => if v ≤ x then 1 else 0)

/-- What rises is higher on the average over the distribution that is above. -/
theorem Above.mean {a b : Dist} (h : Above a b) {f : Int → ℚ} {dom : Int → Prop} (ha : ∀ p ∈ a.resultMap, dom p.1.value)
    (hb : ∀ p ∈ b.resultMap, dom p.1.value) (hf : ∀ x y, dom x → dom y → x ≤ y → f x ≤ f y) : a.mean f ≤ b.mean f := by
  classical
  obtain ⟨ca, cb, pa, pb, ht⟩ := h
  let S : Finset Int := ((a.resultMap ++ b.resultMap).map fun p => p.1.value).toFinset
  have hSa : ∀ p ∈ a.resultMap, p.1.value ∈ S := fun p hp => by
    simp only [S, List.mem_toFinset]; exact List.mem_map_of_mem (List.mem_append_left _ hp)
  have hSb : ∀ p ∈ b.resultMap, p.1.value ∈ S := fun p hp => by
    simp only [S, List.mem_toFinset]; exact List.mem_map_of_mem (List.mem_append_right _ hp)
  have hSd : ∀ x ∈ S, dom x := by
    intro x hx
    simp only [S, List.mem_toFinset, List.mem_map, List.mem_append] at hx
    obtain ⟨p, hp | hp, rfl⟩ := hx
    · exact ha p hp
    · exact hb p hp
  let w : Int → ℚ := fun x => b.mean (fun y => if y = x then 1 else 0) - a.mean (fun y => if y = x then 1 else 0)
  have diff : ∀ g : Int → ℚ, ∑ x ∈ S, g x * w x = b.mean g - a.mean g := by
    intro g
    rw [mean_by_value b S hSb, mean_by_value a S hSa, ← Finset.sum_sub_distrib]
    simp only [w, mul_sub]
  have htail : ∀ v, 0 ≤ ∑ x ∈ S.filter (v ≤ ·), w x := by
    intro v
    have h1 := diff (fun x => if v ≤ x then 1 else 0)
    have h2 : ∑ x ∈ S, (if v ≤ x then (1 : ℚ) else 0) * w x = ∑ x ∈ S.filter (v ≤ ·), w x := by
      rw [Finset.sum_filter]
      apply Finset.sum_congr rfl
      intro x _
      split <;> simp
    rw [← h2, h1]
    exact sub_nonneg.mpr (ht v)
  have htot : ∑ x ∈ S, w x = 0 := by
    have h1 := diff (fun _ => 1)
    simp only [one_mul] at h1
    rw [h1, mean_const ca pa, mean_const cb pb, sub_self]
  have hne : ∃ c, ∀ x ∈ S, c ≤ f x := by
    rcases S.eq_empty_or_nonempty with he | hn
    · exact ⟨0, by simp [he]⟩
    · exact ⟨f (S.min' hn), fun x hx => hf _ _ (hSd _ (S.min'_mem hn)) (hSd x hx) (S.min'_le x hx)⟩
  obtain ⟨c, hc⟩ := hne
  have := upper_sums w f S htail (fun x hx y hy => hf x y (hSd x hx) (hSd y hy)) c hc
  rw [htot, mul_zero, diff] at this
  exact sub_nonneg.mp this

theorem Dominates.above {a b : Dist} (h : Dominates a b) (ca : a.Constructed) (cb : b.Constructed) : Above a b := by
  obtain ⟨h1, x, y, hx, hy, _⟩ := h
  obtain ⟨pa, _⟩ := average_ok hx
  obtain ⟨pb, _⟩ := average_ok hy
  refine ⟨ca, cb, pa, pb, fun v => ?_⟩
  have := h1 v
  rw [probOf_mean a ca, probOf_mean b cb] at this
  simpa only [decide_eq_true_eq] using this

theorem Above.dominates {a b : Dist} (h : Above a b) : Dominates a b := by
  obtain ⟨ca, cb, pa, pb, ht⟩ := h
  refine ⟨fun v => ?_, _, _, average_mean a pa, average_mean b pb, ?_⟩
  · rw [probOf_mean a ca, probOf_mean b cb]
    simpa only [decide_eq_true_eq] using ht v
  · exact Above.mean (dom := fun _ => True) ⟨ca, cb, pa, pb, ht⟩ (fun _ _ => trivial) (fun _ _ => trivial)
      (fun x y _ _ hxy => by exact_mod_cast hxy)

theorem Above.refl {a : Dist} (ca : a.Constructed) (pa : 0 < a.outcomeCount) : Above a a := ⟨ca, ca, pa, pa, fun _ => le_refl _⟩

/-! ### The mean over one outcome per hole -/

/-- The mean when a value is drawn for each of the listed holes. -/
def tupleMean (ds : Nat → Dist) : List Nat → (Nat → Int) → ((Nat → Int) → ℚ) → ℚ
  | [], x, g => g x
  | i :: l, x, g => (ds i).mean fun v => tupleMean ds l (Function.update x i v) g

theorem tupleSum_mean (ds : Nat → Dist) : ∀ (l : List Nat) (ρ : Nat → Outcome) (x : Nat → Int) (g : (Nat → Outcome) → Nat)
    (g' : (Nat → Int) → ℚ), (∀ i, (ρ i).value = x i) → (∀ ρ', ((g ρ' : Nat) : ℚ) = g' fun i => (ρ' i).value) →
    ((tupleSum ds l ρ g : Nat) : ℚ) / (l.map fun i => ((ds i).outcomeCount : ℚ)).prod = tupleMean ds l x g' := by
  intro l
  induction l with
  | nil =>
    intro ρ x g g' hx hg
    simp only [tupleSum, tupleMean, List.map_nil, List.prod_nil, div_one, hg]
    congr 1
    funext i
    exact hx i
  | cons i l ih =>
    intro ρ x g g' hx hg
    simp only [tupleSum, tupleMean, List.map_cons, List.prod_cons]
    unfold Dist.mean Dist.E
    rw [wsum_cast, mul_comm, ← div_div]
    congr 1
    have step : ∀ o : Outcome, tupleMean ds l (Function.update x i o.value) g' =
        ((tupleSum ds l (Function.update ρ i o) g : Nat) : ℚ) / (l.map fun i => ((ds i).outcomeCount : ℚ)).prod := by
      intro o
      refine (ih _ _ g g' ?_ hg).symm
      intro j
      by_cases hj : j = i
      · subst hj; simp
      · simp [Function.update_of_ne hj, hx]
    simp only [step]
    generalize (ds i).resultMap = m
    induction m with
    | nil => simp
    | cons p m ihm => rw [wsum_cons, wsum_cons, add_div, ihm]; simp only [nsmul_eq_mul, mul_div_assoc]

/-- What the holes of `l` still have to agree with: directed and within the listed values. -/
def DirectedOn (up : Nat → Bool) (dom : Nat → Int → Prop) (P : Nat → Prop) (x y : Nat → Int) : Prop :=
  ∀ i, P i → dom i (x i) ∧ dom i (y i) ∧ if up i then x i ≤ y i else y i ≤ x i

omit R in
theorem directedOn_update {up : Nat → Bool} {dom : Nat → Int → Prop} {i : Nat} {l : List Nat} {P : Nat → Prop} {x y : Nat → Int}
    (h : DirectedOn up dom (fun j => P j ∧ j ∉ i :: l) x y) {v w : Int} (hv : dom i v) (hw : dom i w)
    (hvw : if up i then v ≤ w else w ≤ v) : DirectedOn up dom (fun j => P j ∧ j ∉ l) (Function.update x i v) (Function.update y i w) := by
  intro j hj
  by_cases hji : j = i
  · subst hji; simpa using ⟨hv, hw, hvw⟩
  · rw [Function.update_of_ne hji, Function.update_of_ne hji]
    exact h j ⟨hj.1, by simp [hji, hj.2]⟩

theorem tupleMean_mono (ds : Nat → Dist) {up : Nat → Bool} {dom : Nat → Int → Prop} {P : Nat → Prop} {g : (Nat → Int) → ℚ}
    (hg : ∀ x y, DirectedOn up dom P x y → g x ≤ g y) : ∀ (l : List Nat), (∀ i ∈ l, ∀ p ∈ (ds i).resultMap, dom i p.1.value) →
    ∀ x y, DirectedOn up dom (fun j => P j ∧ j ∉ l) x y → tupleMean ds l x g ≤ tupleMean ds l y g := by
  intro l
  induction l with
  | nil => intro _ x y h; exact hg x y fun i hi => h i ⟨hi, by simp⟩
  | cons i l ih =>
    intro hd x y h
    refine mean_mono_on _ fun p hp => ih (fun j hj => hd j (List.mem_cons_of_mem _ hj)) _ _ ?_
    have hv := hd i List.mem_cons_self p hp
    exact directedOn_update h hv hv (by split <;> exact le_refl _)

theorem tupleMean_above (ds es : Nat → Dist) {up : Nat → Bool} {dom : Nat → Int → Prop} {P : Nat → Prop} {g : (Nat → Int) → ℚ}
    (hg : ∀ x y, DirectedOn up dom P x y → g x ≤ g y) : ∀ (l : List Nat), (∀ i ∈ l, ∀ p ∈ (ds i).resultMap, dom i p.1.value) →
    (∀ i ∈ l, ∀ p ∈ (es i).resultMap, dom i p.1.value) → (∀ i ∈ l, if up i then Above (ds i) (es i) else Above (es i) (ds i)) →
    ∀ x, DirectedOn up dom (fun j => P j ∧ j ∉ l) x x → tupleMean ds l x g ≤ tupleMean es l x g := by
  intro l
  induction l with
  | nil => intro _ _ _ x _; exact le_refl _
  | cons i l ih =>
    intro hd he ha x h
    have hd' : ∀ j ∈ l, ∀ p ∈ (ds j).resultMap, dom j p.1.value := fun j hj => hd j (List.mem_cons_of_mem _ hj)
    have he' : ∀ j ∈ l, ∀ p ∈ (es j).resultMap, dom j p.1.value := fun j hj => he j (List.mem_cons_of_mem _ hj)
    have same : ∀ v : Int, if up i then v ≤ v else v ≤ v := fun v => by split <;> exact le_refl _
    refine le_trans (b := (es i).mean fun v => tupleMean ds l (Function.update x i v) g) ?_ ?_
    · have hi := ha i List.mem_cons_self
      by_cases hu : up i = true
      · rw [if_pos hu] at hi
        refine hi.mean (dom := dom i) (hd i List.mem_cons_self) (he i List.mem_cons_self) fun v w hv hw hvw => ?_
        exact tupleMean_mono ds hg l hd' _ _ (directedOn_update h hv hw (by rw [if_pos hu]; exact hvw))
      · rw [if_neg hu] at hi
        have := hi.mean (f := fun v => -1 * tupleMean ds l (Function.update x i v) g) (dom := dom i) (he i List.mem_cons_self)
          (hd i List.mem_cons_self) (fun v w hv hw hvw => by
            have := tupleMean_mono ds hg l hd' _ _ (directedOn_update h hw hv (by rw [if_neg hu]; exact hvw))
            linarith)
        rw [mean_smul, mean_smul] at this
        simp only [tupleMean]
        linarith
    · refine mean_mono_on _ fun p hp => ih hd' he' (fun j hj => ha j (List.mem_cons_of_mem _ hj)) _ ?_
      have hv := he i List.mem_cons_self p hp
      exact directedOn_update h hv hv (same _)

/-! ### Filled patterns -/

/-- Holes without common dice: every choice of outcomes can hold together. -/
theorem AllApart.compatible {parse : Str → Res Expr} {t : State} {l : List Nat} {es : Nat → Expr} (h : AllApart parse t l es)
    {ds : Nat → Dist} (hd : ∀ i ∈ l, (es i).dist t = (.ok (ds i), t)) {ρ : Nat → Outcome}
    (hρ : ∀ i ∈ l, ∃ p ∈ (ds i).resultMap, ρ i = p.1) : Compatible l ρ := by
  classical
  obtain ⟨s, ls, tr, h1, h2, h3, h4, h5⟩ := h
  obtain ⟨pins, k1, k2, k3⟩ := sourced_run h2 (sourced_start (tidy_reachable parse h1)) h3
  have each : ∀ i : Nat, ∃ (A : Str → Prop) (σ : Str → Int), i ∈ l →
      (∀ ω, Sat ω (ρ i).cs ↔ ∀ n, A n → ω n = σ n) ∧
      ∀ m, A m → ∃ j ∈ Sources.of (Sources.after (fun _ => {0}) 1 (tr.map Prod.fst)) (es i), pins j m := by
    intro i
    by_cases hi : i ∈ l
    · obtain ⟨A, hA, hm⟩ := sourced_expr k3 (h4 i hi) (hd i hi)
      obtain ⟨p, hp, e⟩ := hρ i hi
      obtain ⟨σ, hσ⟩ := hA.pins p hp
      exact ⟨A, σ, fun _ => ⟨by rw [e]; exact hσ, hm⟩⟩
    · exact ⟨fun _ => True, fun _ => 0, fun h => absurd h hi⟩
  choose A σ hA using each
  refine ⟨fun m => if hm : ∃ i ∈ l, A i m then σ hm.choose m else 0, fun i hi => ?_⟩
  rw [(hA i hi).1]
  intro m hm
  have hex : ∃ i ∈ l, A i m := ⟨i, hi, hm⟩
  simp only [hex, dite_true]
  obtain ⟨hj, hjm⟩ := hex.choose_spec
  by_cases hij : hex.choose = i
  · rw [hij]
  · exfalso
    obtain ⟨a, ha, pa⟩ := (hA i hi).2 m hm
    obtain ⟨b, hb, pb⟩ := (hA _ hj).2 m hjm
    obtain rfl := k2 a b m pa pb
    exact Set.disjoint_left.mp (h5 _ hj i hi hij) hb ha

/-- When a pattern has a distribution, it has a value for all outcomes of its holes that can hold together. -/
theorem patDist_value {ds : Nat → Dist} (p : Pat) (hp : ∀ i ∈ p.holes, (ds i).Proper) : p.holes.Nodup → ∀ (d : Dist), p.dist ds = .ok d →
    ∀ ω (x : Nat → Int), (∀ i ∈ p.holes, Supp (ds i) ω (x i)) → ∃ v, p.value x = some v := by
  induction p with
  | hole i => intro _ d _ ω x _; exact ⟨_, rfl⟩
  | const k => intro _ d _ ω x _; exact ⟨_, rfl⟩
  | bin op a b iha ihb =>
    intro hn d h ω x hx
    have hpa : ∀ i ∈ a.holes, (ds i).Proper := fun i hi => hp i (by simp [Pat.holes, hi])
    have hpb : ∀ i ∈ b.holes, (ds i).Proper := fun i hi => hp i (by simp [Pat.holes, hi])
    have hna : a.holes.Nodup := (List.nodup_append.mp hn).1
    have hnb : b.holes.Nodup := (List.nodup_append.mp hn).2.1
    have hxa : ∀ i ∈ a.holes, Supp (ds i) ω (x i) := fun i hi => hx i (by simp [Pat.holes, hi])
    have hxb : ∀ i ∈ b.holes, Supp (ds i) ω (x i) := fun i hi => hx i (by simp [Pat.holes, hi])
    simp only [Pat.dist] at h
    obtain ⟨da, h1, h⟩ := bind_eq_ok.mp h
    obtain ⟨db, h2, h⟩ := bind_eq_ok.mp h
    obtain ⟨u, hu⟩ := iha hpa hna da h1 ω x hxa
    obtain ⟨v, hv⟩ := ihb hpb hnb db h2 ω x hxb
    obtain ⟨o, ho, hov, _⟩ := (patDist_supp a hpa hna da h1 ω u).mpr ⟨x, hxa, hu⟩
    obtain ⟨o', ho', hov', _⟩ := (patDist_supp b hpb hnb db h2 ω v).mpr ⟨x, hxb, hv⟩
    obtain ⟨w, hw⟩ := (binop_ok_iff (patDist_proper a hpa h1)).mp ⟨d, h⟩ o ho o' ho'
    rw [hov, hov'] at hw
    refine ⟨w, ?_⟩
    simp only [Pat.value, hu, hv, Option.bind_some]
    exact (apply_opValue op u v w).mp hw
  | not a ih =>
    intro hn d h ω x hx
    simp only [Pat.dist] at h
    obtain ⟨da, h1, h⟩ := bind_eq_ok.mp h
    obtain ⟨u, hu⟩ := ih hp hn da h1 ω x hx
    exact ⟨_, by rw [Pat.value, hu]; rfl⟩
  | abs a ih =>
    intro hn d h ω x hx
    simp only [Pat.dist] at h
    obtain ⟨da, h1, h⟩ := bind_eq_ok.mp h
    obtain ⟨u, hu⟩ := ih hp hn da h1 ω x hx
    exact ⟨_, by rw [Pat.value, hu]; rfl⟩

/-- A run of lines leads to a reachable state. -/
theorem reachable_run {parse : Str → Res Expr} {s t : State} {ls : List Str} {tr : List (Expr × Dist)} (hs : Reachable parse s)
    (h : DistRun parse s ls tr t) : Reachable parse t := by
  have h1 := (distLines_ok parse ls s t).mpr ⟨tr, h⟩
  have h2 : (interpDists parse ls s).2 = t := congrArg Prod.snd (evalBind_ok h1)
  exact h2 ▸ Reachable.dists ls hs

omit R in
theorem prod_pos_of {l : List Nat} {f : Nat → ℚ} (h : ∀ i ∈ l, 0 < f i) : 0 < (l.map f).prod := by
  induction l with
  | nil => simp
  | cons i l ih =>
    rw [List.map_cons, List.prod_cons]
    exact mul_pos (h i List.mem_cons_self) (ih fun j hj => h j (List.mem_cons_of_mem _ hj))

/-- The chances of a filled pattern are the means over independent draws for its holes. -/
theorem fill_mean {parse : Str → Res Expr} {t : State} (p : Pat) (hp : p.holes.Nodup) {es : Nat → Expr} {ds : Nat → Dist}
    (ha : AllApart parse t p.holes es) (hd : ∀ i ∈ p.holes, (es i).dist t = (.ok (ds i), t))
    (hpos : ∀ i ∈ p.holes, 0 < (ds i).outcomeCount) {d : Dist} {s1 : State} (h : (p.fill es).dist t = (.ok d, s1)) :
    d.Constructed ∧ 0 < d.outcomeCount ∧ ∀ v : Int, d.mean (fun x => if v ≤ x then 1 else 0) =
      tupleMean ds p.holes (fun _ => 0) (fun x => onSome (fun u => if v ≤ u then 1 else 0) (p.value x)) := by
  classical
  have ht : Reachable parse t := by
    obtain ⟨s, ls, tr, h1, h2, _⟩ := ha
    exact reachable_run h1 h2
  have hpd : p.dist ds = .ok d := (Prod.mk.inj ((fill_dist p hd).symm.trans h)).1
  obtain ⟨A, hA⟩ := fill_tidy ht h
  have hpr : ∀ i ∈ p.holes, (ds i).Proper := fun i hi => (fill_tidy ht (hd i hi)).choose_spec.proper
  let ρ : Nat → Outcome := fun _ => ⟨0, nullCS⟩
  have hE : ∀ g : Int → Nat, wsum d.resultMap (fun o => g o.value) =
      tupleSum ds p.holes ρ fun ρ' => onSome g (p.value fun i => (ρ' i).value) := by
    intro g
    rw [patDist_E p hpr hp hpd (fun o ho => hA.sat ho) g ρ]
    refine tupleSum_congr ds _ _ _ _ fun ρ' _ hρ => if_pos (ha.compatible hd hρ)
  have hone : wsum d.resultMap (fun _ => 1) = tupleSum ds p.holes ρ fun _ => 1 := by
    rw [hE fun _ => 1]
    refine tupleSum_congr ds _ _ _ _ fun ρ' _ hρ => ?_
    obtain ⟨ω, hω⟩ := ha.compatible hd hρ
    obtain ⟨v, hv⟩ := patDist_value p hpr hp d hpd ω (fun i => (ρ' i).value) fun i hi => by
      obtain ⟨q, hq, e⟩ := hρ i hi
      exact ⟨q, hq, by rw [e], by rw [← e]; exact hω i hi⟩
    rw [hv]; rfl
  have hprod : (d.outcomeCount : ℚ) = (p.holes.map fun i => ((ds i).outcomeCount : ℚ)).prod := by
    have h1 := tupleSum_mean ds p.holes ρ (fun _ => 0) (fun _ => 1) (fun _ => 1) (fun _ => rfl) (fun _ => by simp)
    have h2 : ∀ (l : List Nat) (x : Nat → Int), (∀ i ∈ l, i ∈ p.holes) → tupleMean ds l x (fun _ => 1) = 1 := by
      intro l
      induction l with
      | nil => intro x _; rfl
      | cons i l ih =>
        intro x hl
        simp only [tupleMean, ih _ fun j hj => hl j (List.mem_cons_of_mem _ hj)]
        exact mean_const (fill_tidy ht (hd i (hl i List.mem_cons_self))).choose_spec.constructed (hpos i (hl i List.mem_cons_self)) 1
    rw [h2 _ _ fun _ h => h, ← hone, div_eq_one_iff_eq] at h1
    · rw [← h1, outcomeCount_constructed hA.constructed]
    · exact (prod_pos_of fun i hi => by exact_mod_cast hpos i hi).ne'
  have hprodpos : 0 < (p.holes.map fun i => ((ds i).outcomeCount : ℚ)).prod := prod_pos_of fun i hi => by exact_mod_cast hpos i hi
  have hposd : 0 < d.outcomeCount := by
    rw [← hprod] at hprodpos
    exact_mod_cast hprodpos
  refine ⟨hA.constructed, hposd, fun v => ?_⟩
  rw [← tupleSum_mean ds p.holes ρ (fun _ => 0) (fun ρ' => onSome (fun u => if v ≤ u then 1 else 0) (p.value fun i => (ρ' i).value))
    _ (fun _ => rfl) (fun ρ' => by cases p.value fun i => (ρ' i).value <;> simp [onSome]), ← hE, ← hprod]
  unfold Dist.mean Dist.E
  rw [wsum_cast]
  congr 2
  funext o
  push_cast
  rfl

/-! ### Directions -/

omit R in
theorem floor_mono_div {a b k : Int} (hk : 0 < k) (h : a ≤ b) : ⌊(a : ℚ) / (k : ℚ)⌋ ≤ ⌊(b : ℚ) / (k : ℚ)⌋ := by
  apply Int.floor_le_floor
  have : (0 : ℚ) < k := by exact_mod_cast hk
  exact div_le_div_of_nonneg_right (by exact_mod_cast h) this.le

omit R in
theorem floor_anti_div {a b k : Int} (hk : k < 0) (h : a ≤ b) : ⌊(b : ℚ) / (k : ℚ)⌋ ≤ ⌊(a : ℚ) / (k : ℚ)⌋ := by
  apply Int.floor_le_floor
  have : (k : ℚ) < 0 := by exact_mod_cast hk
  exact div_le_div_of_nonpos_of_le this.le (by exact_mod_cast h)

/-- Below or above. -/
def Leads (b : Bool) (u v : Int) : Prop := if b then u ≤ v else v ≤ u

omit R in
/-- What the operators say about the direction of a pattern is right. -/
theorem directed_leads (up : Nat → Bool) {x y : Nat → Int} (p : Pat) : ∀ b, p.Directed up b → (∀ i ∈ p.holes, Leads (up i) (x i) (y i)) →
    ∃ u v, p.value x = some u ∧ p.value y = some v ∧ Leads b u v := by
  induction p with
  | hole i =>
    intro b h hx
    refine ⟨_, _, rfl, rfl, ?_⟩
    rw [← (show up i = b from h)]
    exact hx i (by simp [Pat.holes])
  | const k =>
    intro b _ _
    exact ⟨k, k, rfl, rfl, by unfold Leads; split <;> exact le_refl _⟩
  | not p ih =>
    intro b h hx
    obtain ⟨u, v, h1, h2, h3⟩ := ih (!b) h hx
    refine ⟨_, _, by rw [Pat.value, h1]; rfl, by rw [Pat.value, h2]; rfl, ?_⟩
    cases b <;> simp only [Leads, Bool.not_true, Bool.not_false, if_true, Bool.false_eq_true, if_false] at h3 ⊢ <;> split_ifs <;> omega
  | abs p => intro b h; exact h.elim
  | bin op p q ihp ihq =>
    intro b h hx
    have hxp : ∀ i ∈ p.holes, Leads (up i) (x i) (y i) := fun i hi => hx i (by simp [Pat.holes, hi])
    have hxq : ∀ i ∈ q.holes, Leads (up i) (x i) (y i) := fun i hi => hx i (by simp [Pat.holes, hi])
    have both : ∀ b1 b2, p.Directed up b1 → q.Directed up b2 → (∀ u u' v v' : Int, Leads b1 u u' → Leads b2 v v' →
        ∃ w w', opValue op u v = some w ∧ opValue op u' v' = some w' ∧ Leads b w w') →
        ∃ u v, (Pat.bin op p q).value x = some u ∧ (Pat.bin op p q).value y = some v ∧ Leads b u v := by
      intro b1 b2 g1 g2 g
      obtain ⟨u, u', k1, k2, k3⟩ := ihp b1 g1 hxp
      obtain ⟨v, v', l1, l2, l3⟩ := ihq b2 g2 hxq
      simp only [Pat.value, k1, k2, l1, l2, Option.bind_some]
      exact g u u' v v' k3 l3
    cases op with
    | eq => exact h.elim
    | ne => exact h.elim
    | mul =>
      rcases h with ⟨k, rfl, ⟨hk, h⟩ | ⟨hk, h⟩⟩ | ⟨k, rfl, ⟨hk, h⟩ | ⟨hk, h⟩⟩
      · obtain ⟨u, u', k1, k2, k3⟩ := ihp _ h hxp
        refine ⟨u * k, u' * k, by simp [Pat.value, k1, opValue], by simp [Pat.value, k2, opValue], ?_⟩
        cases b <;> simp only [Leads, if_true, Bool.false_eq_true, if_false] at k3 ⊢ <;> exact mul_le_mul_of_nonneg_right k3 hk
      · obtain ⟨u, u', k1, k2, k3⟩ := ihp _ h hxp
        refine ⟨u * k, u' * k, by simp [Pat.value, k1, opValue], by simp [Pat.value, k2, opValue], ?_⟩
        cases b <;> simp only [Leads, Bool.not_true, Bool.not_false, if_true, Bool.false_eq_true, if_false] at k3 ⊢ <;>
          exact mul_le_mul_of_nonpos_right k3 hk
      · obtain ⟨u, u', k1, k2, k3⟩ := ihq _ h hxq
        refine ⟨k * u, k * u', by simp [Pat.value, k1, opValue], by simp [Pat.value, k2, opValue], ?_⟩
        cases b <;> simp only [Leads, if_true, Bool.false_eq_true, if_false] at k3 ⊢ <;> exact mul_le_mul_of_nonneg_left k3 hk
      · obtain ⟨u, u', k1, k2, k3⟩ := ihq _ h hxq
        refine ⟨k * u, k * u', by simp [Pat.value, k1, opValue], by simp [Pat.value, k2, opValue], ?_⟩
        cases b <;> simp only [Leads, Bool.not_true, Bool.not_false, if_true, Bool.false_eq_true, if_false] at k3 ⊢ <;>
          exact mul_le_mul_of_nonpos_left k3 hk
    | floordiv =>
      obtain ⟨k, rfl, ⟨hk, h⟩ | ⟨hk, h⟩⟩ := h
      · obtain ⟨u, u', k1, k2, k3⟩ := ihp _ h hxp
        refine ⟨⌊(u : ℚ) / (k : ℚ)⌋, ⌊(u' : ℚ) / (k : ℚ)⌋, by simp [Pat.value, k1, opValue, hk.ne'],
          by simp [Pat.value, k2, opValue, hk.ne'], ?_⟩
        cases b <;> simp only [Leads, if_true, Bool.false_eq_true, if_false] at k3 ⊢ <;> exact floor_mono_div hk k3
      · obtain ⟨u, u', k1, k2, k3⟩ := ihp _ h hxp
        refine ⟨⌊(u : ℚ) / (k : ℚ)⌋, ⌊(u' : ℚ) / (k : ℚ)⌋, by simp [Pat.value, k1, opValue, hk.ne],
          by simp [Pat.value, k2, opValue, hk.ne], ?_⟩
        cases b <;> simp only [Leads, Bool.not_true, Bool.not_false, if_true, Bool.false_eq_true, if_false] at k3 ⊢ <;>
          exact floor_anti_div hk k3
    | _ =>
      refine both _ _ h.1 h.2 fun u u' v v' g1 g2 => ⟨_, _, rfl, rfl, ?_⟩
      cases b <;> simp only [Leads, Bool.not_true, Bool.not_false, if_true, Bool.false_eq_true, if_false] at g1 g2 ⊢ <;>
        (try split_ifs) <;> omega

theorem directed_dist {ds : Nat → Dist} (up : Nat → Bool) (p : Pat) : ∀ b, p.Directed up b → (∀ i ∈ p.holes, (ds i).Proper) →
    ∃ d, p.dist ds = .ok d := by
  induction p with
  | hole i => intro b _ _; exact ⟨_, rfl⟩
  | const k =>
    intro b _ _
    obtain ⟨d, h, _⟩ := constDist_sets (R := R) k
    exact ⟨d, h⟩
  | not p ih =>
    intro b h hp
    obtain ⟨x, hx⟩ := ih _ h hp
    exact ⟨_, bind_eq_ok.mpr ⟨x, hx, rfl⟩⟩
  | abs p => intro b h; exact h.elim
  | bin op p q ihp ihq =>
    intro b h hp
    have hpp : ∀ i ∈ p.holes, (ds i).Proper := fun i hi => hp i (by simp [Pat.holes, hi])
    have hpq : ∀ i ∈ q.holes, (ds i).Proper := fun i hi => hp i (by simp [Pat.holes, hi])
    have both : ∀ b1 b2, op ≠ .floordiv → p.Directed up b1 → q.Directed up b2 → ∃ d, (Pat.bin op p q).dist ds = .ok d := by
      intro b1 b2 ho h1 h2
      obtain ⟨x, hx⟩ := ihp b1 h1 hpp
      obtain ⟨y, hy⟩ := ihq b2 h2 hpq
      obtain ⟨d, hd⟩ := binop_ok_of_total ho (b := y) (patDist_proper p hpp hx)
      exact ⟨d, bind_eq_ok.mpr ⟨x, hx, bind_eq_ok.mpr ⟨y, hy, hd⟩⟩⟩
    cases op with
    | eq => exact h.elim
    | ne => exact h.elim
    | mul =>
      rcases h with ⟨k, rfl, ⟨hk, h⟩ | ⟨hk, h⟩⟩ | ⟨k, rfl, ⟨hk, h⟩ | ⟨hk, h⟩⟩
      · exact both b true (by simp) h trivial
      · exact both (!b) true (by simp) h trivial
      · exact both true b (by simp) trivial h
      · exact both true (!b) (by simp) trivial h
    | floordiv =>
      obtain ⟨k, rfl, h⟩ := h
      have hk : k ≠ 0 := by rcases h with ⟨hk, _⟩ | ⟨hk, _⟩ <;> omega
      obtain ⟨x, hx⟩ : ∃ x, p.dist ds = .ok x := by
        rcases h with ⟨_, h⟩ | ⟨_, h⟩
        · exact ihp _ h hpp
        · exact ihp _ h hpp
      obtain ⟨y, hy, _, hsat, _, hs⟩ := constDist_sets (R := R) k
      obtain ⟨d, hd⟩ := (binop_ok_iff (op := .floordiv) (b := y) (patDist_proper p hpp hx)).mpr fun o _ o' ho' => by
        obtain ⟨ω, hω⟩ := hsat o' ho'
        have hv := (hs ω o'.1.value).mp ⟨o', ho', rfl, hω⟩
        refine ⟨⌊(o.1.value : ℚ) / (k : ℚ)⌋, ?_⟩
        rw [apply_opValue, hv]
        simp [opValue, hk]
      exact ⟨d, bind_eq_ok.mpr ⟨x, hx, bind_eq_ok.mpr ⟨y, hy, hd⟩⟩⟩
    | _ => exact both _ _ (by simp) h.1 h.2

/-- It is enough to look at the values that the first distribution lists. -/
theorem dominates_of_keys {d e : Dist} (h : ∀ v ∈ d.getResultMap.map Prod.fst,
    probOf d (fun x => decide (v ≤ x)) ≤ probOf e (fun x => decide (v ≤ x)))
    (ha : ∃ x y, d.average = .ok x ∧ e.average = .ok y ∧ x ≤ y) : Dominates d e := by
  refine ⟨fun v => ?_, ha⟩
  by_cases hne : ((d.getResultMap.map Prod.fst).filter fun k => decide (v ≤ k)) = []
  · have : probOf d (fun x => decide (v ≤ x)) = 0 := by
      unfold probOf
      rw [List.filter_eq_nil_iff.mpr fun p hp => List.filter_eq_nil_iff.mp hne p.1 (List.mem_map_of_mem hp)]
      simp
    rw [this]
    unfold probOf
    positivity
  · obtain ⟨m, _, hm1, hm2⟩ := listMin_ok hne
    obtain ⟨h1, h2⟩ := List.mem_filter.mp hm1
    have h2 : v ≤ m := by simpa using h2
    have same : probOf d (fun x => decide (v ≤ x)) = probOf d (fun x => decide (m ≤ x)) := by
      unfold probOf
      congr 4
      apply List.filter_congr
      intro p hp
      simp only [decide_eq_decide]
      exact ⟨fun hv => hm2 _ (List.mem_filter.mpr ⟨List.mem_map_of_mem hp, by simpa using hv⟩), fun hv => le_trans h2 hv⟩
    rw [same]
    refine le_trans (h m h1) ?_
    unfold probOf
    refine div_le_div_of_nonneg_right ?_ (by positivity)
    have : ∀ l : List (Int × Nat), ((l.filter fun p => decide (m ≤ p.1)).map Prod.snd).sum ≤
        ((l.filter fun p => decide (v ≤ p.1)).map Prod.snd).sum := by
      intro l
      induction l with
      | nil => simp
      | cons p l ih =>
        simp only [List.filter_cons]
        by_cases hp : m ≤ p.1
        · simp [hp, le_trans h2 hp, ih]
        · by_cases hq : v ≤ p.1
          · simp [hp, hq]; omega
          · simp [hp, hq, ih]
    exact_mod_cast this _

end

end PyDice
