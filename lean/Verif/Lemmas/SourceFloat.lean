import Verif.Lemmas.SourceInterp
import Verif.Lemmas.Work
import Verif.Lemmas.Keys
/-!
# Loops of the texts of the methods of distributions that make floats

`Holds` relates a dict of values, in which a missing probability is the int 0, to the dict of numbers of the model.
-/
namespace PyDice.Source
open PyRuntime
section
variable [R : PyRuntime] (fl : ℚ → Res ℚ) (rd : ℚ → ℚ) (fu : Nat)
set_option linter.unusedSimpArgs false
set_option maxHeartbeats 1000000
local notation "W" => world fl rd fu

theorem set_encQ (l : List (Int × ℚ)) (k : Int) (x : ℚ) : dictSet (encQ l) (.int k) (.flt x) = encQ (dictSet l k x) := by
  induction l with
  | nil => rfl
  | cons p t ih =>
    simp only [encQ, List.map_cons, dictSet] at ih ⊢
    by_cases h : p.1 = k
    · simp [h, src]
    · simp [h, src, ih]

theorem get_encQ (v : List (Int × ℚ)) (n : Int) : dictGet? (encQ v) (.int n) = (dictGet? v n).map .flt := by
  induction v with
  | nil => rfl
  | cons p t ih =>
    simp only [encQ, List.map_cons, dictGet?] at ih ⊢
    by_cases h : p.1 = n
    · simp [h, src]
    · simpa [h, src, List.find?_cons] using ih

@[src] theorem decQ_encQ (d : List (Int × ℚ)) : decQ (encQ d) = some d := by
  induction d with
  | nil => rfl
  | cons p t ih => simp only [encQ, List.map_cons, decQ] at ih ⊢; simp [ih]

omit R in
theorem setNew {ν : Type} (l : List (Int × ν)) (k : Int) (x : ν) (h : k ∉ l.map Prod.fst) : dictSet l k x = l ++ [(k, x)] := by
  induction l with
  | nil => rfl
  | cons p t ih =>
    simp only [List.map_cons, List.mem_cons, not_or] at h
    simp only [dictSet, List.cons_append]
    rw [if_neg (by simpa using fun e => h.1 e.symm), ih h.2]

theorem foldl_encQ (l l0 : List (Int × ℚ)) (h : ((l0 ++ l).map Prod.fst).Nodup) :
    (encQ l).foldl (fun d p => dictSet d p.1 p.2) (encQ l0) = encQ (l0 ++ l) := by
  induction l generalizing l0 with
  | nil => simp [encQ]
  | cons p t ih =>
    have h0 : p.1 ∉ l0.map Prod.fst := by
      rw [List.map_append, List.nodup_append] at h
      intro hp
      exact h.2.2 _ hp _ (by simp) rfl
    rw [show encQ (p :: t) = (.int p.1, .flt p.2) :: encQ t from rfl, List.foldl_cons, set_encQ, setNew _ _ _ h0, ih]
    · simp
    · simpa using h

theorem formComp_text (d : Dist) (l : List (Int × Nat)) :
    dictLoop W [] (.name "key") (.bin .div (.name "value") (.self "_outcome_count")) (.tuple (.cons (.name "key") (.cons (.name "value") .nil)))
      (l.map fun q => .tuple [.int q.1, .int q.2]) [("self", .obj (.dist d))] =
      (fun r => (encQ r, [("self", .obj (.dist d))])) <$> liftR (l.mapM (fun p =>
    if d.outcomeCount = 0 then .error .zeroDivision else Prod.mk p.1 <$> fl ((p.2 : ℚ) / (d.outcomeCount : ℚ)))) := by
  induction l with
  | nil => rfl
  | cons q t ih =>
    simp [src, dictLoop_cons, ih, liftR_bind, setNames]
    by_cases h : d.outcomeCount = 0
    · simp [h, src]
    · simp [h, src, liftR_map]
      refine congrArg _ (funext fun x => ?_)
      rfl

/-- The body of the loop of `average`. -/
def averageBody : PyS := (.seq (.aug .add (.name "total_values") (.bin .mul (.name "item") (.name "value")))
    .done)

theorem averageLoop_text (l : List (Int × Nat)) (t : Int) (a v1 v2 : V) {β : Type} (K : Flow Obj × Env Obj → RollM β)
    (B : Int → RollM β) (h : ∀ t v1 v2, K (.next, [("self", a), ("total_values", .int t), ("item", v1), ("value", v2)]) = B t) :
    (forLoop W [] (.tuple (.cons (.name "item") (.cons (.name "value") .nil))) averageBody (l.map fun q => .tuple [.int q.1, .int q.2])
      [("self", a), ("total_values", .int t), ("item", v1), ("value", v2)] >>= K) =
      B (l.foldl (fun t p => t + p.1 * (p.2 : Int)) t) := by
  induction l generalizing t v1 v2 with
  | nil => simp [forLoop_nil, h, src]
  | cons q t ih =>
    simp only [averageBody] at ih ⊢
    simp [src, forLoop_cons, setNames]
    simpa [src] using ih _ _ _

omit R in
theorem mapM_keys {g : Int × Nat → Res (Int × ℚ)} (hg : ∀ p r, g p = .ok r → r.1 = p.1) {l : List (Int × Nat)} {r : List (Int × ℚ)}
    (h : l.mapM g = .ok r) : r.map Prod.fst = l.map Prod.fst := by
  induction l generalizing r with
  | nil => cases h; rfl
  | cons q t ih =>
    rw [List.mapM_cons] at h
    cases hq : g q with
    | error e => rw [hq] at h; cases h
    | ok a =>
      rw [hq] at h
      cases ht : t.mapM g with
      | error e => rw [ht] at h; cases h
      | ok u => rw [ht] at h; cases h; simp [ih ht, hg q a hq]

theorem dictForm_keys {d : Dist} {r : List (Int × ℚ)} (h : dictFormG fl d = .ok r) : r.map Prod.fst = d.getResultMap.map Prod.fst := by
  refine mapM_keys ?_ h
  intro p r hp
  split at hp
  · cases hp
  · cases e : fl ((p.2 : ℚ) / (d.outcomeCount : ℚ)) with
    | error e' => rw [e] at hp; cases hp
    | ok x => rw [e] at hp; cases hp; rfl

theorem liftR_congr {α β : Type} (r : Res α) (f g : α → β) (h : ∀ a, r = .ok a → f a = g a) : f <$> liftR r = (g <$> liftR r : RollM β) := by
  cases r with
  | error e => rfl
  | ok a => exact congrArg (fun x => (pure x : RollM β)) (h a rfl)

theorem histComp_text (base l : List (Int × ℚ)) (h : ∀ q ∈ l, dictGet? base q.1 = some q.2) (a b : V) :
    compLoop W [] (.tuple (.cons (.name "key") (.cons (.index (.name "base_data") (.name "key")) .nil))) (.name "key") (l.map fun q => .int q.1)
      [("base_data", .dict (encQ base)), ("item_list", a), ("int_value", b)] =
      pure (l.map (fun q => .tuple [.int q.1, .flt q.2]), [("base_data", .dict (encQ base)), ("item_list", a), ("int_value", b)]) := by
  induction l with
  | nil => rfl
  | cons q t ih =>
    have ih := ih fun q hq => h q (by simp [hq])
    have hq := h q (by simp)
    simp [src, compLoop_cons, ih, get_encQ, hq]

/-- The body of the loop of `_get_histogram_form`. -/
def fillBody : PyS := (.seq (.ifs (.cmp .notIn (.name "int_value") (.name "base_data")) (.seq (.assign (.index (.name "base_data") (.name "int_value")) (.int 0))
    .done) .done)
    .done)

theorem fillLoop_text (l : List Int) (d : List (V × V)) (a v : V) {β : Type} (K : Flow Obj × Env Obj → RollM β)
    (B : List (V × V) → RollM β) (h : ∀ d v, K (.next, [("base_data", .dict d), ("item_list", a), ("int_value", v)]) = B d) :
    (forLoop W [] (.name "int_value") fillBody (l.map .int) [("base_data", .dict d), ("item_list", a), ("int_value", v)] >>= K) =
      B (l.foldl (fun d i => if (dictGet? d (.int i)).isSome then d else dictSet d (.int i) (.int 0)) d) := by
  induction l generalizing d v with
  | nil => simp [forLoop_nil, h, src]
  | cons q t ih =>
    simp only [fillBody] at ih ⊢
    simp [src, forLoop_cons, setNames]
    cases hq : dictGet? d (.int q) with
    | none =>
      simp [hq, src]
      simpa [src] using ih _ _
    | some x =>
      simp [hq, src]
      simpa [src] using ih _ _

omit R in
theorem get_mem {ν : Type} {d : List (Int × ν)} (hd : (d.map Prod.fst).Nodup) {p : Int × ν} (hp : p ∈ d) :
    dictGet? d p.1 = some p.2 := by
  induction d with
  | nil => cases hp
  | cons q d ih =>
    rw [List.map_cons, List.nodup_cons] at hd
    simp only [dictGet?, beq_iff_eq]
    rcases List.mem_cons.mp hp with rfl | hp
    · simp
    · have : q.1 ≠ p.1 := fun e => hd.1 (by rw [e]; exact List.mem_map_of_mem hp)
      rw [if_neg this]
      exact ih hd.2 hp

theorem keys_text (l : List (Int × ℚ)) :
    mapVals (fun x => callV W (.lam ["tup"] (.index (.name "tup") (.int 0))) [x]) (l.map fun q => .tuple [.int q.1, .flt q.2]) =
      pure (l.map fun q => .int q.1) := by
  induction l with
  | nil => rfl
  | cons q t ih => simp only [List.map_cons, mapVals, ih]; simp [src, indexL]; rfl

theorem sort_text (l : List (Int × ℚ)) :
    callMethod W (.list (l.map fun q => .tuple [.int q.1, .flt q.2])) "sort" [.kwv "key" (.lam ["tup"] (.index (.name "tup") (.int 0)))] =
      pure (.none, some (.list ((l.mergeSort fun a b => decide (a.1 ≤ b.1)).map fun q => .tuple [.int q.1, .flt q.2]))) := by
  unfold callMethod
  simp only [keys_text, pure_bind, intsOf_map]
  have e : ((l.map fun q => q.1).zip (l.map fun q => (.tuple [.int q.1, .flt q.2] : V))) = l.map fun q => (q.1, .tuple [.int q.1, .flt q.2]) := by
    induction l with
    | nil => rfl
    | cons q t ih => simp [ih]
  rw [e, ← List.map_mergeSort (r := fun a b : Int × ℚ => decide (a.1 ≤ b.1)) (by intros; rfl), List.map_map]
  rfl

/-- A dict of values that holds the given numbers: a float, or the int 0 for the number 0. -/
def Holds : List (V × V) → List (Int × ℚ) → Prop
  | [], [] => True
  | (k, x) :: t, (i, q) :: u => k = .int i ∧ (x = .flt q ∨ x = .int 0 ∧ q = 0) ∧ Holds t u
  | _, _ => False

theorem holds_encQ (l : List (Int × ℚ)) : Holds (encQ l) l := by
  induction l with
  | nil => trivial
  | cons p t ih => exact ⟨rfl, .inl rfl, ih⟩

theorem holds_get {hv : List (V × V)} {h : List (Int × ℚ)} (hh : Holds hv h) (k : Int) :
    (dictGet? hv (.int k) = none ∧ dictGet? h k = none) ∨
      ∃ x q, dictGet? hv (.int k) = some x ∧ dictGet? h k = some q ∧ (x = .flt q ∨ x = .int 0 ∧ q = 0) := by
  induction hv generalizing h with
  | nil => cases h with
    | nil => exact .inl ⟨rfl, rfl⟩
    | cons => exact hh.elim
  | cons a t ih => cases h with
    | nil => exact hh.elim
    | cons b u =>
      obtain ⟨a1, a2⟩ := a
      obtain ⟨b1, b2⟩ := b
      obtain ⟨h1, h2, h3⟩ := hh
      subst h1
      by_cases e : b1 = k
      · subst e
        exact .inr ⟨a2, b2, by simp [dictGet?, src], by simp [dictGet?], h2⟩
      · have := ih h3
        simpa [dictGet?, src, e] using this

theorem holds_set {hv : List (V × V)} {h : List (Int × ℚ)} (hh : Holds hv h) (k : Int) :
    Holds (dictSet hv (.int k) (.int 0)) (dictSet h k 0) := by
  induction hv generalizing h with
  | nil => cases h with
    | nil => exact ⟨rfl, .inr ⟨rfl, rfl⟩, trivial⟩
    | cons => exact hh.elim
  | cons a t ih => cases h with
    | nil => exact hh.elim
    | cons b u =>
      obtain ⟨a1, a2⟩ := a
      obtain ⟨b1, b2⟩ := b
      obtain ⟨h1, h2, h3⟩ := hh
      subst h1
      by_cases e : b1 = k
      · subst e
        simp [dictSet, src]
        exact ⟨rfl, .inr ⟨rfl, rfl⟩, h3⟩
      · simp [dictSet, src, e]
        exact ⟨rfl, h2, ih h3⟩

theorem holds_fill (l : List Int) {hv : List (V × V)} {h : List (Int × ℚ)} (hh : Holds hv h) :
    Holds (l.foldl (fun d i => if (dictGet? d (.int i)).isSome then d else dictSet d (.int i) (.int 0)) hv)
      (l.foldl (fun d i => if (dictGet? d i).isSome then d else dictSet d i 0) h) := by
  induction l generalizing hv h with
  | nil => exact hh
  | cons k t ih =>
    simp only [List.foldl_cons]
    rcases holds_get hh k with ⟨h1, h2⟩ | ⟨x, q, h1, h2, _⟩
    · simp only [h1, h2, Option.isSome_none, Bool.false_eq_true, if_false]
      exact ih (holds_set hh k)
    · simp only [h1, h2, Option.isSome_some, if_true]
      exact ih hh

theorem holds_hist (base : List (Int × ℚ)) :
    (∃ e, histV base = .error e ∧ getHistogramForm base = .error e) ∨
      ∃ hv h, histV base = .ok hv ∧ getHistogramForm base = .ok h ∧ Holds hv h := by
  have e1 : histV base = match (base.mergeSort (fun a b => decide (a.1 ≤ b.1))).head?, (base.mergeSort (fun a b => decide (a.1 ≤ b.1))).getLast? with
    | some lo, some hi => .ok ((pyRange lo.1 (hi.1 + 1)).foldl
      (fun d i => if (dictGet? d (.int i)).isSome then d else dictSet d (.int i) (.int 0)) (encQ base))
    | _, _ => .error .index := rfl
  have e2 : getHistogramForm base = match (base.mergeSort (fun a b => decide (a.1 ≤ b.1))).head?, (base.mergeSort (fun a b => decide (a.1 ≤ b.1))).getLast? with
    | some lo, some hi => .ok ((pyRange lo.1 (hi.1 + 1)).foldl
      (fun d i => if (dictGet? d i).isSome then d else dictSet d i 0) base)
    | _, _ => .error .index := rfl
  generalize base.mergeSort (fun a b => decide (a.1 ≤ b.1)) = l at e1 e2
  cases h1 : l.head? with
  | none => exact .inl ⟨.index, by rw [e1, h1], by rw [e2, h1]⟩
  | some lo => cases h2 : l.getLast? with
    | none => exact .inl ⟨.index, by rw [e1, h1, h2], by rw [e2, h1, h2]⟩
    | some hi =>
      rw [h1, h2] at e1 e2
      exact .inr ⟨_, _, e1, e2, holds_fill _ (holds_encQ base)⟩

theorem holds_keys {hv : List (V × V)} {h : List (Int × ℚ)} (hh : Holds hv h) : hv.map Prod.fst = h.map fun p => .int p.1 := by
  induction hv generalizing h with
  | nil => cases h with
    | nil => rfl
    | cons => exact hh.elim
  | cons a t ih => cases h with
    | nil => exact hh.elim
    | cons b u => simp [hh.1, ih hh.2.2]

omit R in
theorem get_key {ν : Type} {d : List (Int × ν)} {k : Int} (h : k ∈ d.map Prod.fst) : dictGet? d k ≠ none := by
  induction d with
  | nil => cases h
  | cons p t ih =>
    by_cases e : p.1 = k
    · simp [dictGet?, e]
    · have : k ∈ t.map Prod.fst := by
        rcases List.mem_cons.mp h with h | h
        · exact absurd h.symm e
        · exact h
      simpa [dictGet?, e] using ih this

theorem holds_dec {hv : List (V × V)} {h : List (Int × ℚ)} (hh : Holds hv h) : decQ hv = some h := by
  induction hv generalizing h with
  | nil => cases h with
    | nil => rfl
    | cons => exact hh.elim
  | cons a t ih => cases h with
    | nil => exact hh.elim
    | cons b u =>
      obtain ⟨a1, a2⟩ := a
      obtain ⟨b1, b2⟩ := b
      obtain ⟨rfl, h2, h3⟩ := hh
      rcases h2 with rfl | ⟨rfl, rfl⟩ <;> simp [decQ, ih h3]

/-- The body of the loop of `at_least`. -/
def leastBody : PyS := (.seq (.assign (.index (.name "at_least_dict") (.name "value")) (.bin .div (.name "total_above") (.int 1)))
    (.seq (.aug .sub (.name "total_above") (.index (.name "histogram_form") (.name "value")))
    .done))

/-- The local variables of `at_least` and `at_most`. -/
def tailEnv (n1 n2 : String) (a : V) (acc : List (Int × ℚ)) (x : V) (hv : List (V × V)) (ks v : V) : Env Obj :=
  [("self", a), (n1, .dict (encQ acc)), (n2, x), ("histogram_form", .dict hv), ("keys", ks), ("value", v)]

theorem leastLoop_text (h0 : fl 0 = .ok 0) (h1 : fl 1 = .ok 1) (r1 : rd 1 = 1) (hv : List (V × V)) (h : List (Int × ℚ)) (hh : Holds hv h)
    (l : List Int) (hl : ∀ k ∈ l, k ∈ h.map Prod.fst) (acc : List (Int × ℚ)) (x : V) (t : ℚ) (hx : x = .flt t ∨ x = .int 1 ∧ t = 1)
    (a ks v : V) {β : Type} (K : Flow Obj × Env Obj → RollM β) (B : List (Int × ℚ) → RollM β)
    (hK : ∀ acc x v, K (.next, tailEnv "at_least_dict" "total_above" a acc x hv ks v) = B acc) :
    (forLoop W [] (.name "value") leastBody (l.map .int) (tailEnv "at_least_dict" "total_above" a acc x hv ks v) >>= K) =
      B (atLeastLoopG rd h l t acc) := by
  induction l generalizing acc x t v with
  | nil => simp [forLoop_nil, hK, src, atLeastLoopG]
  | cons k l ih =>
    have ih := ih fun k hk => hl k (by simp [hk])
    have hk : dictGet? h k ≠ none := get_key (hl k (by simp))
    obtain ⟨_, e⟩ | ⟨y, q, g1, g2, hy⟩ := holds_get hh k
    · exact absurd e hk
    · simp only [tailEnv, leastBody] at ih ⊢
      rcases hx with rfl | ⟨rfl, rfl⟩ <;> rcases hy with rfl | ⟨rfl, rfl⟩ <;>
        simp [src, forLoop_cons, setNames, g1, g2, atLeastLoopG, set_encQ, binOp, toNum, h0, h1, r1] <;>
        exact ih _ _ _ (by simp) _

/-- The body of the loop of `at_most`. -/
def mostBody : PyS := (.seq (.aug .add (.name "at_or_below") (.index (.name "histogram_form") (.name "value")))
    (.seq (.assign (.index (.name "at_most_dict") (.name "value")) (.bin .div (.name "at_or_below") (.int 1)))
    .done))

theorem mostLoop_text (h0 : fl 0 = .ok 0) (h1 : fl 1 = .ok 1) (r0 : rd 0 = 0) (hv : List (V × V)) (h : List (Int × ℚ)) (hh : Holds hv h)
    (l : List Int) (hl : ∀ k ∈ l, k ∈ h.map Prod.fst) (acc : List (Int × ℚ)) (x : V) (t : ℚ) (hx : x = .flt t ∨ x = .int 0 ∧ t = 0)
    (a ks v : V) {β : Type} (K : Flow Obj × Env Obj → RollM β) (B : List (Int × ℚ) → RollM β)
    (hK : ∀ acc x v, K (.next, tailEnv "at_most_dict" "at_or_below" a acc x hv ks v) = B acc) :
    (forLoop W [] (.name "value") mostBody (l.map .int) (tailEnv "at_most_dict" "at_or_below" a acc x hv ks v) >>= K) =
      B (atMostLoopG rd h l t acc) := by
  induction l generalizing acc x t v with
  | nil => simp [forLoop_nil, hK, src, atMostLoopG]
  | cons k l ih =>
    have ih := ih fun k hk => hl k (by simp [hk])
    have hk : dictGet? h k ≠ none := get_key (hl k (by simp))
    obtain ⟨_, e⟩ | ⟨y, q, g1, g2, hy⟩ := holds_get hh k
    · exact absurd e hk
    · simp only [tailEnv, mostBody] at ih ⊢
      rcases hx with rfl | ⟨rfl, rfl⟩ <;> rcases hy with rfl | ⟨rfl, rfl⟩ <;>
        simp [src, forLoop_cons, setNames, g1, g2, atMostLoopG, set_encQ, binOp, toNum, h0, h1, r0] <;>
        exact ih _ _ _ (by simp) _
end
end PyDice.Source
