import Verif.Lemmas.Algebra
import Verif.Props.C25_C26
/-!
# C50: the laws of arithmetic and logic hold for distributions
-/

namespace PyDice
open PyRuntime

section
variable [R : PyRuntime]

open Classical in
/-- C50: the count of `v` in the distribution of a pattern is the weighted number of ways to choose one outcome per hole such that the
    outcomes can hold together and the pattern has the value `v`. -/
theorem C50_count (parse : Str → Res Expr) {s s' : State} (hs : Reachable parse s) (p : Pat) (hp : p.holes.Nodup) (es : Nat → Expr)
    (ds : Nat → Dist) (he : ∀ i ∈ p.holes, (es i).dist s = (.ok (ds i), s)) {d : Dist} (hd : (p.fill es).dist s = (.ok d, s'))
    (v : Int) (ρ : Nat → Outcome) :
    countOf d.getResultMap v = tupleSum ds p.holes ρ fun ρ' =>
      if Compatible p.holes ρ' ∧ p.value (fun i => (ρ' i).value) = some v then 1 else 0 := by
  have hpd : p.dist ds = .ok d := (Prod.mk.inj ((fill_dist p he).symm.trans hd)).1
  obtain ⟨A, hA⟩ := fill_tidy hs hd
  rw [countOf_getResultMap]
  refine (patDist_E p (fun i hi => (fill_tidy hs (he i hi)).choose_spec.proper) hp hpd (fun o ho => hA.sat ho)
    (fun x => if x = v then 1 else 0) ρ).trans ?_
  congr 1
  funext ρ'
  cases p.value fun i => (ρ' i).value with
  | none => simp [onSome]
  | some u => by_cases hc : Compatible p.holes ρ' <;> simp [onSome, hc]

/-- C50: two patterns with the same holes, each used once, that are equal for all integers which the holes can be, have the same
    distribution: same counts, same keys, same total, for all expressions without assignments in the holes and in every state. -/
theorem C50_law (parse : Str → Res Expr) {s s1 s2 : State} (hs : Reachable parse s) (p q : Pat) (es : Nat → Expr)
    (hn : ∀ i ∈ p.holes, (es i).NoAssign)
    (h : LawOn (fun i v => ∃ di, (es i).dist s = (.ok di, s) ∧ hasKey di.getResultMap v) p q) {d1 d2 : Dist}
    (hd1 : (p.fill es).dist s = (.ok d1, s1)) (hd2 : (q.fill es).dist s = (.ok d2, s2)) :
    (∀ v, countOf d1.getResultMap v = countOf d2.getResultMap v) ∧
    (∀ v, hasKey d1.getResultMap v ↔ hasKey d2.getResultMap v) ∧ d1.outcomeCount = d2.outcomeCount ∧ s1 = s ∧ s2 = s := by
  classical
  have hdef := fill_defined p hn hd1
  let ds : Nat → Dist := fun i => if hi : i ∈ p.holes then (hdef i hi).choose else d1
  have he : ∀ i ∈ p.holes, (es i).dist s = (.ok (ds i), s) := by
    intro i hi
    have := (hdef i hi).choose_spec
    simpa only [ds, hi, dif_pos] using this
  have he' : ∀ i ∈ q.holes, (es i).dist s = (.ok (ds i), s) := fun i hi => he i (h.same.mem_iff.mpr hi)
  have hpp : ∀ i ∈ p.holes, (ds i).Proper := fun i hi => (fill_tidy hs (he i hi)).choose_spec.proper
  have hpq : ∀ i ∈ q.holes, (ds i).Proper := fun i hi => hpp i (h.same.mem_iff.mpr hi)
  have hp1 := Prod.mk.inj ((fill_dist p he).symm.trans hd1)
  have hp2 := Prod.mk.inj ((fill_dist q he').symm.trans hd2)
  obtain ⟨A1, hA1⟩ := fill_tidy hs hd1
  obtain ⟨A2, hA2⟩ := fill_tidy hs hd2
  have hnq : q.holes.Nodup := h.same.nodup_iff.mp h.once
  have hkey : ∀ g : Int → Nat, wsum d1.resultMap (fun o => g o.value) = wsum d2.resultMap (fun o => g o.value) := by
    intro g
    have ρ : Nat → Outcome := fun _ => ⟨0, nullCS⟩
    rw [patDist_E p hpp h.once hp1.1 (fun o ho => hA1.sat ho) g ρ, patDist_E q hpq hnq hp2.1 (fun o ho => hA2.sat ho) g ρ,
      ← tupleSum_perm ds h.same h.once]
    refine tupleSum_congr ds _ _ _ _ fun ρ' _ hρ => ?_
    have hc : Compatible p.holes ρ' ↔ Compatible q.holes ρ' :=
      exists_congr fun ω => ⟨fun H i hi => H i (h.same.mem_iff.mpr hi), fun H i hi => H i (h.same.mem_iff.mp hi)⟩
    rw [h.equal _ fun i hi => ⟨ds i, he i hi, (hasKey_getResultMap _ _).mpr (by
      obtain ⟨o, ho, e⟩ := hρ i hi
      exact ⟨o, ho, by rw [e]⟩)⟩]
    simp only [hc]
  have hsupp : ∀ ω v, Supp d1 ω v ↔ Supp d2 ω v := by
    intro ω v
    rw [patDist_supp p hpp h.once d1 hp1.1, patDist_supp q hpq hnq d2 hp2.1]
    have key : ∀ x : Nat → Int, (∀ i ∈ p.holes, Supp (ds i) ω (x i)) → p.value x = q.value x := by
      intro x hx
      refine h.equal x fun i hi => ⟨ds i, he i hi, (hasKey_getResultMap _ _).mpr ?_⟩
      obtain ⟨o, ho, hv, _⟩ := hx i hi
      exact ⟨o, ho, hv⟩
    constructor
    · rintro ⟨x, h1, h2⟩
      exact ⟨x, fun i hi => h1 i (h.same.mem_iff.mpr hi), by rw [← key x h1, h2]⟩
    · rintro ⟨x, h1, h2⟩
      have h1' : ∀ i ∈ p.holes, Supp (ds i) ω (x i) := fun i hi => h1 i (h.same.mem_iff.mp hi)
      exact ⟨x, h1', by rw [key x h1', h2]⟩
  have hks : ∀ {A : Str → Prop} {d : Dist}, Tidy A d → ∀ v, hasKey d.getResultMap v ↔ ∃ ω, Supp d ω v := by
    intro A d hA v
    rw [hasKey_getResultMap]
    constructor
    · rintro ⟨o, ho, hv⟩
      obtain ⟨ω, hω⟩ := hA.sat ho
      exact ⟨ω, o, ho, hv, hω⟩
    · rintro ⟨ω, o, ho, hv, _⟩
      exact ⟨o, ho, hv⟩
  refine ⟨fun v => ?_, fun v => ?_, ?_, hp1.2.symm, hp2.2.symm⟩
  · rw [countOf_getResultMap, countOf_getResultMap]
    exact hkey fun x => if x = v then 1 else 0
  · rw [hks hA1, hks hA2]
    exact exists_congr fun ω => hsupp ω v
  · rw [outcomeCount_constructed hA1.constructed, outcomeCount_constructed hA2.constructed]
    exact hkey fun _ => 1

/-- C50: without division the distribution of a pattern exists exactly when those of the holes do. -/
theorem C50_defined (parse : Str → Res Expr) {s : State} (hs : Reachable parse s) (p : Pat) (hd : p.NoDiv) (es : Nat → Expr)
    (hn : ∀ i ∈ p.holes, (es i).NoAssign) :
    (∃ d, (p.fill es).dist s = (.ok d, s)) ↔ ∀ i ∈ p.holes, ∃ di, (es i).dist s = (.ok di, s) := by
  classical
  constructor
  · rintro ⟨d, h⟩
    exact fill_defined p hn h
  · intro h
    let ds : Nat → Dist := fun i => if hi : i ∈ p.holes then (h i hi).choose else mkDist []
    have he : ∀ i ∈ p.holes, (es i).dist s = (.ok (ds i), s) := by
      intro i hi
      have := (h i hi).choose_spec
      simpa only [ds, hi, dif_pos] using this
    obtain ⟨d, h'⟩ := patDist_ok (ds := ds) p (fun i hi => (fill_tidy hs (he i hi)).choose_spec.proper) hd
    exact ⟨d, by rw [fill_dist p he, h']⟩

end

/-! ### Laws -/

abbrev patA : Pat := .hole 0
abbrev patB : Pat := .hole 1
abbrev patC : Pat := .hole 2

/-- C50: laws of the integers to which `C50_law` applies. -/
theorem C50_laws :
    -- commutativity
    (∀ op ∈ [BinOp.add, .mul, .eq, .ne, .and, .or, .max, .min], Law (.bin op patA patB) (.bin op patB patA)) ∧
    -- associativity
    (∀ op ∈ [BinOp.add, .mul, .and, .or, .max, .min], Law (.bin op (.bin op patA patB) patC) (.bin op patA (.bin op patB patC))) ∧
    -- De Morgan
    Law (.not (.bin .and patA patB)) (.bin .or (.not patA) (.not patB)) ∧ Law (.not (.bin .or patA patB)) (.bin .and (.not patA) (.not patB)) ∧
    -- comparisons
    Law (.bin .lt patA patB) (.bin .gt patB patA) ∧ Law (.bin .le patA patB) (.bin .ge patB patA) ∧ Law (.not (.bin .lt patA patB)) (.bin .ge patA patB) ∧
    Law (.not (.bin .gt patA patB)) (.bin .le patA patB) ∧ Law (.not (.bin .eq patA patB)) (.bin .ne patA patB) ∧
    Law (.bin .lt patA patB) (.bin .gt (.bin .sub patB patA) (.const 0)) ∧
    -- arithmetic
    Law (.bin .sub patA (.bin .sub patB patC)) (.bin .add (.bin .sub patA patB) patC) ∧ Law (.abs (.bin .sub patA patB)) (.abs (.bin .sub patB patA)) ∧
    Law (.abs (.bin .mul patA patB)) (.bin .mul (.abs patA) (.abs patB)) ∧
    Law (.bin .sub (.const 0) (.bin .max patA patB)) (.bin .min (.bin .sub (.const 0) patA) (.bin .sub (.const 0) patB)) ∧
    -- neutral elements
    Law (.bin .add patA (.const 0)) patA ∧ Law (.bin .mul patA (.const 1)) patA ∧ Law (.bin .floordiv patA (.const 1)) patA ∧
    Law (.not (.not patA)) (.bin .gt patA (.const 0)) ∧
    -- division
    (∀ k : Int, k ≠ 0 → Law (.bin .floordiv (.bin .add (.bin .mul patA (.const k)) patB) (.const k))
      (.bin .add patA (.bin .floordiv patB (.const k)))) ∧
    (∀ k : Int, k ≠ 0 → ∀ m : Int, 0 < m → Law (.bin .floordiv (.bin .floordiv patA (.const k)) (.const m))
      (.bin .floordiv patA (.const (k * m)))) := by
  have mk : ∀ {p q : Pat}, p.holes.Nodup → p.holes.Perm q.holes → (∀ x, p.value x = q.value x) → Law p q :=
    fun h1 h2 h3 => ⟨h1, h2, fun x _ => h3 x⟩
  refine ⟨?_, ?_, ?_, ?_, ?_, ?_, ?_, ?_, ?_, ?_, ?_, ?_, ?_, ?_, ?_, ?_, ?_, ?_, ?_, ?_⟩
  · intro op hop
    simp only [List.mem_cons, List.not_mem_nil, or_false] at hop
    rcases hop with rfl | rfl | rfl | rfl | rfl | rfl | rfl | rfl <;>
      refine mk (by decide) (by decide) fun x => ?_ <;> simp only [Pat.value, opValue, Option.bind_some, Option.some.injEq]
    · exact add_comm _ _
    · exact mul_comm _ _
    · simp only [eq_comm]
    · simp only [eq_comm]
    · simp only [and_comm]
    · simp only [or_comm]
    · exact max_comm _ _
    · exact min_comm _ _
  · intro op hop
    simp only [List.mem_cons, List.not_mem_nil, or_false] at hop
    rcases hop with rfl | rfl | rfl | rfl | rfl | rfl <;>
      refine mk (by decide) (by decide) fun x => ?_ <;> simp only [Pat.value, opValue, Option.bind_some, Option.some.injEq]
    · exact add_assoc _ _ _
    · exact mul_assoc _ _ _
    · split_ifs <;> omega
    · split_ifs <;> omega
    · exact max_assoc _ _ _
    · exact min_assoc _ _ _
  all_goals try (refine mk (by decide) (by decide) fun x => ?_)
  all_goals try simp only [Pat.value, opValue, Option.bind_some, Option.map_some, Option.some.injEq]
  all_goals try (split_ifs <;> omega)
  · ring
  · exact abs_sub_comm _ _
  · exact abs_mul _ _
  · omega
  · exact add_zero _
  · exact mul_one _
  · simp
  · intro k hk
    refine mk (by simp [Pat.holes]) (by simp [Pat.holes]) fun x => ?_
    have hk' : (k : ℚ) ≠ 0 := Int.cast_ne_zero.mpr hk
    simp only [Pat.value, opValue, Option.bind_some, if_neg hk, Option.some.injEq]
    rw [Int.cast_add, Int.cast_mul, add_div, mul_div_assoc, div_self hk', mul_one, Int.floor_intCast_add]
  · intro k hk m hm
    refine mk (by simp [Pat.holes]) (by simp [Pat.holes]) fun x => ?_
    have hkm : k * m ≠ 0 := mul_ne_zero hk hm.ne'
    obtain ⟨n, rfl⟩ := Int.eq_ofNat_of_zero_le hm.le
    simp only [Pat.value, opValue, Option.bind_some, if_neg hk, if_neg hkm, if_neg hm.ne', Option.some.injEq]
    rw [Int.cast_mul, ← div_div, Int.cast_natCast, Int.floor_div_natCast, Int.floor_div_natCast, Int.floor_intCast]

section
attribute [local instance] listRuntime

/-- Two holes: `2d2 > 3` and a variable. -/
def demoHoles (i : Nat) : Expr := if i = 0 then .bin .gt (.dice twoD2) (.constInt ['3']) else .getVar ['x']

/-- The state after `VAR x = d3 - 2`. -/
def demoState : State := ((Expr.assign ['x'] (.sub (.dice ⟨"d3".toList, ones [1, 2, 3], 1⟩) (.constInt ['2']))).dist State.new).2

/-- `!((2d2 > 3) AND x)` and `(!(2d2 > 3)) OR (!x)`: the conditions of `C50_law` hold, and both sides have these counts. -/
example : Reachable parse demoState ∧ (∀ i ∈ (Pat.not (.bin .and patA patB)).holes, (demoHoles i).NoAssign) ∧
    Law (.not (.bin .and patA patB)) (.bin .or (.not patA) (.not patB)) ∧
    (((Pat.not (.bin .and patA patB)).fill demoHoles).dist demoState).1.toOption.map Dist.getResultMap = some [(1, 11), (0, 1)] ∧
    (((Pat.bin .or (.not patA) (.not patB)).fill demoHoles).dist demoState).1.toOption.map Dist.getResultMap = some [(1, 11), (0, 1)] := by
  refine ⟨.exprDist _ .new, ?_, C50_laws.2.2.1, by decide +kernel, by decide +kernel⟩
  intro i _
  unfold demoHoles
  split <;> simp [Expr.NoAssign]

/-- A law that needs the values of the holes: `ABS(2d2)` is `2d2`. -/
example : LawOn (fun _ v => ∃ di, (Expr.dice twoD2).dist State.new = (.ok di, State.new) ∧ hasKey di.getResultMap v) (.abs patA) patA := by
  refine ⟨by decide, by decide, fun x hx => ?_⟩
  obtain ⟨di, h1, h2⟩ := hx 0 (by decide)
  obtain ⟨d, h3, h4⟩ := evalOk (x := (Expr.dice twoD2).dist State.new) Dist.getResultMap (y := [(2, 1), (3, 2), (4, 1)]) (by decide +kernel)
  rw [h3] at h1
  obtain rfl : d = di := by injection h1 with h; injection h
  rw [h4] at h2
  simp only [hasKey, List.map_cons, List.map_nil, List.mem_cons, List.not_mem_nil, or_false] at h2
  simp only [Pat.value, Option.map_some, Option.some.injEq]
  rw [abs_of_nonneg (by omega)]

end

/-! ### Where the laws stop -/

/-- The laws are not laws of `roll`: `!(1 AND 2)` always rolls 1, `(!1) OR (!2)` always rolls 0 (cf. C23, C24: `AND` and `OR` are
    bitwise in `roll` and logical in distributions). -/
theorem C50_roll_counterexample [R : PyRuntime] : ∃ p q, Law p q ∧ ∃ es : Nat → Expr, ∀ s,
    (p.fill es).roll s = .pure (.ok 1, s) ∧ (q.fill es).roll s = .pure (.ok 0, s) := by
  refine ⟨_, _, C50_laws.2.2.1, fun i => .constInt (if i = 0 then ['1'] else ['2']), fun s => ⟨?_, ?_⟩⟩ <;> rfl

/-- `2 * a`. -/
def twoA : Expr := .mul (.constInt (intStr 2)) (.getVar ['a'])

theorem straight_twoA : twoA.Straight := ⟨⟨trivial, trivial⟩, by decide, trivial, trivial⟩

/-- A hole must not be used twice: `a + a` and `2 * a` are equal for all integers, but after `VAR a = 2d2` the sum `a + a` counts 6
    outcomes and 4 of them are 6, the product counts 4 and 2 of them are 6 (cf. C26). -/
theorem C50_twice_counterexample [R : PyRuntime] (s s1 s2 : State) (hs : Session prog2d2 s) (d1 d2 : Dist)
    (h1 : ((Pat.bin .add patA patA).fill fun _ => .getVar ['a']).dist s = (.ok d1, s1))
    (h2 : ((Pat.bin .mul (.const 2) patA).fill fun _ => .getVar ['a']).dist s = (.ok d2, s2)) :
    (∀ x, (Pat.bin .add patA patA).value x = (Pat.bin .mul (.const 2) patA).value x) ∧
    countOf d1.getResultMap 6 = 4 ∧ countOf d2.getResultMap 6 = 2 ∧ d1.outcomeCount = 6 ∧ d2.outcomeCount = 4 := by
  have key : ∀ (e : Expr) (he : e.Straight) (d : Dist) (s' : State), e.dist s = (.ok d, s') → unusedWays prog2d2 e = 1 →
      ∀ v n, ((powRuns prog2d2 ((uses prog2d2 e).map fun u => if u = 0 then 1 else u) Env.empty).map fun r =>
        r.2 * (ways e r.1).count (some v)).sum = n → countOf d.getResultMap v = n := by
    intro e he d s' hd hu v n hn
    have := C26_law prog2d2 e straight_prog2d2 he s s' hs d hd v
    rw [hu, one_mul] at this
    rw [this, hn]
  have tot : ∀ (e : Expr) (he : e.Straight) (d : Dist) (s' : State), e.dist s = (.ok d, s') → unusedWays prog2d2 e = 1 →
      ∀ n, ((powRuns prog2d2 ((uses prog2d2 e).map fun u => if u = 0 then 1 else u) Env.empty).map fun r =>
        r.2 * waySum (ways e r.1) (fun _ => 1)).sum = n → d.outcomeCount = n := by
    intro e he d s' hd hu n hn
    obtain ⟨g, hg, hp, hm, _⟩ := session_lines hs straight_prog2d2
    rw [← E_one d (expr_tidy hg hm he hd).constructed]
    have := exact_total hg hm he hd (fun _ => 1)
    rw [hp, hu, one_mul] at this
    rw [this, hn]
  refine ⟨fun x => by simp only [Pat.value, opValue, Option.bind_some]; rw [two_mul], ?_, ?_, ?_, ?_⟩
  · exact key aPlusA straight_aPlusA d1 s1 h1 (by decide +kernel) 6 4 (by decide +kernel)
  · exact key twoA straight_twoA d2 s2 h2 (by decide +kernel) 6 2 (by decide +kernel)
  · exact tot aPlusA straight_aPlusA d1 s1 h1 (by decide +kernel) 6 (by decide +kernel)
  · exact tot twoA straight_twoA d2 s2 h2 (by decide +kernel) 4 (by decide +kernel)

/-- There is such a session, and both distributions exist. -/
example : let _ := listRuntime
    ∃ s s1 s2 d1 d2, Session prog2d2 s ∧ aPlusA.dist s = (.ok d1, s1) ∧ twoA.dist s = (.ok d2, s2) := by
  intro _
  exact ⟨_, _, _, _, _, Session.dist (x := ['a']) (e := .dice twoD2) Session.new rfl, rfl, rfl⟩

end PyDice
