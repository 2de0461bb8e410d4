import Verif.Lemmas.Dist
import Verif.Lemmas.Convolve
/-!
# C05 - C07: combining distributions
-/

namespace PyDice

open PyRuntime

section
variable [R : PyRuntime]

/-- C05: counts of a combined distribution, for operands that are tied to no variable. -/
theorem C05_binop_convolution (op : BinOp) (a b d : Dist) (hd : Dist.binop op a b = .ok d)
    (ha : a.Proper) (ua : a.Untied) (ub : b.Untied) (v : Int) :
    countOf d.getResultMap v = pairCount op a.getResultMap b.getResultMap v := by
  rw [countOf_getResultMap, binop_E hd ha ua ub, pairCount_wsum, wsum_getResultMap]
  simp only [wsum_getResultMap]

/-- C05: a value is listed exactly when some pair of outcomes produces it. -/
theorem C05_binop_support (op : BinOp) (a b d : Dist) (hd : Dist.binop op a b = .ok d)
    (ha : a.Proper) (ua : a.Untied) (ub : b.Untied) (v : Int) :
    hasKey d.getResultMap v ↔
      ∃ x y, hasKey a.getResultMap x ∧ hasKey b.getResultMap y ∧ OpYields op x y v := by
  rw [hasKey_getResultMap]
  have h := binop_support_given hd ha (fun _ => 0) v
  constructor
  · rintro ⟨p, hp, hv⟩
    obtain ⟨p', h1, q', h2, h3, _, _⟩ := h.mp ⟨p, hp, hv, binop_untied hd ha ua ub p hp _⟩
    exact ⟨_, _, (hasKey_getResultMap _ _).mpr ⟨p', h1, rfl⟩, (hasKey_getResultMap _ _).mpr ⟨q', h2, rfl⟩,
      (apply_yields _ _ _ _).mp h3⟩
  · rintro ⟨x, y, hx, hy, hop⟩
    obtain ⟨p, hp, rfl⟩ := (hasKey_getResultMap _ _).mp hx
    obtain ⟨q, hq, rfl⟩ := (hasKey_getResultMap _ _).mp hy
    obtain ⟨e, he, hv, _⟩ := h.mpr ⟨p, hp, q, hq, (apply_yields _ _ _ _).mpr hop, ua p hp _, ub q hq _⟩
    exact ⟨e, he, hv⟩

/-- C05: the combination exists unless it is a division by a possible zero. -/
theorem C05_binop_defined (op : BinOp) (a b : Dist) (ha : a.Proper)
    (h : op = .floordiv → ¬ hasKey b.getResultMap 0) : ∃ d, Dist.binop op a b = .ok d := by
  rw [binop_ok_iff ha]
  intro p hp q hq
  by_cases hop : op = .floordiv
  · subst hop
    have : q.1.value ≠ 0 := by
      intro h0
      exact h rfl ((hasKey_getResultMap _ _).mpr ⟨q, hq, h0⟩)
    exact ⟨_, if_neg this⟩
  · cases op <;> first | exact absurd rfl hop | exact ⟨_, rfl⟩

/-- C05 from the public constructor: any two dicts of counts. -/
theorem C05_from_counts (op : BinOp) (m n : List (Int × Nat)) (h : op = .floordiv → ¬ hasKey n 0) :
    ∃ a b d, mkDistInt m = .ok a ∧ mkDistInt n = .ok b ∧ Dist.binop op a b = .ok d ∧
      (∀ v, countOf d.getResultMap v = pairCount op m n v) ∧
      (∀ v, hasKey d.getResultMap v ↔ ∃ x y, hasKey m x ∧ hasKey n y ∧ OpYields op x y v) := by
  obtain ⟨a, ha, _, ua, pa, ea, ka⟩ := mkDistInt_spec (R := R) m
  obtain ⟨b, hb, _, ub, _, eb, kb⟩ := mkDistInt_spec (R := R) n
  obtain ⟨d, hd⟩ := C05_binop_defined op a b pa (fun h0 h1 => h h0 ((kb 0).mp h1))
  refine ⟨a, b, d, ha, hb, hd, ?_, ?_⟩
  · intro v
    rw [countOf_getResultMap, binop_E hd pa ua ub, pairCount_wsum, ea]
    simp only [eb]
  · intro v
    rw [C05_binop_support op a b d hd pa ua ub v]
    simp only [ka, kb]

/-- C06: `not_operator` moves counts to 0 or 1. -/
theorem C06_not_pushforward (d : Dist) (v : Int) :
    countOf d.notOp.getResultMap v = imageCount NotYields d.getResultMap v ∧
    (hasKey d.notOp.getResultMap v ↔ ∃ x, hasKey d.getResultMap x ∧ NotYields x v) := by
  rw [notOp_eq]
  refine ⟨imageCount_mapValue NotYields notVal notVal_yields d v, ?_⟩
  rw [mapValue_support]
  simp only [notVal_yields]

/-- C06: `abs` moves counts to the absolute value. -/
theorem C06_abs_pushforward (d : Dist) (v : Int) :
    countOf d.absOp.getResultMap v = imageCount AbsYields d.getResultMap v ∧
    (hasKey d.absOp.getResultMap v ↔ ∃ x, hasKey d.getResultMap x ∧ AbsYields x v) := by
  rw [absOp_eq]
  refine ⟨imageCount_mapValue AbsYields absVal absVal_yields d v, ?_⟩
  rw [mapValue_support]
  simp only [absVal_yields]

/-- C06: the total count is unchanged. -/
theorem C06_total_unchanged (d : Dist) (hc : d.Constructed) :
    d.notOp.outcomeCount = d.outcomeCount ∧ d.absOp.outcomeCount = d.outcomeCount ∧
    (d.getResultMap.map Prod.snd).sum = d.outcomeCount := by
  refine ⟨mapValue_total notVal d hc, mapValue_total absVal d hc, ?_⟩
  rw [outcomeCount_constructed hc]
  have := wsum_getResultMap d (fun _ => (1 : Nat))
  unfold Dist.E at this
  rw [← this]
  unfold wsum
  simp

/-- C07: conditionally on any assignment the counts multiply. -/
theorem C07_binop_given (op : BinOp) (a b d : Dist) (hd : Dist.binop op a b = .ok d) (ha : a.Proper)
    (ω : Str → Int) (v : Int) : d.countGiven ω v = pairCountGiven op a b ω v := by
  classical
  rw [countGiven_eq, binop_EGiven hd ha]
  unfold pairCountGiven Dist.EGiven wsum
  congr 1
  apply List.map_congr_left
  intro p _
  unfold given
  by_cases hp : Sat ω p.1.cs
  · simp only [hp, if_true, true_and]
    rw [nsmul_list_sum, List.map_map]
    congr 1
    apply List.map_congr_left
    intro q _
    simp only [Function.comp]
    by_cases hq : Sat ω q.1.cs
    · simp only [hq, if_true, true_and]
      by_cases h : OpYields op p.1.value q.1.value v
      · rw [if_pos h, (apply_yields _ _ _ _).mpr h]; simp [onOk]
      · rw [if_neg h]
        cases hv : op.apply p.1.value q.1.value with
        | error e => simp [onOk]
        | ok z =>
          have : z ≠ v := by rintro rfl; exact h ((apply_yields _ _ _ _).mp hv)
          simp [onOk, this]
    · simp [hq]
  · simp [hp]

/-- C07: every outcome of the combination comes from two outcomes that agree with each other; its constraints say exactly
    what the two say together, and some assignment satisfies them. -/
theorem C07_no_contradictions (op : BinOp) (a b d : Dist) (hd : Dist.binop op a b = .ok d) (ha : a.Proper)
    (e : Outcome × Nat) (he : e ∈ d.resultMap) :
    (∃ ω, Sat ω e.1.cs) ∧ ∃ p ∈ a.resultMap, ∃ q ∈ b.resultMap, OpYields op p.1.value q.1.value e.1.value ∧
      ∀ ω, Sat ω e.1.cs ↔ Sat ω p.1.cs ∧ Sat ω q.1.cs := by
  obtain ⟨p, hp, q, hq, h1, h2, h3, _⟩ := binop_mem hd ha he
  exact ⟨(isPossible_iff h2.normal).mp h3, p, hp, q, hq, (apply_yields _ _ _ _).mp h1, h2.sat⟩

/-- C07: and no compatible pair is lost. -/
theorem C07_no_losses (op : BinOp) (a b d : Dist) (hd : Dist.binop op a b = .ok d) (ha : a.Proper)
    (ω : Str → Int) (p : Outcome × Nat) (hp : p ∈ a.resultMap) (q : Outcome × Nat) (hq : q ∈ b.resultMap)
    (hpω : Sat ω p.1.cs) (hqω : Sat ω q.1.cs) :
    ∃ e ∈ d.resultMap, OpYields op p.1.value q.1.value e.1.value ∧ Sat ω e.1.cs := by
  obtain ⟨v, hv⟩ := (binop_ok_iff ha).mp ⟨d, hd⟩ p hp q hq
  obtain ⟨e, he, h1, h2⟩ := (binop_support_given hd ha ω v).mpr ⟨p, hp, q, hq, hv, hpω, hqω⟩
  refine ⟨e, he, ?_, h2⟩
  rw [h1]; exact (apply_yields _ _ _ _).mp hv

/-- C07 for the unary operators. -/
theorem C07_unary_given (d : Dist) (ω : Str → Int) (v : Int) :
    d.notOp.countGiven ω v = d.EGiven ω (fun x => if notVal x = v then 1 else 0) ∧
    d.absOp.countGiven ω v = d.EGiven ω (fun x => if absVal x = v then 1 else 0) := by
  rw [countGiven_eq, countGiven_eq, notOp_eq, absOp_eq, mapValue_EGiven, mapValue_EGiven]
  exact ⟨rfl, rfl⟩

end

/-! ## Non-vacuity -/

section
attribute [local instance] listRuntime

/-- Two weighted coins are multiplied; the numbers are what `C05_from_counts` says. -/
example : (do
    let a ← mkDistInt [(1, 2), (2, 1)]
    let b ← mkDistInt [(-1, 1), (3, 5)]
    let d ← Dist.binop .mul a b
    return d.getResultMap) = Except.ok [(-1, 2), (3, 10), (-2, 1), (6, 5)] := by decide

/-- A division whose divisor excludes zero meets the hypothesis of `C05_from_counts`. -/
example : (BinOp.floordiv = .floordiv → ¬ hasKey [((2 : Int), 1), (-3, 4)] 0) := by simp [hasKey]

/-- `not` and `abs` on counts that collide. -/
example : (do
    let a ← mkDistInt [(-2, 2), (2, 1), (0, 4)]
    return (a.notOp.getResultMap, a.absOp.getResultMap, a.notOp.outcomeCount)) =
      Except.ok ([(1, 6), (0, 1)], [(2, 3), (0, 4)], 7) := by decide

/-- A distribution tied to variable `x`: outcomes `x=1` (once) and `x=2` (three times). -/
def exTied : Dist :=
  mkDist [(⟨1, ⟨[.varValue ['x'] [1]], by simp⟩⟩, 1), (⟨2, ⟨[.varValue ['x'] [2]], by simp⟩⟩, 3)]

example : exTied.Proper := by
  intro p hp
  simp only [exTied, mkDist, List.foldl, safeAdd] at hp
  rcases List.mem_cons.mp hp with rfl | hp
  · simp
  · simp only [List.mem_singleton] at hp; subst hp; simp

/-- Used twice, only the consistent pairs survive (C07); their weights are multiplied. -/
example : (Dist.binop .add exTied exTied).map Dist.getResultMap = Except.ok [(2, 1), (4, 9)] := by decide

end

end PyDice
