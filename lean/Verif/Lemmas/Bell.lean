import Verif.Spec.Bell
import Verif.Lemmas.Identities
import Mathlib.Algebra.BigOperators.Intervals
/-!
# Bell-shaped counts
-/

namespace PyDice
open PyRuntime

/-- A count with the twofold middle `m`: symmetric, and not falling up to the middle. -/
structure Bell (c : Int → Nat) (m : Int) : Prop where
  mirror : ∀ v, c (m - v) = c v
  rise : ∀ v, 2 * v ≤ m → c (v - 1) ≤ c v

theorem Bell.up {c : Int → Nat} {m : Int} (h : Bell c m) {a b : Int} (hab : a ≤ b) (hb : 2 * b ≤ m) : c a ≤ c b := by
  obtain ⟨k, rfl⟩ : ∃ k : Nat, b = a + k := ⟨(b - a).toNat, by omega⟩
  clear hab
  induction k with
  | zero => simp
  | succ k ih =>
    refine le_trans (ih (by push_cast at hb ⊢; omega)) ?_
    have := h.rise (a + (k + 1 : Nat)) hb
    rwa [show a + ((k + 1 : Nat) : Int) - 1 = a + k by push_cast; ring] at this

theorem Bell.left {c : Int → Nat} {m : Int} (h : Bell c m) {a b : Int} (hab : a ≤ b) (hs : a + b ≤ m) : c a ≤ c b := by
  by_cases hb : 2 * b ≤ m
  · exact h.up hab hb
  · rw [← h.mirror b]
    exact h.up (by omega) (by omega)

theorem Bell.nearer {c : Int → Nat} {m : Int} (h : Bell c m) {v w : Int} (hvw : |2 * v - m| ≤ |2 * w - m|) : c w ≤ c v := by
  have key : ∀ w, |2 * v - m| ≤ |2 * w - m| → 2 * w ≤ m → c w ≤ c v := by
    intro w hvw hw
    rw [abs_of_nonpos (by omega : 2 * w - m ≤ 0)] at hvw
    obtain ⟨h1, h2⟩ := abs_le.mp hvw
    exact h.left (by omega) (by omega)
  by_cases hw : 2 * w ≤ m
  · exact key w hvw hw
  · rw [← h.mirror w]
    refine key _ ?_ (by omega)
    rw [show 2 * (m - w) - m = -(2 * w - m) by ring, abs_neg]
    exact hvw

theorem sum_pyRange {M : Type} [AddCommMonoid M] (lo hi : Int) (g : Int → M) :
    ((pyRange lo hi).map g).sum = ∑ k ∈ Finset.range (hi - lo).toNat, g (lo + k) := by
  unfold pyRange
  rw [List.map_map]
  induction (hi - lo).toNat with
  | zero => simp
  | succ n ih => simp [List.range_succ, Finset.sum_range_succ, ← ih]

/-- Adding a number drawn from an interval keeps a count bell-shaped. -/
theorem Bell.smear {c : Int → Nat} {m : Int} (h : Bell c m) {lo hi : Int} (hl : lo ≤ hi) :
    Bell (fun v => ((pyRange lo (hi + 1)).map fun f => c (v - f)).sum) (m + (lo + hi)) := by
  obtain ⟨K, hK⟩ : ∃ K : Nat, (hi + 1 - lo).toNat = K + 1 := ⟨(hi - lo).toNat, by omega⟩
  constructor
  · intro v
    simp only [sum_pyRange, hK]
    rw [← Finset.sum_range_reflect]
    apply Finset.sum_congr rfl
    intro k hk
    rw [← h.mirror]
    congr 1
    have := Finset.mem_range.mp hk
    rw [Nat.cast_sub (by omega), Nat.cast_sub (by omega)]
    push_cast
    omega
  · intro v hv
    simp only [sum_pyRange, hK]
    have key := h.left (a := v - 1 - hi) (b := v - lo) (by omega) (by omega)
    rw [Finset.sum_range_succ, Finset.sum_range_succ']
    have e : ∀ k ∈ Finset.range K, c (v - 1 - (lo + (k : Int))) = c (v - (lo + ((k + 1 : Nat) : Int))) := by
      intro k _
      congr 1
      push_cast
      ring
    rw [Finset.sum_congr rfl e]
    refine Nat.add_le_add_left ?_ _
    have e1 : v - 1 - (lo + (K : Int)) = v - 1 - hi := by omega
    rw [e1]
    simpa using key

/-- The sum over all choices of one number of each interval. -/
def boxSum {M : Type} [AddCommMonoid M] : List (Int × Int) → (Int → M) → M
  | [], f => f 0
  | p :: l, f => ((pyRange p.1 (p.2 + 1)).map fun v => boxSum l fun x => f (v + x)).sum

/-- Twice the middle of the sums. -/
def boxMid (l : List (Int × Int)) : Int := (l.map fun p => p.1 + p.2).sum

theorem boxSum_append {M : Type} [AddCommMonoid M] : ∀ (l k : List (Int × Int)) (f : Int → M),
    boxSum (l ++ k) f = boxSum l fun x => boxSum k fun y => f (x + y)
  | [], k, f => by simp [boxSum]
  | p :: l, k, f => by
    simp only [List.cons_append, boxSum, boxSum_append l k, add_assoc]

theorem boxSum_neg {M : Type} [AddCommMonoid M] : ∀ (l : List (Int × Int)) (f : Int → M),
    boxSum (l.map fun p => (-p.2, -p.1)) f = boxSum l fun x => f (-x)
  | [], f => by simp [boxSum]
  | p :: l, f => by
    simp only [List.map_cons, boxSum, boxSum_neg l, sum_pyRange]
    rw [← Finset.sum_range_reflect, show (-p.1 + 1 - -p.2).toNat = (p.2 + 1 - p.1).toNat by omega]
    apply Finset.sum_congr rfl
    intro k hk
    have := Finset.mem_range.mp hk
    congr 1
    funext x
    congr 1
    rw [Nat.cast_sub (by omega), Nat.cast_sub (by omega)]
    push_cast
    omega

theorem boxSum_mirror {M : Type} [AddCommMonoid M] : ∀ (l : List (Int × Int)) (f : Int → M), boxSum l f = boxSum l fun x => f (boxMid l - x)
  | [], f => by simp [boxSum, boxMid]
  | p :: l, f => by
    have e : boxMid (p :: l) = p.1 + p.2 + boxMid l := by simp [boxMid]
    simp only [boxSum, sum_pyRange, e]
    rw [← Finset.sum_range_reflect]
    apply Finset.sum_congr rfl
    intro k hk
    have := Finset.mem_range.mp hk
    rw [boxSum_mirror l]
    congr 1
    funext x
    congr 1
    rw [Nat.cast_sub (by omega), Nat.cast_sub (by omega)]
    push_cast
    omega

theorem boxSum_add (f g : Int → ℚ) : ∀ l : List (Int × Int), boxSum l (fun x => f x + g x) = boxSum l f + boxSum l g := by
  intro l
  induction l generalizing f g with
  | nil => rfl
  | cons p l ih => simp only [boxSum, ih, sum_pyRange, Finset.sum_add_distrib]

theorem boxSum_const : ∀ l : List (Int × Int), (∀ p ∈ l, p.1 ≤ p.2) → ∃ n : Nat, 0 < n ∧ ∀ c : ℚ, boxSum l (fun _ => c) = n * c
  | [], _ => ⟨1, by simp, fun c => by simp [boxSum]⟩
  | p :: l, h => by
    obtain ⟨n, hn, e⟩ := boxSum_const l fun q hq => h q (by simp [hq])
    have := h p (by simp)
    refine ⟨(p.2 + 1 - p.1).toNat * n, Nat.mul_pos (by omega) hn, fun c => ?_⟩
    simp only [boxSum, e, sum_pyRange, Finset.sum_const, Finset.card_range, nsmul_eq_mul]
    push_cast
    ring

/-- The sums average to the middle. -/
theorem boxSum_mean (l : List (Int × Int)) (h : ∀ p ∈ l, p.1 ≤ p.2) :
    boxSum l (fun x => (x : ℚ)) = boxSum l (fun _ => (1 : ℚ)) * ((boxMid l : ℚ) / 2) ∧ boxSum l (fun _ => (1 : ℚ)) ≠ 0 := by
  obtain ⟨n, hn, e⟩ := boxSum_const l h
  have e1 := boxSum_mirror l fun x => (x : ℚ)
  have e2 := boxSum_add (fun x => (x : ℚ)) (fun x => ((boxMid l - x : Int) : ℚ)) l
  have e3 : (fun x : Int => (x : ℚ) + ((boxMid l - x : Int) : ℚ)) = fun _ => (boxMid l : ℚ) := by
    funext x
    push_cast
    ring
  rw [e3, ← e1, e] at e2
  rw [e]
  refine ⟨by linarith, ?_⟩
  rw [mul_one]
  exact_mod_cast hn.ne'

theorem boxSum_replicate {M : Type} [AddCommMonoid M] (lo hi : Int) : ∀ (n : Nat) (f : Int → M),
    boxSum (List.replicate n (lo, hi)) f = ((tuples (pyRange lo (hi + 1)) n).map fun l => f l.sum).sum
  | 0, f => by simp [boxSum, tuples]
  | n + 1, f => by
    rw [sum_tuples_succ]
    simp only [List.replicate_succ, boxSum, boxSum_replicate lo hi n, List.sum_cons]

theorem boxSum_bell : ∀ (l : List (Int × Int)), (∀ p ∈ l, p.1 ≤ p.2) →
    Bell (fun v => boxSum l fun x => if x = v then 1 else 0) (boxMid l)
  | [], _ => by
    constructor
    · intro v
      simp only [boxSum, boxMid, List.map_nil, List.sum_nil]
      by_cases h : (0 : Int) = v
      · subst h; simp
      · rw [if_neg h, if_neg (by omega)]
    · intro v hv
      simp only [boxSum, boxMid, List.map_nil, List.sum_nil] at hv ⊢
      rw [if_neg (by omega)]
      exact Nat.zero_le _
  | p :: l, h => by
    have ih := (boxSum_bell l fun q hq => h q (by simp [hq])).smear (h p (by simp))
    have e : boxMid (p :: l) = boxMid l + (p.1 + p.2) := by simp [boxMid, add_comm]
    rw [e]
    convert ih using 3 with v
    simp only [boxSum]
    congr 1
    apply List.map_congr_left
    intro f _
    congr 1
    funext x
    congr 1
    simp only [eq_iff_iff]
    omega

section
variable [R : PyRuntime]

theorem centred_box {e : Expr} {m : Int} (h : Centred e m) (s : State) : ∃ (d : Dist) (l : List (Int × Int)), e.dist s = (.ok d, s) ∧ d.Plain ∧
    (∀ p ∈ l, p.1 ≤ p.2) ∧ boxMid l = m ∧ ∀ {M : Type} [AddCommMonoid M] (f : Int → M), d.E f = boxSum l f := by
  induction h with
  | dice t lo hi h hn ht =>
    obtain ⟨d, h1, h2, h3, _⟩ := diceDist_spec t hn
    refine ⟨d, List.replicate t.number (lo, hi), by simp [Expr.dist, EvalM.ofRes, h1], h2, ?_, ?_, ?_⟩
    · intro p hp
      rw [(List.mem_replicate.mp hp).2]
      exact h
    · simp [boxMid]
    · intro M _ f
      rw [h3, boxSum_replicate, ht]
      have := facesOf_ones (pyRange lo (hi + 1))
      unfold ones at this
      rw [this]
  | const t k h =>
    obtain ⟨d, h1, h2, h3, _⟩ := constDist_spec k
    refine ⟨d, [(k, k)], by simp [Expr.dist, EvalM.ofRes, h1, h, bind, Except.bind], h2, by simp, by simp [boxMid]; ring, ?_⟩
    intro M _ f
    rw [h3]
    simp [boxSum, sum_pyRange]
  | add _ _ iha ihb =>
    obtain ⟨a, l, a1, a2, a3, a4, a5⟩ := iha
    obtain ⟨b, k, b1, b2, b3, b4, b5⟩ := ihb
    obtain ⟨d, hd⟩ := (binop_ok_iff (op := .add) (b := b) a2.proper).mpr (fun p _ q _ => ⟨_, rfl⟩)
    refine ⟨d, l ++ k, ?_, binop_plain hd a2 b2, ?_, ?_, ?_⟩
    · simp only [Expr.dist]
      rw [evalBind_ok a1, evalBind_ok b1, hd]
      rfl
    · intro p hp
      rcases List.mem_append.mp hp with hp | hp
      · exact a3 p hp
      · exact b3 p hp
    · simp only [boxMid, List.map_append, List.sum_append] at a4 b4 ⊢
      rw [a4, b4]
    · intro M _ f
      rw [binop_E hd a2.proper a2.untied b2.untied, a5, boxSum_append]
      simp only [b5, BinOp.apply, onOk]
  | sub _ _ iha ihb =>
    obtain ⟨a, l, a1, a2, a3, a4, a5⟩ := iha
    obtain ⟨b, k, b1, b2, b3, b4, b5⟩ := ihb
    obtain ⟨d, hd⟩ := (binop_ok_iff (op := .sub) (b := b) a2.proper).mpr (fun p _ q _ => ⟨_, rfl⟩)
    refine ⟨d, l ++ k.map fun p => (-p.2, -p.1), ?_, binop_plain hd a2 b2, ?_, ?_, ?_⟩
    · simp only [Expr.dist]
      rw [evalBind_ok a1, evalBind_ok b1, hd]
      rfl
    · intro p hp
      rcases List.mem_append.mp hp with hp | hp
      · exact a3 p hp
      · obtain ⟨q, hq, rfl⟩ := List.mem_map.mp hp
        have := b3 q hq
        simp only
        omega
    · have neg : ∀ k : List (Int × Int), boxMid (k.map fun p => (-p.2, -p.1)) = -boxMid k := by
        intro k
        induction k with
        | nil => rfl
        | cons p k ih =>
          simp only [boxMid, List.map_cons, List.sum_cons] at ih ⊢
          rw [ih]
          ring
      rw [← a4, ← b4, sub_eq_add_neg, ← neg k]
      simp only [boxMid, List.map_append, List.sum_append]
    · intro M _ f
      rw [binop_E hd a2.proper a2.untied b2.untied, a5, boxSum_append]
      simp only [b5, BinOp.apply, onOk, boxSum_neg, sub_eq_add_neg]

end

end PyDice
