import Verif.Expr
import Verif.Lemmas.Float
import Verif.Lemmas.Eval
import Verif.Lemmas.State
import Verif.Lemmas.DropKeepTerm
/-!
# Lemmas about estimated costs: the float arithmetic of `NotExpression.estimated_cost`, and signs
-/

namespace PyDice

theorem toFloat_ok {q x : ℚ} (h : toFloat q = .ok x) : x = toDouble q ∧ |toDouble q| < (2 : ℚ) ^ (1024 : ℤ) := by
  unfold toFloat at h
  split at h
  · cases h
  · next hc => cases h; rw [pow2_eq, not_le] at hc; exact ⟨rfl, hc⟩

theorem toFloat_eq {q : ℚ} (h : |toDouble q| < (2 : ℚ) ^ (1024 : ℤ)) : toFloat q = .ok (toDouble q) := by
  unfold toFloat
  rw [if_neg (by rw [pow2_eq, not_le]; exact h)]

/-- The float `1.1`. -/
def elevenTenths : ℚ := 2476979795053773 / 2251799813685248

theorem toDouble_elevenTenths : toDouble (11 / 10) = elevenTenths := by decide +kernel

theorem notCost_ok {c v : Int} (h : notCost c = .ok v) : v = ⌊toDouble (toDouble (c : ℚ) * elevenTenths)⌋ := by
  unfold notCost at h
  cases hx : toFloat (c : ℚ) with
  | error e => rw [hx] at h; cases h
  | ok x =>
    rw [hx] at h
    obtain ⟨rfl, _⟩ := toFloat_ok hx
    cases hp : toFloat (toDouble (c : ℚ) * toDouble (11 / 10)) with
    | error e => simp only [bind, Except.bind, hp] at h; cases h
    | ok p =>
      obtain ⟨hp', _⟩ := toFloat_ok hp
      simp only [bind, Except.bind, hp] at h
      cases h
      rw [hp', toDouble_elevenTenths]; rfl

theorem notCost_nonneg {c v : Int} (h : notCost c = .ok v) (hc : 0 ≤ c) : 0 ≤ v := by
  rw [notCost_ok h, Int.floor_nonneg]
  apply toDouble_nonneg
  apply mul_nonneg
  · apply toDouble_nonneg; exact_mod_cast hc
  · norm_num [elevenTenths]

theorem notCost_mono {c d v w : Int} (hv : notCost c = .ok v) (hw : notCost d = .ok w) (h : c ≤ d) : v ≤ w := by
  rw [notCost_ok hv, notCost_ok hw]
  apply Int.floor_le_floor
  apply toDouble_mono
  apply mul_le_mul_of_nonneg_right
  · apply toDouble_mono; exact_mod_cast h
  · norm_num [elevenTenths]

theorem isDouble_pow {e : ℤ} (he : -1074 ≤ e) : IsDouble ((2 : ℚ) ^ e) := ⟨1, e, by norm_num, he, by simp⟩

theorem toDouble_abs_le {q : ℚ} {e : ℤ} (he : -1074 ≤ e) (h : |q| ≤ (2 : ℚ) ^ e) : |toDouble q| ≤ (2 : ℚ) ^ e := by
  have hd := toDouble_exact (isDouble_pow he)
  obtain ⟨h1, h2⟩ := abs_le.mp h
  have l1 := toDouble_mono h1
  have l2 := toDouble_mono h2
  rw [toDouble_neg, hd] at l1
  rw [hd] at l2
  exact abs_le.mpr ⟨l1, l2⟩

theorem notCost_defined {c : Int} (h : |c| ≤ 2 ^ 1022) : ∃ v, notCost c = .ok v := by
  have hc : |(c : ℚ)| ≤ (2 : ℚ) ^ (1022 : ℤ) := by
    rw [← Int.cast_abs, show ((1022 : ℤ)) = ((1022 : ℕ) : ℤ) by norm_num, zpow_natCast]
    exact_mod_cast h
  have h1 := toDouble_abs_le (e := 1022) (by norm_num) hc
  have lt : ∀ {a b : ℤ}, a < b → (2 : ℚ) ^ a < (2 : ℚ) ^ b := fun h => zpow_lt_zpow_right₀ (by norm_num) h
  have hx := toFloat_eq (lt_of_le_of_lt h1 (lt (by norm_num : (1022 : ℤ) < 1024)))
  have h2 : |toDouble (c : ℚ) * toDouble (11 / 10)| ≤ (2 : ℚ) ^ (1023 : ℤ) := by
    rw [abs_mul, toDouble_elevenTenths, show (1023 : ℤ) = 1022 + 1 by norm_num, zpow_add_one₀ (by norm_num)]
    apply mul_le_mul h1 _ (abs_nonneg _) (by positivity)
    rw [abs_of_nonneg (by norm_num [elevenTenths])]
    norm_num [elevenTenths]
  have hp := toFloat_eq (lt_of_le_of_lt (toDouble_abs_le (e := 1023) (by norm_num) h2) (lt (by norm_num : (1023 : ℤ) < 1024)))
  exact ⟨_, by unfold notCost; rw [hx]; simp only [bind, Except.bind, hp]; rfl⟩

/-- Up to here the float arithmetic gives the exact floor. -/
theorem notCost_exact {c : Int} (h0 : 0 ≤ c) (h : c < 511772684928469) : notCost c = .ok ⌊(11 * c : ℚ) / 10⌋ := by
  by_cases hlast : 511772684928464 < c
  · have : c = 511772684928465 ∨ c = 511772684928466 ∨ c = 511772684928467 ∨ c = 511772684928468 := by omega
    rcases this with rfl | rfl | rfl | rfl <;> decide +kernel
  have h : c ≤ 511772684928464 := by omega
  have hb : |c| ≤ 2 ^ 1022 := by
    rw [abs_of_nonneg h0]
    exact (h.trans (by norm_num : (511772684928464 : Int) ≤ 2 ^ 49)).trans (pow_le_pow_right₀ (by norm_num) (by norm_num))
  obtain ⟨v, hv⟩ := notCost_defined hb
  rw [hv]
  congr 1
  rw [notCost_ok hv]
  have hc : toDouble (c : ℚ) = c := toDouble_int (by rw [abs_of_nonneg h0]; omega)
  rw [hc]
  have hcq0 : (0 : ℚ) ≤ c := by exact_mod_cast h0
  have hcq : (c : ℚ) ≤ 511772684928464 := by
    have : c ≤ 511772684928464 := by omega
    exact_mod_cast this
  have key : ⌊(11 * c : ℚ) / 10⌋ = (11 * c) / 10 := by
    have := Rat.floor_intCast_div_natCast (11 * c) 10
    push_cast at this
    exact this
  rw [key]
  set k := (11 * c) / 10 with hk
  have k1 : (10 * k : ℚ) ≤ 11 * c := by
    have : 10 * k ≤ 11 * c := by omega
    exact_mod_cast this
  have k2 : (11 * c : ℚ) ≤ 10 * k + 9 := by
    have : 11 * c ≤ 10 * k + 9 := by omega
    exact_mod_cast this
  have hkb : |k| ≤ 2 ^ 53 := by rw [abs_of_nonneg (by omega)]; omega
  rw [Int.floor_eq_iff]
  constructor
  · rw [← toDouble_int hkb]
    apply toDouble_mono
    unfold elevenTenths
    linarith
  · have hup : |(c : ℚ) * elevenTenths| ≤ (2 : ℚ) ^ (49 : ℤ) := by
      rw [abs_of_nonneg (mul_nonneg hcq0 (by norm_num [elevenTenths]))]
      unfold elevenTenths
      norm_num
      linarith
    have he := abs_le.mp (toDouble_error_le (e := 49) (by norm_num) hup)
    have h5 : (2 : ℚ) ^ ((49 : ℤ) - 54) = 1 / 32 := by norm_num
    rw [h5] at he
    have := he.2
    unfold elevenTenths at this ⊢
    linarith

section
variable [R : PyRuntime]

theorem cost_nonneg : ∀ (e : Expr), e.Built → ∀ (s s' : State) (c : Int), (∀ n v, dictGet? s.constants n = some v → 0 ≤ v) →
    e.cost s = (.ok c, s') → 0 ≤ c ∧ ∀ n v, dictGet? s'.constants n = some v → 0 ≤ v := by
  have two : ∀ a b : Expr,
      (∀ (s s' : State) (c : Int), (∀ n v, dictGet? s.constants n = some v → 0 ≤ v) → a.cost s = (.ok c, s') →
        0 ≤ c ∧ ∀ n v, dictGet? s'.constants n = some v → 0 ≤ v) →
      (∀ (s s' : State) (c : Int), (∀ n v, dictGet? s.constants n = some v → 0 ≤ v) → b.cost s = (.ok c, s') →
        0 ≤ c ∧ ∀ n v, dictGet? s'.constants n = some v → 0 ≤ v) →
      ∀ (s s' : State) (c : Int), (∀ n v, dictGet? s.constants n = some v → 0 ≤ v) →
        (do let x ← a.cost; let y ← b.cost; return x + y : EvalM Int) s = (.ok c, s') →
        0 ≤ c ∧ ∀ n v, dictGet? s'.constants n = some v → 0 ≤ v := by
    intro a b ha hb s s' c hs h
    obtain ⟨x, s1, h1, h2⟩ := evalBind_eq_ok.mp h
    obtain ⟨y, s2, h3, h4⟩ := evalBind_eq_ok.mp h2
    obtain ⟨hx, hs1⟩ := ha s s1 x hs h1
    obtain ⟨hy, hs2⟩ := hb s1 s2 y hs1 h3
    obtain ⟨h5, rfl⟩ := Prod.mk.inj h4
    cases h5
    exact ⟨by omega, hs2⟩
  intro e
  induction e with
  | paren e ih => exact fun hb => ih hb
  | not e ih =>
    intro hb s s' c hs h
    obtain ⟨x, s1, h1, h2⟩ := evalBind_eq_ok.mp h
    obtain ⟨hx, hs1⟩ := ih hb s s1 x hs h1
    obtain ⟨h5, rfl⟩ := Prod.mk.inj h2
    exact ⟨notCost_nonneg h5 hx, hs1⟩
  | abs e ih => exact fun hb => ih hb
  | add a b iha ihb => exact fun hb => two a b (iha hb.1) (ihb hb.2)
  | sub a b iha ihb => exact fun hb => two a b (iha hb.1) (ihb hb.2)
  | mul a b iha ihb => exact fun hb => two a b (iha hb.1) (ihb hb.2)
  | div a b iha ihb => exact fun hb => two a b (iha hb.1) (ihb hb.2)
  | bin op a b iha ihb => exact fun hb => two a b (iha hb.1) (ihb hb.2)
  | minmax k a b iha ihb => exact fun hb => two a b (iha hb.1) (ihb hb.2)
  | assign x e ih =>
    intro hb s s' c hs h
    obtain ⟨y, s1, h1, h2⟩ := evalBind_eq_ok.mp h
    obtain ⟨hy, hs1⟩ := ih hb s s1 y hs h1
    simp only [evalBind, EvalM.setConstant] at h2
    obtain ⟨h5, rfl⟩ := Prod.mk.inj h2
    cases h5
    refine ⟨by omega, ?_⟩
    intro n v hv
    simp only [State.setConstant, get_set] at hv
    split at hv
    · cases hv; exact hy
    · exact hs1 n v hv
  | dropKeep t =>
    intro hb s s' c hs h
    obtain ⟨h5, rfl⟩ := Prod.mk.inj h
    cases h5
    refine ⟨?_, hs⟩
    obtain ⟨form, hf⟩ := hb
    obtain ⟨_, _, _, _⟩ := mkDropKeep_spec hf
    unfold DropKeepTerm.cost
    cases hsim : t.simplified with
    | dice d => simp only; unfold DiceTerm.cost; positivity
    | zero => simp
    | none =>
      simp only
      have hk := none_count hf hsim
      split
      · positivity
      · have : (0 : Int) ≤ (t.number : Int) - t.count := by omega
        positivity
  | dice t =>
    intro hb s s' c hs h
    obtain ⟨h5, rfl⟩ := Prod.mk.inj h
    cases h5
    exact ⟨by unfold DiceTerm.cost; positivity, hs⟩
  | constInt t => intro _ s s' c hs h; obtain ⟨h5, rfl⟩ := Prod.mk.inj h; cases h5; exact ⟨by omega, hs⟩
  | constBin t => intro _ s s' c hs h; obtain ⟨h5, rfl⟩ := Prod.mk.inj h; cases h5; exact ⟨by omega, hs⟩
  | getVar n =>
    intro hb s s' c hs h
    simp only [Expr.cost, EvalM.read, State.getConstant] at h
    obtain ⟨h5, rfl⟩ := Prod.mk.inj h
    refine ⟨?_, hs⟩
    split at h5
    · rename_i v hv; cases h5; exact hs n _ hv
    · cases h5

end

end PyDice
