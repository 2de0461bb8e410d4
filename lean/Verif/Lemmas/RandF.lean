import Verif.RandF
import Verif.Lemmas.Float
import Verif.Lemmas.Dice
import Mathlib.Tactic.Linarith
/-!
# How far `random.choices` in floats is from uniform draws
-/

namespace PyDice

/-! ### The same tree -/

theorem floats_bind {α β : Type} (r : Rand α) (f : α → Rand β) : (r.bind f).floats = r.floats.bind (fun a => (f a).floats) := by
  induction r with
  | pure a => rfl
  | draw n k ih =>
    show Rand.draw _ _ = Rand.draw _ _
    congr 1
    funext j
    exact ih _

theorem scaledFloat_nonneg (n j : Nat) : 0 ≤ scaledFloat n j := by
  unfold scaledFloat randomFloat
  have : 0 ≤ toDouble (n : ℚ) := toDouble_nonneg (by positivity)
  exact toDouble_nonneg (by positivity)

theorem bisectF_floor (cum : List Nat) {x : ℚ} (hx : 0 ≤ x) : bisectIndexF cum x = bisectIndex cum ⌊x⌋.toNat := by
  have h : (fun c : Nat => decide ((c : ℚ) ≤ x)) = fun c : Nat => decide (c ≤ ⌊x⌋.toNat) := by
    funext c
    apply decide_eq_decide.mpr
    rw [Int.le_toNat (Int.floor_nonneg.mpr hx), Int.le_floor]
    simp
  unfold bisectIndexF bisectIndex
  rw [h]

theorem chooseManyF_floats (population : List Int) (cum : List Nat) (total : Nat) : ∀ k,
    chooseManyF population cum total k = (chooseMany population cum total k).floats
  | 0 => rfl
  | k + 1 => by
    unfold chooseManyF chooseMany Rand.floats
    congr 1
    funext j
    have : chooseF population cum (scaledFloat total j) = choose population cum ⌊scaledFloat total j⌋.toNat := by
      unfold chooseF choose
      rw [bisectF_floor _ (scaledFloat_nonneg _ _)]
      rfl
    rw [this]
    show _ = (match choose population cum ⌊scaledFloat total j⌋.toNat with
      | .error e => .pure (.error e)
      | .ok v => Rand.bind (chooseMany population cum total k) fun
        | .ok vs => .pure (.ok (v :: vs))
        | .error e => .pure (.error e) : Rand (Res (List Int))).floats
    cases choose population cum ⌊scaledFloat total j⌋.toNat with
    | error e => rfl
    | ok v =>
      simp only
      rw [floats_bind, chooseManyF_floats population cum total k]
      congr 1
      funext r
      cases r <;> rfl

/-! ### Counting the multiples above a bound -/

/-- How many values of `random()` give at least `c`. -/
def above (n c : Nat) : Nat := (List.range (2 ^ 53)).countP (fun j => decide ((c : ℚ) ≤ scaledFloat n j))

theorem scaled_eq {n : Nat} (hn : n ≤ 2 ^ 53) (j : Nat) : scaledFloat n j = toDouble ((j : ℚ) * n / 2 ^ 53) := by
  unfold scaledFloat randomFloat
  have h : toDouble (n : ℚ) = n := by
    have := toDouble_int (n := (n : ℤ)) (by rw [abs_of_nonneg (by positivity)]; exact_mod_cast hn)
    exact_mod_cast this
  rw [h]
  congr 1
  push_cast
  ring

theorem scaled_ge {n c j : Nat} (hn : n ≤ 2 ^ 53) (hc : c ≤ n) (h : c * 2 ^ 53 ≤ j * n) : (c : ℚ) ≤ scaledFloat n j := by
  rw [scaled_eq hn]
  have h1 : toDouble (c : ℚ) = c := by
    have := toDouble_int (n := (c : ℤ)) (by rw [abs_of_nonneg (by positivity)]; exact_mod_cast hc.trans hn)
    exact_mod_cast this
  rw [← h1]
  apply toDouble_mono
  rw [le_div_iff₀ (by positivity)]
  exact_mod_cast h

theorem scaled_lt {n c j : Nat} (hn : n ≤ 2 ^ 53) (hn0 : 0 < n) (hc : c ≤ n) (h : (j + 1) * n ≤ c * 2 ^ 53) : scaledFloat n j < c := by
  rw [scaled_eq hn]
  have he := toDouble_error ((j : ℚ) * n / 2 ^ 53)
  have h1 : ((j : ℚ) + 1) * n ≤ c * 2 ^ 53 := by exact_mod_cast h
  have h2 : (c : ℚ) ≤ n := by exact_mod_cast hc
  have h3 : (1 : ℚ) ≤ n := by exact_mod_cast hn0
  have hx : ((j : ℚ) * n / 2 ^ 53) ≤ c - n / 2 ^ 53 := by
    rw [div_le_iff₀ (by positivity), sub_mul, div_mul_cancel₀ _ (by positivity)]
    linarith
  have hx0 : (0 : ℚ) ≤ (j : ℚ) * n / 2 ^ 53 := by positivity
  generalize (j : ℚ) * n / 2 ^ 53 = x at *
  rw [abs_of_nonneg hx0] at he
  have h4 := (abs_le.mp he).2
  have h5 : (2 : ℚ) ^ (-1075 : ℤ) < 1 / 2 ^ 106 := by
    rw [show (1 : ℚ) / 2 ^ 106 = (2 : ℚ) ^ (-106 : ℤ) by norm_num]
    exact zpow_lt_zpow_right₀ (by norm_num) (by norm_num)
  rw [show (2 : ℚ) ^ (-53 : ℤ) = 1 / 2 ^ 53 by norm_num] at h4
  generalize (2 : ℚ) ^ (-1075 : ℤ) = ε at *
  have h6 : x * (1 / 2 ^ 53) ≤ n / 2 ^ 53 - 1 / 2 ^ 106 := by
    have : x ≤ n - 1 / 2 ^ 53 := by
      have : (1 : ℚ) / 2 ^ 53 ≤ n / 2 ^ 53 := by
        apply div_le_div_of_nonneg_right h3 (by positivity)
      linarith
    calc x * (1 / 2 ^ 53) ≤ (n - 1 / 2 ^ 53) * (1 / 2 ^ 53) := by
          apply mul_le_mul_of_nonneg_right this (by positivity)
      _ = _ := by ring
  linarith

/-- A count of an upward closed set of numbers below `M` whose bound is known up to one. -/
theorem countP_range_bounds (P : Nat → Bool) (a b : Nat) : ∀ M, (∀ j < M, b ≤ j → P j = true) → (∀ j < M, j < a → P j = false) →
    M - b ≤ (List.range M).countP P ∧ (List.range M).countP P ≤ M - a
  | 0, _, _ => by simp
  | M + 1, h1, h2 => by
    obtain ⟨i1, i2⟩ := countP_range_bounds P a b M (fun j hj => h1 j (by omega)) (fun j hj => h2 j (by omega))
    rw [List.range_succ, List.countP_append]
    simp only [List.countP_cons, List.countP_nil]
    by_cases ha : M < a
    · rw [h2 M (by omega) ha]
      have hb : ¬ b ≤ M ∨ b ≤ M := by omega
      by_cases hb : b ≤ M
      · have := h1 M (by omega) hb
        rw [h2 M (by omega) ha] at this
        cases this
      · simp; omega
    · by_cases hb : b ≤ M
      · rw [h1 M (by omega) hb]; simp; omega
      · cases P M <;> simp <;> omega

/-- The number of values of `random()` that give at least `c` is within 1 of the ideal. -/
theorem above_near {n c : Nat} (hn : n ≤ 2 ^ 53) (hn0 : 0 < n) (hc : c ≤ n) :
    |(above n c : ℚ) - 2 ^ 53 * (1 - (c : ℚ) / n)| ≤ 1 := by
  have hq : (0 : ℚ) < n := by exact_mod_cast hn0
  -- `a` is the floor of `2 ^ 53 * c / n`, `b` its ceiling
  obtain ⟨a, r, hr, ha⟩ : ∃ a r, r < n ∧ c * 2 ^ 53 = a * n + r :=
    ⟨c * 2 ^ 53 / n, c * 2 ^ 53 % n, Nat.mod_lt _ hn0, by rw [mul_comm _ n]; exact (Nat.div_add_mod _ _).symm⟩
  have hK : (2 : ℚ) ^ 53 * ((c : ℚ) / n) = a + r / n := by
    have : (c : ℚ) * 2 ^ 53 = a * n + r := by exact_mod_cast ha
    field_simp
    linarith
  have hcn : c * 2 ^ 53 ≤ n * 2 ^ 53 := Nat.mul_le_mul_right _ hc
  have haM : a ≤ 2 ^ 53 := by
    by_contra h
    have : (2 ^ 53 + 1) * n ≤ a * n := Nat.mul_le_mul_right _ (by omega)
    have e : (2 ^ 53 + 1) * n = n * 2 ^ 53 + n := by ring
    omega
  have hr1 : (r : ℚ) / n < 1 := by rw [div_lt_one hq]; exact_mod_cast hr
  have hr0 : (0 : ℚ) ≤ (r : ℚ) / n := by positivity
  have hlow : ∀ j < 2 ^ 53, j < a → decide ((c : ℚ) ≤ scaledFloat n j) = false := by
    intro j _ hj
    have : scaledFloat n j < c := scaled_lt hn hn0 hc (by
      have : (j + 1) * n ≤ a * n := Nat.mul_le_mul_right _ hj
      omega)
    simp [this]
  by_cases h0 : r = 0
  · subst h0
    have hb := countP_range_bounds (fun j => decide ((c : ℚ) ≤ scaledFloat n j)) a a (2 ^ 53)
      (fun j _ hj => by
        have : (c : ℚ) ≤ scaledFloat n j := scaled_ge hn hc (by
          have : a * n ≤ j * n := Nat.mul_le_mul_right _ hj
          omega)
        simp [this]) hlow
    have : above n c = 2 ^ 53 - a := le_antisymm hb.2 hb.1
    rw [this, mul_sub, hK, Nat.cast_sub haM]
    push_cast
    norm_num
  · have hb := countP_range_bounds (fun j => decide ((c : ℚ) ≤ scaledFloat n j)) a (a + 1) (2 ^ 53)
      (fun j _ hj => by
        have : (c : ℚ) ≤ scaledFloat n j := scaled_ge hn hc (by
          have : (a + 1) * n ≤ j * n := Nat.mul_le_mul_right _ hj
          have e : (a + 1) * n = a * n + n := by ring
          omega)
        simp [this]) hlow
    change 2 ^ 53 - (a + 1) ≤ above n c ∧ above n c ≤ 2 ^ 53 - a at hb
    have h1 : 2 ^ 53 ≤ above n c + a + 1 := by omega
    have h2 : above n c + a ≤ 2 ^ 53 := by omega
    have q1 : (2 : ℚ) ^ 53 ≤ above n c + a + 1 := by exact_mod_cast h1
    have q2 : (above n c : ℚ) + a ≤ 2 ^ 53 := by exact_mod_cast h2
    rw [mul_sub, hK, abs_le]
    constructor <;> linarith

theorem scaled_lt_total {n j : Nat} (hn : n ≤ 2 ^ 53) (hn0 : 0 < n) (hj : j < 2 ^ 53) : scaledFloat n j < n :=
  scaled_lt hn hn0 le_rfl (by rw [mul_comm]; exact Nat.mul_le_mul_left _ hj)

/-! ### The drawn integer -/

/-- The integer drawn is one of the numbers below `n`. -/
theorem drawn_lt {n j : Nat} (hn : n ≤ 2 ^ 53) (hn0 : 0 < n) (hj : j < 2 ^ 53) : ⌊scaledFloat n j⌋.toNat < n := by
  have h1 := scaled_lt_total hn hn0 hj
  have h2 : ⌊scaledFloat n j⌋ < (n : ℤ) := Int.floor_lt.mpr (by exact_mod_cast h1)
  omega

theorem le_drawn {n j c : Nat} : c ≤ ⌊scaledFloat n j⌋.toNat ↔ (c : ℚ) ≤ scaledFloat n j := by
  rw [Int.le_toNat (Int.floor_nonneg.mpr (scaledFloat_nonneg n j)), Int.le_floor]
  simp

/-- How many values of `random()` give a number from `a` up to below `b`. -/
theorem between_count {n a b : Nat} (h : a ≤ b) :
    (List.range (2 ^ 53)).countP (fun j => decide (a ≤ ⌊scaledFloat n j⌋.toNat ∧ ⌊scaledFloat n j⌋.toNat < b)) + above n b = above n a := by
  unfold above
  generalize List.range (2 ^ 53) = l
  induction l with
  | nil => rfl
  | cons j l ih =>
    simp only [List.countP_cons]
    have h1 : decide ((b : ℚ) ≤ scaledFloat n j) = decide (b ≤ ⌊scaledFloat n j⌋.toNat) := decide_eq_decide.mpr le_drawn.symm
    have h2 : decide ((a : ℚ) ≤ scaledFloat n j) = decide (a ≤ ⌊scaledFloat n j⌋.toNat) := decide_eq_decide.mpr le_drawn.symm
    rw [h1, h2]
    generalize ⌊scaledFloat n j⌋.toNat = x
    have : (if decide (a ≤ x ∧ x < b) = true then 1 else 0) + (if decide (b ≤ x) = true then 1 else 0) =
        (if decide (a ≤ x) = true then 1 else 0) := by
      simp only [decide_eq_true_eq]
      split_ifs <;> omega
    omega

theorem above_total {n : Nat} (hn : n ≤ 2 ^ 53) (hn0 : 0 < n) : above n n = 0 := by
  unfold above
  rw [List.countP_eq_zero]
  intro j hj
  simpa using scaled_lt_total hn hn0 (List.mem_range.mp hj)

theorem above_zero (n : Nat) : above n 0 = 2 ^ 53 := by
  unfold above
  conv_rhs => rw [← List.length_range (n := 2 ^ 53)]
  rw [List.countP_eq_length]
  intro j _
  simpa using scaledFloat_nonneg n j

/-- The probability of drawing a number from `a` up to below `b` is within `2 ** -52` of the ideal. -/
theorem between_near {n a b : Nat} (hn : n ≤ 2 ^ 53) (hn0 : 0 < n) (h : a ≤ b) (hb : b ≤ n) :
    |((List.range (2 ^ 53)).countP (fun j => decide (a ≤ ⌊scaledFloat n j⌋.toNat ∧ ⌊scaledFloat n j⌋.toNat < b)) : ℚ) / 2 ^ 53 -
      ((b : ℚ) - a) / n| ≤ 1 / 2 ^ 52 := by
  have hc := between_count (n := n) h
  have hq : (0 : ℚ) < n := by exact_mod_cast hn0
  have h1 := abs_le.mp (above_near hn hn0 (h.trans hb))
  have h2 := abs_le.mp (above_near hn hn0 hb)
  have hc' : ((List.range (2 ^ 53)).countP (fun j => decide (a ≤ ⌊scaledFloat n j⌋.toNat ∧ ⌊scaledFloat n j⌋.toNat < b)) : ℚ) =
      above n a - above n b := by
    rw [eq_sub_iff_add_eq]; exact_mod_cast hc
  rw [hc']
  have e : ((above n a : ℚ) - above n b) / 2 ^ 53 - ((b : ℚ) - a) / n =
      (((above n a : ℚ) - 2 ^ 53 * (1 - (a : ℚ) / n)) - ((above n b : ℚ) - 2 ^ 53 * (1 - (b : ℚ) / n))) / 2 ^ 53 := by
    field_simp
    ring
  rw [e, abs_div, abs_of_pos (show (0 : ℚ) < 2 ^ 53 by norm_num), div_le_iff₀ (by norm_num)]
  rw [show (1 : ℚ) / 2 ^ 52 * 2 ^ 53 = 2 by norm_num, abs_le]
  constructor <;> linarith [h1.1, h1.2, h2.1, h2.2]

/-! ### Expected values -/

theorem sum_by_value (g : Nat → Nat) (f : Nat → ℚ) (n : Nat) : ∀ l : List Nat, (∀ j ∈ l, g j < n) →
    (l.map fun j => f (g j)).sum = ((List.range n).map fun x => f x * (l.countP (fun j => decide (x ≤ g j ∧ g j < x + 1)) : ℚ)).sum
  | [], _ => by simp
  | j :: l, h => by
    rw [List.map_cons, List.sum_cons, sum_by_value g f n l (fun i hi => h i (List.mem_cons_of_mem _ hi))]
    have hj := h j List.mem_cons_self
    have e : ∀ x, f x * ((j :: l).countP (fun j => decide (x ≤ g j ∧ g j < x + 1)) : ℚ) =
        (if x = g j then f x else 0) + f x * (l.countP (fun j => decide (x ≤ g j ∧ g j < x + 1)) : ℚ) := by
      intro x
      rw [List.countP_cons]
      by_cases hx : x = g j
      · rw [if_pos hx, if_pos (by simp; omega)]; push_cast; ring
      · rw [if_neg hx, if_neg (by simp; omega)]; push_cast; ring
    simp only [e]
    rw [List.sum_map_add]
    congr 1
    clear e h
    induction n with
    | zero => omega
    | succ n ih =>
      rw [List.range_succ, List.map_append, List.sum_append]
      by_cases hn : g j = n
      · have : ((List.range n).map fun x => if x = g j then f x else 0) = (List.range n).map fun _ => (0 : ℚ) := by
          apply List.map_congr_left
          intro x hx
          rw [if_neg]
          have := List.mem_range.mp hx
          omega
        rw [this]
        simp [hn]
      · rw [← ih (by omega)]
        simp [Ne.symm hn]

/-- Two ways to draw a number below `n` whose probabilities for single numbers differ by at most `2 * ε`: the expected value of a
    quantity between 0 and 1 differs by at most `n * ε`. -/
theorem mean_near (l : List Nat) (M : ℚ) (hM : (l.length : ℚ) = M) (hM0 : 0 < M) (g : Nat → Nat) (n : Nat) (hn0 : 0 < n) (ε : ℚ)
    (hlt : ∀ j ∈ l, g j < n) (hnear : ∀ x < n, |(l.countP (fun j => decide (x ≤ g j ∧ g j < x + 1)) : ℚ) / M - 1 / n| ≤ 2 * ε)
    (f : Nat → ℚ) (hf : ∀ x < n, 0 ≤ f x ∧ f x ≤ 1) :
    |(l.map fun j => f (g j)).sum / M - ((List.range n).map f).sum / n| ≤ (n : ℚ) * ε := by
  have hq : (0 : ℚ) < n := by exact_mod_cast hn0
  have key : ∀ F : Nat → ℚ, (l.map fun j => F (g j)).sum / M - ((List.range n).map F).sum / n =
      ((List.range n).map fun x => F x * ((l.countP (fun j => decide (x ≤ g j ∧ g j < x + 1)) : ℚ) / M - 1 / n)).sum := by
    intro F
    rw [sum_by_value g F n _ hlt]
    generalize List.range n = r
    induction r with
    | nil => simp
    | cons x r ih =>
      simp only [List.map_cons, List.sum_cons]
      rw [← ih]
      ring
  have e : (l.map fun j => f (g j)).sum / M - ((List.range n).map f).sum / n =
      ((List.range n).map fun x => (f x - 1 / 2) * ((l.countP (fun j => decide (x ≤ g j ∧ g j < x + 1)) : ℚ) / M - 1 / n)).sum := by
    rw [← key (fun x => f x - 1 / 2)]
    have s1 : ∀ (l : List Nat) (G : Nat → ℚ), (l.map fun j => G j - 1 / 2).sum = (l.map G).sum - l.length * (1 / 2) := by
      intro l G
      induction l with
      | nil => simp
      | cons x l ih => simp only [List.map_cons, List.sum_cons, ih, List.length_cons]; push_cast; ring
    rw [s1 _ (fun j => f (g j)), s1, hM, List.length_range]
    field_simp
    ring
  rw [e]
  have hb : ∀ x ∈ List.range n, |(f x - 1 / 2) * ((l.countP (fun j => decide (x ≤ g j ∧ g j < x + 1)) : ℚ) / M - 1 / n)| ≤ ε := by
    intro x hx
    have hx := List.mem_range.mp hx
    have h4 : |f x - 1 / 2| ≤ 1 / 2 := by
      have := hf x hx
      rw [abs_le]; constructor <;> linarith [this.1, this.2]
    rw [abs_mul]
    calc _ ≤ (1 / 2 : ℚ) * (2 * ε) := mul_le_mul h4 (hnear x hx) (abs_nonneg _) (by norm_num)
      _ = ε := by ring
  have hs : ∀ (l : List Nat) (G : Nat → ℚ), (∀ x ∈ l, |G x| ≤ ε) → |(l.map G).sum| ≤ (l.length : ℚ) * ε := by
    intro l G hG
    induction l with
    | nil => simp
    | cons x l ih =>
      simp only [List.map_cons, List.sum_cons, List.length_cons]
      have a1 := hG x List.mem_cons_self
      have a2 := ih (fun y hy => hG y (List.mem_cons_of_mem _ hy))
      push_cast
      rw [add_mul]
      linarith [abs_add_le (G x) (l.map G).sum]
  have := hs _ _ hb
  rwa [List.length_range] at this

/-- One draw: the expected value of a quantity between 0 and 1 changes by at most `n / 2 ** 53`. -/
theorem draw_near {n : Nat} (hn : n ≤ 2 ^ 53) (hn0 : 0 < n) (f : Nat → ℚ) (hf : ∀ x < n, 0 ≤ f x ∧ f x ≤ 1) :
    |((List.range (2 ^ 53)).map fun j => f ⌊scaledFloat n j⌋.toNat).sum / 2 ^ 53 - ((List.range n).map f).sum / n| ≤
      (n : ℚ) * (1 / 2 ^ 53) := by
  refine mean_near (List.range (2 ^ 53)) (2 ^ 53) ?_ (by positivity) (fun j => ⌊scaledFloat n j⌋.toNat) n hn0 (1 / 2 ^ 53) ?_ ?_ f hf
  · rw [List.length_range]; exact_mod_cast rfl
  · exact fun j hj => drawn_lt hn hn0 (List.mem_range.mp hj)
  · intro x hx
    have h3 := between_near hn hn0 (Nat.le_succ x) hx
    rw [show ((x.succ : ℚ) - x) = 1 by push_cast; ring] at h3
    rw [show (2 : ℚ) * (1 / 2 ^ 53) = 1 / 2 ^ 52 by norm_num]
    exact h3

end PyDice
