import Verif.Spec.Float
import Mathlib.Algebra.Order.Field.Power
import Mathlib.Tactic.Linarith
import Mathlib.Tactic.Ring
import Mathlib.Tactic.FieldSimp
import Mathlib.Tactic.NormNum
import Mathlib.Tactic.Positivity
/-!
# Lemmas about rounding to doubles
-/

namespace PyDice

theorem pow2_eq (e : Int) : pow2 e = (2 : ℚ) ^ e := by
  cases e with
  | ofNat n => simp [pow2]
  | negSucc n => simp [pow2, zpow_negSucc]

theorem pow2_pos (e : Int) : 0 < pow2 e := by rw [pow2_eq]; positivity

theorem expo_spec {q : ℚ} (hq : q ≠ 0) : (2 : ℚ) ^ (expo q) ≤ |q| ∧ |q| < (2 : ℚ) ^ (expo q + 1) := by
  have hn : q.num.natAbs ≠ 0 := by simpa using hq
  have hd : q.den ≠ 0 := q.den_nz
  have a1 := Nat.log2_self_le hn
  have a2 := @Nat.lt_log2_self q.num.natAbs
  have b1 := Nat.log2_self_le hd
  have b2 := @Nat.lt_log2_self q.den
  set a := q.num.natAbs.log2
  set b := q.den.log2
  have hQ : |q| = (q.num.natAbs : ℚ) / (q.den : ℚ) := by
    conv_lhs => rw [← Rat.num_div_den q]
    rw [abs_div]
    simp [Nat.cast_natAbs]
  have hdp : (0 : ℚ) < (q.den : ℚ) := by exact_mod_cast Nat.pos_of_ne_zero hd
  have a1' : (2 : ℚ) ^ (a : ℤ) ≤ (q.num.natAbs : ℚ) := by rw [zpow_natCast]; exact_mod_cast a1
  have a2' : (q.num.natAbs : ℚ) < (2 : ℚ) ^ ((a : ℤ) + 1) := by
    have : ((a : ℤ) + 1) = ((a + 1 : Nat) : ℤ) := by push_cast; rfl
    rw [this, zpow_natCast]; exact_mod_cast a2
  have b1' : (2 : ℚ) ^ (b : ℤ) ≤ (q.den : ℚ) := by rw [zpow_natCast]; exact_mod_cast b1
  have b2' : (q.den : ℚ) < (2 : ℚ) ^ ((b : ℤ) + 1) := by
    have : ((b : ℤ) + 1) = ((b + 1 : Nat) : ℤ) := by push_cast; rfl
    rw [this, zpow_natCast]; exact_mod_cast b2
  have lower : (2 : ℚ) ^ ((a : ℤ) - b - 1) ≤ |q| := by
    rw [hQ, le_div_iff₀ hdp]
    have : (2 : ℚ) ^ ((a : ℤ) - b - 1) * (2 : ℚ) ^ ((b : ℤ) + 1) = (2 : ℚ) ^ (a : ℤ) := by
      rw [← zpow_add₀ (by norm_num)]; congr 1; ring
    calc _ ≤ (2 : ℚ) ^ ((a : ℤ) - b - 1) * (2 : ℚ) ^ ((b : ℤ) + 1) :=
          mul_le_mul_of_nonneg_left b2'.le (by positivity)
      _ = _ := this
      _ ≤ _ := a1'
  have upper : |q| < (2 : ℚ) ^ ((a : ℤ) - b + 1) := by
    rw [hQ, div_lt_iff₀ hdp]
    have : (2 : ℚ) ^ ((a : ℤ) - b + 1) * (2 : ℚ) ^ (b : ℤ) = (2 : ℚ) ^ ((a : ℤ) + 1) := by
      rw [← zpow_add₀ (by norm_num)]; congr 1; ring
    calc _ < (2 : ℚ) ^ ((a : ℤ) + 1) := a2'
      _ = _ := this.symm
      _ ≤ _ := mul_le_mul_of_nonneg_left b1' (by positivity)
  have hE : expo q = if pow2 ((a : ℤ) - b) ≤ |q| then (a : ℤ) - b else (a : ℤ) - b - 1 := rfl
  rw [hE]
  split
  · next h => rw [pow2_eq] at h; exact ⟨h, upper⟩
  · next h =>
    rw [pow2_eq, not_le] at h
    exact ⟨lower, by simpa using h⟩

theorem expo_unique {q : ℚ} {e : ℤ} (h1 : (2 : ℚ) ^ e ≤ |q|) (h2 : |q| < (2 : ℚ) ^ (e + 1)) : expo q = e := by
  have hq : q ≠ 0 := by
    rintro rfl
    rw [abs_zero] at h1
    exact absurd h1 (not_le.mpr (by positivity))
  obtain ⟨k1, k2⟩ := expo_spec hq
  have l1 : e < expo q + 1 := (zpow_lt_zpow_iff_right₀ (by norm_num : (1 : ℚ) < 2)).mp (lt_of_le_of_lt h1 k2)
  have l2 : expo q < e + 1 := (zpow_lt_zpow_iff_right₀ (by norm_num : (1 : ℚ) < 2)).mp (lt_of_le_of_lt k1 h2)
  omega

theorem floor_eq (q : ℚ) : q.floor = ⌊q⌋ := rfl

theorem roundEven_cases (q : ℚ) :
    (q - ⌊q⌋ < 1 / 2 ∧ roundEven q = ⌊q⌋) ∨ (1 / 2 < q - ⌊q⌋ ∧ roundEven q = ⌊q⌋ + 1) ∨
    (q - ⌊q⌋ = 1 / 2 ∧ Even (roundEven q) ∧ (roundEven q = ⌊q⌋ ∨ roundEven q = ⌊q⌋ + 1)) := by
  have hE : roundEven q = if q - (⌊q⌋ : ℚ) < 1 / 2 then ⌊q⌋ else if 1 / 2 < q - (⌊q⌋ : ℚ) then ⌊q⌋ + 1 else
    if ⌊q⌋ % 2 = 0 then ⌊q⌋ else ⌊q⌋ + 1 := rfl
  by_cases c1 : q - (⌊q⌋ : ℚ) < 1 / 2
  · left; exact ⟨c1, by rw [hE, if_pos c1]⟩
  · by_cases c2 : 1 / 2 < q - (⌊q⌋ : ℚ)
    · right; left; exact ⟨c2, by rw [hE, if_neg c1, if_pos c2]⟩
    · right; right
      refine ⟨by linarith, ?_⟩
      by_cases c3 : ⌊q⌋ % 2 = 0
      · rw [hE, if_neg c1, if_neg c2, if_pos c3]
        exact ⟨Int.even_iff.mpr c3, .inl rfl⟩
      · rw [hE, if_neg c1, if_neg c2, if_neg c3]
        exact ⟨Int.even_iff.mpr (by omega), .inr rfl⟩

theorem roundEven_near (q : ℚ) : |q - roundEven q| ≤ 1 / 2 := by
  have h1 := Int.floor_le q
  have h2 := Int.lt_floor_add_one q
  rcases roundEven_cases q with ⟨h, e⟩ | ⟨h, e⟩ | ⟨h, _, e | e⟩ <;> rw [e, abs_le] <;> push_cast <;> constructor <;> linarith

theorem roundEven_int (n : ℤ) : roundEven (n : ℚ) = n := by
  unfold roundEven; simp [floor_eq]

theorem roundEven_best (q : ℚ) (n : ℤ) : |q - roundEven q| ≤ |q - n| := by
  by_cases h : roundEven q = n
  · rw [h]
  · have h1 := roundEven_near q
    have h2 : (1 : ℚ) ≤ |(roundEven q : ℚ) - n| := by
      rw [← Int.cast_sub, ← Int.cast_abs]
      exact_mod_cast Int.one_le_abs (sub_ne_zero.mpr h)
    have h3 : |(roundEven q : ℚ) - n| ≤ |q - roundEven q| + |q - n| := by
      have := abs_sub_le (roundEven q : ℚ) q n
      rwa [abs_sub_comm (roundEven q : ℚ) q] at this
    linarith

theorem roundEven_tie (q : ℚ) (n : ℤ) (hn : n ≠ roundEven q) (h : |q - n| = |q - roundEven q|) : Even (roundEven q) := by
  have h1 := roundEven_near q
  have h2 : (1 : ℚ) ≤ |(roundEven q : ℚ) - n| := by
    rw [← Int.cast_sub, ← Int.cast_abs]
    exact_mod_cast Int.one_le_abs (sub_ne_zero.mpr (Ne.symm hn))
  have h3 : |(roundEven q : ℚ) - n| ≤ |q - roundEven q| + |q - n| := by
    have := abs_sub_le (roundEven q : ℚ) q n
    rwa [abs_sub_comm (roundEven q : ℚ) q] at this
  have h4 : |q - roundEven q| = 1 / 2 := by linarith
  have f1 := Int.floor_le q
  have f2 := Int.lt_floor_add_one q
  rcases roundEven_cases q with ⟨h, e⟩ | ⟨h, e⟩ | ⟨_, h, _⟩
  · rw [e, abs_of_nonneg (by linarith)] at h4; linarith
  · rw [e] at h4; push_cast at h4; rw [abs_of_nonpos (by linarith)] at h4; linarith
  · exact h

theorem roundEven_mono {q r : ℚ} (h : q ≤ r) : roundEven q ≤ roundEven r := by
  by_contra hc
  rw [not_le] at hc
  have hlt : (roundEven r : ℚ) + 1 ≤ (roundEven q : ℚ) := by exact_mod_cast hc
  have n1 := abs_le.mp (roundEven_near q)
  have n2 := abs_le.mp (roundEven_near r)
  have : q = r := by linarith [n1.1, n1.2, n2.1, n2.2]
  rw [this] at hc
  exact lt_irrefl _ hc

/-- The unit in the last place. -/
theorem ulpExp_ge (q : ℚ) : -1074 ≤ ulpExp q := by unfold ulpExp; split <;> omega
theorem ulpExp_ge' (q : ℚ) : expo q - 52 ≤ ulpExp q := by unfold ulpExp; split <;> omega
theorem ulpExp_cases (q : ℚ) : ulpExp q = -1074 ∨ ulpExp q = expo q - 52 := by unfold ulpExp; split <;> simp

theorem toDouble_zero : toDouble 0 = 0 := by simp [toDouble]

theorem toDouble_ne {q : ℚ} (h : q ≠ 0) :
    toDouble q = (roundEven (q / (2 : ℚ) ^ (ulpExp q)) : ℚ) * (2 : ℚ) ^ (ulpExp q) := by
  unfold toDouble; rw [if_neg h, pow2_eq]

theorem scaled_bound {q : ℚ} (h : q ≠ 0) : |q / (2 : ℚ) ^ (ulpExp q)| < 2 ^ 53 := by
  rw [abs_div, abs_of_pos (show (0 : ℚ) < (2 : ℚ) ^ ulpExp q by positivity), div_lt_iff₀ (by positivity)]
  have h2 := (expo_spec h).2
  have : (2 : ℚ) ^ 53 * (2 : ℚ) ^ ulpExp q = (2 : ℚ) ^ (53 + ulpExp q) := by
    rw [zpow_add₀ (by norm_num)]; norm_num
  rw [this]
  refine lt_of_lt_of_le h2 (zpow_le_zpow_right₀ (by norm_num) ?_)
  have := ulpExp_ge' q
  omega

theorem rounded_bound {q : ℚ} (h : q ≠ 0) : |roundEven (q / (2 : ℚ) ^ (ulpExp q))| ≤ 2 ^ 53 := by
  have hb := abs_lt.mp (scaled_bound h)
  have h1 := roundEven_mono (q := q / (2 : ℚ) ^ (ulpExp q)) (r := ((2 ^ 53 : ℤ) : ℚ)) (by push_cast; linarith [hb.2])
  have h2 := roundEven_mono (q := ((-2 ^ 53 : ℤ) : ℚ)) (r := q / (2 : ℚ) ^ (ulpExp q)) (by push_cast; linarith [hb.1])
  rw [roundEven_int] at h1 h2
  exact abs_le.mpr ⟨h2, h1⟩

theorem isDouble_zero : IsDouble 0 := ⟨0, 0, by norm_num, by norm_num, by simp⟩

theorem isDouble_of_le {m e : ℤ} (hm : |m| ≤ 2 ^ 53) (he : -1074 ≤ e) : IsDouble ((m : ℚ) * (2 : ℚ) ^ e) := by
  rcases lt_or_eq_of_le hm with h | h
  · exact ⟨m, e, h, he, rfl⟩
  · rcases abs_eq (by norm_num : (0 : ℤ) ≤ 2 ^ 53) |>.mp h with h' | h'
    · refine ⟨2 ^ 52, e + 1, by norm_num, by omega, ?_⟩
      rw [h', zpow_add₀ (by norm_num)]; push_cast; ring
    · refine ⟨-2 ^ 52, e + 1, by norm_num, by omega, ?_⟩
      rw [h', zpow_add₀ (by norm_num)]; push_cast; ring

theorem toDouble_isDouble (q : ℚ) : IsDouble (toDouble q) := by
  by_cases h : q = 0
  · rw [h, toDouble_zero]; exact isDouble_zero
  · rw [toDouble_ne h]; exact isDouble_of_le (rounded_bound h) (ulpExp_ge q)

/-- A double that is not a multiple of the unit in the last place of `q` is smaller than the power of two below `q`. -/
theorem off_grid {q y : ℚ} (hy : IsDouble y) :
    (∃ n : ℤ, y = (n : ℚ) * (2 : ℚ) ^ ulpExp q) ∨ (ulpExp q = expo q - 52 ∧ |y| < (2 : ℚ) ^ expo q) := by
  obtain ⟨m, e, hm, he, rfl⟩ := hy
  by_cases hle : ulpExp q ≤ e
  · left
    obtain ⟨k, hk⟩ := Int.eq_ofNat_of_zero_le (sub_nonneg.mpr hle)
    refine ⟨m * 2 ^ k, ?_⟩
    have : e = (k : ℤ) + ulpExp q := by omega
    rw [this, zpow_add₀ (by norm_num), zpow_natCast]; push_cast; ring
  · right
    have hu : ulpExp q = expo q - 52 := by
      rcases ulpExp_cases q with h | h
      · omega
      · exact h
    refine ⟨hu, ?_⟩
    rw [abs_mul, abs_of_pos (show (0 : ℚ) < (2 : ℚ) ^ e by positivity)]
    have hm' : |(m : ℚ)| < 2 ^ 53 := by rw [← Int.cast_abs]; exact_mod_cast hm
    calc |(m : ℚ)| * (2 : ℚ) ^ e < 2 ^ 53 * (2 : ℚ) ^ e := mul_lt_mul_of_pos_right hm' (by positivity)
      _ = (2 : ℚ) ^ (53 + e) := by rw [zpow_add₀ (by norm_num)]; norm_num
      _ ≤ _ := zpow_le_zpow_right₀ (by norm_num) (by omega)

/-- The power of two at or below `|q|`, with the sign of `q`, is a multiple of the unit in the last place when that is not
    clamped. -/
theorem grid_best {q : ℚ} (h : q ≠ 0) (n : ℤ) : |q - toDouble q| ≤ |q - (n : ℚ) * (2 : ℚ) ^ ulpExp q| := by
  rw [toDouble_ne h]
  have hp : (0 : ℚ) < (2 : ℚ) ^ ulpExp q := by positivity
  set u := (2 : ℚ) ^ ulpExp q
  have key : ∀ m : ℤ, |q - (m : ℚ) * u| = |q / u - m| * u := by
    intro m
    rw [← abs_of_pos hp, ← abs_mul, abs_of_pos hp]
    congr 1
    field_simp
  rw [key, key]
  exact mul_le_mul_of_nonneg_right (roundEven_best _ _) hp.le

theorem power_on_grid {q : ℚ} (hu : ulpExp q = expo q - 52) (s : ℤ) :
    ((s * 2 ^ 52 : ℤ) : ℚ) * (2 : ℚ) ^ ulpExp q = s * (2 : ℚ) ^ expo q := by
  rw [hu, zpow_sub₀ (by norm_num)]
  push_cast
  have : (2 : ℚ) ^ (52 : ℤ) = 4503599627370496 := by norm_num
  try rw [this]
  field_simp

/-- Nothing off the grid is as near as the rounded number. -/
theorem off_grid_far {q y : ℚ} (h : q ≠ 0) (hu : ulpExp q = expo q - 52) (hy : |y| < (2 : ℚ) ^ expo q) :
    |q - toDouble q| < |q - y| := by
  have he := (expo_spec h).1
  have hp : (0 : ℚ) < (2 : ℚ) ^ expo q := by positivity
  rcases lt_or_gt_of_ne h with hneg | hpos
  · have hb := grid_best h ((-1) * 2 ^ 52)
    rw [power_on_grid hu] at hb
    rw [abs_of_neg hneg] at he
    refine lt_of_le_of_lt hb ?_
    push_cast
    rw [abs_of_nonpos (by linarith)]
    have := abs_lt.mp hy
    rw [abs_of_neg (by linarith [this.1])]
    linarith [this.1]
  · have hb := grid_best h (1 * 2 ^ 52)
    rw [power_on_grid hu] at hb
    rw [abs_of_pos hpos] at he
    refine lt_of_le_of_lt hb ?_
    push_cast
    rw [abs_of_nonneg (by linarith)]
    have := abs_lt.mp hy
    rw [abs_of_pos (by linarith [this.2])]
    linarith [this.2]

theorem toDouble_nearest (q y : ℚ) (hy : IsDouble y) : |q - toDouble q| ≤ |q - y| := by
  by_cases h : q = 0
  · subst h; rw [toDouble_zero]; simp
  · rcases off_grid (q := q) hy with ⟨n, rfl⟩ | ⟨hu, hlt⟩
    · exact grid_best h n
    · exact (off_grid_far h hu hlt).le

theorem toDouble_tie (q y : ℚ) (hy : IsDouble y) (hne : y ≠ toDouble q) (ht : |q - y| = |q - toDouble q|) :
    EvenDouble (toDouble q) := by
  by_cases h : q = 0
  · subst h
    rw [toDouble_zero] at hne ht
    simp at ht
    exact absurd ht hne
  · rcases off_grid (q := q) hy with ⟨n, rfl⟩ | ⟨hu, hlt⟩
    · have hp : (0 : ℚ) < (2 : ℚ) ^ ulpExp q := by positivity
      have hmb := rounded_bound h
      have hsc : ulpExp q = -1074 ∨ (2 : ℚ) ^ 52 ≤ |q / (2 : ℚ) ^ ulpExp q| := by
        rcases ulpExp_cases q with hu | hu
        · exact .inl hu
        · right
          rw [abs_div, abs_of_pos hp, le_div_iff₀ hp]
          have := power_on_grid hu 1
          have h52 : (2 : ℚ) ^ 52 * (2 : ℚ) ^ ulpExp q = (2 : ℚ) ^ expo q := by
            rw [← one_mul ((2 : ℚ) ^ expo q), ← Int.cast_one, ← this]; push_cast; ring
          rw [h52]
          exact (expo_spec h).1
      have hq := toDouble_ne h
      have key : ∀ m : ℤ, |q - (m : ℚ) * (2 : ℚ) ^ ulpExp q| = |q / (2 : ℚ) ^ ulpExp q - m| * (2 : ℚ) ^ ulpExp q := by
        intro m
        rw [← abs_of_pos hp, ← abs_mul, abs_of_pos hp]
        congr 1
        field_simp
      have hev : Even (roundEven (q / (2 : ℚ) ^ ulpExp q)) := by
        apply roundEven_tie _ n
        · intro hn
          apply hne
          rw [hq, hn]
        · rw [hq, key, key] at ht
          exact mul_right_cancel₀ hp.ne' ht
      rw [hq]
      rcases lt_or_eq_of_le hmb with hlt | heq
      · refine ⟨_, _, hlt, ulpExp_ge q, ?_, rfl, hev⟩
        rcases hsc with hc | hc
        · exact .inr hc
        · left
          rcases le_abs.mp hc with hc' | hc'
          · have := roundEven_mono (q := ((2 ^ 52 : ℤ) : ℚ)) (by push_cast; exact hc')
            rw [roundEven_int] at this
            exact le_trans this (le_abs_self _)
          · have := roundEven_mono (r := ((-2 ^ 52 : ℤ) : ℚ)) (q := q / (2 : ℚ) ^ ulpExp q) (by push_cast; linarith)
            rw [roundEven_int] at this
            exact le_trans (by omega) (neg_le_abs _)
      · have hge := ulpExp_ge q
        rcases abs_eq (by norm_num : (0 : ℤ) ≤ 2 ^ 53) |>.mp heq with h' | h'
        · refine ⟨2 ^ 52, ulpExp q + 1, by norm_num, by omega, .inl (by norm_num), ?_, by decide⟩
          rw [h', zpow_add₀ (by norm_num)]; push_cast; ring
        · refine ⟨-2 ^ 52, ulpExp q + 1, by norm_num, by omega, .inl (by norm_num), ?_, by decide⟩
          rw [h', zpow_add₀ (by norm_num)]; push_cast; ring
    · have := off_grid_far h hu hlt
      rw [ht] at this
      exact absurd this (lt_irrefl _)

theorem toDouble_rounds (q : ℚ) : RoundsTo q (toDouble q) :=
  ⟨toDouble_isDouble q, toDouble_nearest q, toDouble_tie q⟩

theorem toDouble_exact {x : ℚ} (hx : IsDouble x) : toDouble x = x := by
  have := toDouble_nearest x x hx
  simp at this
  exact (sub_eq_zero.mp (abs_nonpos_iff.mp (le_of_eq (by simpa using this)))).symm

theorem toDouble_mono {q r : ℚ} (h : q ≤ r) : toDouble q ≤ toDouble r := by
  by_contra hc
  rw [not_le] at hc
  have n1 := toDouble_nearest q _ (toDouble_isDouble r)
  have n2 := toDouble_nearest r _ (toDouble_isDouble q)
  set a := toDouble q with ha
  set b := toDouble r with hb
  have l1 : (a + b) / 2 ≤ q := by
    by_contra hq
    rw [not_le] at hq
    rw [abs_of_neg (by linarith : q - a < 0)] at n1
    rcases abs_cases (q - b) with ⟨e, _⟩ | ⟨e, _⟩ <;> rw [e] at n1 <;> linarith
  have l2 : r ≤ (a + b) / 2 := by
    by_contra hr
    rw [not_le] at hr
    rw [abs_of_pos (by linarith : 0 < r - b)] at n2
    rcases abs_cases (r - a) with ⟨e, _⟩ | ⟨e, _⟩ <;> rw [e] at n2 <;> linarith
  have : q = r := by linarith
  rw [ha, hb, this] at hc
  exact lt_irrefl _ hc

theorem isDouble_int {n : ℤ} (h : |n| ≤ 2 ^ 53) : IsDouble (n : ℚ) := by
  have := isDouble_of_le h (e := 0) (by norm_num)
  simpa using this

theorem toDouble_int {n : ℤ} (h : |n| ≤ 2 ^ 53) : toDouble (n : ℚ) = n := toDouble_exact (isDouble_int h)

theorem toDouble_one : toDouble 1 = 1 := by
  have := toDouble_int (n := 1) (by norm_num)
  simpa using this

theorem roundEven_neg (q : ℚ) : roundEven (-q) = - roundEven q := by
  have h1 := roundEven_best (-q) (-roundEven q)
  have h2 := roundEven_best q (-roundEven (-q))
  push_cast at h1 h2
  have e1 : |(-q) - -(roundEven q : ℚ)| = |q - roundEven q| := by rw [← abs_neg]; congr 1; ring
  have e2 : |q - -(roundEven (-q) : ℚ)| = |(-q) - (roundEven (-q) : ℚ)| := by rw [← abs_neg]; congr 1; ring
  rw [e1] at h1
  rw [e2] at h2
  by_contra hne
  have hev1 : Even (roundEven (-q)) := by
    apply roundEven_tie (-q) (-roundEven q) (fun h => hne h.symm)
    push_cast; rw [e1]; linarith
  have hev2 : Even (roundEven q) := by
    apply roundEven_tie q (-roundEven (-q)) (fun h => hne (by omega))
    push_cast; rw [e2]; linarith
  have n1 := abs_le.mp (roundEven_near q)
  have n2 := abs_le.mp (roundEven_near (-q))
  have d1 : roundEven (-q) + roundEven q ≤ 1 := by
    have : ((roundEven (-q) + roundEven q : ℤ) : ℚ) ≤ ((1 : ℤ) : ℚ) := by push_cast; linarith [n1.1, n2.1]
    exact_mod_cast this
  have d2 : -1 ≤ roundEven (-q) + roundEven q := by
    have : ((-1 : ℤ) : ℚ) ≤ ((roundEven (-q) + roundEven q : ℤ) : ℚ) := by push_cast; linarith [n1.2, n2.2]
    exact_mod_cast this
  rw [Int.even_iff] at hev1 hev2
  omega

theorem expo_neg (q : ℚ) : expo (-q) = expo q := by unfold expo; simp

theorem toDouble_neg (q : ℚ) : toDouble (-q) = - toDouble q := by
  unfold toDouble
  have : ulpExp (-q) = ulpExp q := by unfold ulpExp; rw [expo_neg]
  by_cases h : q = 0
  · simp [h]
  · rw [if_neg h, if_neg (by simpa using h), this, neg_div, roundEven_neg]; push_cast; ring

theorem toDouble_nonneg {q : ℚ} (h : 0 ≤ q) : 0 ≤ toDouble q := by
  have := toDouble_mono h
  rwa [toDouble_zero] at this

theorem toDouble_le_one {q : ℚ} (h : q ≤ 1) : toDouble q ≤ 1 := by
  have := toDouble_mono h
  rwa [toDouble_one] at this

/-- Half a unit in the last place. -/
theorem toDouble_half_ulp {q : ℚ} (h : q ≠ 0) : |toDouble q - q| ≤ (2 : ℚ) ^ ulpExp q / 2 := by
  have hp : (0 : ℚ) < (2 : ℚ) ^ ulpExp q := by positivity
  rw [toDouble_ne h]
  have : (roundEven (q / (2 : ℚ) ^ ulpExp q) : ℚ) * (2 : ℚ) ^ ulpExp q - q =
      -((q / (2 : ℚ) ^ ulpExp q - roundEven (q / (2 : ℚ) ^ ulpExp q)) * (2 : ℚ) ^ ulpExp q) := by
    field_simp; ring
  rw [this, abs_neg, abs_mul, abs_of_pos hp]
  have := mul_le_mul_of_nonneg_right (roundEven_near (q / (2 : ℚ) ^ ulpExp q)) hp.le
  linarith

/-- Relative error, plus the spacing of the subnormal numbers. -/
theorem toDouble_error (q : ℚ) : |toDouble q - q| ≤ |q| * (2 : ℚ) ^ (-53 : ℤ) + (2 : ℚ) ^ (-1075 : ℤ) := by
  by_cases h : q = 0
  · subst h; rw [toDouble_zero]; simp only [sub_self, abs_zero, zero_mul, zero_add]; positivity
  · have h1 := toDouble_half_ulp h
    rcases ulpExp_cases q with hu | hu
    · have : (2 : ℚ) ^ ulpExp q / 2 = (2 : ℚ) ^ (-1075 : ℤ) := by
        rw [hu, show (-1074 : ℤ) = -1075 + 1 by norm_num, zpow_add₀ (by norm_num)]; norm_num
      rw [this] at h1
      have : 0 ≤ |q| * (2 : ℚ) ^ (-53 : ℤ) := by positivity
      linarith
    · have h2 : (2 : ℚ) ^ ulpExp q / 2 = (2 : ℚ) ^ expo q * (2 : ℚ) ^ (-53 : ℤ) := by
        rw [hu, ← zpow_add₀ (by norm_num), show expo q - 52 = (expo q + -53) + 1 by ring, zpow_add_one₀ (by norm_num)]
        ring
      have h3 := mul_le_mul_of_nonneg_right (expo_spec h).1 (show (0 : ℚ) ≤ (2 : ℚ) ^ (-53 : ℤ) by positivity)
      have : (0 : ℚ) ≤ (2 : ℚ) ^ (-1075 : ℤ) := by positivity
      exact (h1.trans (h2.le.trans h3)).trans (le_add_of_nonneg_right this)

/-- Absolute error in a range. -/
theorem toDouble_error_le {q : ℚ} {e : ℤ} (he : -1021 ≤ e) (hq : |q| ≤ (2 : ℚ) ^ e) :
    |toDouble q - q| ≤ (2 : ℚ) ^ (e - 54) := by
  by_cases h : q = 0
  · subst h; rw [toDouble_zero]; simp only [sub_self, abs_zero]; positivity
  · rcases lt_or_eq_of_le hq with hlt | heq
    · have hx : expo q < e :=
        (zpow_lt_zpow_iff_right₀ (by norm_num : (1 : ℚ) < 2)).mp (lt_of_le_of_lt (expo_spec h).1 hlt)
      refine le_trans (toDouble_half_ulp h) ?_
      rw [div_le_iff₀ (by norm_num), ← zpow_add_one₀ (by norm_num)]
      apply zpow_le_zpow_right₀ (by norm_num)
      rcases ulpExp_cases q with hu | hu <;> rw [hu] <;> omega
    · have hd : IsDouble q := by
        rcases abs_cases q with ⟨h1, _⟩ | ⟨h1, _⟩
        · refine ⟨1, e, by norm_num, by omega, ?_⟩
          rw [← heq, h1]; simp
        · refine ⟨-1, e, by norm_num, by omega, ?_⟩
          rw [← heq, h1]; simp
      rw [toDouble_exact hd]; simp only [sub_self, abs_zero]; positivity

/-- A positive number is rounded to a positive one unless it is at most half the least positive double. -/
theorem toDouble_pos {q : ℚ} (h : (2 : ℚ) ^ (-1074 : ℤ) ≤ q) : 0 < toDouble q := by
  have hd : IsDouble ((2 : ℚ) ^ (-1074 : ℤ)) := ⟨1, -1074, by norm_num, le_refl _, by simp⟩
  have := toDouble_mono h
  rw [toDouble_exact hd] at this
  exact lt_of_lt_of_le (by positivity) this

/-! ### Correct rounding is unique -/

theorem isDouble_neg {x : ℚ} (h : IsDouble x) : IsDouble (-x) := by
  obtain ⟨m, e, h1, h2, rfl⟩ := h
  exact ⟨-m, e, by rwa [abs_neg], h2, by push_cast; ring⟩

theorem evenDouble_neg {x : ℚ} (h : EvenDouble x) : EvenDouble (-x) := by
  obtain ⟨m, e, h1, h2, h3, rfl, h4⟩ := h
  exact ⟨-m, e, by rwa [abs_neg], h2, by rwa [abs_neg], by push_cast; ring, h4.neg⟩

/-- Between two even doubles lies another double. -/
theorem even_gap_pos {x y : ℚ} (h0 : 0 ≤ x) (hxy : x < y) (hx : EvenDouble x) (hy : EvenDouble y) : ∃ z, IsDouble z ∧ x < z ∧ z < y := by
  obtain ⟨m, e, h1, h2, h3, rfl, h4⟩ := hx
  obtain ⟨n, f, g1, g2, g3, rfl, g4⟩ := hy
  have pe : (0 : ℚ) < (2 : ℚ) ^ e := by positivity
  have pf : (0 : ℚ) < (2 : ℚ) ^ f := by positivity
  have hm : 0 ≤ m := by
    have := nonneg_of_mul_nonneg_left h0 pe
    exact_mod_cast this
  have hn : 0 < n := by
    have := pos_of_mul_pos_left (lt_of_le_of_lt h0 hxy) pf.le
    exact_mod_cast this
  rw [abs_of_nonneg hm] at h1 h3
  rw [abs_of_pos hn] at g1 g3
  have hef : e ≤ f := by
    by_contra hc
    rw [not_le] at hc
    have hm' : 2 ^ 52 ≤ m := h3.resolve_right (by omega)
    have k1 : (2 : ℚ) ^ f ≤ (2 : ℚ) ^ (e - 1) := zpow_le_zpow_right₀ (by norm_num) (by omega)
    have k2 : (2 : ℚ) ^ e = 2 * (2 : ℚ) ^ (e - 1) := by rw [zpow_sub_one₀ (by norm_num)]; ring
    have k3 : (n : ℚ) < 2 ^ 53 := by exact_mod_cast g1
    have k4 : (2 : ℚ) ^ 52 ≤ (m : ℚ) := by exact_mod_cast hm'
    have pe' : (0 : ℚ) < (2 : ℚ) ^ (e - 1) := by positivity
    have hn' : (0 : ℚ) < n := by exact_mod_cast hn
    have a1 : (n : ℚ) * (2 : ℚ) ^ f ≤ 2 ^ 53 * (2 : ℚ) ^ (e - 1) := mul_le_mul k3.le k1 pf.le (by norm_num)
    have a2 : (2 : ℚ) ^ 52 * (2 * (2 : ℚ) ^ (e - 1)) ≤ m * (2 : ℚ) ^ e := by rw [← k2]; exact mul_le_mul_of_nonneg_right k4 pe.le
    linarith
  obtain ⟨k, rfl⟩ := Int.le.dest hef
  have hk : (2 : ℚ) ^ (e + (k : ℤ)) = (2 : ℚ) ^ k * (2 : ℚ) ^ e := by rw [zpow_add₀ (by norm_num), zpow_natCast]; ring
  rw [hk, ← mul_assoc] at hxy
  have hlt : m < n * 2 ^ k := by
    have := lt_of_mul_lt_mul_right hxy pe.le
    exact_mod_cast this
  have heven : Even (n * 2 ^ k) := g4.mul_right _
  have hlt' : m + 1 < n * 2 ^ k := by
    rcases lt_or_eq_of_le (Int.add_one_le_iff.mpr hlt) with h | h
    · exact h
    · rw [← h] at heven
      exact absurd heven (by rw [Int.not_even_iff_odd]; exact h4.add_one)
  refine ⟨((m + 1 : ℤ) : ℚ) * (2 : ℚ) ^ e, isDouble_of_le (by rw [abs_of_nonneg (by omega)]; omega) h2, ?_, ?_⟩
  · apply mul_lt_mul_of_pos_right _ pe; push_cast; linarith
  · rw [hk, ← mul_assoc]
    apply mul_lt_mul_of_pos_right _ pe
    exact_mod_cast hlt'

theorem even_gap {x y : ℚ} (hxy : x < y) (hx : EvenDouble x) (hy : EvenDouble y) : ∃ z, IsDouble z ∧ x < z ∧ z < y := by
  by_cases h0 : 0 ≤ x
  · exact even_gap_pos h0 hxy hx hy
  · by_cases h1 : 0 < y
    · exact ⟨0, isDouble_zero, not_le.mp h0, h1⟩
    · obtain ⟨z, z1, z2, z3⟩ := even_gap_pos (x := -y) (y := -x) (by linarith) (by linarith) (evenDouble_neg hy) (evenDouble_neg hx)
      exact ⟨-z, isDouble_neg z1, by linarith, by linarith⟩

theorem roundsTo_unique {q x y : ℚ} (hx : RoundsTo q x) (hy : RoundsTo q y) : x = y := by
  by_contra hne
  have heq : |q - x| = |q - y| := le_antisymm (hx.2.1 y hy.1) (hy.2.1 x hx.1)
  have ex := hx.2.2 y hy.1 (Ne.symm hne) heq.symm
  have ey := hy.2.2 x hx.1 hne heq
  wlog hlt : x < y generalizing x y
  · exact this hy hx (Ne.symm hne) heq.symm ey ex (lt_of_le_of_ne (not_lt.mp hlt) (Ne.symm hne))
  · obtain ⟨z, z1, z2, z3⟩ := even_gap hlt ex ey
    have n1 := hx.2.1 z z1
    have n2 := hy.2.1 z z1
    rcases abs_cases (q - x) with ⟨a, _⟩ | ⟨a, _⟩ <;> rcases abs_cases (q - y) with ⟨b, _⟩ | ⟨b, _⟩ <;>
      rcases abs_cases (q - z) with ⟨c, _⟩ | ⟨c, _⟩ <;> rw [a, b] at heq <;> rw [a, c] at n1 <;> rw [b, c] at n2 <;> linarith

end PyDice
