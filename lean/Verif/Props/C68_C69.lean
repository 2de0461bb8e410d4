import Verif.Props.C14_C15
import Verif.Props.C34_C39
import Verif.Lemmas.Keys
/-!
# C68, C69: sizes of distributions, passes of the loops, and the estimated cost
-/

namespace PyDice
open PyRuntime

section
variable [R : PyRuntime]

/-! ### C68 -/

/-- Counting changes nothing: forgetting the count gives `get_probability_distribution`, for every expression and state, errors
    included. -/
theorem C68_same (e : Expr) (s : State) : ((e.distW s).1.map Prod.fst, (e.distW s).2) = e.dist s := counts_dist e s

/-- An operator visits every pair of outcomes once, and its result has at most that many entries. -/
theorem C68_pairs (op : BinOp) (a b d : Dist) (n : Nat) (h : Dist.binopW op a b = .ok (d, n)) :
    n = a.size * b.size ∧ d.size ≤ a.size * b.size := by
  rw [binopW_eq] at h
  cases hb : Dist.binop op a b with
  | error e => rw [hb] at h; cases h
  | ok r =>
    rw [hb] at h
    obtain ⟨rfl, rfl⟩ := Prod.mk.inj (Except.ok.inj h)
    exact ⟨rfl, binop_size hb⟩

/-- The passes of an expression with two operands are those of its operands and one for every pair of their outcomes. -/
theorem C68_operands (e a b : Expr) (op : BinOp) (he : e.joined = some (op, a, b)) (s s' : State) (d : Dist) (n : Nat)
    (h : e.distW s = (.ok (d, n), s')) : ∃ x y i j s1, a.distW s = (.ok (x, i), s1) ∧ b.distW s1 = (.ok (y, j), s') ∧
      Dist.binop op x y = .ok d ∧ n = i + j + x.size * y.size := by
  have h' : EvalM.binopW op a.distW b.distW s = (.ok (d, n), s') := by
    cases e <;> cases he <;> exact h
  unfold EvalM.binopW at h'
  obtain ⟨x, s1, h1, h'⟩ := evalBind_eq_ok.mp h'
  obtain ⟨y, s2, h2, h'⟩ := evalBind_eq_ok.mp h'
  obtain ⟨z, s3, h3, h'⟩ := evalBind_eq_ok.mp h'
  have h4 : Dist.binopW op x.1 y.1 = .ok z := (Prod.mk.inj h3).1
  obtain ⟨h5, rfl⟩ := Prod.mk.inj h3
  obtain ⟨h6, rfl⟩ := Prod.mk.inj h'
  obtain ⟨rfl, rfl⟩ := Prod.mk.inj (Except.ok.inj h6)
  rw [binopW_eq] at h4
  cases hb : Dist.binop op x.1 y.1 with
  | error e => rw [hb] at h4; cases h4
  | ok r =>
    rw [hb] at h4
    cases h4
    exact ⟨x.1, y.1, x.2, y.2, s1, h1, h2, hb, rfl⟩

/-- Parentheses, `!`, `ABS` and assignments add no passes; constants and variables need none. -/
theorem C68_others (e : Expr) (x : Str) (s s' : State) (d : Dist) (n : Nat) :
    ((Expr.paren e).distW s = e.distW s) ∧
    ((Expr.not e).distW s = (.ok (d, n), s') → ∃ d', e.distW s = (.ok (d', n), s')) ∧
    ((Expr.abs e).distW s = (.ok (d, n), s') → ∃ d', e.distW s = (.ok (d', n), s')) ∧
    ((Expr.assign x e).distW s = (.ok (d, n), s') → ∃ s1, e.distW s = (.ok (d, n), s1)) ∧
    ((Expr.getVar x).distW s = (.ok (d, n), s') → n = 0) ∧ ((Expr.constInt x).distW s = (.ok (d, n), s') → n = 0) ∧
    ((Expr.constBin x).distW s = (.ok (d, n), s') → n = 0) := by
  refine ⟨rfl, fun h => ?_, fun h => ?_, fun h => ?_, fun h => ?_, fun h => ?_, fun h => ?_⟩
  · obtain ⟨y, s1, h1, h⟩ := evalBind_eq_ok.mp h
    cases h
    exact ⟨y.1, h1⟩
  · obtain ⟨y, s1, h1, h⟩ := evalBind_eq_ok.mp h
    cases h
    exact ⟨y.1, h1⟩
  · obtain ⟨y, s1, h1, h⟩ := evalBind_eq_ok.mp h
    obtain ⟨_, s2, _, h⟩ := evalBind_eq_ok.mp h
    cases h
    exact ⟨s1, h1⟩
  · obtain ⟨y, s1, _, h⟩ := evalBind_eq_ok.mp h
    cases h
    rfl
  · obtain ⟨v, _, h⟩ := bind_eq_ok.mp (Prod.mk.inj h).1
    obtain ⟨d', _, h⟩ := bind_eq_ok.mp h
    cases h
    rfl
  · obtain ⟨d', _, h⟩ := bind_eq_ok.mp (Prod.mk.inj h).1
    cases h
    rfl

/-- Dice with any faces: one die needs no pass, and one more die needs one for every entry and face. -/
theorem C68_one_more_die (f g : Str) (table : List (Int × Nat)) (n : Nat) (hd : DistinctKeys table) :
    (∃ d, DiceTerm.distW ⟨f, table, 1⟩ = .ok (d, 0)) ∧
    ∃ d w d', DiceTerm.distW ⟨f, table, n + 1⟩ = .ok (d, w) ∧
      DiceTerm.distW ⟨g, table, n + 2⟩ = .ok (d', w + d.size * table.length) := by
  obtain ⟨single, h1⟩ : ∃ single, mkDistInt (R := R) table = .ok single := ⟨_, mkDistInt_eq _⟩
  obtain ⟨d0, h2⟩ : ∃ d0, mkDistInt single.getResultMap = .ok d0 := ⟨_, mkDistInt_eq _⟩
  have hs : single.size = table.length := by
    have e1 := List.toFinset_card_of_nodup (loose_nodup (loose_int h1))
    have e2 := List.toFinset_card_of_nodup ((distinct_iff_nodup _).mp hd)
    rw [List.length_map] at e1 e2
    rw [Dist.size, ← e1, ← e2]
    congr 1
    ext v
    rw [List.mem_toFinset, List.mem_map, int_vals h1, List.mem_toFinset]
    rfl
  have step : ∀ (n : Nat) (d : Dist) (w : Nat), Loose d → ∃ r v r', addDiceW single n d w = .ok (r, v) ∧
      addDiceW single (n + 1) d w = .ok (r', v + r.size * single.size) := by
    intro n
    induction n with
    | zero =>
      intro d w hl
      obtain ⟨d', hb⟩ := add_defined (b := single) hl
      refine ⟨d, w, d', rfl, ?_⟩
      simp only [addDiceW, binopW_eq, hb]
      rfl
    | succ n ih =>
      intro d w hl
      obtain ⟨d', hb⟩ := add_defined (b := single) hl
      obtain ⟨r, v, r', g1, g2⟩ := ih d' (w + d.size * single.size) (loose_binop hl (loose_int h1) hb)
      refine ⟨r, v, r', ?_, ?_⟩
      · rw [addDiceW, binopW_eq, hb]
        exact g1
      · rw [addDiceW, binopW_eq, hb]
        exact g2
  have start : ∀ (f : Str) (k : Nat), DiceTerm.distW ⟨f, table, k + 1⟩ = addDiceW single k d0 0 := by
    intro f k
    unfold DiceTerm.distW
    rw [h1, ok_bind, h2, ok_bind]
    rfl
  refine ⟨⟨d0, by rw [start]; rfl⟩, ?_⟩
  obtain ⟨r, v, r', g1, g2⟩ := step n d0 0 (loose_int h2)
  exact ⟨r, v, r', by rw [start]; exact g1, by rw [start, g2, hs]⟩

/-- Without variables there is one entry for every value, and so no more than there are integers between the smallest and the largest
    value. -/
theorem C68_values (e : Expr) (he : e.Nameless) (s s' : State) (d : Dist) (h : e.dist s = (.ok d, s')) :
    d.size = d.valueCount ∧
      ∀ lo hi : Int, (∀ v, hasKey d.getResultMap v → lo ≤ v ∧ v ≤ hi) → d.size ≤ (hi + 1 - lo).toNat := by
  have hc := counts_dist e s
  rw [h] at hc
  obtain ⟨n, hn⟩ := map_fst_ok (Prod.mk.inj hc).1
  have hl := loose_nameless e he s (e.distW s).2 d n (by rw [← hn])
  refine ⟨loose_size hl, fun lo hi hr => loose_within hl fun p hp => hr _ ?_⟩
  exact (hasKey_getResultMap d _).mpr ⟨p, hp, rfl⟩

/-- `n` dice whose faces are the integers between two numbers `σ` apart: `n * σ + 1` entries, and the loops are passed
    `(σ + 1) * (σ + 1)` times for the second die, `(2 * σ + 1) * (σ + 1)` times for the third, and so on. -/
theorem C68_dice (t : DiceTerm) (hn : 1 ≤ t.number) (lo : Int) (σ : Nat) (hf : ∀ v, hasKey t.table v ↔ lo ≤ v ∧ v ≤ lo + σ) :
    ∃ d, t.distW = .ok (d, ∑ i ∈ Finset.range (t.number - 1), ((i + 1) * σ + 1) * (σ + 1)) ∧ d.size = t.number * σ + 1 :=
  diceW_exact hn hf

/-- The same from the text: `n` dice with `S` sides. -/
theorem C68_dice_text (ds sides : Str) (hd : ds ≠ [] ∧ ∀ c ∈ ds, isDigit c = true) (hs : sides ≠ [] ∧ ∀ c ∈ sides, isDigit c = true)
    (hn : 1 ≤ natOf ds) (h1 : 1 ≤ natOf sides) : ∃ t d n, mkDice (ds ++ 'd' :: sides) = .ok t ∧ t.distW = .ok (d, n) ∧
      d.size = natOf ds * (natOf sides - 1) + 1 ∧
      n = ∑ i ∈ Finset.range (natOf ds - 1), ((i + 1) * (natOf sides - 1) + 1) * natOf sides := by
  obtain ⟨m, hm, _, hk, _⟩ := C14_sides sides hs
  have ht := C14_number ds sides m hd.2 (fun c hc => digit_ne (hs.2 c hc) (by decide)) hm
  rw [if_neg hd.1] at ht
  obtain ⟨d, g1, g2⟩ := C68_dice (R := R) ⟨ds ++ 'd' :: sides, m, natOf ds⟩ hn 1 (natOf sides - 1)
    (fun v => by rw [hk]; omega)
  refine ⟨_, d, _, ht, g1, g2, ?_⟩
  rw [show natOf sides - 1 + 1 = natOf sides by omega]

/-- A keep or drop term that leaves dice out goes through one key for every way in which the dice it keeps can fall, their order left
    aside, and every face is tried with every key: with `F` faces and `c` dice kept, `F` times the number of multisets of `i` faces for
    the `i`-th die kept, and `F` times the number of multisets of `c` faces for each of the others. -/
theorem C68_keys (form : Str) (t : DropKeepTerm) (ht : mkDropKeep form = .ok t) (h0 : 0 < t.count) (h1 : t.count < t.number)
    (hd : DistinctKeys t.table) : ∃ d, t.distW = .ok (d,
      (∑ i ∈ Finset.range t.counted, t.table.length * Nat.multichoose t.table.length i) +
        (t.number - t.counted) * (t.table.length * Nat.multichoose t.table.length t.counted)) :=
  dropKeepW_passes ((mkDropKeep_spec ht).2.2.2 h0 h1) h0 h1 ((distinct_iff_nodup _).mp hd)

omit R in
/-- The tables of keys themselves: while the kept dice are added there is exactly one key for every multiset of faces. -/
theorem C68_key_table (table : List (Int × Nat)) (hd : DistinctKeys table) (k : Nat) :
    ∃ d, buildDiceDict k table = .ok d ∧ d.length = Nat.multichoose table.length k := by
  have ht := (distinct_iff_nodup _).mp hd
  obtain ⟨d, h1, h2⟩ := build_passes ht k 0 [([], 1)] 0 (allKeys_start _)
  rw [Nat.zero_add] at h2
  refine ⟨d, ?_, allKeys_length ht h2⟩
  unfold buildDiceDict
  rw [← iterKeysW_fst addKey table k [([], 1)] 0, h1]
  rfl

/-! ### C69 -/

/-- **C69 (partial).**  For sums, differences, comparisons, logic, `MAX`, `MIN`, `ABS` and `!` of constants and dice without gaps, the
    distribution has at most one entry more than the sum of the prices of the leaves, and the loops are passed at most twice the square of
    that sum.  Missing: the other expressions, see the counterexamples. -/
theorem C69_bill_partial (e : Expr) (he : e.Tame) (s s' : State) (d : Dist) (n : Nat) (h : e.distW s = (.ok (d, n), s')) :
    (d.size : Int) ≤ e.bill + 1 ∧ (n : Int) ≤ 2 * e.bill ^ 2 :=
  have f := fits_tame e he s s' d n h
  ⟨f.size, f.work⟩

/-- **C69 (partial).**  The same for the estimated cost itself, when there is no `!` (whose cost is worked out with a float). -/
theorem C69_cost_partial (e : Expr) (he : e.Tame) (hp : e.Priced) (s s' : State) (d : Dist) (n : Nat)
    (h : e.distW s = (.ok (d, n), s')) : ∃ c : Int, e.cost s = (.ok c, s) ∧ (d.size : Int) ≤ c + 1 ∧ (n : Int) ≤ 2 * c ^ 2 := by
  have hr : ∀ e : Expr, e.Tame → e.reads = [] := by
    intro e
    induction e with
    | paren e ih => exact ih
    | not e ih => exact ih
    | abs e ih => exact ih
    | add a b iha ihb => intro h; simp only [Expr.reads, iha h.1, ihb h.2, List.append_nil]
    | sub a b iha ihb => intro h; simp only [Expr.reads, iha h.1, ihb h.2, List.append_nil]
    | bin _ a b iha ihb => intro h; simp only [Expr.reads, iha h.1, ihb h.2, List.append_nil]
    | minmax _ a b iha ihb => intro h; simp only [Expr.reads, iha h.1, ihb h.2, List.append_nil]
    | constInt _ => exact fun _ => rfl
    | constBin _ => exact fun _ => rfl
    | dice _ => exact fun _ => rfl
    | dropKeep _ => exact fun h => h.elim
    | mul _ _ => exact fun h => h.elim
    | div _ _ => exact fun h => h.elim
    | assign _ _ => exact fun h => h.elim
    | getVar _ => exact fun h => h.elim
  refine ⟨e.bill, C34_leaves e (fun _ => 0) s hp (by rw [hr e he]; simp), ?_⟩
  exact C69_bill_partial e he s s' d n h

/-- **C69 fails.**  No polynomial of the estimated cost bounds the number of entries: for all `C` and `k` there is a sum of dice, each
    built from its text, with more than `C * cost ^ k` entries, one per value.  (The sum is `1d[0,1] + 1d[0,2] + 1d[0,4] + ...`; every die
    costs 2 and doubles the number of values.) -/
theorem C69_entries_counterexample (C k : Nat) (s : State) : ∃ (e : Expr) (c : Nat) (d : Dist), e.Built ∧ e.Nameless ∧
    e.cost s = (.ok (c : Int), s) ∧ e.dist s = (.ok d, s) ∧ C * c ^ k < d.size ∧ d.size = d.valueCount := by
  obtain ⟨m, hm⟩ := outgrow C k
  obtain ⟨d, n, h1, h2, h3⟩ := bitSum_spec m s
  have hb : ∀ m, (bitSum m).Built ∧ (bitSum m).Nameless ∧ (bitSum m).cost s = (.ok ((2 * (m + 1) : Nat) : Int), s) := by
    intro m
    induction m with
    | zero => exact ⟨⟨_, bitDie_built 0⟩, trivial, rfl⟩
    | succ m ih =>
      refine ⟨⟨ih.1, ⟨_, bitDie_built (m + 1)⟩⟩, ⟨ih.2.1, trivial⟩, ?_⟩
      refine evalBind_eq_ok.mpr ⟨_, s, ih.2.2, evalBind_eq_ok.mpr ⟨2, s, rfl, ?_⟩⟩
      show (Except.ok (((2 * (m + 1) : Nat) : Int) + 2), s) = _
      congr 2
  refine ⟨bitSum m, _, d, (hb m).1, (hb m).2.1, (hb m).2.2, ?_, ?_, loose_size h2⟩
  · rw [← counts_dist, h1]; rfl
  · have e : (2 : Int) ^ (m + 1) - 1 + 1 - 0 = ((2 ^ (m + 1) : Nat) : Int) := by push_cast; ring
    rw [fills_size h2 h3, e, Int.toNat_natCast]
    exact hm

/-- **C69 fails for keep and drop.**  No polynomial of the estimated cost bounds the passes through the loops either, even for a single
    keep term `NdSkK` with standard dice. -/
theorem C69_passes_counterexample (C k : Nat) : ∃ (N S K : Nat) (t : DropKeepTerm) (d : Dist) (n : Nat),
    mkDropKeep (natStr N ++ 'd' :: natStr S ++ 'k' :: natStr K) = .ok t ∧ t.cost = ((N * K * S : Nat) : Int) ∧
    t.distW = .ok (d, n) ∧ C * (N * K * S) ^ k < n := by
  obtain ⟨S, h1, hS⟩ := outgrow_choose C k (k + 2) (k + 1)
  have dig := fun n => (⟨natStr_ne_nil n, natStr_digits n⟩ : natStr n ≠ [] ∧ ∀ c ∈ natStr n, isDigit c = true)
  obtain ⟨m, hm, hdm, hk, _⟩ := C14_sides (natStr S) (dig S)
  obtain ⟨t, ht, e1, e2, e3, e4⟩ := C14_keep_drop (natStr (k + 2)) (natStr S) (natStr (k + 1)) true m (natStr_digits _)
    (fun c hc => ⟨digit_ne (natStr_digits _ c hc) (by decide), digit_ne (natStr_digits _ c hc) (by decide)⟩) (dig (k + 1)) hm
  rw [if_neg (natStr_ne_nil _), natOf_natStr] at e2
  rw [natOf_natStr] at e3 hk
  have hF : t.table.length = S := by
    rw [e1, table_length hdm hk]
    omega
  have hsim := (mkDropKeep_spec ht).2.2.2 (by omega) (by omega)
  have hcnt : t.counted = k + 1 := by unfold DropKeepTerm.counted; rw [e4, e3]; rfl
  obtain ⟨d, hd⟩ := C68_keys (R := R) _ t ht (by omega) (by omega) (by rw [e1]; exact hdm)
  refine ⟨k + 2, S, k + 1, t, d, _, ht, ?_, hd, ?_⟩
  · unfold DropKeepTerm.cost
    rw [hsim]
    simp only [e2, e3, e4, hF, if_true]
    push_cast
    ring
  · rw [hF, hcnt, e2, show k + 2 - (k + 1) = 1 by omega, Nat.one_mul]
    exact lt_of_lt_of_le hS (Nat.le_add_left _ _)

/-- **C69 fails for no dice.**  `0dS` costs nothing and has `S` entries, whatever `S`. -/
theorem C69_no_dice_counterexample (S : Nat) (hS : 1 ≤ S) : ∃ (t : DiceTerm) (d : Dist), mkDice ("0d".toList ++ natStr S) = .ok t ∧
    t.cost = 0 ∧ t.dist = .ok d ∧ d.size = S := by
  obtain ⟨m, hm, _, hk, _⟩ := C14_sides (natStr S) ⟨natStr_ne_nil S, natStr_digits S⟩
  have ht := C14_number ['0'] (natStr S) m (by simp [isDigit]) (fun c hc => digit_ne (natStr_digits _ c hc) (by decide)) hm
  obtain ⟨d, g1, g2⟩ := C68_dice (R := R) ⟨[], m, 1⟩ (le_refl _) 1 (S - 1)
    (fun v => by rw [hk, natOf_natStr]; omega)
  refine ⟨_, d, ht, ?_, ?_, ?_⟩
  · simp [DiceTerm.cost, show natOf ['0'] = 0 from rfl]
  · rw [← diceW_fst]
    have : (DiceTerm.distW (R := R) ⟨['0'] ++ 'd' :: natStr S, m, if ['0'] = [] then 1 else natOf ['0']⟩) =
        DiceTerm.distW ⟨[], m, 1⟩ := rfl
    rw [this, g1]
    rfl
  · rw [g2]
    show 1 * (S - 1) + 1 = S
    omega

/-! ### The theorems are about something -/

/-- The die of the examples. -/
private abbrev sixSided : DiceTerm := ⟨"3d6".toList, [(1, 1), (2, 1), (3, 1), (4, 1), (5, 1), (6, 1)], 3⟩

omit R in
private theorem sixSided_faces (v : Int) : hasKey sixSided.table v ↔ 1 ≤ v ∧ v ≤ 1 + (5 : Nat) := by
  simp [hasKey]
  omega

-- `3d6`: 16 entries after 36 + 66 passes.
example : ∃ d, sixSided.distW = .ok (d, 102) ∧ d.size = 16 := C68_dice sixSided (by decide) 1 5 sixSided_faces
example : ∃ t d n, mkDice "12d20".toList = .ok t ∧ t.distW (R := R) = .ok (d, n) ∧ d.size = 229 ∧ n = 25300 := by
  obtain ⟨t, d, n, h1, h2, h3, h4⟩ := C68_dice_text (R := R) "12".toList "20".toList (by decide) (by decide) (by decide) (by decide)
  exact ⟨t, d, n, h1, h2, h3, h4.trans (by decide)⟩
-- `4d6k3`: 6 + 36 + 126 passes while keeping three dice, 336 for the fourth.
example : ∃ t d, mkDropKeep "4d6k3".toList = .ok t ∧ t.distW (R := R) = .ok (d, 504) := by
  have ht : ∃ t, mkDropKeep "4d6k3".toList = .ok t ∧ t.count = 3 ∧ t.number = 4 ∧ t.counted = 3 ∧
      t.table = [(1, 1), (2, 1), (3, 1), (4, 1), (5, 1), (6, 1)] := ⟨_, rfl, rfl, rfl, rfl, rfl⟩
  obtain ⟨t, h1, h2, h3, h4, h5⟩ := ht
  obtain ⟨d, h⟩ := C68_keys (R := R) _ t h1 (by omega) (by omega) (by rw [h5, distinct_iff_nodup]; decide)
  refine ⟨t, d, h1, ?_⟩
  rw [h, h3, h4, h5]
  simp [Finset.sum_range_succ, Nat.multichoose_eq, Nat.choose]
example : DistinctKeys [((1 : Int), 1), (2, 1)] ∧ Nat.multichoose 2 3 = 4 := ⟨by rw [distinct_iff_nodup]; decide, by simp [Nat.multichoose_eq]⟩
example : (Expr.sub (.dice sixSided) (.constInt ['2'])).joined = some (.sub, .dice sixSided, .constInt ['2']) := rfl
-- `3d6 + 2 >= 10` is tame, and costs 22.
example : (Expr.bin .ge (.add (.dice sixSided) (.constInt ['2'])) (.constInt "10".toList)).Tame ∧
    (Expr.bin .ge (.add (.dice sixSided) (.constInt ['2'])) (.constInt "10".toList)).Priced ∧
    (Expr.bin .ge (.add (.dice sixSided) (.constInt ['2'])) (.constInt "10".toList)).Nameless ∧
    (Expr.bin .ge (.add (.dice sixSided) (.constInt ['2'])) (.constInt "10".toList)).bill = 22 :=
  ⟨⟨⟨⟨by decide, by decide, 1, by decide⟩, trivial⟩, trivial⟩, ⟨⟨trivial, trivial⟩, trivial⟩, ⟨⟨trivial, trivial⟩, trivial⟩, by decide⟩
end

-- Pairs are visited, and the result is smaller than the number of pairs.
example : ((do let a ← @mkDistInt listRuntime [(1, 1), (2, 1)]; @Dist.binopW listRuntime .add a a).toOption.map fun x =>
    (@Dist.size listRuntime (Prod.fst x), Prod.snd x)) = some (3, 4) := by decide +kernel

end PyDice
