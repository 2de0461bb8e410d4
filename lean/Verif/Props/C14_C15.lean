import Verif.Spec.Notation
import Verif.Lemmas.Regex
import Verif.Lemmas.DropKeepTerm
import Verif.Lemmas.Notation
/-!
# C14, C15: the notation of dice
-/

namespace PyDice

/-- C14: a plain number of sides. -/
theorem C14_sides (ds : Str) (h : ds ≠ [] ∧ ∀ c ∈ ds, isDigit c = true) : ∃ m, singleDiceMap ds = .ok m ∧ DistinctKeys m ∧
    (∀ v, hasKey m v ↔ 1 ≤ v ∧ v ≤ (natOf ds : Int)) ∧ (∀ v, countOf m v = if 1 ≤ v ∧ v ≤ (natOf ds : Int) then 1 else 0) := by
  have hm : Re.isMatch (Re.plus Re.digit) ds = true :=
    (Re.isMatch_iff (by simp [Re.Plain, Re.plus, Re.digit]) _).mpr
      ⟨ds, [], by simp, (Re.lang_plus_digit _).mpr ((isDigits_iff _).mpr h)⟩
  refine ⟨ones (pyRange 1 (natOf ds + 1)), ?_, ?_, ?_, ?_⟩
  · unfold singleDiceMap
    rw [if_pos hm, pyInt_digits ((isDigits_iff _).mpr h)]
    rfl
  all_goals
    have hkeys : (ones (pyRange 1 (natOf ds + 1))).map Prod.fst = pyRange 1 (natOf ds + 1) := by
      unfold ones; rw [List.map_map]; simp [Function.comp_def]
    have hdist : DistinctKeys (ones (pyRange 1 (natOf ds + 1))) := by
      rw [distinct_iff_nodup, hkeys]; exact pyRange_nodup _ _
    have hk : ∀ v, hasKey (ones (pyRange 1 (natOf ds + 1))) v ↔ 1 ≤ v ∧ v ≤ (natOf ds : Int) := by
      intro v; unfold hasKey; rw [hkeys, mem_pyRange]; omega
  · exact hdist
  · exact hk
  · intro v
    by_cases hv : 1 ≤ v ∧ v ≤ (natOf ds : Int)
    · rw [if_pos hv]
      obtain ⟨p, hp, rfl⟩ := (hasKey_iff _ _).mp ((hk v).mpr hv)
      unfold countOf
      rw [dictGet_of_mem _ hdist hp]
      unfold ones at hp
      obtain ⟨x, _, rfl⟩ := List.mem_map.mp hp
      rfl
    · rw [if_neg hv]
      exact countOf_zero_of_not_key _ _ (fun hh => hv ((hk v).mp hh))

/-- C14: `%` is 1 to 100 and `F` is -1, 0, 1. -/
theorem C14_percent_fate : singleDiceMap ['%'] = singleDiceMap "100".toList ∧
    singleDiceMap ['F'] = .ok [(-1, 1), (0, 1), (1, 1)] := by
  constructor
  · decide
  · decide

/-- C14: a custom die with whitespace anywhere.  The keys are the covered integers and the weight of each is the sum of the
    weights of the entries that cover it. -/
theorem C14_custom (es : List Entry) (hne : es ≠ []) (hwf : ∀ e ∈ es, e.WF) (s : Str) (hs : noSpace s = customText es) :
    ∃ m, singleDiceMap s = .ok m ∧ DistinctKeys m ∧ (∀ v, hasKey m v ↔ ∃ e ∈ es, e.Covers v) ∧
      (∀ v, countOf m v = totalWeight es v) := by
  have hj : ∀ c ∈ joinWith ',' (es.map Entry.text), (isEntryChar c || c == ',') = true := by
    apply join_chars ',' (by decide)
    intro w hw c hc
    obtain ⟨e, he, rfl⟩ := List.mem_map.mp hw
    simp [entry_chars (hwf e he) c hc]
  have hstrip : stripBrackets s = joinWith ',' (es.map Entry.text) := by
    apply stripBrackets_eq hs
    intro c hc
    have := hj c hc
    constructor <;> (rintro rfl; revert this; decide)
  obtain ⟨h1, h2, h3⟩ := bracket_start hs
  have hsplit : splitOn (· == ',') (stripBrackets s) = es.map Entry.text := by
    rw [hstrip]
    apply splitOn_join (by simp) _ (by simpa using hne)
    intro w hw c hc
    obtain ⟨e, he, rfl⟩ := List.mem_map.mp hw
    have hh := entry_chars (hwf e he) c hc
    by_contra hcon
    have : c = ',' := by simpa using hcon
    subst this
    revert hh; decide
  obtain ⟨m, g1, g2, g3, g4⟩ := entriesLoop_ok es hwf [] (by simp [DistinctKeys])
  refine ⟨m, ?_, g2, ?_, ?_⟩
  · unfold singleDiceMap
    rw [if_neg (by simp [h1]), if_neg h2, if_neg h3, hsplit]
    exact g1
  · intro v; rw [g4]; simp [hasKey]
  · intro v; rw [g3]; simp [countOf, dictGet?]

/-- C14: rearranging the entries, or the whitespace, changes no weight. -/
theorem C14_order (es fs : List Entry) (hp : es.Perm fs) (hne : es ≠ []) (hwf : ∀ e ∈ es, e.WF) (s t : Str)
    (hs : noSpace s = customText es) (ht : noSpace t = customText fs) :
    ∃ m n, singleDiceMap s = .ok m ∧ singleDiceMap t = .ok n ∧ ∀ v, (hasKey m v ↔ hasKey n v) ∧ countOf m v = countOf n v := by
  obtain ⟨m, h1, _, h3, h4⟩ := C14_custom es hne hwf s hs
  obtain ⟨n, g1, _, g3, g4⟩ := C14_custom fs (by rintro rfl; exact hne (List.perm_nil.mp hp))
    (fun e he => hwf e (hp.mem_iff.mpr he)) t ht
  refine ⟨m, n, h1, g1, fun v => ⟨?_, ?_⟩⟩
  · rw [h3, g3]
    exact ⟨fun ⟨e, he, hc⟩ => ⟨e, hp.mem_iff.mp he, hc⟩, fun ⟨e, he, hc⟩ => ⟨e, hp.mem_iff.mpr he, hc⟩⟩
  · rw [h4, g4]
    exact (hp.map _).sum_eq

/-- C14: the number before the `d` is the number of dice, 1 when it is left out; `sides` is anything without a `d`. -/
theorem C14_number (ds sides : Str) (table : List (Int × Nat)) (hds : ∀ c ∈ ds, isDigit c = true)
    (hsides : ∀ c ∈ sides, c ≠ 'd') (ht : singleDiceMap sides = .ok table) :
    mkDice (ds ++ 'd' :: sides) = .ok ⟨ds ++ 'd' :: sides, table, if ds = [] then 1 else natOf ds⟩ := by
  have hd : ∀ c ∈ ds, (c == 'd') = false := fun c hc => by simpa using digit_ne (hds c hc) (by decide)
  unfold mkDice
  rw [splitOn_sep hd (by simp), splitOn_clean (fun c hc => by simpa using hsides c hc)]
  simp only [pyIndex, List.getElem?_cons_succ, List.getElem?_cons_zero, ok_bind, ht, diceNumber]
  by_cases h : ds = []
  · simp only [h, if_true]; rfl
  · simp only [h, if_false, pyInt_digits ((isDigits_iff _).mpr ⟨h, hds⟩), ok_bind]; rfl

/-- C14: in a keep/drop term the number after the `k` or second `d` is how many to keep or drop. -/
theorem C14_keep_drop (ds sides ks : Str) (keep : Bool) (table : List (Int × Nat)) (hds : ∀ c ∈ ds, isDigit c = true)
    (hsides : ∀ c ∈ sides, c ≠ 'd' ∧ c ≠ 'k') (hks : ks ≠ [] ∧ ∀ c ∈ ks, isDigit c = true)
    (ht : singleDiceMap sides = .ok table) :
    ∃ t, mkDropKeep (ds ++ 'd' :: sides ++ (if keep then 'k' else 'd') :: ks) = .ok t ∧ t.table = table ∧
      t.number = (if ds = [] then 1 else natOf ds) ∧ t.count = natOf ks ∧ t.keep = keep := by
  have hd : ∀ c ∈ ds, (c == 'd' || c == 'k') = false := by
    intro c hc
    have h1 := digit_ne (d := 'd') (hds c hc) (by decide)
    have h2 := digit_ne (d := 'k') (hds c hc) (by decide)
    simp [h1, h2]
  have hk : ∀ c ∈ ks, (c == 'd' || c == 'k') = false := by
    intro c hc
    have h1 := digit_ne (d := 'd') (hks.2 c hc) (by decide)
    have h2 := digit_ne (d := 'k') (hks.2 c hc) (by decide)
    simp [h1, h2]
  have hs : ∀ c ∈ sides, (c == 'd' || c == 'k') = false := by
    intro c hc
    simp [hsides c hc]
  have hsplit : splitOn (fun c => c == 'd' || c == 'k') (ds ++ 'd' :: sides ++ (if keep then 'k' else 'd') :: ks) =
      [ds, sides, ks] := by
    rw [List.append_assoc, List.cons_append, splitOn_sep hd (by simp), splitOn_sep hs (by cases keep <;> simp), splitOn_clean hk]
  have hmk : mkDice (natStr (if ds = [] then 1 else natOf ds) ++ 'd' :: sides) = .ok _ :=
    C14_number _ sides table (natStr_digits _) (fun c hc => (hsides c hc).1) ht
  have hnum : diceNumber ds = .ok (if ds = [] then 1 else natOf ds) := by
    unfold diceNumber
    by_cases h : ds = []
    · simp only [h, if_true]
    · simp only [h, if_false, pyInt_digits ((isDigits_iff _).mpr ⟨h, hds⟩), ok_bind]; rfl
  have hkeep : (ds ++ 'd' :: sides ++ (if keep then 'k' else 'd') :: ks).contains 'k' = keep := by
    rw [Bool.eq_iff_iff, List.contains_iff_mem]
    constructor
    · intro hm
      cases keep with
      | true => rfl
      | false =>
        exfalso
        simp only [Bool.false_eq_true, if_false, List.mem_append, List.mem_cons] at hm
        rcases hm with (hm | hm | hm) | hm | hm
        · have := hd _ hm; simp at this
        · simp at hm
        · exact (hsides _ hm).2 rfl
        · simp at hm
        · have := hk _ hm; simp at this
    · rintro rfl; simp
  unfold mkDropKeep
  simp only [hsplit, pyIndex, List.getElem?_cons_zero, List.getElem?_cons_succ, ok_bind, hnum, ht,
    pyInt_digits ((isDigits_iff _).mpr hks), hkeep, hmk]
  cases keep <;> simp only [if_true, Bool.false_eq_true, if_false] <;> split_ifs <;> exact ⟨_, rfl, rfl, rfl, rfl, rfl⟩

/-- C14: a whole custom dice term: its number of dice and its table. -/
theorem C14_custom_term (ds : Str) (hds : ∀ c ∈ ds, isDigit c = true) (es : List Entry) (hne : es ≠ []) (hwf : ∀ e ∈ es, e.WF)
    (s : Str) (hs : noSpace s = customText es) :
    ∃ t, mkDice (ds ++ 'd' :: s) = .ok t ∧ t.form = ds ++ 'd' :: s ∧ t.number = (if ds = [] then 1 else natOf ds) ∧
      DistinctKeys t.table ∧ (∀ v, hasKey t.table v ↔ ∃ e ∈ es, e.Covers v) ∧ (∀ v, countOf t.table v = totalWeight es v) := by
  obtain ⟨m, h1, h2, h3, h4⟩ := C14_custom es hne hwf s hs
  exact ⟨_, C14_number ds s m hds (fun c hc => (customText_chars hwf hs c hc).1) h1, rfl, rfl, h2, h3, h4⟩

/-- The entries `1-3`, `-2--5*4`, `007`. -/
def sampleEntries : List Entry :=
  [⟨⟨false, ['1']⟩, some ⟨false, ['3']⟩, none⟩, ⟨⟨true, ['2']⟩, some ⟨true, ['5']⟩, some ['4']⟩, ⟨⟨false, "007".toList⟩, none, none⟩]

/-- The hypotheses of the C14 theorems hold for `3d[ 1-3 , -2--5*4,007 ]`. -/
example : (∀ c ∈ ['3'], isDigit c = true) ∧ sampleEntries ≠ [] ∧ (∀ e ∈ sampleEntries, e.WF) ∧
    noSpace "[ 1-3 , -2--5*4,007 ]".toList = customText sampleEntries ∧ totalWeight sampleEntries (-3) = 4 ∧
    totalWeight sampleEntries 7 = 1 ∧ totalWeight sampleEntries 0 = 0 := by
  refine ⟨by decide, by simp [sampleEntries], ?_, by decide, by decide, by decide, by decide⟩
  simp only [sampleEntries, List.mem_cons, List.not_mem_nil, or_false, forall_eq_or_imp, forall_eq, Entry.WF, Num.WF,
    Option.mem_def, Option.some.injEq, reduceCtorEq, IsEmpty.forall_iff, implies_true, and_true, forall_eq']
  decide

/-- `C14_number`, `C14_keep_drop` and `C14_sides` at work on `12d6` and `4d%d2`. -/
example : (∃ table, singleDiceMap ['6'] = .ok table ∧ table.length = 6) ∧
    (∀ c ∈ ['%'], c ≠ 'd' ∧ c ≠ 'k') ∧ (∀ c ∈ "12".toList, isDigit c = true) := by
  refine ⟨⟨_, rfl, by decide⟩, by decide, by decide⟩

/-! ### C15 -/

/-- The property as the README states it. -/
def TrailingCommaAccepted : Prop := ∀ es : List Entry, es ≠ [] → (∀ e ∈ es, e.WF) →
  singleDiceMap (customTextTrailing es) = singleDiceMap (customText es)

/-- C15 fails for every list of entries and any whitespace: with a trailing comma the constructor raises `ValueError`. -/
theorem C15_trailing_comma_rejected (es : List Entry) (hne : es ≠ []) (hwf : ∀ e ∈ es, e.WF) (s : Str)
    (hs : noSpace s = customTextTrailing es) : singleDiceMap s = .error .value := by
  have hcl : ∀ w ∈ es.map Entry.text ++ [[]], ∀ c ∈ w, isEntryChar c = true := by
    intro w hw c hc
    rcases List.mem_append.mp hw with hw | hw
    · obtain ⟨e, he, rfl⟩ := List.mem_map.mp hw
      exact entry_chars (hwf e he) c hc
    · rw [List.mem_singleton.mp hw] at hc; simp at hc
  have hs' : noSpace s = '[' :: joinWith ',' (es.map Entry.text ++ [[]]) ++ [']'] := by
    rw [hs, joinWith_snoc _ _ (by simpa using hne)]; simp [customTextTrailing]
  have hj : ∀ c ∈ joinWith ',' (es.map Entry.text ++ [[]]), (isEntryChar c || c == ',') = true := by
    apply join_chars ',' (by decide)
    intro w hw c hc
    simp [hcl w hw c hc]
  have hstrip : stripBrackets s = joinWith ',' (es.map Entry.text ++ [[]]) := by
    apply stripBrackets_eq hs'
    intro c hc
    have := hj c hc
    constructor <;> (rintro rfl; revert this; decide)
  obtain ⟨h1, h2, h3⟩ := bracket_start hs'
  have hsplit : splitOn (· == ',') (stripBrackets s) = es.map Entry.text ++ [[]] := by
    rw [hstrip]
    apply splitOn_join (by simp) _ (by simp)
    intro w hw c hc
    have hh := hcl w hw c hc
    by_contra hcon
    have : c = ',' := by simpa using hcon
    subst this
    revert hh; decide
  unfold singleDiceMap
  rw [if_neg (by simp [h1]), if_neg h2, if_neg h3, hsplit]
  exact entriesLoop_append_nil es hwf []

example : noSpace "[1-3,-2--5*4, 007 , ]".toList = customTextTrailing sampleEntries := by decide

/-- C15 refuted: `[1,2,]` against `[1,2]`. -/
theorem C15_counterexample : singleDiceMap "[1,2,]".toList = .error .value ∧
    singleDiceMap "[1,2]".toList = .ok [(1, 1), (2, 1)] ∧ ¬ TrailingCommaAccepted := by
  have h1 : singleDiceMap "[1,2,]".toList = .error .value := by decide
  have h2 : singleDiceMap "[1,2]".toList = .ok [(1, 1), (2, 1)] := by decide
  refine ⟨h1, h2, fun h => ?_⟩
  have := h [⟨⟨false, ['1']⟩, none, none⟩, ⟨⟨false, ['2']⟩, none, none⟩] (by simp) (by
    simp only [List.mem_cons, List.not_mem_nil, or_false, forall_eq_or_imp, forall_eq, Entry.WF, Num.WF, Option.mem_def, reduceCtorEq,
      IsEmpty.forall_iff, implies_true, and_true]
    decide)
  have e1 : customTextTrailing [⟨⟨false, ['1']⟩, none, none⟩, ⟨⟨false, ['2']⟩, none, none⟩] = "[1,2,]".toList := by decide
  have e2 : customText [⟨⟨false, ['1']⟩, none, none⟩, ⟨⟨false, ['2']⟩, none, none⟩] = "[1,2]".toList := by decide
  rw [e1, e2, h1, h2] at this
  cases this

end PyDice
