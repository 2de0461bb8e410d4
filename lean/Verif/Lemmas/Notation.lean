import Verif.Spec.Notation
import Verif.Lemmas.Regex
import Verif.Props.C16_C20
/-!
# The patterns and string code of dice notation
-/

namespace PyDice

theorem isDigits_of_wf {n : Num} (h : n.WF) : isDigits n.digits = true := (isDigits_iff _).mpr h

theorem lang_reInt (w : Str) : reInt.Lang w ↔ ∃ n : Num, n.WF ∧ w = n.text := by
  constructor
  · rintro ⟨u, v, rfl, hu, hv⟩
    rw [Re.lang_plus_digit, isDigits_iff] at hv
    rcases hu with hu | rfl
    · rw [Re.lang_chr] at hu; exact ⟨⟨true, v⟩, hv, by simp [Num.text, hu]⟩
    · exact ⟨⟨false, v⟩, hv, by simp [Num.text]⟩
  · rintro ⟨⟨neg, ds⟩, h, rfl⟩
    have hd := (Re.lang_plus_digit ds).mpr (isDigits_of_wf h)
    cases neg with
    | true => exact ⟨['-'], ds, rfl, Or.inl ((Re.lang_chr _ _).mpr rfl), hd⟩
    | false => exact ⟨[], ds, rfl, Or.inr rfl, hd⟩

theorem lang_optMinus (w : Str) : (Re.seq (.opt (Re.chr '-')) (Re.plus Re.digit)).Lang w ↔ ∃ n : Num, n.WF ∧ w = n.text :=
  lang_reInt w

theorem lang_reRange (w : Str) : reRange.Lang w ↔ ∃ a b : Num, a.WF ∧ b.WF ∧ w = a.text ++ '-' :: b.text := by
  constructor
  · rintro ⟨u, v, rfl, hu, ⟨m, x, rfl, hm, hx⟩⟩
    obtain ⟨a, ha, rfl⟩ := (lang_reInt _).mp hu
    obtain ⟨b, hb, rfl⟩ := (lang_optMinus _).mp hx
    rw [Re.lang_chr] at hm
    exact ⟨a, b, ha, hb, by simp [hm]⟩
  · rintro ⟨a, b, ha, hb, rfl⟩
    exact ⟨a.text, '-' :: b.text, rfl, (lang_reInt _).mpr ⟨a, ha, rfl⟩, ['-'], b.text, rfl, (Re.lang_chr _ _).mpr rfl,
      (lang_optMinus _).mpr ⟨b, hb, rfl⟩⟩

theorem lang_rePosStart (w : Str) : rePosStart.Lang w ↔ ∃ (d : Str) (b : Num), isDigits d = true ∧ b.WF ∧ w = d ++ '-' :: b.text := by
  constructor
  · rintro ⟨u, v, rfl, hu, ⟨m, x, rfl, hm, hx⟩⟩
    rw [Re.lang_plus_digit] at hu
    obtain ⟨b, hb, rfl⟩ := (lang_optMinus _).mp hx
    rw [Re.lang_chr] at hm
    exact ⟨u, b, hu, hb, by simp [hm]⟩
  · rintro ⟨d, b, hd, hb, rfl⟩
    exact ⟨d, '-' :: b.text, rfl, (Re.lang_plus_digit _).mpr hd, ['-'], b.text, rfl, (Re.lang_chr _ _).mpr rfl,
      (lang_optMinus _).mpr ⟨b, hb, rfl⟩⟩

theorem lang_reNegEnd (w : Str) : reNegEnd.Lang w ↔
    ∃ (a : Num) (d : Str), a.WF ∧ isDigits d = true ∧ w = a.text ++ '-' :: '-' :: d := by
  constructor
  · rintro ⟨u, v, rfl, hu, ⟨m, x, rfl, hm, ⟨m', y, rfl, hm', hy⟩⟩⟩
    obtain ⟨a, ha, rfl⟩ := (lang_reInt _).mp hu
    rw [Re.lang_chr] at hm hm'
    rw [Re.lang_plus_digit] at hy
    exact ⟨a, y, ha, hy, by simp [hm, hm']⟩
  · rintro ⟨a, d, ha, hd, rfl⟩
    exact ⟨a.text, '-' :: '-' :: d, rfl, (lang_reInt _).mpr ⟨a, ha, rfl⟩, ['-'], '-' :: d, rfl, (Re.lang_chr _ _).mpr rfl,
      ['-'], d, rfl, (Re.lang_chr _ _).mpr rfl, (Re.lang_plus_digit _).mpr hd⟩

theorem lang_reMultiplied (w : Str) : reMultiplied.Lang w ↔
    ∃ u m, (reRange.Lang u ∨ reInt.Lang u) ∧ isDigits m = true ∧ w = u ++ '*' :: m := by
  constructor
  · rintro ⟨u, v, rfl, hu, ⟨m, x, rfl, hm, hx⟩⟩
    rw [Re.lang_chr] at hm
    rw [Re.lang_plus_digit] at hx
    exact ⟨u, x, hu, hx, by simp [hm]⟩
  · rintro ⟨u, m, hu, hm, rfl⟩
    exact ⟨u, '*' :: m, rfl, hu, ['*'], m, rfl, (Re.lang_chr _ _).mpr rfl, (Re.lang_plus_digit _).mpr hm⟩

/-- Digits, minus, star: all that an entry is made of. -/
def isEntryChar (c : Char) : Bool := isDigit c || c == '-' || c == '*'

theorem num_chars {n : Num} (h : n.WF) : ∀ c ∈ n.text, isDigit c = true ∨ c = '-' := by
  intro c hc
  unfold Num.text at hc
  split at hc
  · rcases List.mem_cons.mp hc with rfl | hc
    · exact Or.inr rfl
    · exact Or.inl (h.2 c hc)
  · exact Or.inl (h.2 c hc)

theorem core_chars {e : Entry} (h : e.WF) : ∀ c ∈ e.core, isDigit c = true ∨ c = '-' := by
  intro c hc
  unfold Entry.core at hc
  split at hc
  · exact num_chars h.1 c hc
  · rename_i l hl
    rcases List.mem_append.mp hc with hc | hc
    · exact num_chars h.1 c hc
    · rcases List.mem_cons.mp hc with rfl | hc
      · exact Or.inr rfl
      · exact num_chars (h.2.1 l hl) c hc

theorem entry_chars {e : Entry} (h : e.WF) : ∀ c ∈ e.text, isEntryChar c = true := by
  have hcore : ∀ c ∈ e.core, isEntryChar c = true := by
    intro c hc
    rcases core_chars h c hc with h1 | rfl
    · simp [isEntryChar, h1]
    · decide
  intro c hc
  unfold Entry.text at hc
  split at hc
  · exact hcore c hc
  · rename_i m hm
    rcases List.mem_append.mp hc with hc | hc
    · exact hcore c hc
    · rcases List.mem_cons.mp hc with rfl | hc
      · decide
      · simp [isEntryChar, (h.2.2 m hm).2 c hc]

theorem digit_ne {c d : Char} (h : isDigit c = true) (hd : isDigit d = false) : c ≠ d := by
  rintro rfl; rw [h] at hd; cases hd

theorem no_star_core {e : Entry} (h : e.WF) : ∀ c ∈ e.core, (c == '*') = false := by
  intro c hc
  rcases core_chars h c hc with h1 | rfl
  · simpa using digit_ne h1 (by decide)
  · decide

theorem count_minus_digits {s : Str} (h : ∀ c ∈ s, isDigit c = true) : s.count '-' = 0 := by
  rw [List.count_eq_zero]
  intro hm
  exact digit_ne (h _ hm) (by decide) rfl

theorem count_minus_num {n : Num} (h : n.WF) : n.text.count '-' = if n.neg then 1 else 0 := by
  unfold Num.text
  split
  · rw [List.count_cons_self, count_minus_digits h.2]
  · exact count_minus_digits h.2

theorem head_num {n : Num} (h : n.WF) (s : Str) : ((n.text ++ s).head? = some '-') ↔ n.neg = true := by
  unfold Num.text
  split
  · rename_i hn; simp [hn]
  · rename_i hn
    obtain ⟨hne, hd⟩ := h
    cases hdig : n.digits with
    | nil => exact absurd hdig hne
    | cons c ds =>
      simp only [List.cons_append, List.head?_cons, Option.some.injEq, hn, Bool.false_eq_true, iff_false]
      rw [hdig] at hd
      exact digit_ne (hd c (by simp)) (by decide)

theorem test_multiplied {e : Entry} (h : e.WF) : Re.isMatch reMultiplied e.text = e.multiplier.isSome := by
  rw [Bool.eq_iff_iff, Re.isMatch_iff (by simp [reMultiplied, reRange, reInt, Re.Plain, Re.chr, Re.plus, Re.digit])]
  constructor
  · rintro ⟨w, v, hw, hl⟩
    obtain ⟨u, m, _, _, rfl⟩ := (lang_reMultiplied w).mp hl
    cases hm : e.multiplier with
    | some m => rfl
    | none =>
      exfalso
      have : '*' ∈ e.text := by rw [hw]; simp
      unfold Entry.text at this
      rw [hm] at this
      have := no_star_core h _ this
      simp at this
  · intro hm
    obtain ⟨m, hm⟩ := Option.isSome_iff_exists.mp hm
    refine ⟨e.text, [], by simp, (lang_reMultiplied _).mpr ⟨e.core, m, ?_, (isDigits_iff _).mpr (h.2.2 m hm), ?_⟩⟩
    · unfold Entry.core
      cases hl : e.last with
      | none => exact Or.inr ((lang_reInt _).mpr ⟨e.first, h.1, rfl⟩)
      | some l => exact Or.inl ((lang_reRange _).mpr ⟨e.first, l, h.1, h.2.1 l hl, rfl⟩)
    · unfold Entry.text; rw [hm]

theorem num_ne_nil {n : Num} (h : n.WF) : n.text ≠ [] := by
  unfold Num.text; split
  · simp
  · exact h.1

theorem test_range {e : Entry} (h : e.WF) : Re.isMatch reRange e.core = e.last.isSome := by
  rw [Bool.eq_iff_iff, Re.isMatch_iff (by simp [reRange, reInt, Re.Plain, Re.chr, Re.plus, Re.digit])]
  constructor
  · rintro ⟨w, v, hw, hl⟩
    obtain ⟨a, b, ha, hb, rfl⟩ := (lang_reRange w).mp hl
    cases hla : e.last with
    | some l => rfl
    | none =>
      exfalso
      unfold Entry.core at hw
      rw [hla] at hw
      simp only at hw
      have h1 := head_num h.1 []
      have h2 := head_num ha ('-' :: b.text ++ v)
      rw [List.append_nil, hw] at h1
      simp only [List.append_assoc] at h1 h2
      have hneg : e.first.neg = a.neg := by
        rw [Bool.eq_iff_iff, ← h1, ← h2]
      have hc := congrArg (List.count '-') hw
      rw [count_minus_num h.1] at hc
      simp only [List.count_append, List.count_cons_self, count_minus_num ha, hneg] at hc
      split at hc <;> omega
  · intro hm
    obtain ⟨l, hl⟩ := Option.isSome_iff_exists.mp hm
    refine ⟨e.core, [], by simp, (lang_reRange _).mpr ⟨e.first, l, h.1, h.2.1 l hl, ?_⟩⟩
    unfold Entry.core; rw [hl]

theorem test_posStart {a b : Num} (ha : a.WF) (hb : b.WF) : Re.isMatch rePosStart (a.text ++ '-' :: b.text) = !a.neg := by
  rw [Bool.eq_iff_iff, Re.isMatch_iff (by simp [rePosStart, Re.Plain, Re.chr, Re.plus, Re.digit])]
  constructor
  · rintro ⟨w, v, hw, hl⟩
    obtain ⟨d, b', hd, _, rfl⟩ := (lang_rePosStart w).mp hl
    have h1 := head_num ha ('-' :: b.text)
    rw [hw] at h1
    have h2 : ¬ ((d ++ '-' :: b'.text ++ v).head? = some '-') := by
      rw [isDigits_iff] at hd
      obtain ⟨hne, hd⟩ := hd
      cases d with
      | nil => exact absurd rfl hne
      | cons c d =>
        simp only [List.cons_append, List.head?_cons, Option.some.injEq]
        exact digit_ne (hd c (by simp)) (by decide)
    rw [h1] at h2
    simpa using h2
  · intro hneg
    refine ⟨_, [], by simp, (lang_rePosStart _).mpr ⟨a.text, b, ?_, hb, rfl⟩⟩
    have : a.neg = false := by simpa using hneg
    unfold Num.text
    rw [this]
    exact isDigits_of_wf ha

theorem test_negEnd {a b : Num} (ha : a.WF) (hb : b.WF) : Re.isMatch reNegEnd (a.text ++ '-' :: b.text) = b.neg := by
  rw [Bool.eq_iff_iff, Re.isMatch_iff (by simp [reNegEnd, reInt, Re.Plain, Re.chr, Re.plus, Re.digit])]
  constructor
  · rintro ⟨w, v, hw, hl⟩
    obtain ⟨a', d, ha', _, rfl⟩ := (lang_reNegEnd w).mp hl
    by_contra hneg
    have h1 := head_num ha ('-' :: b.text)
    have h2 := head_num ha' ('-' :: '-' :: d ++ v)
    rw [hw] at h1
    simp only [List.append_assoc] at h1 h2
    have hnn : a.neg = a'.neg := by rw [Bool.eq_iff_iff, ← h1, ← h2]
    have hc := congrArg (List.count '-') hw
    simp only [List.count_append, List.count_cons_self, count_minus_num ha, count_minus_num ha', count_minus_num hb, hnn,
      if_neg hneg] at hc
    split at hc <;> omega
  · intro hneg
    refine ⟨a.text ++ '-' :: b.text, [], by simp, (lang_reNegEnd _).mpr ⟨a, b.digits, ha, isDigits_of_wf hb, ?_⟩⟩
    unfold Num.text
    rw [if_pos hneg]

theorem pyInt_num {n : Num} (h : n.WF) : pyInt n.text = .ok n.val := by
  unfold Num.text Num.val
  cases n.neg with
  | true => exact pyInt_neg (isDigits_of_wf h)
  | false => exact pyInt_digits (isDigits_of_wf h)

theorem minus_free {s : Str} (h : ∀ c ∈ s, isDigit c = true) : ∀ c ∈ s, (c == '-') = false := by
  intro c hc
  simpa using digit_ne (h c hc) (by decide)

theorem split_num {n : Num} (h : n.WF) : splitOn (· == '-') n.text = if n.neg then [[], n.digits] else [n.digits] := by
  unfold Num.text
  split
  · rw [splitOn]; simp [splitOn_clean (minus_free h.2)]
  · exact splitOn_clean (minus_free h.2)

theorem split_range {a b : Num} (ha : a.WF) (hb : b.WF) : splitOn (· == '-') (a.text ++ '-' :: b.text) =
    (if a.neg then [[], a.digits] else [a.digits]) ++ (if b.neg then [[], b.digits] else [b.digits]) := by
  have h1 : splitOn (· == '-') (a.digits ++ '-' :: b.text) = a.digits :: splitOn (· == '-') b.text :=
    splitOn_sep (minus_free ha.2) (by simp) _
  rw [split_num hb] at h1
  conv_lhs => unfold Num.text
  cases a.neg with
  | true =>
    simp only [if_true, List.cons_append]
    rw [splitOn, if_pos (by simp)]
    have h1' := h1
    unfold Num.text at h1'
    rw [h1']
    simp
  | false =>
    simp only [Bool.false_eq_true, if_false]
    have h1' := h1
    unfold Num.text at h1'
    rw [h1']
    simp

theorem findRange_spec {a b : Num} (ha : a.WF) (hb : b.WF) :
    findRange (a.text ++ '-' :: b.text) = .ok (pyRange (min a.val b.val) (max a.val b.val + 1)) := by
  unfold findRange
  simp only [test_posStart ha hb, test_negEnd ha hb, split_range ha hb]
  have hda := pyInt_digits (isDigits_of_wf ha)
  have hdb := pyInt_digits (isDigits_of_wf hb)
  have hlast : ∀ l : List Str, pyLast (l ++ [b.digits]) = .ok b.digits := by
    intro l; simp [pyLast]
  have hva : a.val = if a.neg then -(natOf a.digits : Int) else natOf a.digits := rfl
  have hvb : b.val = if b.neg then -(natOf b.digits : Int) else natOf b.digits := rfl
  have hr : ∀ x y : Int, pyRange (if x ≤ y then x else y) ((if x ≤ y then y else x) + 1) =
      pyRange (min x y) (max x y + 1) := by
    intro x y
    have h1 : (if x ≤ y then x else y) = min x y := by split <;> omega
    have h2 : (if x ≤ y then y else x) = max x y := by split <;> omega
    rw [h1, h2]
  rw [← hr, hva, hvb]
  cases a.neg <;> cases b.neg <;>
    simp only [Bool.not_true, Bool.not_false, if_true, Bool.false_eq_true, if_false, pyIndex, List.cons_append, List.nil_append,
      List.getElem?_cons_zero, List.getElem?_cons_succ, ok_bind, hda, hdb, pyLast, List.getLast?_cons_cons,
      List.getLast?_singleton, pure_bind] <;> rfl

/-- The faces an entry lists. -/
def Entry.faces (e : Entry) : List Int := match e.last with
  | none => [e.first.val]
  | some l => pyRange (min e.first.val l.val) (max e.first.val l.val + 1)

theorem entryFaces_spec {e : Entry} (h : e.WF) : entryFaces e.text = .ok (e.faces, e.weight) := by
  have hfaces : (if Re.isMatch reRange e.core then findRange e.core else do let x ← pyInt e.core; pure [x]) =
      (.ok e.faces : Res (List Int)) := by
    rw [test_range h]
    unfold Entry.core Entry.faces
    cases hl : e.last with
    | none => simp only [Option.isSome_none, Bool.false_eq_true, if_false, pyInt_num h.1, ok_bind]; rfl
    | some l => simpa using findRange_spec h.1 (h.2.1 l hl)
  unfold entryFaces
  rw [test_multiplied h]
  cases hm : e.multiplier with
  | none =>
    have ht : e.text = e.core := by unfold Entry.text; rw [hm]
    simp only [Option.isSome_none, Bool.false_eq_true, if_false, ht, pure_bind]
    have h1 : pyInt ['1'] = .ok 1 := by decide
    have hw : e.weight = 1 := by unfold Entry.weight; rw [hm]
    by_cases hr : Re.isMatch reRange e.core = true
    · simp only [hr, if_true] at hfaces ⊢
      simp only [hfaces, ok_bind, h1, hw]; rfl
    · simp only [hr] at hfaces ⊢
      simp only [Bool.false_eq_true, if_false] at hfaces ⊢
      obtain ⟨x, hx, hxx⟩ := bind_eq_ok.mp hfaces
      have hxx : [x] = e.faces := by injection hxx
      simp only [hx, ok_bind, pure_bind, h1, hw, hxx]; rfl
  | some m =>
    have ht : e.text = e.core ++ '*' :: m := by unfold Entry.text; rw [hm]
    have hmd := h.2.2 m hm
    have hs : splitOn (· == '*') e.text = [e.core, m] := by
      rw [ht, splitOn_sep (no_star_core h) (by simp), splitOn_clean]
      intro c hc
      simpa using digit_ne (hmd.2 c hc) (by decide)
    have h1 : pyInt m = .ok (natOf m : Int) := pyInt_digits ((isDigits_iff _).mpr hmd)
    have hw : e.weight = natOf m := by unfold Entry.weight; rw [hm]
    simp only [Option.isSome_some, if_true, hs, pure_bind]
    by_cases hr : Re.isMatch reRange e.core = true
    · simp only [hr, if_true] at hfaces ⊢
      simp only [hfaces, ok_bind, h1, hw]; rfl
    · simp only [hr] at hfaces ⊢
      simp only [Bool.false_eq_true, if_false] at hfaces ⊢
      obtain ⟨x, hx, hxx⟩ := bind_eq_ok.mp hfaces
      have hxx : [x] = e.faces := by injection hxx
      simp only [hx, ok_bind, pure_bind, h1, hw, hxx]; rfl

theorem mem_faces (e : Entry) (v : Int) : v ∈ e.faces ↔ e.Covers v := by
  unfold Entry.faces Entry.Covers
  cases e.last with
  | none => simp
  | some l => simp only [mem_pyRange]; omega

theorem nodup_faces (e : Entry) : e.faces.Nodup := by
  unfold Entry.faces
  cases e.last with
  | none => simp
  | some l => exact pyRange_nodup _ _

theorem foldl_faces_wsum {M : Type} [AddCommMonoid M] (l : List Int) (m : Nat) (acc : List (Int × Nat)) (f : Int → M) :
    wsum (l.foldl (fun d k => safeAdd d k m) acc) f = wsum acc f + (l.map fun v => m • f v).sum :=
  wsum_foldl_safeAdd l id (fun _ => m) f (resp_of_lawful _) acc

theorem entriesLoop_ok : ∀ (es : List Entry), (∀ e ∈ es, e.WF) → ∀ acc : List (Int × Nat), DistinctKeys acc →
    ∃ m, entriesLoop (es.map Entry.text) acc = .ok m ∧ DistinctKeys m ∧
      (∀ v, countOf m v = countOf acc v + totalWeight es v) ∧
      (∀ v, hasKey m v ↔ hasKey acc v ∨ ∃ e ∈ es, e.Covers v) := by
  intro es
  induction es with
  | nil => intro _ acc hacc; exact ⟨acc, rfl, hacc, by simp [totalWeight], by simp⟩
  | cons e es ih =>
    intro h acc hacc
    have hd : DistinctKeys (e.faces.foldl (fun d k => safeAdd d k e.weight) acc) :=
      distinct_foldl_safeAdd e.faces id (fun _ => e.weight) acc hacc
    obtain ⟨m, h1, h2, h3, h4⟩ := ih (fun e he => h e (by simp [he])) _ hd
    refine ⟨m, ?_, h2, ?_, ?_⟩
    · simp only [List.map_cons, entriesLoop, entryFaces_spec (h e (by simp)), ok_bind]; exact h1
    · intro v
      rw [h3, countOf_eq_wsum _ _ hd, foldl_faces_wsum, ← countOf_eq_wsum _ _ hacc]
      unfold totalWeight
      rw [List.map_cons, List.sum_cons, Nat.add_assoc]
      congr 2
      have key : ∀ l : List Int, l.Nodup → (l.map fun x => e.weight • (if x = v then 1 else 0)).sum =
          if v ∈ l then e.weight else 0 := by
        intro l hl
        induction l with
        | nil => simp
        | cons a l ih =>
          rw [List.nodup_cons] at hl
          rw [List.map_cons, List.sum_cons, ih hl.2]
          by_cases hav : a = v
          · subst hav; simp [hl.1]
          · have : v ≠ a := fun h => hav h.symm
            simp [hav, this]
      rw [key _ (nodup_faces e)]
      simp only [mem_faces]
    · intro v
      have hex := exists_foldl_safeAdd e.faces id (fun _ => e.weight) (fun x => x = v) (resp_of_lawful _) acc
      simp only [id] at hex
      rw [h4, hasKey_iff, hex, ← hasKey_iff]
      simp only [id, exists_eq_right, mem_faces, List.mem_cons, exists_eq_or_imp, or_assoc]

theorem stripBrackets_eq {s : Str} {t : Str} (h : noSpace s = '[' :: t ++ [']'])
    (ht : ∀ c ∈ t, c ≠ '[' ∧ c ≠ ']') : stripBrackets s = t := by
  have h1 : stripBrackets s = (noSpace s).filter (fun c => !(c == '[' || c == ']')) := by
    unfold stripBrackets noSpace
    rw [List.filter_filter]
    apply List.filter_congr
    intro c _
    cases isSpace c <;> simp
  rw [h1, h]
  have h2 : t.filter (fun c => !(c == '[' || c == ']')) = t := by
    rw [List.filter_eq_self]
    intro c hc
    simp [ht c hc]
  rw [List.cons_append, List.filter_cons_of_neg (by decide), List.filter_append, h2,
    List.filter_cons_of_neg (by decide)]
  simp

theorem join_chars {p : Char → Bool} (sep : Char) (hs : p sep = true) : ∀ ws : List Str, (∀ w ∈ ws, ∀ c ∈ w, p c = true) →
    ∀ c ∈ joinWith sep ws, p c = true := by
  intro ws
  induction ws with
  | nil => intro _ c hc; simp [joinWith] at hc
  | cons w ws ih =>
    intro h c hc
    cases ws with
    | nil => exact h w (by simp) c hc
    | cons v ws =>
      simp only [joinWith, List.mem_append, List.mem_cons] at hc
      rcases hc with hc | rfl | hc
      · exact h w (by simp) c hc
      · exact hs
      · exact ih (fun w hw => h w (by simp [hw])) c hc

theorem bracket_start {s t : Str} (h : noSpace s = '[' :: t) : Re.isMatch (Re.plus Re.digit) s = false ∧ s ≠ ['%'] ∧ s ≠ ['F'] := by
  refine ⟨?_, ?_, ?_⟩
  · rw [← Bool.not_eq_true, Re.isMatch_iff (by simp [Re.Plain, Re.plus, Re.digit])]
    rintro ⟨w, v, rfl, hw⟩
    rw [Re.lang_plus_digit, isDigits_iff] at hw
    obtain ⟨hne, hd⟩ := hw
    cases w with
    | nil => exact absurd rfl hne
    | cons c w =>
      have hc := hd c (by simp)
      have hsp : isSpace c = false := digit_not_space hc
      simp only [noSpace, List.cons_append, List.filter_cons, hsp, Bool.not_false, if_true, List.cons.injEq] at h
      rw [h.1] at hc
      revert hc; decide
  · rintro rfl
    have : noSpace ['%'] = ['%'] := by decide
    rw [this] at h; simp at h
  · rintro rfl
    have : noSpace ['F'] = ['F'] := by decide
    rw [this] at h; simp at h

theorem customText_chars {es : List Entry} (hwf : ∀ e ∈ es, e.WF) {s : Str} (hs : noSpace s = customText es) :
    ∀ c ∈ s, c ≠ 'd' ∧ c ≠ 'k' := by
  intro c hc
  by_cases hsp : isSpace c = true
  · constructor <;> (rintro rfl; revert hsp; decide)
  · have hm : c ∈ noSpace s := by
      unfold noSpace; rw [List.mem_filter]; exact ⟨hc, by simp [hsp]⟩
    rw [hs] at hm
    unfold customText at hm
    simp only [List.cons_append, List.mem_cons, List.mem_append, List.not_mem_nil, or_false] at hm
    rcases hm with rfl | hm | rfl
    · decide
    · have := join_chars (p := fun c => isEntryChar c || c == ',') ',' (by decide) (es.map Entry.text) (by
        intro w hw c hc
        obtain ⟨e, he, rfl⟩ := List.mem_map.mp hw
        simp [entry_chars (hwf e he) c hc]) c hm
      constructor <;> (rintro rfl; revert this; decide)
    · decide

theorem entriesLoop_append_nil : ∀ (es : List Entry), (∀ e ∈ es, e.WF) → ∀ acc : List (Int × Nat),
    entriesLoop (es.map Entry.text ++ [[]]) acc = .error .value := by
  intro es
  induction es with
  | nil =>
    intro _ acc
    have : entryFaces [] = .error .value := by decide
    simp only [List.map_nil, List.nil_append, entriesLoop, this, error_bind]
  | cons e es ih =>
    intro h acc
    simp only [List.map_cons, List.cons_append, entriesLoop, entryFaces_spec (h e (by simp)), ok_bind]
    exact ih (fun e he => h e (by simp [he])) _

theorem joinWith_snoc (sep : Char) : ∀ ws : List Str, ws ≠ [] → joinWith sep (ws ++ [[]]) = joinWith sep ws ++ [sep] := by
  intro ws
  induction ws with
  | nil => intro h; exact absurd rfl h
  | cons w ws ih =>
    intro _
    cases ws with
    | nil => rfl
    | cons v ws =>
      have := ih (by simp)
      simp only [List.cons_append, joinWith] at this ⊢
      rw [this]; simp

end PyDice
