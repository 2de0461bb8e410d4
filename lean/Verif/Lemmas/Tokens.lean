import Verif.Lemmas.Lexer
import Verif.Lemmas.Parser
import Verif.Props.C14_C15
/-!
# What the constructors make of the texts the lexer delivers
-/

namespace PyDice
open LexSpec ParseSpec

/-! ### Custom dice -/

theorem noSpace_append (u v : Str) : noSpace (u ++ v) = noSpace u ++ noSpace v := by simp [noSpace]

theorem noSpace_blank {u : Str} (h : Blank u) : noSpace u = [] := by
  simp only [noSpace, List.filter_eq_nil_iff]
  intro c hc
  simp [h c hc]

theorem noSpace_solid {u : Str} (h : ∀ c ∈ u, isSpace c = false) : noSpace u = u := by
  simp only [noSpace, List.filter_eq_self]
  intro c hc
  simp [h c hc]

theorem entryChar_solid {c : Char} (h : isEntryChar c = true) : isSpace c = false := by
  simp only [isEntryChar, Bool.or_eq_true, beq_iff_eq] at h
  rcases h with (h | rfl) | rfl
  · exact digit_not_space h
  · decide
  · decide

theorem noSpace_padded {x : Str} (h : Padded x) : ∃ e : Entry, e.WF ∧ noSpace x = e.text := by
  obtain ⟨u, e, v, rfl, hu, he, hv⟩ := h
  refine ⟨e, he, ?_⟩
  rw [noSpace_append, noSpace_append, noSpace_blank hu, noSpace_blank hv,
    noSpace_solid (fun c hc => entryChar_solid (entry_chars he c hc))]
  simp

theorem noSpace_join : ∀ xs : List Str, noSpace (joinWith ',' xs) = joinWith ',' (xs.map noSpace)
  | [] => rfl
  | [x] => rfl
  | x :: y :: xs => by
    rw [Re.joinWith_cons₂, noSpace_append, List.map_cons, List.map_cons, Re.joinWith_cons₂, ← List.map_cons, ← noSpace_join (y :: xs)]
    rfl

theorem padded_entries : ∀ xs : List Str, (∀ x ∈ xs, Padded x) →
    ∃ es : List Entry, es.length = xs.length ∧ (∀ e ∈ es, e.WF) ∧ xs.map noSpace = es.map Entry.text
  | [], _ => ⟨[], rfl, by simp, rfl⟩
  | x :: xs, h => by
    obtain ⟨es, h1, h2, h3⟩ := padded_entries xs fun y hy => h y (by simp [hy])
    obtain ⟨e, he, hx⟩ := noSpace_padded (h x (by simp))
    refine ⟨e :: es, by simp [h1], ?_, by simp [h3, hx]⟩
    intro e' he'
    rcases List.mem_cons.mp he' with rfl | he'
    · exact he
    · exact h2 e' he'

/-- Whitespace aside, a custom die is a list of entries, perhaps with a comma at the end. -/
theorem custom_entries {w : Str} (h : Custom w) : ∃ es : List Entry, es ≠ [] ∧ (∀ e ∈ es, e.WF) ∧
    (noSpace w = customText es ∨ noSpace w = customTextTrailing es) := by
  obtain ⟨xs, tail, hne, hp, ht, rfl⟩ := h
  obtain ⟨es, h1, h2, h3⟩ := padded_entries xs hp
  refine ⟨es, ?_, h2, ?_⟩
  · rintro rfl
    exact hne (List.eq_nil_of_length_eq_zero h1.symm)
  · have e1 : noSpace ('[' :: (joinWith ',' xs ++ tail ++ [']'])) = '[' :: (joinWith ',' (es.map Entry.text) ++ noSpace tail ++ [']']) := by
      rw [show '[' :: (joinWith ',' xs ++ tail ++ [']']) = ['['] ++ (joinWith ',' xs ++ tail ++ [']']) from rfl, noSpace_append,
        noSpace_append, noSpace_append, noSpace_join, h3]
      rfl
    rw [e1]
    rcases ht with rfl | ⟨u, rfl, hu⟩
    · left; simp [customText, noSpace]
    · right
      have : noSpace (',' :: u) = [','] := by
        rw [show ',' :: u = [','] ++ u from rfl, noSpace_append, noSpace_blank hu]; rfl
      rw [this]; simp [customTextTrailing]

/-- Which characters do not occur. -/
theorem customTrailing_chars {es : List Entry} (hwf : ∀ e ∈ es, e.WF) {s : Str} (hs : noSpace s = customTextTrailing es) :
    ∀ c ∈ s, c ≠ 'd' ∧ c ≠ 'k' := by
  intro c hc
  by_cases hsp : isSpace c = true
  · constructor <;> (rintro rfl; revert hsp; decide)
  · have hm : c ∈ noSpace s := by
      unfold noSpace; rw [List.mem_filter]; exact ⟨hc, by simp [hsp]⟩
    rw [hs, customTextTrailing] at hm
    have hj : ∀ c ∈ joinWith ',' (es.map Entry.text), (isEntryChar c || c == ',') = true := by
      apply join_chars ',' (by decide)
      intro w hw c hc
      obtain ⟨e, he, rfl⟩ := List.mem_map.mp hw
      simp [entry_chars (hwf e he) c hc]
    simp only [List.cons_append, List.mem_cons, List.mem_append, List.not_mem_nil, or_false] at hm
    rcases hm with rfl | hm | rfl | rfl
    · decide
    · have := hj c hm
      constructor <;> (rintro rfl; revert this; decide)
    · decide
    · decide

/-- The same for every kind of die. -/
theorem diceType_chars {ty v : Str} (h : DiceType ty v) : ∀ c ∈ ty, c ≠ 'd' ∧ c ≠ 'k' := by
  rcases h with ⟨_, hd, _⟩ | rfl | rfl | hc
  · intro c hc
    exact ⟨digit_ne (hd c hc) (by decide), digit_ne (hd c hc) (by decide)⟩
  · decide
  · decide
  · obtain ⟨es, _, hwf, h | h⟩ := custom_entries hc
    · exact customText_chars hwf h
    · exact customTrailing_chars hwf h

/-- Reading the sides of a die delivered by the lexer succeeds or raises `ValueError`. -/
theorem diceType_map {ty v : Str} (h : DiceType ty v) : (∃ m, singleDiceMap ty = .ok m) ∨ singleDiceMap ty = .error .value := by
  rcases h with ⟨hne, hd, _⟩ | rfl | rfl | hc
  · obtain ⟨m, hm, _⟩ := C14_sides ty ⟨hne, hd⟩
    exact .inl ⟨m, hm⟩
  · obtain ⟨m, hm, _⟩ := C14_sides "100".toList (by decide)
    exact .inl ⟨m, by rw [C14_percent_fate.1]; exact hm⟩
  · exact .inl ⟨_, C14_percent_fate.2⟩
  · obtain ⟨es, hne, hwf, h | h⟩ := custom_entries hc
    · obtain ⟨m, hm, _⟩ := C14_custom es hne hwf ty h
      exact .inl ⟨m, hm⟩
    · exact .inr (C15_trailing_comma_rejected es hne hwf ty h)

theorem mkDice_bad {ds sides : Str} {err : Err} (hds : ∀ c ∈ ds, isDigit c = true) (hsides : ∀ c ∈ sides, c ≠ 'd')
    (ht : singleDiceMap sides = .error err) : mkDice (ds ++ 'd' :: sides) = .error err := by
  have hd : ∀ c ∈ ds, (c == 'd') = false := fun c hc => by simpa using digit_ne (hds c hc) (by decide)
  unfold mkDice
  rw [splitOn_sep hd (by simp), splitOn_clean (fun c hc => by simpa using hsides c hc)]
  simp only [pyIndex, List.getElem?_cons_succ, List.getElem?_cons_zero, ok_bind, ht]
  rfl

theorem mkDropKeep_bad {ds sides ks : Str} {k : Char} {err : Err} (hds : ∀ c ∈ ds, isDigit c = true)
    (hsides : ∀ c ∈ sides, c ≠ 'd' ∧ c ≠ 'k') (hk : k = 'k' ∨ k = 'd') (hks : ∀ c ∈ ks, isDigit c = true)
    (ht : singleDiceMap sides = .error err) : mkDropKeep (ds ++ 'd' :: sides ++ k :: ks) = .error err := by
  have hd : ∀ c ∈ ds, (c == 'd' || c == 'k') = false := by
    intro c hc
    simp [digit_ne (d := 'd') (hds c hc) (by decide), digit_ne (d := 'k') (hds c hc) (by decide)]
  have hk' : ∀ c ∈ ks, (c == 'd' || c == 'k') = false := by
    intro c hc
    simp [digit_ne (d := 'd') (hks c hc) (by decide), digit_ne (d := 'k') (hks c hc) (by decide)]
  have hs : ∀ c ∈ sides, (c == 'd' || c == 'k') = false := by
    intro c hc
    simp [hsides c hc]
  have hsplit : splitOn (fun c => c == 'd' || c == 'k') (ds ++ 'd' :: sides ++ k :: ks) = [ds, sides, ks] := by
    rw [List.append_assoc, List.cons_append, splitOn_sep hd (by simp), splitOn_sep hs (by rcases hk with rfl | rfl <;> simp),
      splitOn_clean hk']
  have hnum : ∃ n, diceNumber ds = .ok n := by
    unfold diceNumber
    by_cases h : ds = []
    · simp [h]
    · simp only [h, if_false, pyInt_digits ((isDigits_iff _).mpr ⟨h, hds⟩), ok_bind]; exact ⟨_, rfl⟩
  obtain ⟨n, hnum⟩ := hnum
  unfold mkDropKeep
  simp only [hsplit, pyIndex, List.getElem?_cons_zero, List.getElem?_cons_succ, ok_bind, hnum, ht]
  rfl

/-- A token whose text its rule matches somewhere. -/
def WellSpelt (t : Token) : Prop := ∃ b v, Matches t.type b t.text v

/-- From the tokens of the lexer the constructors raise nothing but `ValueError`. -/
theorem badToken_value {t : Token} {err : Err} (h : WellSpelt t) (hb : BadToken t err) : err = .value := by
  obtain ⟨b, v, hm⟩ := h
  rcases hb with ⟨ht, he⟩ | ⟨ht, he⟩ | ⟨ht, he, _⟩ | ⟨ht, he, _⟩ <;> rw [ht] at hm
  · obtain ⟨n, ty, hw, hn, hty⟩ := hm
    rw [hw] at he
    rcases diceType_map hty with ⟨m, hm⟩ | hm
    · rw [C14_number n ty m hn (fun c hc => (diceType_chars hty c hc).1) hm] at he; cases he
    · rw [mkDice_bad hn (fun c hc => (diceType_chars hty c hc).1) hm] at he; cases he; rfl
  · obtain ⟨n, ty, k, m, hw, hn, hty, hk, hne, hd, _⟩ := hm
    rw [hw] at he
    rcases diceType_map hty with ⟨table, hm⟩ | hm
    · have : ∃ keep : Bool, k = if keep then 'k' else 'd' := by
        rcases hk with rfl | rfl
        · exact ⟨true, rfl⟩
        · exact ⟨false, rfl⟩
      obtain ⟨keep, rfl⟩ := this
      obtain ⟨t', ht', _⟩ := C14_keep_drop n ty m keep table hn (diceType_chars hty) ⟨hne, hd⟩ hm
      rw [ht'] at he; cases he
    · rw [mkDropKeep_bad hn (diceType_chars hty) hk hd hm] at he; cases he; rfl
  · exfalso
    rcases hm with h | h | h | h | ⟨h, _⟩ | ⟨h, _⟩ | ⟨h, _⟩ | ⟨h, _⟩ <;> rw [h] at he <;> revert he <;> decide
  · exfalso
    rcases hm with ⟨h, _⟩ | ⟨h, _⟩ <;> rw [h] at he <;> revert he <;> decide

theorem lexed_wellSpelt {b s : Str} {ts : List Token} (h : Lexed b s ts) : ∀ t ∈ ts, WellSpelt t := by
  induction h with
  | done => intro t ht; simp at ht
  | token hu hs hne ht hrest ih =>
    intro t' ht'
    rcases List.mem_cons.mp ht' with rfl | ht'
    · exact ⟨_, _, ht.1⟩
    · exact ih t' ht'

theorem derives_ne_nil {ts : List Token} {e : Expr} (h : Derives ts e) : 1 ≤ ts.length := by
  induction h <;> simp <;> omega

/-- A single dice token spells nothing but the die. -/
theorem derives_one_dice {t : Token} {e : Expr} (h : Derives [t] e) (ht : t.type = .dice) : ∃ d, mkDice t.text = .ok d := by
  generalize hts : [t] = ts at h
  have hlen : ts.length = 1 := by rw [← hts]; rfl
  cases h
  case dice d _ hm => cases hts; exact ⟨d, hm⟩
  case dropKeep d h1 _ => cases hts; rw [ht] at h1; cases h1
  case constInt h1 => cases hts; rw [ht] at h1; cases h1
  case constBin h1 => cases hts; rw [ht] at h1; cases h1
  case getVar h1 => cases hts; rw [ht] at h1; cases h1
  case not h1 => have := derives_ne_nil h1; simp at hlen; simp [hlen] at this
  case add h1 h2 => have := derives_ne_nil h1; simp at hlen; omega
  case sub h1 h2 => have := derives_ne_nil h1; simp at hlen; omega
  case mul h1 h2 => have := derives_ne_nil h1; simp at hlen; omega
  case div h1 h2 => have := derives_ne_nil h1; simp at hlen; omega
  case bin h1 h2 => have := derives_ne_nil h1; simp at hlen; omega
  all_goals simp at hlen

end PyDice
