import Verif.Lemmas.Lexer
/-!
# C36: lexing is lossless and deterministic; C37: its errors point at the offending character
-/

namespace PyDice
open LexSpec

/-! ## C36 -/

/-- The lexer delivers exactly the reading of the text as whitespace and tokens, each token being the match of the first rule that
    matches at its position. -/
theorem C36_tokens (text : Str) (ts : List Token) : lex text = .ok ts ↔ Lexed [] text ts := by
  rw [← lexText_tokens, lex]
  cases lexText text with
  | tokens ts' => simp
  | lexingError i => simp only [reduceCtorEq, iff_false]; split <;> simp
  | diverges => simp

/-- The token texts and the whitespace between them spell the text, in order, each token at the index it carries. -/
theorem C36_lossless (text : Str) (ts : List Token) (h : lex text = .ok ts) : Spells 0 text ts := by
  have key : ∀ {b s ts}, Lexed b s ts → Spells b.length s ts := by
    intro b s ts h
    induction h with
    | done h => exact h
    | token hu hs hne ht hrest ih =>
      rename_i b u w v t ts
      refine ⟨u, v, rfl, hu, rfl, ?_⟩
      have : (w.reverse ++ (u.reverse ++ b)).length = b.length + u.length + w.length := by simp; omega
      rw [this] at ih
      exact ih
  exact key ((C36_tokens text ts).mp h)

/-- In particular the text of a token is the piece of the input at its index. -/
theorem C36_slice (text : Str) (ts : List Token) (h : lex text = .ok ts) (t : Token) (ht : t ∈ ts) :
    (text.drop t.idx).take t.text.length = t.text ∧ t.text ≠ [] := by
  have key : ∀ {b s ts}, Lexed b s ts → ∀ t ∈ ts, (((b.reverse ++ s).drop t.idx).take t.text.length = t.text ∧ t.text ≠ []) := by
    intro b s ts h
    induction h with
    | done h => intro t ht; simp at ht
    | token hu hs hne ht hrest ih =>
      rename_i b u w v t ts
      intro t' ht'
      rcases List.mem_cons.mp ht' with rfl | ht'
      · refine ⟨?_, hne⟩
        rw [show b.reverse ++ (u ++ (w ++ v)) = (b.reverse ++ u) ++ (w ++ v) by simp, List.drop_append, List.drop_eq_nil_of_le (by simp)]
        simp
      · have := ih t' ht'
        simpa using this
  simpa using key ((C36_tokens text ts).mp h) t ht

/-- There is only one such reading. -/
theorem C36_deterministic (text : Str) (ts ts' : List Token) (h : Lexed [] text ts) (h' : Lexed [] text ts') : ts = ts' := by
  have h1 := (C36_tokens text ts).mpr h
  rw [(C36_tokens text ts').mpr h'] at h1
  exact (Except.ok.inj h1).symm

/-- rply's lexer fails at an index exactly if reading the text gets stuck there: the text before it is read as tokens and whitespace,
    the character there is not whitespace and no rule matches at it. -/
theorem C36_error (text : Str) (i : Nat) : lexText text = .lexingError i ↔ Stuck [] text i := lexText_error

/-- A text is either read as tokens or reading it gets stuck, at one place; the loop always ends. -/
theorem C36_total (text : Str) : (∃ ts, Lexed [] text ts ∧ ∀ i, ¬ Stuck [] text i) ∨
    (∃ i, Stuck [] text i ∧ (∀ j, Stuck [] text j → j = i) ∧ ∀ ts, ¬ Lexed [] text ts) := by
  cases h : lexText text with
  | tokens ts =>
    refine Or.inl ⟨ts, lexText_tokens.mp h, fun i hi => ?_⟩
    rw [lexText_error.mpr hi] at h; cases h
  | lexingError i =>
    refine Or.inr ⟨i, lexText_error.mp h, fun j hj => ?_, fun ts hts => ?_⟩
    · rw [lexText_error.mpr hj] at h; exact LexResult.lexingError.inj h
    · rw [lexText_tokens.mpr hts] at h; cases h
  | diverges => exact absurd h (lexText_terminates text)

/-- `2d6k1 -1!=x` is read as a keep term, the constant `-1` (not a minus sign), an operator and a name. -/
example : ∃ ts, lex "2d6k1 -1!=x".toList = .ok ts ∧
    ts.map (fun t => t.type) = [.dropKeep, .constInt, .binop, .name] := ⟨_, rfl, by decide +kernel⟩

/-- `ad6` cannot be read: no rule matches at the `a`. -/
example : Stuck [] " ad6".toList 1 := (C36_error _ _).mp (by decide +kernel)

/-! ## C37 -/

/-- Whenever lexing fails, a `ValueError` is raised, with two lines: a piece of the input line that contains the offending character,
    and a caret under exactly that character.  (In the second line the caret is the `(k+1)`-st character; the offending character is
    the `(k+1)`-st of the first.) -/
theorem C37_message (text : Str) (f : LexFail) (h : lex text = .error f) :
    ∃ (i : Nat) (c : Char) (start : Nat) (a excerpt z : Str) (k : Nat), Stuck [] text i ∧ text[i]? = some c ∧
      LineAt text (a ++ excerpt ++ z) start ∧ start + a.length + k = i ∧ excerpt[k]? = some c ∧
      f = .valueError (excerpt ++ '\n' :: (List.replicate k '-' ++ ['^'])) := by
  rw [lex] at h
  cases ht : lexText text with
  | tokens ts => rw [ht] at h; cases h
  | diverges => exact absurd ht (lexText_terminates text)
  | lexingError i =>
    rw [ht] at h
    have hst := lexText_error.mp ht
    obtain ⟨k, c, hik, hc, hsp, hlt⟩ := stuck_char hst
    rw [List.length_nil, Nat.zero_add] at hik
    subst hik
    have hnl : c ≠ '\n' := by rintro rfl; exact absurd hsp (by decide)
    obtain ⟨line, col, start, h1, h2, h3, h4⟩ := findLine_spec (splitOn (· == '\n') text) [] i c
      (fun l hl hm => by have := splitOn_parts_clean (· == '\n') text l hl _ hm; simp at this)
      (by rw [join_splitOn]; exact hc) hnl (Or.inl rfl)
    rw [List.nil_append, join_splitOn] at h2
    dsimp only at h
    rw [h1] at h
    dsimp only at h
    have hcol : col < line.length := (List.getElem?_eq_some_iff.mp h4).1
    simp only [List.length_nil, Nat.zero_add] at h3
    refine ⟨i, c, start, line.take (col - 50), (line.take (min text.length (col + 50))).drop (col - 50),
      line.drop (min text.length (col + 50)), col - (col - 50), hst, hc, ?_, ?_, ?_, ?_⟩
    · have : line.take (col - 50) ++ (line.take (min text.length (col + 50))).drop (col - 50) ++
          line.drop (min text.length (col + 50)) = line := by
        have h5 : line.take (col - 50) = (line.take (min text.length (col + 50))).take (col - 50) := by
          rw [List.take_take, Nat.min_eq_left (by omega)]
        rw [h5, List.take_append_drop, List.take_append_drop]
      rw [this]; exact h2
    · rw [List.length_take, Nat.min_eq_left (by omega)]; omega
    · rw [List.getElem?_drop, show col - 50 + (col - (col - 50)) = col by omega, List.getElem?_take_of_lt (by omega)]
      exact h4
    · exact (Except.error.inj h).symm

/-- The error-reporting code itself never fails: there is no other exception. -/
theorem C37_value_error (text : Str) (f : LexFail) (h : lex text = .error f) : ∃ m, f = .valueError m := by
  obtain ⟨_, _, _, _, _, _, _, _, _, _, _, _, rfl⟩ := C37_message text f h
  exact ⟨_, rfl⟩

/-- A text of several lines that fails: the message shows the third line. -/
example : lex "1\n\n  ?x".toList = .error (.valueError "  ?x\n--^".toList) := by decide +kernel

/-- A long line is cut to the fifty characters before and after. -/
example : lex (List.replicate 60 '1' ++ "a".toList) =
    .error (.valueError (List.replicate 50 '1' ++ "a\n".toList ++ List.replicate 50 '-' ++ "^".toList)) := by decide +kernel

end PyDice
