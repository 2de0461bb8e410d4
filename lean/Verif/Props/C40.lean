import Verif.Lemmas.Print
import Verif.Props.C38
/-!
# C40: the printed form of an expression parses back to it; C15 from the text
-/

namespace PyDice
open LexSpec ParseSpec

/-- Lexing and parsing the text printed for a parsed expression yields the same expression. -/
theorem C40_print_parse (text : Str) (e : Expr) (h : parse text = .ok e) : parse e.str = .ok e := by
  obtain ⟨ts, hl, hd, hg⟩ := (C38_text text e).mp h
  obtain ⟨us, hus, hl'⟩ := reads_expr (derives_spelt hd (lexed_wellSpelt hl)) [] [] (by simp [WordNext]) (.inl rfl) []
    (.done (by simp [Blank]))
  rw [List.append_nil, List.append_nil] at hl'
  exact (C38_text _ e).mpr ⟨us, hl', hus, hg⟩

/-- Two parsed expressions that print alike are the same. -/
theorem C40_print_injective (text text' : Str) (e e' : Expr) (h : parse text = .ok e) (h' : parse text' = .ok e')
    (hs : e.str = e'.str) : e = e' := by
  have h1 := C40_print_parse text e h
  rw [hs, C40_print_parse text' e' h'] at h1
  exact (Except.ok.inj h1).symm

/-- Also the parts of a parsed expression parse back: an expression parses back whenever it spells and groups; here for the operands
    of an assignment, brackets, `!`, `ABS` and `MAX`/`MIN`, which are parsed expressions again. -/
theorem C40_parts (text : Str) (e : Expr) :
    (∀ x, parse text = .ok (.assign x e) → parse e.str = .ok e) ∧ (parse text = .ok (.paren e) → parse e.str = .ok e) ∧
    (parse text = .ok (.not e) → parse e.str = .ok e) ∧ (parse text = .ok (.abs e) → parse e.str = .ok e) := by
  have key : ∀ e' : Expr, (Spelt e' → Spelt e) → (Grouped e' → Grouped e) → parse text = .ok e' → parse e.str = .ok e := by
    intro e' h1 h2 h
    obtain ⟨ts, hl, hd, hg⟩ := (C38_text text e').mp h
    obtain ⟨us, hus, hl'⟩ := reads_expr (h1 (derives_spelt hd (lexed_wellSpelt hl))) [] [] (by simp [WordNext]) (.inl rfl) []
      (.done (by simp [Blank]))
    rw [List.append_nil, List.append_nil] at hl'
    exact (C38_text _ e).mpr ⟨us, hl', hus, h2 hg⟩
  exact ⟨fun x => key _ (fun h => h.2) id, key _ id id, key _ id id, key _ id id⟩

/-- A text with odd spacing, and what is printed for the expression. -/
example : ∃ e, parse "VAR x=!( 2d6k1+ d[1 ,3-5*2])==ABS(-1 )*MAX(d%,y)".toList = .ok e ∧
    e.str = "VAR x = !(2d6k1 + d[1 ,3-5*2]) == ABS(-1) * MAX(d%, y)".toList := ⟨_, rfl, by decide +kernel⟩

/-- Printing is not the identity on trees that no text parses to: without brackets this one is read differently. -/
example : (Expr.mul (.add (.constInt ['1']) (.constInt ['2'])) (.constInt ['3'])).str = "1 + 2 * 3".toList ∧
    parse "1 + 2 * 3".toList = .ok (.add (.constInt ['1']) (.mul (.constInt ['2']) (.constInt ['3']))) := by decide +kernel

/-! ### C15 -/

/-- C15 fails for every custom die: the lexer accepts the trailing comma, but parsing the term raises `ValueError`. -/
theorem C15_parse_rejected (n s : Str) (hn : Digits n) (hs : Custom s) (es : List Entry) (hes : es ≠ []) (hwf : ∀ e ∈ es, e.WF)
    (h : noSpace s = customTextTrailing es) :
    (∃ i, lex (n ++ 'd' :: s) = .ok [⟨.dice, n ++ 'd' :: s, i⟩]) ∧ parse (n ++ 'd' :: s) = .error .value := by
  have hbest : Best .dice [] (n ++ 'd' :: s) [] := best_dice hn (.inr (.inr (.inr hs))) (.inl rfl)
  obtain ⟨us, ⟨i, rfl⟩, hl⟩ := reads_token hbest [] (.done (by simp [Blank]))
  rw [List.append_nil, List.append_nil] at hl
  have hlex := (C36_tokens _ _).mpr hl
  refine ⟨⟨i, hlex⟩, ?_⟩
  have hbad : mkDice (n ++ 'd' :: s) = .error .value :=
    mkDice_bad hn (fun c hc => (customTrailing_chars hwf h c hc).1) (C15_trailing_comma_rejected es hes hwf s h)
  rcases C38_text_rejects (n ++ 'd' :: s) with ⟨e, he⟩ | he
  · exfalso
    obtain ⟨ts, hl', hd, _⟩ := (C38_text _ e).mp he
    have := C36_deterministic _ _ _ hl hl'
    subst this
    obtain ⟨d, hm⟩ := derives_one_dice hd rfl
    rw [hbad] at hm
    cases hm
  · exact he

/-- Without the comma it is a die. -/
theorem C15_parse_accepted (n s : Str) (hn : Digits n) (hs : Custom s) (es : List Entry) (hes : es ≠ []) (hwf : ∀ e ∈ es, e.WF)
    (h : noSpace s = customText es) : ∃ d, parse (n ++ 'd' :: s) = .ok (.dice d) ∧ d.form = n ++ 'd' :: s := by
  have hbest : Best .dice [] (n ++ 'd' :: s) [] := best_dice hn (.inr (.inr (.inr hs))) (.inl rfl)
  obtain ⟨us, ⟨i, rfl⟩, hl⟩ := reads_token hbest [] (.done (by simp [Blank]))
  rw [List.append_nil, List.append_nil] at hl
  obtain ⟨d, hd, hf, _⟩ := C14_custom_term n hn es hes hwf s h
  exact ⟨d, (C38_text _ _).mpr ⟨_, hl, .dice _ d rfl hd, trivial⟩, hf⟩

/-- Both at work. -/
example : parse "2d[1-3, 7 ,]".toList = .error .value ∧ (∃ d, parse "2d[1-3, 7 ]".toList = .ok (.dice d)) :=
  ⟨by decide +kernel, _, rfl⟩

end PyDice
