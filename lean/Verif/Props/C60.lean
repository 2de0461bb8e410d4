import Verif.Lemmas.Syntax
import Verif.Props.C38
/-!
# C60: a syntax error names the first token that cannot stand where it stands
-/

namespace PyDice
open LexSpec ParseSpec

/-- The parser with reports is the parser: the error handler's exception is the `ValueError`. -/
theorem C60_same (ts : List Token) : parseTokens ts = (parseReported ts).mapError ParseFail.kind := drive_forget _ _ _

/-- The same from the text. -/
theorem C60_same_text (text : Str) : parse text = (parseText text).mapError fun
    | .message _ => .value
    | .other err => err := by
  unfold parse parseText
  cases lex text with
  | ok ts =>
    dsimp only
    rw [C60_same]
    cases parseReported ts with
    | ok e => rfl
    | error f => cases f <;> rfl
  | error f => cases f <;> rfl

/-- The error handler is called with a token exactly if what stands before it can be read as the beginning of an expression and no
    token of its type can come next. -/
theorem C60_unexpected (ts : List Token) (hts : ∀ t ∈ ts, ∃ b v, Matches t.type b t.text v) (t : Token) :
    parseReported ts = .error (.unexpected (some t)) ↔ ∃ c, FirstMisplaced ts c t := by
  have hr := parseReported_reports ts hts
  constructor
  · intro h
    rw [h] at hr
    exact hr
  · rintro ⟨c, hm⟩
    obtain ⟨i, hi⟩ := hm.1
    have hx := misplaced_stop hm
    cases h : parseReported ts with
    | ok e => rw [h] at hr; exact absurd (derives_canBegin hr.1) (stop_not_canBegin hi hx)
    | error f =>
      rw [h] at hr
      rcases f with t' | err
      · rcases t' with _ | t'
        · exact absurd hr.1 (stop_not_canBegin hi hx)
        · obtain ⟨c', hm'⟩ := hr
          obtain ⟨i', hi'⟩ := hm'.1
          rw [(same_place hi hi' hm.2.1 hm'.2.1 hx (misplaced_stop hm')).2]
      · obtain ⟨rfl, c', t', hm'⟩ := hr
        obtain ⟨i', hi'⟩ := hm'.1
        obtain ⟨rfl, rfl⟩ := same_place hi hi' hm.2.1 hm'.2.1 hx (unreadable_stop hm')
        exact absurd hm'.2.2.1 hm.2.2

/-- It is called with the end of the text exactly if the whole text can be read as the beginning of an expression, but is none. -/
theorem C60_unfinished (ts : List Token) (hts : ∀ t ∈ ts, ∃ b v, Matches t.type b t.text v) :
    parseReported ts = .error (.unexpected none) ↔ Incomplete ts := by
  have hr := parseReported_reports ts hts
  constructor
  · intro h
    rw [h] at hr
    exact hr
  · intro hm
    cases h : parseReported ts with
    | ok e => rw [h] at hr; exact absurd hr.1 (hm.2 e)
    | error f =>
      rw [h] at hr
      rcases f with t' | err
      · rcases t' with _ | t'
        · rfl
        · obtain ⟨c', hm'⟩ := hr
          obtain ⟨i', hi'⟩ := hm'.1
          exact absurd hm.1 (stop_not_canBegin hi' (misplaced_stop hm'))
      · obtain ⟨rfl, c', t', hm'⟩ := hr
        obtain ⟨i', hi'⟩ := hm'.1
        exact absurd hm.1 (stop_not_canBegin hi' (unreadable_stop hm'))

/-- A production raises exactly if a die can stand where the first unreadable die stands; it raises `ValueError`. -/
theorem C60_unreadable (ts : List Token) (hts : ∀ t ∈ ts, ∃ b v, Matches t.type b t.text v) (err : Err) :
    parseReported ts = .error (.raised err) ↔ err = .value ∧ ∃ c t, FirstUnreadable ts c t := by
  have hr := parseReported_reports ts hts
  constructor
  · intro h
    rw [h] at hr
    exact hr
  · rintro ⟨rfl, c, t, hm⟩
    obtain ⟨i, hi⟩ := hm.1
    have hx := unreadable_stop hm
    cases h : parseReported ts with
    | ok e => rw [h] at hr; exact absurd (derives_canBegin hr.1) (stop_not_canBegin hi hx)
    | error f =>
      rw [h] at hr
      rcases f with t' | err
      · rcases t' with _ | t'
        · exact absurd hr.1 (stop_not_canBegin hi hx)
        · obtain ⟨c', hm'⟩ := hr
          obtain ⟨i', hi'⟩ := hm'.1
          obtain ⟨rfl, rfl⟩ := same_place hi hi' hm.2.1 hm'.2.1 hx (misplaced_stop hm')
          exact absurd hm.2.2.1 hm'.2.2
      · obtain ⟨rfl, _⟩ := hr
        rfl

/-- Whatever the grammar derives is accepted: no tokens are refused because the precedences allow no grouping. -/
theorem C60_complete (ts : List Token) (hts : ∀ t ∈ ts, ∃ b v, Matches t.type b t.text v) :
    (∃ e, parseTokens ts = .ok e) ↔ ∃ e, Derives ts e := by
  constructor
  · rintro ⟨e, he⟩
    exact ⟨e, ((C38_accepts ts e).mp he).1⟩
  · rintro ⟨e, he⟩
    have hr := parseReported_reports ts hts
    rw [C60_same]
    cases h : parseReported ts with
    | ok e' => exact ⟨e', rfl⟩
    | error f =>
      exfalso
      rw [h] at hr
      rcases f with t' | err
      · rcases t' with _ | t'
        · exact hr.2 e he
        · obtain ⟨c', hm'⟩ := hr
          obtain ⟨i', hi'⟩ := hm'.1
          exact stop_not_canBegin hi' (misplaced_stop hm') (derives_canBegin he)
      · obtain ⟨rfl, c', t', hm'⟩ := hr
        obtain ⟨i', hi'⟩ := hm'.1
        exact stop_not_canBegin hi' (unreadable_stop hm') (derives_canBegin he)

/-- From the text: a text that is read as tokens is refused with a message exactly if a token is misplaced or the text stops short, and
    the message is about the first misplaced token or about the end. -/
theorem C60_message (text : Str) (ts : List Token) (hl : Lexed [] text ts) (m : Str) :
    parseText text = .error (.message m) ↔
      (∃ c t, FirstMisplaced ts c t ∧ m = handlerMessage text (some t)) ∨ (Incomplete ts ∧ m = handlerMessage text none) := by
  have hts := lexed_wellSpelt hl
  have hp : parseText text = match parseReported ts with
      | .ok e => .ok e
      | .error (.unexpected t) => .error (.message (handlerMessage text t))
      | .error (.raised err) => .error (.other err) := by
    unfold parseText
    rw [(C36_tokens text ts).mpr hl]
    rfl
  rw [hp]
  constructor
  · intro h
    cases hr : parseReported ts with
    | ok e => rw [hr] at h; cases h
    | error f =>
      rw [hr] at h
      rcases f with t' | err
      · cases h
        rcases t' with _ | t'
        · exact .inr ⟨(C60_unfinished ts hts).mp hr, rfl⟩
        · obtain ⟨c, hc⟩ := (C60_unexpected ts hts t').mp hr
          exact .inl ⟨c, t', hc, rfl⟩
      · cases h
  · rintro (⟨c, t, hc, rfl⟩ | ⟨hi, rfl⟩)
    · rw [(C60_unexpected ts hts t).mpr ⟨c, hc⟩]
    · rw [(C60_unfinished ts hts).mpr hi]

/-- The message tells which type of token it was: different types have different names. -/
theorem C60_types (a b : TokType) : a.tokenName = b.tokenName ↔ a = b := by
  refine ⟨fun h => ?_, fun h => h ▸ rfl⟩
  cases a <;> cases b <;> first | rfl | exact absurd h (by decide)

/-- The position in the message is that of the token: its text stands there, and the line and column are the ones an editor shows. -/
theorem C60_position (text : Str) (ts : List Token) (hl : Lexed [] text ts) (t : Token) (ht : t ∈ ts) :
    handlerMessage text (some t) = "Ran into a ".toList ++ t.type.tokenName ++ " (".toList ++ t.text ++
        ") where it wasn't expected, at position ".toList ++ ("SourcePosition(idx=".toList ++ natStr t.idx ++ ", lineno=".toList ++
        natStr (sourceLine text t.idx) ++ ", colno=".toList ++ natStr (sourceCol text t.idx) ++ ")".toList) ++ ".".toList ∧
      (text.drop t.idx).take t.text.length = t.text ∧
      ∃ line start, LineAt text line start ∧ start + sourceCol text t.idx = t.idx + 1 ∧ t.idx < start + line.length ∧
        sourceLine text t.idx = 1 + (text.take start).count '\n' := by
  obtain ⟨h1, h2⟩ := C36_slice text ts ((C36_tokens text ts).mpr hl) t ht
  obtain ⟨c, w, hw, hc⟩ := lexed_solid hl t ht
  have hat : text.drop t.idx = c :: (text.drop t.idx).drop 1 := by
    cases hd : text.drop t.idx with
    | nil => rw [hd, hw] at h1; simp at h1
    | cons d r => rw [hd, hw] at h1; simp at h1; simp [h1.1]
  have hlen : t.idx ≤ text.length := by
    by_contra hgt
    rw [List.drop_eq_nil_of_le (by omega)] at hat
    cases hat
  obtain ⟨line, start, hline, hcol, hle, hno⟩ := source_line hlen
  refine ⟨rfl, h1, line, start, hline, hcol, ?_, hno⟩
  rcases Nat.lt_or_ge t.idx (start + line.length) with h | h
  · exact h
  · exfalso
    obtain ⟨pre, post, htext, hpre, _, _, hpost⟩ := hline
    have hidx : t.idx = (pre ++ line).length := by simp; omega
    rw [hidx, htext, ← List.append_assoc, List.drop_left] at hat
    rcases hpost with rfl | ⟨post', rfl⟩
    · exact absurd hat (by simp)
    · rw [← (List.cons.inj hat).1] at hc
      exact absurd hc (by decide)

/-! ### Examples -/

/-- In `2d6 + * 3` the `*` is misplaced; `ABS(1` stops short; the first die of `d[1,] + *` cannot be read. -/
example : (∃ ts, Lexed [] "2d6 + * 3".toList ts ∧ ∃ c, FirstMisplaced ts c ⟨.mul, ['*'], 6⟩) ∧
    (∃ ts, Lexed [] "ABS(1".toList ts ∧ Incomplete ts) ∧ ∃ ts, Lexed [] "d[1,] + *".toList ts ∧ ∃ c t, FirstUnreadable ts c t := by
  refine ⟨⟨[⟨.dice, "2d6".toList, 0⟩, ⟨.add, ['+'], 4⟩, ⟨.mul, ['*'], 6⟩, ⟨.constInt, ['3'], 8⟩], ?_⟩,
    ⟨[⟨.abs, "ABS".toList, 0⟩, ⟨.openP, ['('], 3⟩, ⟨.constInt, ['1'], 4⟩], ?_⟩,
    ⟨[⟨.dice, "d[1,]".toList, 0⟩, ⟨.add, ['+'], 6⟩, ⟨.mul, ['*'], 8⟩], ?_⟩⟩
  · have hl := (C36_tokens "2d6 + * 3".toList [⟨.dice, "2d6".toList, 0⟩, ⟨.add, ['+'], 4⟩, ⟨.mul, ['*'], 6⟩, ⟨.constInt, ['3'], 8⟩]).mp
      (by decide +kernel)
    exact ⟨hl, (C60_unexpected _ (lexed_wellSpelt hl) _).mp (by decide +kernel)⟩
  · have hl := (C36_tokens "ABS(1".toList [⟨.abs, "ABS".toList, 0⟩, ⟨.openP, ['('], 3⟩, ⟨.constInt, ['1'], 4⟩]).mp (by decide +kernel)
    exact ⟨hl, (C60_unfinished _ (lexed_wellSpelt hl)).mp (by decide +kernel)⟩
  · have hl := (C36_tokens "d[1,] + *".toList [⟨.dice, "d[1,]".toList, 0⟩, ⟨.add, ['+'], 6⟩, ⟨.mul, ['*'], 8⟩]).mp (by decide +kernel)
    exact ⟨hl, ((C60_unreadable _ (lexed_wellSpelt hl) .value).mp (by decide +kernel)).2⟩

/-- The tokens of `2d6 + * 3`. -/
example : parseReported [⟨.dice, "2d6".toList, 0⟩, ⟨.add, ['+'], 4⟩, ⟨.mul, ['*'], 6⟩, ⟨.constInt, ['3'], 8⟩] =
    .error (.unexpected (some ⟨.mul, ['*'], 6⟩)) := by decide +kernel

example : parseText "2d6 + * 3".toList = .error (.message
    "Ran into a MULTIPLY (*) where it wasn't expected, at position SourcePosition(idx=6, lineno=1, colno=7).".toList) := by decide +kernel

example : parseText "MAX(1,\n 2, 3)".toList = .error (.message
    "Ran into a COMMA (,) where it wasn't expected, at position SourcePosition(idx=9, lineno=2, colno=3).".toList) := by decide +kernel

example : parseText "ABS(1".toList = .error (.message
    "Ran into a $end ($end) where it wasn't expected, at position None.".toList) := by decide +kernel

/-- The text of the first die cannot be read, so the missing operand is not reported. -/
example : parseText "d[1,] + *".toList = .error (.other .value) := by decide +kernel

/-- A message that may surprise: `-3` is one token, so that after `2` it is that token that is not expected. -/
example : parseText "2-3".toList = .error (.message
    "Ran into a CONSTANT_INTEGER (-3) where it wasn't expected, at position SourcePosition(idx=1, lineno=1, colno=2).".toList) := by
  decide +kernel

end PyDice
