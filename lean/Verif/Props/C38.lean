import Verif.Lemmas.Tokens
import Verif.Lemmas.Lalr
import Verif.Props.C36_C37
/-!
# C38: parsing respects precedence and associativity, and is unambiguous
-/

namespace PyDice
open LexSpec ParseSpec

/-- A sequence of tokens is accepted with a tree exactly if it spells the tree and the operators are grouped as the precedences say. -/
theorem C38_accepts (ts : List Token) (e : Expr) : parseTokens ts = .ok e ↔ Derives ts e ∧ Grouped e := parseTokens_ok ts e

/-- The look-ahead sets with which the table is built (`addAction` uses `follow`) are the LALR(1) sets of the grammar, as rply computes
    them: in every state, a finished production can be followed by exactly these terminals. -/
theorem C38_lookahead (q : Nat) (set : List Item) (i : Item) (hq : itemSets[q]? = some set) (hi : i ∈ set) (hn : i.next = none) (a : Sym) :
    LookAhead q i a ↔ if i.prod = 0 then a = .eof else a ∈ follow := lookAhead_iff hq hi hn a

/-- State 18 holds the finished production `! expression`. -/
example : ∃ set, itemSets[18]? = some set ∧ ⟨2, 2⟩ ∈ set ∧ (⟨2, 2⟩ : Item).next = none ∧ LookAhead 18 ⟨2, 2⟩ (.tok .comma) := by
  have h : ∃ set, itemSets[18]? = some set ∧ ⟨2, 2⟩ ∈ set := by
    refine ⟨(itemSets[18]?).getD [], by decide +kernel, by decide +kernel⟩
  obtain ⟨set, h1, h2⟩ := h
  exact ⟨set, h1, h2, rfl, (C38_lookahead 18 set _ h1 h2 rfl _).mpr (by decide +kernel)⟩

/-- At most one grouped tree is spelled by a sequence of tokens. -/
theorem C38_unique (ts : List Token) (e e' : Expr) (h : Derives ts e) (hg : Grouped e) (h' : Derives ts e') (hg' : Grouped e') : e = e' := by
  have h1 := (C38_accepts ts e).mpr ⟨h, hg⟩
  rw [(C38_accepts ts e').mpr ⟨h', hg'⟩] at h1
  exact (Except.ok.inj h1).symm

/-- Every other sequence of tokens as the lexer delivers them raises `ValueError`: among them those in which the text of a die cannot
    be read (a trailing comma), which spell no tree at all. -/
theorem C38_rejects (ts : List Token) (hts : ∀ t ∈ ts, ∃ b v, Matches t.type b t.text v) (h : ∀ e, ¬ (Derives ts e ∧ Grouped e)) :
    parseTokens ts = .error .value := by
  cases hp : parseTokens ts with
  | ok e => exact absurd ((C38_accepts ts e).mp hp) (h e)
  | error err =>
    rcases parseTokens_error ts err hp with rfl | ⟨t, ht, hb⟩
    · rfl
    · rw [badToken_value (hts t ht) hb]

/-- The same from the text. -/
theorem C38_text (text : Str) (e : Expr) : parse text = .ok e ↔ ∃ ts, Lexed [] text ts ∧ Derives ts e ∧ Grouped e := by
  unfold parse
  constructor
  · intro h
    cases hl : lex text with
    | ok ts =>
      rw [hl] at h
      exact ⟨ts, (C36_tokens text ts).mp hl, (C38_accepts ts e).mp h⟩
    | error f =>
      obtain ⟨m, rfl⟩ := C37_value_error text f hl
      rw [hl] at h
      cases h
  · rintro ⟨ts, hl, h⟩
    rw [(C36_tokens text ts).mpr hl]
    exact (C38_accepts ts e).mpr h

/-- Parsing a text gives a tree or raises `ValueError`; nothing else happens. -/
theorem C38_text_rejects (text : Str) : (∃ e, parse text = .ok e) ∨ parse text = .error .value := by
  by_cases h : ∃ e, parse text = .ok e
  · exact .inl h
  · right
    cases hl : lex text with
    | ok ts =>
      have hp : parse text = parseTokens ts := by unfold parse; rw [hl]
      rw [hp]
      refine C38_rejects ts (lexed_wellSpelt ((C36_tokens text ts).mp hl)) fun e he => h ⟨e, ?_⟩
      rw [hp]
      exact (C38_accepts ts e).mpr he
    | error f =>
      obtain ⟨m, rfl⟩ := C37_value_error text f hl
      unfold parse
      rw [hl]

/-! ### Reading the grouping -/

/-- Of two operators in a row the second takes the middle operand exactly if it is of a higher level; equal ones group to the left. -/
theorem C38_two_operators (ts us vs : List Token) (a b c : Expr) (p q : Token) (m n : Nat) (f g : Expr → Expr → Expr)
    (ha : Atom ts a) (hb : Atom us b) (hc : Atom vs c) (hp : Joins p m f) (hq : Joins q n g) :
    parseTokens (ts ++ [p] ++ us ++ [q] ++ vs) = .ok (if n ≤ m then g (f a b) c else f a (g b c)) := by
  obtain ⟨ha1, ha2, ha3, ha4⟩ := ha
  obtain ⟨hb1, hb2, hb3, hb4⟩ := hb
  obtain ⟨hc1, hc2, hc3, hc4⟩ := hc
  rw [C38_accepts]
  split
  · rename_i hle
    refine ⟨hq.derives (hp.derives ha1 hb1) hc1, (hq.grouped _ _).1.mpr ⟨⟨?_, ?_⟩, (hp.grouped _ _).1.mpr ⟨⟨?_, ?_⟩, ha2, hb2⟩, hc2⟩⟩
    · rw [(hp.grouped a b).2.1, hb3]; simpa using hle
    · rw [hc4]; simp
    · rw [ha3]; simp
    · rw [hb4]; simp
  · rename_i hlt
    refine ⟨?_, (hp.grouped _ _).1.mpr ⟨⟨?_, ?_⟩, ha2, (hq.grouped _ _).1.mpr ⟨⟨?_, ?_⟩, hb2, hc2⟩⟩⟩
    · have := hp.derives ha1 (hq.derives hb1 hc1)
      simpa using this
    · rw [ha3]; simp
    · rw [(hq.grouped b c).2.2, hb4]; simp; omega
    · rw [hb3]; simp
    · rw [hc4]; simp

/-- `!` takes the whole operation that follows it, also as the second operand of an operator. -/
theorem C38_not_extends (ts us : List Token) (a b : Expr) (o p : Token) (n : Nat) (f : Expr → Expr → Expr) (ho : o.type = .not)
    (ha : Atom ts a) (hb : Atom us b) (hp : Joins p n f) : parseTokens ([o] ++ (ts ++ [p] ++ us)) = .ok (.not (f a b)) := by
  obtain ⟨ha1, ha2, ha3, ha4⟩ := ha
  obtain ⟨hb1, hb2, hb3, hb4⟩ := hb
  rw [C38_accepts]
  refine ⟨.not o ho (hp.derives ha1 hb1), (hp.grouped a b).1.mpr ⟨⟨?_, ?_⟩, ha2, hb2⟩⟩
  · rw [ha3]; simp
  · rw [hb4]; simp

/-- `VAR name =` takes everything that follows: with any grouped expression after it the whole is an assignment. -/
theorem C38_assign_extends (ts : List Token) (e : Expr) (v n a : Token) (hv : v.type = .var) (hn : n.type = .name)
    (ha : a.type = .assign) (he : parseTokens ts = .ok e) : parseTokens ([v, n, a] ++ ts) = .ok (.assign n.text e) := by
  obtain ⟨h1, h2⟩ := (C38_accepts ts e).mp he
  exact (C38_accepts _ _).mpr ⟨.assign v n a hv hn ha h1, h2⟩

/-! ### Examples -/

/-- `1 + 2 * 3 == x`: the comparison first, then the product, then the sum. -/
example : parse "1 + 2 * 3 == x".toList =
    .ok (.add (.constInt ['1']) (.mul (.constInt ['2']) (.bin .eq (.constInt ['3']) (.getVar ['x'])))) := by decide +kernel

/-- `9 - 5 - 2 + !a * b` groups to the left; the `!` takes the product. -/
example : parse "9 - 5 - 2 + !a * b".toList =
    .ok (.add (.sub (.sub (.constInt ['9']) (.constInt ['5'])) (.constInt ['2'])) (.not (.mul (.getVar ['a']) (.getVar ['b'])))) := by
  decide +kernel

/-- An assignment inside an expression takes everything to its right. -/
example : parse "1 + VAR x = 2 + 3".toList =
    .ok (.add (.constInt ['1']) (.assign ['x'] (.add (.constInt ['2']) (.constInt ['3'])))) := by decide +kernel

/-- A minus sign before a digit belongs to the number, so these are two expressions in a row. -/
example : parse "1-1".toList = .error .value ∧ parse "1 - 1".toList = .ok (.sub (.constInt ['1']) (.constInt ['1'])) ∧
    parse "2d6-1".toList = .error .value := by decide +kernel

/-- Rejected: a die whose text cannot be read, a missing operand, a reserved word as a name, nothing at all. -/
example : parse "d[1,2,]".toList = .error .value ∧ parse "1 + ".toList = .error .value ∧ parse "VAR d6 = 1".toList = .error .value ∧
    parse [] = .error .value := by decide +kernel

/-- The hypotheses of `C38_two_operators` hold for `a * b - c`. -/
example : Atom [⟨.name, ['a'], 0⟩] (.getVar ['a']) ∧ Joins ⟨.mul, ['*'], 0⟩ 4 .mul ∧ Joins ⟨.sub, ['-'], 0⟩ 3 .sub :=
  ⟨⟨.getVar _ rfl, trivial, rfl, rfl⟩, .mul _ rfl, .sub _ rfl⟩

/-- A sequence of tokens that spells two trees, of which one is grouped: `a - b - c`. -/
example : ∃ ts e e', Derives ts e ∧ Derives ts e' ∧ e ≠ e' ∧ Grouped e ∧ ¬ Grouped e' := by
  refine ⟨[⟨.name, ['a'], 0⟩, ⟨.sub, ['-'], 2⟩, ⟨.name, ['b'], 4⟩, ⟨.sub, ['-'], 6⟩, ⟨.name, ['c'], 8⟩],
    .sub (.sub (.getVar ['a']) (.getVar ['b'])) (.getVar ['c']), .sub (.getVar ['a']) (.sub (.getVar ['b']) (.getVar ['c'])),
    ?_, ?_, by decide, ?_, ?_⟩
  · exact .sub (ts := [_, _, _]) (us := [_]) ⟨.sub, ['-'], 6⟩ rfl
      (.sub (ts := [_]) (us := [_]) ⟨.sub, ['-'], 2⟩ rfl (.getVar ⟨.name, ['a'], 0⟩ rfl) (.getVar ⟨.name, ['b'], 4⟩ rfl))
      (.getVar ⟨.name, ['c'], 8⟩ rfl)
  · exact .sub (ts := [_]) (us := [_, _, _]) ⟨.sub, ['-'], 2⟩ rfl (.getVar ⟨.name, ['a'], 0⟩ rfl)
      (.sub (ts := [_]) (us := [_]) ⟨.sub, ['-'], 6⟩ rfl (.getVar ⟨.name, ['b'], 4⟩ rfl) (.getVar ⟨.name, ['c'], 8⟩ rfl))
  · simp [Grouped, Operands, rightEdge, leftEdge, addLevel]
  · simp [Grouped, Operands, rightEdge, leftEdge, addLevel]

end PyDice
