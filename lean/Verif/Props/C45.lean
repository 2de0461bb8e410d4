import Verif.Lemmas.Layout
import Verif.Lemmas.Meaning
import Verif.Props.C34_C39
import Verif.Props.C40
/-!
# C45: layout and brackets
-/

namespace PyDice
open LexSpec ParseSpec PyRuntime

/-- C45: words that are tokens of some rules, separated by whitespace of any kind and amount, are read as those tokens. -/
theorem C45_tokens (ps : List (TokType × Str)) (hps : ∀ p ∈ ps, ∃ b v, Matches p.1 b p.2 v) (text : Str)
    (h : Spaced (ps.map Prod.snd) text) : ∃ ts, lex text = .ok ts ∧ ts.map (fun t => (t.type, t.text)) = ps := by
  obtain ⟨ts, h1, h2⟩ := lexed_spaced ps [] text hps h (.inl rfl)
  exact ⟨ts, (C36_tokens text ts).mpr h1, h2⟩

/-- Parsing depends on the types and texts of the tokens only. -/
theorem C45_positions (ts us : List Token) (hts : ∀ t ∈ ts, ∃ b v, Matches t.type b t.text v)
    (h : us.map (fun t => (t.type, t.text)) = ts.map (fun t => (t.type, t.text))) : parseTokens us = parseTokens ts := by
  have hus : ∀ t ∈ us, ∃ b v, Matches t.type b t.text v := by
    intro t ht
    have : (t.type, t.text) ∈ us.map (fun t => (t.type, t.text)) := List.mem_map.mpr ⟨t, ht, rfl⟩
    rw [h] at this
    obtain ⟨t', ht', he⟩ := List.mem_map.mp this
    obtain ⟨h1, h2⟩ := Prod.mk.inj he
    rw [← h1, ← h2]; exact hts t' ht'
  by_cases he : ∃ e, Derives ts e ∧ Grouped e
  · obtain ⟨e, h1, h2⟩ := he
    rw [(C38_accepts ts e).mpr ⟨h1, h2⟩]
    exact (C38_accepts us e).mpr ⟨derives_bare h1 h, h2⟩
  · rw [C38_rejects ts hts (fun e h' => he ⟨e, h'⟩)]
    exact C38_rejects us hus (fun e h' => he ⟨e, derives_bare h'.1 h.symm, h'.2⟩)

/-- C45: a text that is read as tokens may be laid out anew: with any whitespace between the tokens, at least one character of it,
    and any around them, the parser returns the same expression or raises the same error. -/
theorem C45_layout (text text' : Str) (ts : List Token) (h : lex text = .ok ts) (h' : Spaced (ts.map Token.text) text') :
    parse text' = parse text := by
  have hw := lexed_wellSpelt ((C36_tokens text ts).mp h)
  obtain ⟨us, h1, h2⟩ := C45_tokens (bare ts) (by
    intro p hp
    obtain ⟨t, ht, rfl⟩ := List.mem_map.mp hp
    exact hw t ht) text' (by unfold bare; rw [List.map_map]; exact h')
  unfold parse
  rw [h, h1]
  exact C45_positions ts us hw h2

/-- C45: whitespace before and after a text that parses does not matter, however tightly its tokens are set. -/
theorem C45_around (u text v : Str) (hu : Blank u) (hv : Blank v) (e : Expr) (h : parse text = .ok e) : parse (u ++ text ++ v) = .ok e := by
  obtain ⟨ts, hl, hd, hg⟩ := (C38_text text e).mp h
  obtain ⟨us, hl', hus⟩ := lexed_around hl hu hv
  exact (C38_text _ e).mpr ⟨us, hl', derives_bare hd hus, hg⟩

/-- C45: brackets around a text that parses. -/
theorem C45_brackets (text : Str) (e : Expr) (h : parse text = .ok e) : parse ('(' :: (text ++ [')'])) = .ok (.paren e) := by
  obtain ⟨ts, hl, hd, hg⟩ := (C38_text text e).mp h
  obtain ⟨us, ⟨o, c, us', rfl, ho, hc, hb⟩, hl'⟩ := reads_bracket hl [] [] [] (.done (by simp [Blank]))
  rw [List.append_nil, List.append_nil] at hl'
  exact (C38_text _ _).mpr ⟨_, hl', .paren o c ho hc (derives_bare hd hb), hg⟩

/-- The binary operators as written. -/
inductive BinaryText : Str → (Expr → Expr → Expr) → Prop where
  | add : BinaryText ['+'] .add
  | sub : BinaryText ['-'] .sub
  | mul : BinaryText ['*'] .mul
  | div : BinaryText ['/', '/'] .div
  | cmp (op : CmpOp) : BinaryText op.text (.bin op)

/-- C45: texts that parse, put in brackets, are the operands of every operator, whatever is in them. -/
theorem C45_compose (l r : Str) (a b : Expr) (ha : parse l = .ok a) (hb : parse r = .ok b) :
    (∀ op f, BinaryText op f →
      parse ('(' :: (l ++ [')']) ++ [' '] ++ op ++ [' '] ++ '(' :: (r ++ [')'])) = .ok (f (.paren a) (.paren b))) ∧
    parse ('!' :: '(' :: (l ++ [')'])) = .ok (.not (.paren a)) ∧
    parse ("ABS(".toList ++ (l ++ [')'])) = .ok (.abs a) ∧
    (∀ isMax, parse ((if isMax then "MAX((".toList else "MIN((".toList) ++ (l ++ "), (".toList ++ (r ++ "))".toList))) =
      .ok (.minmax isMax (.paren a) (.paren b))) ∧
    (∀ x, x ≠ [] → (∀ c ∈ x, NameLetter c) → parse ("VAR ".toList ++ (x ++ " = (".toList ++ (l ++ [')']))) = .ok (.assign x (.paren a))) := by
  obtain ⟨ts, hl, hd, hg⟩ := (C38_text l a).mp ha
  obtain ⟨us, hr, hd', hg'⟩ := (C38_text r b).mp hb
  have nil : ∀ b : Str, Lexed b [] [] := fun b => .done (by simp [Blank])
  have left : ∀ b v, Reads b ('(' :: (l ++ [')'])) v (fun us => Derives us (.paren a)) := fun b v =>
    reads_mono (reads_bracket hl b v) (by rintro _ ⟨o, c, us', rfl, ho, hc, h⟩; exact .paren o c ho hc (derives_bare hd h))
  have right : ∀ b' v, Reads b' ('(' :: (r ++ [')'])) v (fun us => Derives us (.paren b)) := fun b' v =>
    reads_mono (reads_bracket hr b' v) (by rintro _ ⟨o, c, us', rfl, ho, hc, h⟩; exact .paren o c ho hc (derives_bare hd' h))
  have finish : ∀ {w : Str} {e : Expr}, Reads [] w [] (fun us => Derives us e) → Grouped e → parse w = .ok e := by
    intro w e h he
    obtain ⟨us, h1, h2⟩ := h [] (nil _)
    rw [List.append_nil, List.append_nil] at h2
    exact (C38_text _ _).mpr ⟨us, h2, h1, he⟩
  refine ⟨?_, ?_, ?_, ?_, ?_⟩
  · intro op f hop
    have e1 : '(' :: (l ++ [')']) ++ [' '] ++ op ++ [' '] ++ '(' :: (r ++ [')']) =
      ('(' :: (l ++ [')'])) ++ ([' '] ++ (op ++ ([' '] ++ '(' :: (r ++ [')'])))) := by simp
    rw [e1]
    cases hop with
    | add =>
      refine finish (reads_mono (reads_binary (t := .add) (fun b v => best_add _ _) (fun v' _ => left _ v') (fun b' _ => right b' _)) ?_) ?_
      · rintro _ ⟨p, q, i, rfl, hp, hq⟩; exact .add _ rfl hp hq
      · exact ⟨⟨by simp [rightEdge], by simp [leftEdge]⟩, hg, hg'⟩
    | sub =>
      refine finish (reads_mono (reads_binary (t := .sub) (fun b v => best_sub _ _) (fun v' _ => left _ v') (fun b' _ => right b' _)) ?_) ?_
      · rintro _ ⟨p, q, i, rfl, hp, hq⟩; exact .sub _ rfl hp hq
      · exact ⟨⟨by simp [rightEdge], by simp [leftEdge]⟩, hg, hg'⟩
    | mul =>
      refine finish (reads_mono (reads_binary (t := .mul) (fun b v => best_mul _ _) (fun v' _ => left _ v') (fun b' _ => right b' _)) ?_) ?_
      · rintro _ ⟨p, q, i, rfl, hp, hq⟩; exact .mul _ rfl hp hq
      · exact ⟨⟨by simp [rightEdge], by simp [leftEdge]⟩, hg, hg'⟩
    | div =>
      refine finish (reads_mono (reads_binary (t := .div) (fun b v => best_div _ _) (fun v' _ => left _ v') (fun b' _ => right b' _)) ?_) ?_
      · rintro _ ⟨p, q, i, rfl, hp, hq⟩; exact .div _ rfl hp hq
      · exact ⟨⟨by simp [rightEdge], by simp [leftEdge]⟩, hg, hg'⟩
    | cmp op =>
      refine finish (reads_mono (reads_binary (t := .binop) (fun b v => best_cmp op (before_space b) v) (fun v' _ => left _ v')
        (fun b' _ => right b' _)) ?_) ?_
      · rintro _ ⟨p, q, i, rfl, hp, hq⟩; exact .bin _ op rfl rfl hp hq
      · exact ⟨⟨by simp [rightEdge], by simp [leftEdge]⟩, hg, hg'⟩
  · refine finish (w := ['!'] ++ ('(' :: (l ++ [')']))) (reads_mono (reads_append (reads_token (best_not (by simp))) (left _ _)) ?_) hg
    rintro _ ⟨_, y, rfl, ⟨i, rfl⟩, hy⟩
    exact .not _ rfl hy
  · refine finish (w := ['A', 'B', 'S'] ++ ('(' :: (l ++ [')']))) (reads_mono (reads_append (reads_token (best_abs (by simp [WordNext]) _))
      (reads_bracket hl _ _)) ?_) hg
    rintro _ ⟨_, _, rfl, ⟨i, rfl⟩, o, c, us', rfl, ho, hc, h⟩
    have := Derives.abs ⟨.abs, ['A', 'B', 'S'], i⟩ o c rfl ho hc (derives_bare hd h)
    simpa using this
  · intro isMax
    have e1 : (if isMax then "MAX((".toList else "MIN((".toList) ++ (l ++ "), (".toList ++ (r ++ "))".toList)) =
        (if isMax then ['M', 'A', 'X'] else ['M', 'I', 'N']) ++ (['('] ++ (('(' :: (l ++ [')'])) ++ ([','] ++ ([' '] ++ (('(' :: (r ++ [')'])) ++ [')']))))) := by
      cases isMax <;> simp
    rw [e1]
    refine finish (reads_mono (reads_append (reads_token (best_minmax isMax (by simp [WordNext]) _)) (reads_append (reads_token (best_open _ _))
      (reads_append (left _ _) (reads_append (reads_token (best_comma _ _)) (reads_append reads_space (reads_append (right _ _)
        (reads_token (best_close _ _)))))))) ?_) ⟨hg, hg'⟩
    rintro _ ⟨_, _, rfl, ⟨i, rfl⟩, _, _, rfl, ⟨j, rfl⟩, x, _, rfl, hx, _, _, rfl, ⟨k, rfl⟩, _, _, rfl, rfl, y, _, rfl, hy, ⟨m, rfl⟩⟩
    have := Derives.minmax ⟨.minmax, if isMax then ['M', 'A', 'X'] else ['M', 'I', 'N'], i⟩ ⟨.openP, ['('], j⟩ ⟨.comma, [','], k⟩ ⟨.closeP, [')'], m⟩ isMax rfl rfl rfl rfl rfl hx hy
    simpa using this
  · intro x hx hn
    have e1 : "VAR ".toList ++ (x ++ " = (".toList ++ (l ++ [')'])) =
        ['V', 'A', 'R'] ++ ([' '] ++ (x ++ ([' '] ++ (['='] ++ ([' '] ++ ('(' :: (l ++ [')']))))))) := by simp
    rw [e1]
    refine finish (reads_mono (reads_append (reads_token (best_var (by simp [WordNext]) _)) (reads_append reads_space
      (reads_append (reads_token (best_name hx hn (before_space _) (after_cons (.inl rfl)))) (reads_append reads_space
        (reads_append (reads_token (best_assign _ _)) (reads_append reads_space (left _ _))))))) ?_) hg
    rintro _ ⟨_, _, rfl, ⟨i, rfl⟩, _, _, rfl, rfl, _, _, rfl, ⟨j, rfl⟩, _, _, rfl, rfl, _, _, rfl, ⟨k, rfl⟩, _, y, rfl, rfl, hy⟩
    have := Derives.assign ⟨.var, ['V', 'A', 'R'], i⟩ ⟨.name, x, j⟩ ⟨.assign, ['='], k⟩ rfl rfl rfl hy
    simpa using this

section
variable [R : PyRuntime]

/-- Two lines mean the same: they parse to the same tree up to brackets, or raise the same error. -/
def SameTree (l l' : Str) : Prop := (parse l).map Expr.strip = (parse l').map Expr.strip

/-- C45: for programs whose lines differ in layout and redundant brackets only, every method of the interpreter is the same: same
    results, same draws, same exceptions, same state afterwards. -/
theorem C45_methods (lines lines' : List Str) (h : List.Forall₂ SameTree lines lines') :
    interpRoll parse lines = interpRoll parse lines' ∧ (∀ isMax, interpExtreme parse isMax lines = interpExtreme parse isMax lines') ∧
    interpDists parse lines = interpDists parse lines' ∧ interpDictForms parse lines = interpDictForms parse lines' ∧
    interpAverages parse lines = interpAverages parse lines' ∧ interpHistogramDist parse lines = interpHistogramDist parse lines' ∧
    interpCost parse lines = interpCost parse lines' ∧ interpDictFormsF parse lines = interpDictFormsF parse lines' ∧
    interpAveragesF parse lines = interpAveragesF parse lines' := by
  refine sameLine_methods lines lines' (h.imp fun l l' h => ?_)
  unfold SameTree at h
  cases h1 : parse l with
  | error e =>
    rw [h1] at h
    cases h2 : parse l' with
    | error e' => rw [h2] at h; cases h; exact .inl ⟨e, h1, h2⟩
    | ok e' => rw [h2] at h; cases h
  | ok e =>
    rw [h1] at h
    cases h2 : parse l' with
    | error e' => rw [h2] at h; cases h
    | ok e' =>
      rw [h2] at h
      have h3 : e.strip = e'.strip := Except.ok.inj h
      refine .inr ⟨e, e', h1, h2, ?_, fun isMax => ?_, ?_, ?_⟩
      · rw [← (C39_strip_roll_cost e).1, h3, (C39_strip_roll_cost e').1]
      · rw [← C39_strip_max_min, h3, C39_strip_max_min]
      · rw [← C39_strip_dist, h3, C39_strip_dist]
      · rw [← (C39_strip_roll_cost e).2, h3, (C39_strip_roll_cost e').2]

end

/-- Whitespace cannot be left out everywhere: without it a minus sign joins the number after it, and words join. -/
theorem C45_counterexample : (∃ e, parse "2d6 - 1".toList = .ok e) ∧ parse "2d6-1".toList = .error .value ∧
    (∃ e, parse "1 AND 2".toList = .ok e) ∧ parse "1AND2".toList = .error .value :=
  ⟨⟨_, rfl⟩, by decide +kernel, ⟨_, rfl⟩, by decide +kernel⟩

/-! ### Examples -/

/-- One text over several lines. -/
example : (lex "2d6+x".toList).map (fun ts => ts.map Token.text) = .ok ["2d6".toList, "+".toList, "x".toList] ∧
    Spaced ["2d6".toList, "+".toList, "x".toList] "\n2d6\t +\n\n  x ".toList := by
  refine ⟨by decide +kernel, ['\n'], "\t +\n\n  x ".toList, by decide, by unfold Blank; decide, .inr ⟨_, _, rfl, by decide⟩, "\t ".toList,
    "\n\n  x ".toList, by decide, by unfold Blank; decide, .inr ⟨_, _, rfl, by decide⟩, "\n\n  ".toList, [' '], by decide, by unfold Blank; decide,
    .inr ⟨_, _, rfl, by decide⟩, ?_⟩
  show Blank _
  unfold Blank; decide

/-- Two programs with the same trees. -/
example : List.Forall₂ SameTree ["VAR a=2d6".toList, "a + 1".toList] ["VAR  a = ( (2d6) )".toList, "((a)\n+(1))".toList] :=
  .cons (by unfold SameTree; decide +kernel) (.cons (by unfold SameTree; decide +kernel) .nil)

end PyDice
