import Verif.ParserError

/-! # The source texts of the token rules and of the grammar

The model writes the regular expressions of `src/syntax/*.py` as terms of `Re`, and the rule strings of the productions as terms of
`Production`.  Here are the texts as they stand in the source, a reader of such texts, and the check that what is read from them
matches what the terms match (`source_matches`; `Verif/Conform/Grammar.lean` has the rest). -/

namespace PyDice.Conform

/-- `t! "text"`: the list of characters of a literal. -/
macro "t!" s:str : term => do
  let cs := s.getString.toList.map fun c => Lean.Syntax.mkCharLit c
  `(([$cs.toArray,*] : List Char))

/-! ### A reader of regular expressions -/

/-- The syntax of the constructs that occur. -/
inductive Pat where
  | eps
  | chr (c : Char)
  /-- `\d` -/
  | digit
  /-- `\s` -/
  | space
  /-- `\b` -/
  | wordB
  /-- `[abc-e]`: ranges -/
  | set (l : List (Char × Char))
  | seq (a b : Pat)
  | alt (a b : Pat)
  | star (a : Pat)
  | plus (a : Pat)
  | opt (a : Pat)
  | notAhead (a : Pat)
  | notBehind (w : List Char)
  deriving DecidableEq, Repr

/-- One element of a set: a character or a range. -/
def inRange (r : Char × Char) (c : Char) : Bool :=
  if r.1 = r.2 then c == r.1 else decide (r.1.toNat ≤ c.toNat) && decide (c.toNat ≤ r.2.toNat)

/-- Membership in a set. -/
def inSet : List (Char × Char) → Char → Bool
  | [], _ => false
  | [r], c => inRange r c
  | r :: rs, c => inRange r c || inSet rs c

/-- The meaning: a term of `Re`. -/
def Pat.re : Pat → Re
  | .eps => .eps
  | .chr c => Re.chr c
  | .digit => Re.digit
  | .space => Re.space
  | .wordB => .wordB
  | .set l => .cls (inSet l)
  | .seq a b => .seq a.re b.re
  | .alt a b => .alt a.re b.re
  | .star a => .star a.re
  | .plus a => Re.plus a.re
  | .opt a => .opt a.re
  | .notAhead a => .notAhead a.re
  | .notBehind w => .notBehind w

/-- The rest of a set, up to `]`. -/
def readSet : List Char → Option (List (Char × Char) × List Char)
  | [] => none
  | ']' :: rest => some ([], rest)
  | a :: '-' :: b :: rest => (readSet rest).map fun r => ((a, b) :: r.1, r.2)
  | a :: rest => (readSet rest).map fun r => ((a, a) :: r.1, r.2)

/-- Literal text up to `)`. -/
def readLit : List Char → Option (List Char × List Char)
  | [] => none
  | ')' :: rest => some ([], rest)
  | c :: rest => (readLit rest).map fun r => (c :: r.1, r.2)

/-- What a backslash and a character mean. -/
def escape : Char → Option Pat
  | 'd' => some .digit
  | 's' => some .space
  | 'b' => some .wordB
  | c => if c.isAlpha || c.isDigit then none else some (.chr c)

/-- The suffixes `*`, `+`, `?`. -/
def suffix (a : Pat) : List Char → Pat × List Char
  | '*' :: rest => (.star a, rest)
  | '+' :: rest => (.plus a, rest)
  | '?' :: rest => (.opt a, rest)
  | rest => (a, rest)

/-- Sequencing without needless `eps`. -/
def Pat.andThen (a : Pat) : Pat → Pat
  | .eps => a
  | b => .seq a b

mutual
/-- One item, without its suffix.  The number bounds the depth of the recursion. -/
def readItem : Nat → List Char → Option (Pat × List Char)
  | 0, _ => none
  | n + 1, text => match text with
    | '\\' :: c :: rest => (escape c).map fun p => (p, rest)
    | '[' :: rest => (readSet rest).map fun r => (.set r.1, r.2)
    | '(' :: '?' :: '!' :: rest => match readAlt n rest with
      | some (a, ')' :: rest) => some (.notAhead a, rest)
      | _ => none
    | '(' :: '?' :: '<' :: '!' :: rest => (readLit rest).map fun r => (.notBehind r.1, r.2)
    | '(' :: '?' :: _ => none
    | '(' :: rest => match readAlt n rest with
      | some (a, ')' :: rest) => some (a, rest)
      | _ => none
    | c :: rest => if c ∈ t! "\\[]()|*+?.^${}" then none else some (.chr c, rest)
    | [] => none

/-- A sequence, up to `|`, `)` or the end. -/
def readSeq : Nat → List Char → Option (Pat × List Char)
  | 0, _ => none
  | n + 1, text => match text with
    | [] => some (.eps, [])
    | '|' :: rest => some (.eps, '|' :: rest)
    | ')' :: rest => some (.eps, ')' :: rest)
    | text => match readItem n text with
      | none => none
      | some (a, rest) =>
        let s := suffix a rest
        (readSeq n s.2).map fun r => (s.1.andThen r.1, r.2)

/-- Alternatives. -/
def readAlt : Nat → List Char → Option (Pat × List Char)
  | 0, _ => none
  | n + 1, text => match readSeq n text with
    | some (a, '|' :: rest) => (readAlt n rest).map fun r => (.alt a r.1, r.2)
    | r => r
end

/-- A whole pattern. -/
def readRe (text : List Char) : Option Pat := match readAlt (3 * text.length + 3) text with
  | some (p, []) => some p
  | _ => none

/-! ### Two terms that differ in the grouping of sequences only -/

/-- `a` and then `b`, grouped to the right. -/
def cat : Re → Re → Re
  | .seq a b, c => .seq a (cat b c)
  | a, c => .seq a c

/-- Group all sequences to the right. -/
def norm : Re → Re
  | .seq a b => cat (norm a) (norm b)
  | .alt a b => .alt (norm a) (norm b)
  | .star a => .star (norm a)
  | .opt a => .opt (norm a)
  | .notAhead a => .notAhead (norm a)
  | r => r

theorem matchesAt_cat (a c : Re) (p : Pos) : Re.matchesAt (cat a c) p = Re.matchesAt (.seq a c) p := by
  induction a generalizing p with
  | seq a b _ ihb =>
    simp only [cat, Re.matchesAt, List.flatMap_assoc]
    congr 1
    funext q
    rw [ihb q]
    rfl
  | _ => rfl

theorem matchesAt_norm (r : Re) : Re.matchesAt (norm r) = Re.matchesAt r := by
  induction r with
  | seq a b iha ihb =>
    funext p
    rw [norm, matchesAt_cat]
    simp only [Re.matchesAt, iha, ihb]
  | alt a b iha ihb => funext p; simp only [norm, Re.matchesAt, iha, ihb]
  | star a ih => funext p; simp only [norm, Re.matchesAt, ih]
  | opt a ih => funext p; simp only [norm, Re.matchesAt, ih]
  | notAhead a ih => funext p; simp only [norm, Re.matchesAt, ih]
  | _ => rfl

/-! ### The texts -/

/-- `DICE_SYNTAX` (`dice_syntax_helper.py:1-13`), the constants put together. -/
def diceSource : Str := t! "\\d*d(\\d+|%|F|\\[(\\s*(-?\\d+--?\\d+(\\*\\d+)?|-?\\d+(\\*\\d+)?)\\s*,\\s*)*\\s*(-?\\d+--?\\d+(\\*\\d+)?|-?\\d+(\\*\\d+)?)\\s*(,?)\\s*\\])"

/-- `TOKEN_REGEX` of each class of `src/syntax/`. -/
def source : TokType → Str
  | .openP => t! "\\("
  | .closeP => t! "\\)"
  | .comma => t! "\\,"
  | .not => t! "!(?!=)"
  | .dropKeep => diceSource ++ t! "[kd]\\d+"
  | .dice => diceSource
  | .binop => t! "==|!=|<=|<|>=|>|\\bAND\\b|\\bOR\\b"
  | .constInt => t! "-?\\d+"
  | .constBin => t! "\\bTrue\\b|\\bFalse\\b"
  | .add => t! "\\+"
  | .sub => t! "\\-"
  | .mul => t! "\\*"
  | .div => t! "//"
  | .minmax => t! "\\bMAX\\b|\\bMIN\\b"
  | .abs => t! "\\bABS\\b"
  | .assign => t! "=(?!=)(?<!==)"
  | .var => t! "\\bVAR\\b"
  | .name => t! "\\b[a-z_]+\\b"

set_option maxRecDepth 100000 in
theorem source_read (t : TokType) : ∃ pat, readRe (source t) = some pat ∧ norm pat.re = norm t.regex := by
  cases t <;> exact ⟨_, rfl, rfl⟩

/-- The rule of each token matches, at every position of every text, exactly as its text in the source does. -/
theorem source_matches (t : TokType) : ∃ pat, readRe (source t) = some pat ∧ ∀ p, Re.matchesAt t.regex p = Re.matchesAt pat.re p := by
  obtain ⟨pat, h, e⟩ := source_read t
  refine ⟨pat, h, fun p => ?_⟩
  rw [← matchesAt_norm t.regex, ← e, matchesAt_norm]

/-! ### A reader of rules -/

/-- Cut at blanks. -/
def words : Str → List Str
  | [] => [[]]
  | c :: cs => if c = ' ' then [] :: words cs else match words cs with
    | w :: ws => (c :: w) :: ws
    | [] => [[c]]

/-- A symbol by its name. -/
def readSym (w : Str) : Option Sym :=
  if w = t! "expression" then some .expr else (lexerSyntax.find? fun t => decide (t.tokenName = w)).map Sym.tok

/-- `expression : symbol ... symbol`. -/
def readRule (text : Str) : Option Production := match words text with
  | l :: c :: rhs => if c = t! ":" then do
      let lhs ← readSym l
      let syms ← rhs.mapM readSym
      pure ⟨lhs, syms⟩
    else none
  | _ => none

/-- One entry of `PRECEDENCE`. -/
def readPrecedence (p : Str × List Str) : Option (Assoc × List TokType) := do
  let a ← if p.1 = t! "left" then some Assoc.left else if p.1 = t! "right" then some Assoc.right
    else if p.1 = t! "nonassoc" then some Assoc.nonassoc else none
  let ts ← p.2.mapM fun w => lexerSyntax.find? fun t => decide (t.tokenName = w)
  pure (a, ts)

end PyDice.Conform
