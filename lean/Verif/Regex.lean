import Verif.Unicode
/-!
# Python's `re`, as far as the code uses it

A pattern is matched by backtracking; `Re.matches` lists the possible ends of a match in the order in which Python's engine
would try them, so `re.match` finds the first one.
-/

namespace PyDice

/-- Is the number in one of the ranges? -/
def inRanges (l : List (Nat × Nat)) (n : Nat) : Bool := l.any fun r => decide (r.1 ≤ n) && decide (n ≤ r.2)

/-- `\d`. -/
def isDigit (c : Char) : Bool :=
  (decide (48 ≤ c.toNat) && decide (c.toNat ≤ 57)) ||
    (decide (128 ≤ c.toNat) && uniZeros.any fun z => decide (z ≤ c.toNat) && decide (c.toNat ≤ z + 9))

/-- `\s` (space, tab, newline, vertical tab, form feed, carriage return, the separators `\x1c`-`\x1f`, and those beyond ASCII). -/
def isSpace (c : Char) : Bool :=
  c.toNat == 32 || (decide (9 ≤ c.toNat) && decide (c.toNat ≤ 13)) || (decide (28 ≤ c.toNat) && decide (c.toNat ≤ 31)) ||
    (decide (128 ≤ c.toNat) && inRanges uniSpaces c.toNat)

/-- `\w`. -/
def isWord (c : Char) : Bool :=
  isDigit c || (decide (97 ≤ c.toNat) && decide (c.toNat ≤ 122)) || (decide (65 ≤ c.toNat) && decide (c.toNat ≤ 90)) ||
    c == '_' || (decide (128 ≤ c.toNat) && inRanges uniWords c.toNat)

/-- A position in the subject: the characters before it (nearest first) and after it. -/
structure Pos where
  before : List Char
  after : List Char
  deriving DecidableEq

/-- The constructs used in `src/syntax/*.py`, `dice_expression_helper.py` and `python_dice_lexer.py:15`. -/
inductive Re where
  | eps
  /-- one character of a class -/
  | cls (p : Char → Bool)
  | seq (r s : Re)
  /-- `r|s` -/
  | alt (r s : Re)
  /-- `r*` (greedy) -/
  | star (r : Re)
  /-- `r?` (greedy) -/
  | opt (r : Re)
  /-- `(?!r)` -/
  | notAhead (r : Re)
  /-- `(?<!w)` for literal text `w` -/
  | notBehind (w : List Char)
  /-- `\b` -/
  | wordB

namespace Re

/-- One literal character. -/
def chr (c : Char) : Re := .cls (fun d => d == c)

/-- Literal text. -/
def lit : List Char → Re
  | [] => .eps
  | [c] => chr c
  | c :: cs => .seq (chr c) (lit cs)

/-- `r+` (greedy). -/
def plus (r : Re) : Re := .seq r (.star r)

/-- `\d`. -/
def digit : Re := .cls isDigit
/-- `\s`. -/
def space : Re := .cls isSpace

/-- Is there a word boundary here? -/
def atWordB (p : Pos) : Bool :=
  let b := match p.before with | [] => false | c :: _ => isWord c
  let a := match p.after with | [] => false | c :: _ => isWord c
  b != a

/-- Greedy repetition of a one-step matcher; a step that consumes nothing is not repeated.  The fuel is the number of
    characters left, plus one. -/
def starN (m : Pos → List Pos) : Nat → Pos → List Pos
  | 0, p => [p]
  | n + 1, p => ((m p).filter fun q => decide (q.after.length < p.after.length)).flatMap (starN m n) ++ [p]

/-- The ends of all ways to match at a position, in backtracking order. -/
def matchesAt : Re → Pos → List Pos
  | .eps, p => [p]
  | .cls c, p => match p.after with
    | [] => []
    | x :: xs => if c x then [⟨x :: p.before, xs⟩] else []
  | .seq r s, p => (matchesAt r p).flatMap (matchesAt s)
  | .alt r s, p => matchesAt r p ++ matchesAt s p
  | .star r, p => starN (matchesAt r) p.after.length p
  | .opt r, p => matchesAt r p ++ [p]
  | .notAhead r, p => if (matchesAt r p).isEmpty then [p] else []
  | .notBehind w, p => if w.reverse.isPrefixOf p.before then [] else [p]
  | .wordB, p => if atWordB p then [p] else []

/-- `re.match(pattern, string, pos)`: where the match ends. -/
def matchAt (r : Re) (p : Pos) : Option Pos := (matchesAt r p).head?

/-- `re.match(pattern, string) is not None`. -/
def isMatch (r : Re) (s : List Char) : Bool := (matchAt r ⟨[], s⟩).isSome

end Re

end PyDice
