import Verif.Lexer
import Verif.Spec.Notation
/-!
# What the tokens of the language look like, without regular expressions

`Matches t b w v`: with the characters `b` (nearest first) before and `v` after it, the text `w` is what rule `t` matches.
-/

namespace PyDice
namespace LexSpec

/-- The next character is a letter, digit or underscore (for `b`: the one before). -/
def WordNext : Str → Prop
  | [] => False
  | c :: _ => isWord c = true

/-- The next character is a digit. -/
def DigitNext : Str → Prop
  | [] => False
  | c :: _ => isDigit c = true

instance (v : Str) : Decidable (WordNext v) := by cases v <;> unfold WordNext <;> infer_instance
instance (v : Str) : Decidable (DigitNext v) := by cases v <;> unfold DigitNext <;> infer_instance

/-- Nothing but digits. -/
def Digits (w : Str) : Prop := ∀ c ∈ w, isDigit c = true

/-- Nothing but whitespace. -/
def Blank (w : Str) : Prop := ∀ c ∈ w, isSpace c = true

/-- An entry of a custom die with whitespace around it. -/
def Padded (x : Str) : Prop := ∃ (u : Str) (e : Entry) (v : Str), x = u ++ e.text ++ v ∧ Blank u ∧ e.WF ∧ Blank v

/-- A custom die: entries between brackets, separated by commas, whitespace anywhere between, possibly a comma at the end. -/
def Custom (w : Str) : Prop := ∃ (xs : List Str) (tail : Str), xs ≠ [] ∧ (∀ x ∈ xs, Padded x) ∧
  (tail = [] ∨ ∃ u, tail = ',' :: u ∧ Blank u) ∧ w = '[' :: (joinWith ',' xs ++ tail ++ [']'])

/-- The part of a dice term after the `d`; a number must not be cut short. -/
def DiceType (w v : Str) : Prop :=
  (w ≠ [] ∧ Digits w ∧ ¬ DigitNext v) ∨ w = ['%'] ∨ w = ['F'] ∨ Custom w

/-- A character of a variable name. -/
def NameLetter (c : Char) : Prop := c = '_' ∨ ('a'.toNat ≤ c.toNat ∧ c.toNat ≤ 'z'.toNat)

/-- A word standing alone. -/
def Keyword (k b w v : Str) : Prop := w = k ∧ ¬ WordNext b ∧ ¬ WordNext v

/-- What each rule matches. -/
def Matches : TokType → Str → Str → Str → Prop
  | .openP, _, w, _ => w = ['(']
  | .closeP, _, w, _ => w = [')']
  | .comma, _, w, _ => w = [',']
  | .not, _, w, v => w = ['!'] ∧ v.head? ≠ some '='
  | .dropKeep, _, w, v => ∃ n ty k m, w = n ++ 'd' :: ty ++ k :: m ∧ Digits n ∧ DiceType ty (k :: m ++ v) ∧ (k = 'k' ∨ k = 'd') ∧
      m ≠ [] ∧ Digits m ∧ ¬ DigitNext v
  | .dice, _, w, v => ∃ n ty, w = n ++ 'd' :: ty ∧ Digits n ∧ DiceType ty v
  | .binop, b, w, v => w = ['=', '='] ∨ w = ['!', '='] ∨ w = ['<', '='] ∨ w = ['>', '='] ∨ (w = ['<'] ∧ v.head? ≠ some '=') ∨
      (w = ['>'] ∧ v.head? ≠ some '=') ∨ Keyword ['A', 'N', 'D'] b w v ∨ Keyword ['O', 'R'] b w v
  | .constInt, _, w, v => (∃ n : Num, n.WF ∧ w = n.text) ∧ ¬ DigitNext v
  | .constBin, b, w, v => Keyword ['T', 'r', 'u', 'e'] b w v ∨ Keyword ['F', 'a', 'l', 's', 'e'] b w v
  | .add, _, w, _ => w = ['+']
  | .sub, _, w, _ => w = ['-']
  | .mul, _, w, _ => w = ['*']
  | .div, _, w, _ => w = ['/', '/']
  | .minmax, b, w, v => Keyword ['M', 'A', 'X'] b w v ∨ Keyword ['M', 'I', 'N'] b w v
  | .abs, b, w, v => Keyword ['A', 'B', 'S'] b w v
  | .assign, b, w, v => w = ['='] ∧ v.head? ≠ some '=' ∧ b.head? ≠ some '='
  | .var, b, w, v => Keyword ['V', 'A', 'R'] b w v
  | .name, b, w, v => w ≠ [] ∧ (∀ c ∈ w, NameLetter c) ∧ ¬ WordNext b ∧ ¬ WordNext v

/-- The rank of a rule. -/
def rank : TokType → Nat
  | .openP => 0 | .closeP => 1 | .comma => 2 | .not => 3 | .dropKeep => 4 | .dice => 5 | .binop => 6 | .constInt => 7
  | .constBin => 8 | .add => 9 | .sub => 10 | .mul => 11 | .div => 12 | .minmax => 13 | .abs => 14 | .assign => 15 | .var => 16
  | .name => 17

/-- Rule `t` matches something at the position. -/
def Applies (t : TokType) (b s : Str) : Prop := ∃ w v, s = w ++ v ∧ Matches t b w v

/-- `w` is the match of the first rule that matches at the position. -/
def Best (t : TokType) (b w v : Str) : Prop := Matches t b w v ∧ ∀ t', rank t' < rank t → ¬ Applies t' b (w ++ v)

/-- The text from here does not begin with whitespace. -/
def Solid : Str → Prop
  | [] => True
  | c :: _ => isSpace c = false

/-- `Lexed b s ts`: after the characters `b`, the text `s` is read as the tokens `ts`, with whitespace between them. -/
inductive Lexed : Str → Str → List Token → Prop where
  | done {b s : Str} (h : Blank s) : Lexed b s []
  | token {b u w v : Str} {t : TokType} {ts : List Token} (hu : Blank u) (hs : Solid (w ++ v)) (hne : w ≠ [])
      (ht : Best t (u.reverse ++ b) w v) (rest : Lexed (w.reverse ++ (u.reverse ++ b)) v ts) :
      Lexed b (u ++ (w ++ v)) (⟨t, w, b.length + u.length⟩ :: ts)

/-- `Stuck b s i`: after the characters `b`, reading the text `s` as tokens and whitespace gets stuck at index `i`: the character
    there is not whitespace and no rule matches. -/
inductive Stuck : Str → Str → Nat → Prop where
  | here {b u : Str} {c : Char} {v : Str} (hu : Blank u) (hc : isSpace c = false)
      (h : ∀ t, ¬ Applies t (u.reverse ++ b) (c :: v)) : Stuck b (u ++ c :: v) (b.length + u.length)
  | later {b u w v : Str} {t : TokType} {i : Nat} (hu : Blank u) (hs : Solid (w ++ v)) (hne : w ≠ [])
      (ht : Best t (u.reverse ++ b) w v) (rest : Stuck (w.reverse ++ (u.reverse ++ b)) v i) :
      Stuck b (u ++ (w ++ v)) i

/-- `Spells i s ts`: the text `s`, which begins at index `i`, is spelled by the texts of the tokens `ts` in order, each at its index,
    and whitespace between them and around them. -/
def Spells : Nat → Str → List Token → Prop
  | _, s, [] => Blank s
  | i, s, t :: ts => ∃ u v, s = u ++ (t.text ++ v) ∧ Blank u ∧ t.idx = i + u.length ∧ Spells (t.idx + t.text.length) v ts

/-- `line` is the whole line that begins at index `start` of the text. -/
def LineAt (text line : Str) (start : Nat) : Prop := ∃ pre post, text = pre ++ (line ++ post) ∧ pre.length = start ∧ '\n' ∉ line ∧
  (pre = [] ∨ ∃ pre', pre = pre' ++ ['\n']) ∧ (post = [] ∨ ∃ post', post = '\n' :: post')

end LexSpec
end PyDice
