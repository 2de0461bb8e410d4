import Verif.Spec.Parser
/-!
# The layout of a text: where the whitespace is
-/

namespace PyDice
namespace LexSpec

/-- Nothing follows, or whitespace does. -/
def Gap (s : Str) : Prop := s = [] ∨ ∃ c r, s = c :: r ∧ isSpace c = true

/-- `Spaced ws s`: the text `s` is the words `ws` in order, with some whitespace after each word but the last, and any amount of
    whitespace around them. -/
def Spaced : List Str → Str → Prop
  | [], s => Blank s
  | w :: ws, s => ∃ u v, s = u ++ (w ++ v) ∧ Blank u ∧ Gap v ∧ Spaced ws v

end LexSpec
end PyDice
