import Verif.Spec.Parser
/-!
# How far a sequence of tokens can be read, by the grammar alone
-/

namespace PyDice
namespace ParseSpec

/-- The tokens are the beginning of the tokens of some expression. -/
def CanBegin (ts : List Token) : Prop := ∃ us e, Derives (ts ++ us) e

/-- After the tokens some token of the type can stand. -/
def CanFollow (ts : List Token) (ty : TokType) : Prop := ∃ t, t.type = ty ∧ CanBegin (ts ++ [t])

/-- The tokens are `c`, then `t`, then others, where `c` can be read and nothing of the type of `t` can come after it. -/
def FirstMisplaced (ts c : List Token) (t : Token) : Prop := (∃ i, ts = c ++ t :: i) ∧ CanBegin c ∧ ¬ CanFollow c t.type

/-- The tokens can be read to their end, but are not a whole expression. -/
def Incomplete (ts : List Token) : Prop := CanBegin ts ∧ ∀ e, ¬ Derives ts e

/-- A dice token from whose text no die can be made. -/
def Unreadable (t : Token) : Prop :=
  (t.type = .dice ∧ mkDice t.text = .error .value) ∨ (t.type = .dropKeep ∧ mkDropKeep t.text = .error .value)

/-- The tokens are `c`, then `t`, then others, where `c` can be read and a die can stand after it, but `t` cannot be read. -/
def FirstUnreadable (ts c : List Token) (t : Token) : Prop :=
  (∃ i, ts = c ++ t :: i) ∧ CanBegin c ∧ CanFollow c t.type ∧ Unreadable t

end ParseSpec
end PyDice
