import Verif.Parser
/-!
# Look-ahead sets of an LR parser

The textbook definition, as a relation: which terminals can come after an item in a state.  A state stands for all the ways it is
entered, so these are the LALR(1) sets.
-/

namespace PyDice

/-- A terminal with which a text derived from a symbol can begin. -/
inductive Begins : Sym → Sym → Prop
  | terminal (s : Sym) : s.isTerminal = true → Begins s s
  | production (p : Production) (s t : Sym) : p ∈ productions → p.rhs.head? = some s → Begins s t → Begins p.lhs t

/-- `LookAhead q i a`: in state `q` what item `i` describes can be followed by `a`.  (No production is empty.) -/
inductive LookAhead : Nat → Item → Sym → Prop
  /-- the end of the text follows the whole text -/
  | start : LookAhead 0 ⟨0, 0⟩ .eof
  /-- the dot is before a nonterminal that is the last symbol: what follows the production follows the nonterminal -/
  | last (q : Nat) (i : Item) (a : Sym) (p p' : Production) (n : Nat) : LookAhead q i a → productions[i.prod]? = some p →
      productions[n]? = some p' → p.rhs[i.dot]? = some p'.lhs → p.rhs[i.dot + 1]? = none → LookAhead q ⟨n, 0⟩ a
  /-- the dot is before a nonterminal with a symbol after it: with what that symbol begins -/
  | inner (q : Nat) (i : Item) (a b s : Sym) (p p' : Production) (n : Nat) : LookAhead q i a → productions[i.prod]? = some p →
      productions[n]? = some p' → p.rhs[i.dot]? = some p'.lhs → p.rhs[i.dot + 1]? = some s → Begins s b → LookAhead q ⟨n, 0⟩ b
  /-- moving the dot over a symbol keeps what follows the production -/
  | goto (q q' : Nat) (i : Item) (a s : Sym) (set : List Item) : LookAhead q i a → i.next = some s → itemSets[q]? = some set →
      itemSets[q']? = some (gotoSet set s) → LookAhead q' ⟨i.prod, i.dot + 1⟩ a

end PyDice
