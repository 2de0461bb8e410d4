import Verif.Parser
import Verif.Spec.Lexer
/-!
# The grammar of the language and how operators group, without a parsing table
-/

namespace PyDice
namespace ParseSpec

/-- `Derives ts e`: the tokens `ts` spell the expression tree `e` (grouping not considered). -/
inductive Derives : List Token → Expr → Prop where
  | paren {ts : List Token} {e : Expr} (o c : Token) (ho : o.type = .openP) (hc : c.type = .closeP) (h : Derives ts e) :
      Derives ([o] ++ ts ++ [c]) (.paren e)
  | not {ts : List Token} {e : Expr} (n : Token) (hn : n.type = .not) (h : Derives ts e) : Derives ([n] ++ ts) (.not e)
  | dropKeep (t : Token) (d : DropKeepTerm) (ht : t.type = .dropKeep) (h : mkDropKeep t.text = .ok d) : Derives [t] (.dropKeep d)
  | dice (t : Token) (d : DiceTerm) (ht : t.type = .dice) (h : mkDice t.text = .ok d) : Derives [t] (.dice d)
  | constInt (t : Token) (ht : t.type = .constInt) : Derives [t] (.constInt t.text)
  | constBin (t : Token) (ht : t.type = .constBin) : Derives [t] (.constBin t.text)
  | add {ts us : List Token} {a b : Expr} (o : Token) (ho : o.type = .add) (ha : Derives ts a) (hb : Derives us b) :
      Derives (ts ++ [o] ++ us) (.add a b)
  | sub {ts us : List Token} {a b : Expr} (o : Token) (ho : o.type = .sub) (ha : Derives ts a) (hb : Derives us b) :
      Derives (ts ++ [o] ++ us) (.sub a b)
  | mul {ts us : List Token} {a b : Expr} (o : Token) (ho : o.type = .mul) (ha : Derives ts a) (hb : Derives us b) :
      Derives (ts ++ [o] ++ us) (.mul a b)
  | div {ts us : List Token} {a b : Expr} (o : Token) (ho : o.type = .div) (ha : Derives ts a) (hb : Derives us b) :
      Derives (ts ++ [o] ++ us) (.div a b)
  | bin {ts us : List Token} {a b : Expr} (o : Token) (op : CmpOp) (ho : o.type = .binop) (hop : o.text = op.text) (ha : Derives ts a)
      (hb : Derives us b) : Derives (ts ++ [o] ++ us) (.bin op a b)
  | minmax {ts us : List Token} {a b : Expr} (m o k c : Token) (isMax : Bool) (hm : m.type = .minmax)
      (hmt : m.text = if isMax then ['M', 'A', 'X'] else ['M', 'I', 'N']) (ho : o.type = .openP) (hk : k.type = .comma)
      (hc : c.type = .closeP) (ha : Derives ts a) (hb : Derives us b) :
      Derives ([m, o] ++ ts ++ [k] ++ us ++ [c]) (.minmax isMax a b)
  | abs {ts : List Token} {e : Expr} (m o c : Token) (hm : m.type = .abs) (ho : o.type = .openP) (hc : c.type = .closeP)
      (h : Derives ts e) : Derives ([m, o] ++ ts ++ [c]) (.abs e)
  | assign {ts : List Token} {e : Expr} (v n a : Token) (hv : v.type = .var) (hn : n.type = .name) (ha : a.type = .assign)
      (h : Derives ts e) : Derives ([v, n, a] ++ ts) (.assign n.text e)
  | getVar (t : Token) (ht : t.type = .name) : Derives [t] (.getVar t.text)

/-- How tightly a construct holds its operands: `VAR name =` loosest, then `!`, then `+` and `-`, then `*` and `//`, then the
    comparisons and `AND`, `OR`. -/
def assignLevel : Nat := 1
/-- See `assignLevel`. -/
def notLevel : Nat := 2
/-- See `assignLevel`. -/
def addLevel : Nat := 3
/-- See `assignLevel`. -/
def mulLevel : Nat := 4
/-- See `assignLevel`. -/
def cmpLevel : Nat := 5

/-- The levels of the constructs that are open on the right: whose last operand ends where the expression ends. -/
def rightEdge : Expr → List Nat
  | .not e => notLevel :: rightEdge e
  | .assign _ e => assignLevel :: rightEdge e
  | .add _ b => addLevel :: rightEdge b
  | .sub _ b => addLevel :: rightEdge b
  | .mul _ b => mulLevel :: rightEdge b
  | .div _ b => mulLevel :: rightEdge b
  | .bin _ _ b => cmpLevel :: rightEdge b
  | _ => []

/-- The levels of the operators that are open on the left: whose first operand begins where the expression begins. -/
def leftEdge : Expr → List Nat
  | .add a _ => addLevel :: leftEdge a
  | .sub a _ => addLevel :: leftEdge a
  | .mul a _ => mulLevel :: leftEdge a
  | .div a _ => mulLevel :: leftEdge a
  | .bin _ a _ => cmpLevel :: leftEdge a
  | _ => []

/-- The operands of an operator of level `n`: what is open towards the operator on the left holds at least as tightly (so equal
    operators group to the left, and `!` and `VAR` extend as far as they can), what is open towards it on the right more tightly. -/
def Operands (n : Nat) (a b : Expr) : Prop := (∀ l ∈ rightEdge a, n ≤ l) ∧ (∀ l ∈ leftEdge b, n < l)

/-- Every operator of the tree has proper operands. -/
def Grouped : Expr → Prop
  | .paren e => Grouped e
  | .not e => Grouped e
  | .dropKeep _ => True
  | .dice _ => True
  | .constInt _ => True
  | .constBin _ => True
  | .add a b => Operands addLevel a b ∧ Grouped a ∧ Grouped b
  | .sub a b => Operands addLevel a b ∧ Grouped a ∧ Grouped b
  | .mul a b => Operands mulLevel a b ∧ Grouped a ∧ Grouped b
  | .div a b => Operands mulLevel a b ∧ Grouped a ∧ Grouped b
  | .bin _ a b => Operands cmpLevel a b ∧ Grouped a ∧ Grouped b
  | .minmax _ a b => Grouped a ∧ Grouped b
  | .abs e => Grouped e
  | .assign _ e => Grouped e
  | .getVar _ => True

/-- The binary operators by the type of their token, with their levels. -/
inductive Joins : Token → Nat → (Expr → Expr → Expr) → Prop where
  | add (t : Token) (h : t.type = .add) : Joins t 3 .add
  | sub (t : Token) (h : t.type = .sub) : Joins t 3 .sub
  | mul (t : Token) (h : t.type = .mul) : Joins t 4 .mul
  | div (t : Token) (h : t.type = .div) : Joins t 4 .div
  | cmp (t : Token) (op : CmpOp) (h : t.type = .binop) (ht : t.text = op.text) : Joins t 5 (.bin op)

/-- An operand that neither neighbour can reach into: a die, a constant, a variable or something in brackets. -/
def Atom (ts : List Token) (e : Expr) : Prop := Derives ts e ∧ Grouped e ∧ rightEdge e = [] ∧ leftEdge e = []

end ParseSpec
end PyDice
