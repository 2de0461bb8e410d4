import Verif.Lexer
import Verif.Expr
/-!
# `src/python_dice_parser.py` with the grammar of `src/expression/*.py` and `src/python_dice_syntax_objects.py:60-98`

The parser itself is generated by rply, which is not part of the repository.  It is modelled from its documented behaviour
(`rply/parsergenerator.py`, `rply/parser.py`): the LR(0) item sets of the grammar, shift/reduce conflicts settled by the
precedences, default reductions, and the driver loop over a stack of states.  Nothing of the resulting table is written down by
hand; it is computed from the productions and precedences below.

Simplifications: the look-ahead sets are taken to be the FOLLOW sets; that these are the LALR(1) sets rply computes is proved
(`C38_lookahead`).  Of rply's errors only the class is kept (`error_handler` raises a
`ValueError`, `python_dice_parser.py:48-52`).
-/

namespace PyDice

/-! ### The grammar -/

/-- Terminals and nonterminals. -/
inductive Sym where
  | tok (t : TokType)
  /-- `$end` -/
  | eof
  | expr
  /-- rply's start symbol `S'` -/
  | start
  deriving DecidableEq, Repr

/-- A production. -/
structure Production where
  lhs : Sym
  rhs : List Sym
  deriving DecidableEq, Repr

/-- Production 0 is rply's `S' : expression`; the others come from `PARSER_EXPRESSIONS` (`python_dice_syntax_objects.py:60-76`) in
    that order, each with the rule string of its class (`RULE` / `TOKEN_RULE`): `parentheses_enclosed_expression.py:13`,
    `not_expression.py:14`, `drop_keep_expression.py:18`, `dice_expression.py:15`, `constant_integer_expression.py:13`,
    `constant_binary_expression.py:13`, `add_expression.py:13`, `subtract_expression.py:13`, `multiply_expression.py:13`,
    `integer_division_expression.py:13`, `binary_operator_expression.py:26`, `minmax_expression.py:13`, `abs_expression.py:13`,
    `var_assignment_expression.py:14`, `get_var_expression.py:16`. -/
def productions : List Production :=
  [⟨.start, [.expr]⟩,
   ⟨.expr, [.tok .openP, .expr, .tok .closeP]⟩,
   ⟨.expr, [.tok .not, .expr]⟩,
   ⟨.expr, [.tok .dropKeep]⟩,
   ⟨.expr, [.tok .dice]⟩,
   ⟨.expr, [.tok .constInt]⟩,
   ⟨.expr, [.tok .constBin]⟩,
   ⟨.expr, [.expr, .tok .add, .expr]⟩,
   ⟨.expr, [.expr, .tok .sub, .expr]⟩,
   ⟨.expr, [.expr, .tok .mul, .expr]⟩,
   ⟨.expr, [.expr, .tok .div, .expr]⟩,
   ⟨.expr, [.expr, .tok .binop, .expr]⟩,
   ⟨.expr, [.tok .minmax, .tok .openP, .expr, .tok .comma, .expr, .tok .closeP]⟩,
   ⟨.expr, [.tok .abs, .tok .openP, .expr, .tok .closeP]⟩,
   ⟨.expr, [.tok .var, .tok .name, .tok .assign, .expr]⟩,
   ⟨.expr, [.tok .name]⟩]

/-- How rply settles a conflict between equal precedences. -/
inductive Assoc where
  | left | right | nonassoc
  deriving DecidableEq, Repr

/-- `PRECEDENCE` (`python_dice_syntax_objects.py:78-98`), loosest first. -/
def precedence : List (Assoc × List TokType) :=
  [(.nonassoc, [.var]), (.left, [.assign]), (.left, [.openP]), (.left, [.not]), (.left, [.add, .sub]), (.left, [.div, .mul]),
   (.left, [.binop])]

/-- The precedence of a terminal; rply's default is `("right", 0)`. -/
def symPrec (s : Sym) : Assoc × Nat :=
  match precedence.findIdx? (fun l => l.2.any fun t => decide (Sym.tok t = s)) with
  | some i => (((precedence[i]?).map Prod.fst).getD .right, i + 1)
  | none => (.right, 0)

/-- A terminal. -/
def Sym.isTerminal : Sym → Bool
  | .tok _ => true
  | .eof => true
  | _ => false

/-- The precedence of a production: that of its rightmost terminal. -/
def prodPrec (p : Production) : Assoc × Nat :=
  match p.rhs.reverse.find? Sym.isTerminal with
  | some s => symPrec s
  | none => (.right, 0)

/-! ### The table -/

/-- An item: a production and the position of the dot. -/
structure Item where
  prod : Nat
  dot : Nat
  deriving DecidableEq, Repr

/-- The symbol after the dot. -/
def Item.next (i : Item) : Option Sym := (productions[i.prod]?).bind fun p => p.rhs[i.dot]?

/-- The items of all productions of a nonterminal, with the dot in front. -/
def startItems (s : Sym) : List Item :=
  (List.range productions.length).filterMap fun i =>
    if (productions[i]?).any fun p => decide (p.lhs = s) then some ⟨i, 0⟩ else none

/-- `lr0_closure`: the kernel followed by the items of every nonterminal after a dot.  (The grammar has one nonterminal besides the
    start symbol, so one round suffices.) -/
def closure (kernel : List Item) : List Item :=
  if kernel.any fun i => decide (i.next = some .expr) then kernel ++ (startItems .expr).filter (fun i => !kernel.contains i) else kernel

/-- `lr0_goto`. -/
def gotoSet (items : List Item) (s : Sym) : List Item :=
  closure (items.filterMap fun i => if i.next = some s then some ⟨i.prod, i.dot + 1⟩ else none)

/-- All grammar symbols. -/
def allSyms : List Sym :=
  .expr :: ([.openP, .closeP, .comma, .not, .dropKeep, .dice, .binop, .constInt, .constBin, .add, .sub, .mul, .div, .minmax, .abs,
    .assign, .var, .name] : List TokType).map .tok

/-- One round of `lr0_items`: add the sets reachable in one step from those not yet expanded. -/
def expandSets : Nat → List (List Item) → List (List Item) → List (List Item)
  | 0, known, _ => known
  | _ + 1, known, [] => known
  | n + 1, known, set :: rest =>
    let new := (allSyms.map (gotoSet set)).filter fun g => !g.isEmpty && !known.contains g
    expandSets n (known ++ new) (rest ++ new)

/-- `lr0_items`: the item sets; a state is an index in this list. -/
def itemSets : List (List Item) :=
  let first := closure [⟨0, 0⟩]
  expandSets 100 [first] [first]

/-- The terminals that can follow an expression. -/
def follow : List Sym :=
  .eof :: productions.flatMap fun p =>
    (p.rhs.zip p.rhs.tail).filterMap fun (a, b) => if a = .expr then some b else none

/-- What a state does. -/
inductive Act where
  | shift (q : Nat)
  | reduce (p : Nat)
  | accept
  deriving DecidableEq, Repr

/-- One item's contribution to the action of a state on a terminal, with the conflict rules of `LRTable.from_grammar`: an existing
    reduction gives way to a shift of higher precedence (or equal and right-associative); an existing shift gives way to a reduction
    if the precedence of the shifted production is below that of the terminal, or equal and left-associative (this case does not
    occur here: the complete item always comes first); of two reductions the earlier production wins. -/
def addAction (sets : List (List Item)) (set : List Item) (a : Sym) (cur : Option (Act × Nat)) (i : Item) : Option (Act × Nat) :=
  match i.next with
  | none =>
    if i.prod = 0 then (if a = .eof then some (.accept, 0) else cur)
    else if follow.contains a then
      match cur with
      | some (.shift q, sp) =>
        let (_, slevel) := ((productions[sp]?).map prodPrec).getD (.right, 0)
        let (rassoc, rlevel) := symPrec a
        if slevel < rlevel ∨ (slevel = rlevel ∧ rassoc = .left) then some (.reduce i.prod, i.prod) else some (.shift q, sp)
      | some (.reduce p, rp) => if i.prod < p then some (.reduce i.prod, i.prod) else some (.reduce p, rp)
      | some (.accept, n) => some (.accept, n)
      | none => some (.reduce i.prod, i.prod)
    else cur
  | some s =>
    if s = a ∧ a.isTerminal then
      let q := (sets.findIdx? (fun g => decide (g = gotoSet set a))).getD 0
      match cur with
      | some (.reduce p, rp) =>
        let (rassoc, rlevel) := ((productions[rp]?).map prodPrec).getD (.right, 0)
        let (_, slevel) := symPrec a
        if slevel > rlevel ∨ (slevel = rlevel ∧ rassoc = .right) then some (.shift q, i.prod) else some (.reduce p, rp)
      | some c => some c
      | none => some (.shift q, i.prod)
    else cur

/-- The row of a state: its actions on all terminals, where it goes with an expression, and its default reduction (the only action,
    if that is a reduction). -/
structure Row where
  actions : List (Sym × Act)
  goto : Option Nat
  default : Option Nat
  deriving DecidableEq, Repr

/-- The row of an item set. -/
def makeRow (sets : List (List Item)) (set : List Item) : Row :=
  let acts := (.eof :: allSyms.filter Sym.isTerminal).filterMap fun a =>
    ((set.foldl (addAction sets set a) none).map fun r => (a, r.1))
  let g := gotoSet set .expr
  { actions := acts
    goto := if g.isEmpty then none else sets.findIdx? (fun x => decide (x = g))
    default := match acts with
      | (_, .reduce p) :: rest => if rest.all (fun r => decide (r.2 = .reduce p)) then some p else none
      | _ => none }

/-- The whole table. -/
abbrev Table := List Row

/-- `LRTable.from_grammar`. -/
def lrTable : Table := itemSets.map (makeRow itemSets)

/-! ### The production functions -/

/-- What is on the symbol stack. -/
inductive Val where
  | tok (t : Token)
  | expr (e : Expr)
  deriving DecidableEq

/-- The operator with a given text (`BinaryOperatorExpression.OPERATOR_MAP`, `binary_operator_expression.py:27-36`). -/
def cmpOf (text : Str) : Option CmpOp :=
  if text = ['=', '='] then some .eq else if text = ['!', '='] then some .ne else if text = ['<', '='] then some .le
  else if text = ['<'] then some .lt else if text = ['>', '='] then some .ge else if text = ['>'] then some .gt
  else if text = ['A', 'N', 'D'] then some .and else if text = ['O', 'R'] then some .or else none

/-- `MinMaxExpression.OPERATOR_MAP` (`minmax_expression.py:14`). -/
def minmaxOf (text : Str) : Option Bool :=
  if text = ['M', 'A', 'X'] then some true else if text = ['M', 'I', 'N'] then some false else none

/-- The production functions (`add_production_function` of each class), by production number.  Simplification: an operator text
    outside `OPERATOR_MAP`, which the lexer cannot deliver, fails here and not when the expression is evaluated. -/
def build : Nat → List Val → Res Expr
  | 1, [.tok _, .expr e, .tok _] => .ok (.paren e)
  | 2, [.tok _, .expr e] => .ok (.not e)
  | 3, [.tok t] => do return .dropKeep (← mkDropKeep t.text)
  | 4, [.tok t] => do return .dice (← mkDice t.text)
  | 5, [.tok t] => .ok (.constInt t.text)
  | 6, [.tok t] => .ok (.constBin t.text)
  | 7, [.expr a, .tok _, .expr b] => .ok (.add a b)
  | 8, [.expr a, .tok _, .expr b] => .ok (.sub a b)
  | 9, [.expr a, .tok _, .expr b] => .ok (.mul a b)
  | 10, [.expr a, .tok _, .expr b] => .ok (.div a b)
  | 11, [.expr a, .tok t, .expr b] => match cmpOf t.text with
    | some op => .ok (.bin op a b)
    | none => .error .key
  | 12, [.tok t, .tok _, .expr a, .tok _, .expr b, .tok _] => match minmaxOf t.text with
    | some k => .ok (.minmax k a b)
    | none => .error .key
  | 13, [.tok _, .tok _, .expr e, .tok _] => .ok (.abs e)
  | 14, [.tok _, .tok t, .tok _, .expr e] => .ok (.assign t.text e)
  | 15, [.tok t] => .ok (.getVar t.text)
  | _, _ => .error .type

/-! ### The driver -/

/-- The stacks (symbols with the state entered after them, top first; below lies state 0) and the tokens not yet read. -/
structure Config where
  stack : List (Nat × Val)
  input : List Token

/-- The current state. -/
def topState : List (Nat × Val) → Nat
  | [] => 0
  | (q, _) :: _ => q

/-- One turn of the driver loop: it goes on, ends with an expression or raises. -/
inductive Turn where
  | next (c : Config)
  | done (e : Expr)
  | fail (err : Err)

/-- The row of a state. -/
def Table.row (tb : Table) (q : Nat) : Row := (tb[q]?).getD ⟨[], none, none⟩

/-- `LRParser._reduce_production`. -/
def reduceBy (tb : Table) (p : Nat) (c : Config) : Turn :=
  let n := ((productions[p]?).map fun x => x.rhs.length).getD 0
  let rest := c.stack.drop n
  match build p ((c.stack.take n).reverse.map Prod.snd) with
  | .error err => .fail err
  | .ok e => match (tb.row (topState rest)).goto with
    | some q => .next ⟨(q, .expr e) :: rest, c.input⟩
    | none => .fail .key

/-- The look-ahead: the type of the next token, or `$end`. -/
def lookahead (input : List Token) : Sym :=
  match input with
  | [] => .eof
  | t :: _ => .tok t.type

/-- The action of a row on a symbol. -/
def Row.act (r : Row) (s : Sym) : Option Act := (r.actions.find? fun a => decide (a.1 = s)).map Prod.snd

/-- One turn of the loop of `LRParser.parse`. -/
def turn (tb : Table) (c : Config) : Turn :=
  let row := tb.row (topState c.stack)
  match row.default with
  | some p => reduceBy tb p c
  | none => match row.act (lookahead c.input) with
    | some (.shift q) => match c.input with
      | t :: ts => .next ⟨(q, .tok t) :: c.stack, ts⟩
      | [] => .fail .type
    | some (.reduce p) => reduceBy tb p c
    | some .accept => match c.stack with
      | (_, .expr e) :: _ => .done e
      | _ => .fail .type
    | none => .fail .value

/-- The loop of `LRParser.parse`, with fuel. -/
def drive (tb : Table) : Nat → Config → Res Expr
  | 0, _ => .error .diverges
  | n + 1, c => match turn tb c with
    | .next c' => drive tb n c'
    | .done e => .ok e
    | .fail err => .error err

/-- rply's parser on a list of tokens (`parseTokens_ends`: the fuel is never used up). -/
def parseTokens (ts : List Token) : Res Expr := drive lrTable (3 * ts.length + 1) ⟨[], ts⟩

/-- `PythonDiceParser.parse` (`python_dice_parser.py:57-65`): the whole text is lexed first. -/
def parse (text : Str) : Res Expr :=
  match lex text with
  | .ok ts => parseTokens ts
  | .error (.valueError _) => .error .value
  | .error .indexError => .error .index
  | .error .diverges => .error .diverges

end PyDice
