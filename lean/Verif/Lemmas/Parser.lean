import Verif.Spec.Parser
/-!
# The parser accepts exactly the grouped derivations
-/

namespace PyDice
open ParseSpec

/-! ### The table, spelt out -/

namespace PTable

/-- The actions of a state that expects an expression. -/
def begins : List (Sym × Act) :=
  [(.tok .openP, .shift 2), (.tok .not, .shift 3), (.tok .dropKeep, .shift 4), (.tok .dice, .shift 5), (.tok .constInt, .shift 6),
   (.tok .constBin, .shift 7), (.tok .minmax, .shift 8), (.tok .abs, .shift 9), (.tok .var, .shift 10), (.tok .name, .shift 11)]

/-- The actions of a state with a finished production. -/
def always (p : Nat) : List (Sym × Act) :=
  [(.eof, .reduce p), (.tok .closeP, .reduce p), (.tok .comma, .reduce p), (.tok .binop, .reduce p), (.tok .add, .reduce p),
   (.tok .sub, .reduce p), (.tok .mul, .reduce p), (.tok .div, .reduce p)]

/-- The rows of `lrTable`. -/
def rows : Table :=
  [
   ⟨begins, some 1, none⟩,
   ⟨[(.eof, .accept), (.tok .binop, .shift 12), (.tok .add, .shift 13), (.tok .sub, .shift 14),
     (.tok .mul, .shift 15), (.tok .div, .shift 16)], none, none⟩,
   ⟨begins, some 17, none⟩,
   ⟨begins, some 18, none⟩,
   ⟨always 3, none, some 3⟩,
   ⟨always 4, none, some 4⟩,
   ⟨always 5, none, some 5⟩,
   ⟨always 6, none, some 6⟩,
   ⟨[(.tok .openP, .shift 19)], none, none⟩,
   ⟨[(.tok .openP, .shift 20)], none, none⟩,
   ⟨[(.tok .name, .shift 21)], none, none⟩,
   ⟨always 15, none, some 15⟩,
   ⟨begins, some 22, none⟩,
   ⟨begins, some 23, none⟩,
   ⟨begins, some 24, none⟩,
   ⟨begins, some 25, none⟩,
   ⟨begins, some 26, none⟩,
   ⟨[(.tok .closeP, .shift 27), (.tok .binop, .shift 12), (.tok .add, .shift 13), (.tok .sub, .shift 14),
     (.tok .mul, .shift 15), (.tok .div, .shift 16)], none, none⟩,
   ⟨[(.eof, .reduce 2), (.tok .closeP, .reduce 2), (.tok .comma, .reduce 2), (.tok .binop, .shift 12),
     (.tok .add, .shift 13), (.tok .sub, .shift 14), (.tok .mul, .shift 15), (.tok .div, .shift 16)], none, none⟩,
   ⟨begins, some 28, none⟩,
   ⟨begins, some 29, none⟩,
   ⟨[(.tok .assign, .shift 30)], none, none⟩,
   ⟨always 11, none, some 11⟩,
   ⟨[(.eof, .reduce 7), (.tok .closeP, .reduce 7), (.tok .comma, .reduce 7), (.tok .binop, .shift 12),
     (.tok .add, .reduce 7), (.tok .sub, .reduce 7), (.tok .mul, .shift 15), (.tok .div, .shift 16)], none, none⟩,
   ⟨[(.eof, .reduce 8), (.tok .closeP, .reduce 8), (.tok .comma, .reduce 8), (.tok .binop, .shift 12),
     (.tok .add, .reduce 8), (.tok .sub, .reduce 8), (.tok .mul, .shift 15), (.tok .div, .shift 16)], none, none⟩,
   ⟨[(.eof, .reduce 9), (.tok .closeP, .reduce 9), (.tok .comma, .reduce 9), (.tok .binop, .shift 12),
     (.tok .add, .reduce 9), (.tok .sub, .reduce 9), (.tok .mul, .reduce 9), (.tok .div, .reduce 9)], none, none⟩,
   ⟨[(.eof, .reduce 10), (.tok .closeP, .reduce 10), (.tok .comma, .reduce 10), (.tok .binop, .shift 12),
     (.tok .add, .reduce 10), (.tok .sub, .reduce 10), (.tok .mul, .reduce 10), (.tok .div, .reduce 10)], none, none⟩,
   ⟨always 1, none, some 1⟩,
   ⟨[(.tok .comma, .shift 31), (.tok .binop, .shift 12), (.tok .add, .shift 13), (.tok .sub, .shift 14),
     (.tok .mul, .shift 15), (.tok .div, .shift 16)], none, none⟩,
   ⟨[(.tok .closeP, .shift 32), (.tok .binop, .shift 12), (.tok .add, .shift 13), (.tok .sub, .shift 14),
     (.tok .mul, .shift 15), (.tok .div, .shift 16)], none, none⟩,
   ⟨begins, some 33, none⟩,
   ⟨begins, some 34, none⟩,
   ⟨always 13, none, some 13⟩,
   ⟨[(.eof, .reduce 14), (.tok .closeP, .reduce 14), (.tok .comma, .reduce 14), (.tok .binop, .shift 12),
     (.tok .add, .shift 13), (.tok .sub, .shift 14), (.tok .mul, .shift 15), (.tok .div, .shift 16)], none, none⟩,
   ⟨[(.tok .closeP, .shift 35), (.tok .binop, .shift 12), (.tok .add, .shift 13), (.tok .sub, .shift 14),
     (.tok .mul, .shift 15), (.tok .div, .shift 16)], none, none⟩,
   ⟨always 12, none, some 12⟩
  ]

set_option maxRecDepth 100000 in
theorem lrTable_eq : lrTable = rows := by decide +kernel

end PTable

/-- The binary operators. -/
inductive BOp where
  | add | sub | mul | div | cmp
  deriving DecidableEq

namespace BOp

/-- The token type. -/
def type : BOp → TokType
  | add => .add | sub => .sub | mul => .mul | div => .div | cmp => .binop

/-- The level. -/
def level : BOp → Nat
  | add => addLevel | sub => addLevel | mul => mulLevel | div => mulLevel | cmp => cmpLevel

/-- The state after the operator. -/
def state : BOp → Nat
  | add => 13 | sub => 14 | mul => 15 | div => 16 | cmp => 12

/-- The state after the second operand. -/
def got : BOp → Nat
  | add => 23 | sub => 24 | mul => 25 | div => 26 | cmp => 22

/-- The production. -/
def prod : BOp → Nat
  | add => 7 | sub => 8 | mul => 9 | div => 10 | cmp => 11

/-- The expression. -/
def expr (op : CmpOp) (a b : Expr) : BOp → Expr
  | add => .add a b | sub => .sub a b | mul => .mul a b | div => .div a b | cmp => .bin op a b

theorem rightEdge_expr (o : BOp) (op : CmpOp) (a b : Expr) : rightEdge (o.expr op a b) = o.level :: rightEdge b := by cases o <;> rfl
theorem leftEdge_expr (o : BOp) (op : CmpOp) (a b : Expr) : leftEdge (o.expr op a b) = o.level :: leftEdge a := by cases o <;> rfl
theorem grouped_expr (o : BOp) (op : CmpOp) (a b : Expr) :
    Grouped (o.expr op a b) ↔ Operands o.level a b ∧ Grouped a ∧ Grouped b := by cases o <;> rfl

theorem derives_expr {ts us : List Token} {a b : Expr} (o : BOp) (op : CmpOp) (t : Token) (ht : t.type = o.type)
    (hop : o = .cmp → t.text = op.text) (ha : Derives ts a) (hb : Derives us b) : Derives (ts ++ [t] ++ us) (o.expr op a b) := by
  cases o
  · exact .add t ht ha hb
  · exact .sub t ht ha hb
  · exact .mul t ht ha hb
  · exact .div t ht ha hb
  · exact .bin t op ht (hop rfl) ha hb

theorem type_inj {o o' : BOp} (h : o.type = o'.type) : o = o' := by cases o <;> cases o' <;> first | rfl | (exact absurd h (by decide))

end BOp

theorem cmpOf_text (op : CmpOp) : cmpOf op.text = some op := by cases op <;> decide +kernel

theorem cmpOf_some {s : Str} {op : CmpOp} (h : cmpOf s = some op) : s = op.text := by
  unfold cmpOf at h
  repeat' split at h
  all_goals (cases h; try (subst_vars; rfl))

theorem minmaxOf_text (k : Bool) : minmaxOf (if k then ['M', 'A', 'X'] else ['M', 'I', 'N']) = some k := by cases k <;> decide +kernel

theorem minmaxOf_some {s : Str} {k : Bool} (h : minmaxOf s = some k) : s = if k then ['M', 'A', 'X'] else ['M', 'I', 'N'] := by
  unfold minmaxOf at h
  repeat' split at h
  all_goals (cases h; try (subst_vars; rfl))

/-! ### The places where an expression is expected -/

/-- Where an expression is expected. -/
inductive Place where
  | top | paren | not | bin (o : BOp) | mm1 | mm2 | abs | assign

namespace Place

/-- The state. -/
def state : Place → Nat
  | top => 0 | paren => 2 | not => 3 | bin o => o.state | mm1 => 19 | mm2 => 31 | abs => 20 | assign => 30

/-- The state after the expression. -/
def got : Place → Nat
  | top => 1 | paren => 17 | not => 18 | bin o => o.got | mm1 => 28 | mm2 => 34 | abs => 29 | assign => 33

/-- Operators of higher level continue the expression. -/
def level : Place → Nat
  | not => notLevel | bin o => o.level | assign => assignLevel | _ => 0

/-- The production that is then complete. -/
def prod : Place → Option Nat
  | not => some 2 | bin o => some o.prod | assign => some 14 | _ => none

end Place

/-- The action of a row, default reductions included. -/
def eff (r : Row) (s : Sym) : Option Act :=
  match r.default with
  | some p => some (.reduce p)
  | none => r.act s

section table
open PTable

/-- The state entered with the first token of an expression. -/
def beginState : TokType → Option Nat
  | .openP => some 2 | .not => some 3 | .dropKeep => some 4 | .dice => some 5 | .constInt => some 6 | .constBin => some 7
  | .minmax => some 8 | .abs => some 9 | .var => some 10 | .name => some 11 | _ => none

theorem eff_begin (x : Place) (ty : TokType) : eff (rows.row x.state) (.tok ty) = (beginState ty).map .shift := by
  rcases x with _ | _ | _ | o | _ | _ | _ | _ <;> (try cases o) <;> cases ty <;> rfl

theorem eff_begin_eof (x : Place) : eff (rows.row x.state) .eof = none := by
  rcases x with _ | _ | _ | o | _ | _ | _ | _ <;> (try cases o) <;> rfl

theorem goto_place (x : Place) : (rows.row x.state).goto = some x.got := by
  rcases x with _ | _ | _ | o | _ | _ | _ | _ <;> (try cases o) <;> rfl

theorem eff_op (x : Place) (o : BOp) :
    eff (rows.row x.got) (.tok o.type) = if x.level < o.level then some (.shift o.state) else x.prod.map .reduce := by
  rcases x with _ | _ | _ | o' | _ | _ | _ | _ <;> (try cases o') <;> cases o <;> rfl

theorem eff_end (x : Place) {p : Nat} (hp : x.prod = some p) (s : Sym) (hs : s = .eof ∨ s = .tok .closeP ∨ s = .tok .comma) :
    eff (rows.row x.got) s = some (.reduce p) := by
  rcases hs with rfl | rfl | rfl <;> rcases x with _ | _ | _ | o | _ | _ | _ | _ <;> (try cases o) <;>
    cases hp <;> rfl

/-- What a state without a complete production does with the end of its expression. -/
def closeAct : Place → Sym → Option Act
  | .top, .eof => some .accept
  | .paren, .tok .closeP => some (.shift 27)
  | .mm1, .tok .comma => some (.shift 31)
  | .mm2, .tok .closeP => some (.shift 35)
  | .abs, .tok .closeP => some (.shift 32)
  | _, _ => none

theorem eff_close (x : Place) (hp : x.prod = none) (s : Sym) (hs : ∀ o : BOp, s ≠ .tok o.type) (h1 : s ≠ .expr) (h2 : s ≠ .start) :
    eff (rows.row x.got) s = closeAct x s := by
  have ha := hs .add; have hb := hs .sub; have hc := hs .mul; have hd := hs .div; have he := hs .cmp
  rcases x with _ | _ | _ | o | _ | _ | _ | _ <;> cases hp <;>
    rcases s with ty | _ | _ | _ <;> (try cases ty) <;> first
      | rfl
      | (exfalso; exact ha rfl)
      | (exfalso; exact hb rfl)
      | (exfalso; exact hc rfl)
      | (exfalso; exact hd rfl)
      | (exfalso; exact he rfl)
      | (exfalso; exact h1 rfl)
      | (exfalso; exact h2 rfl)

/-- With a complete production: reduce, or an error; operators that continue the expression excepted. -/
theorem eff_other (x : Place) {p : Nat} (hp : x.prod = some p) (s : Sym) (hs : ∀ o : BOp, s = .tok o.type → o.level ≤ x.level) :
    eff (rows.row x.got) s = some (.reduce p) ∨ eff (rows.row x.got) s = none := by
  have ha := hs .add; have hb := hs .sub; have hc := hs .mul; have hd := hs .div; have he := hs .cmp
  rcases x with _ | _ | _ | o | _ | _ | _ | _ <;> (try cases o) <;> cases hp <;>
    rcases s with ty | _ | _ | _ <;> (try cases ty) <;>
      first | (left; rfl) | (right; rfl) | (replace ha := ha rfl; revert ha; decide) | (replace hb := hb rfl; revert hb; decide) |
        (replace hc := hc rfl; revert hc; decide) | (replace hd := hd rfl; revert hd; decide) |
        (replace he := he rfl; revert he; decide)

end table

/-! ### One turn -/

theorem turn_shift {S : List (Nat × Val)} {t : Token} {i : List Token} {q : Nat}
    (h : eff (PTable.rows.row (topState S)) (.tok t.type) = some (.shift q)) :
    turn PTable.rows ⟨S, t :: i⟩ = .next ⟨(q, .tok t) :: S, i⟩ := by
  unfold eff at h
  unfold turn
  dsimp only
  split at h
  · simp at h
  · rename_i hd
    rw [hd]
    dsimp only [lookahead]
    rw [h]

theorem turn_reduce {S : List (Nat × Val)} {i : List Token} {p : Nat}
    (h : eff (PTable.rows.row (topState S)) (lookahead i) = some (.reduce p)) :
    turn PTable.rows ⟨S, i⟩ = reduceBy PTable.rows p ⟨S, i⟩ := by
  unfold eff at h
  unfold turn
  dsimp only
  split at h
  · rename_i hd
    rw [hd]
    simp only [Option.some.injEq, Act.reduce.injEq] at h
    subst h
    rfl
  · rename_i hd
    rw [hd]
    dsimp only
    rw [h]

theorem turn_reduce' {q : Nat} {v : Val} {S : List (Nat × Val)} {i : List Token} {p : Nat}
    (h : eff (PTable.rows.row q) (lookahead i) = some (.reduce p)) :
    turn PTable.rows ⟨(q, v) :: S, i⟩ = reduceBy PTable.rows p ⟨(q, v) :: S, i⟩ := turn_reduce (S := (q, v) :: S) h

theorem turn_none {S : List (Nat × Val)} {i : List Token}
    (h : eff (PTable.rows.row (topState S)) (lookahead i) = none) : turn PTable.rows ⟨S, i⟩ = .fail .value := by
  unfold eff at h
  unfold turn
  dsimp only
  split at h
  · simp at h
  · rename_i hd
    rw [hd]
    dsimp only
    rw [h]

theorem turn_accept {q : Nat} {e : Expr} {S : List (Nat × Val)} {i : List Token}
    (h : eff (PTable.rows.row q) (lookahead i) = some .accept) : turn PTable.rows ⟨(q, .expr e) :: S, i⟩ = .done e := by
  unfold eff at h
  unfold turn
  dsimp only [topState]
  split at h
  · simp at h
  · rename_i hd
    rw [hd]
    dsimp only
    rw [h]

theorem reduce_ok {x : Place} {S P : List (Nat × Val)} {i : List Token} {p : Nat} {e : Expr} (hS : topState S = x.state)
    (hn : ((productions[p]?).map fun y => y.rhs.length).getD 0 = P.length) (hb : build p (P.reverse.map Prod.snd) = .ok e) :
    reduceBy PTable.rows p ⟨P ++ S, i⟩ = .next ⟨(x.got, .expr e) :: S, i⟩ := by
  unfold reduceBy
  dsimp only
  rw [hn, List.take_left, List.drop_left, hb, hS, goto_place]

theorem reduce_error {S P : List (Nat × Val)} {i : List Token} {p : Nat} {err : Err}
    (hn : ((productions[p]?).map fun y => y.rhs.length).getD 0 = P.length) (hb : build p (P.reverse.map Prod.snd) = .error err) :
    reduceBy PTable.rows p ⟨P ++ S, i⟩ = .fail err := by
  unfold reduceBy
  dsimp only
  rw [hn, List.take_left, hb]

/-! ### Every grouped derivation is found -/

/-- Several turns. -/
inductive Steps : Config → Config → Prop where
  | refl (c : Config) : Steps c c
  | step {c c' c'' : Config} (h : turn PTable.rows c = .next c') (hs : Steps c' c'') : Steps c c''

theorem Steps.trans {a b c : Config} (h : Steps a b) (h' : Steps b c) : Steps a c := by
  induction h with
  | refl => exact h'
  | step ht _ ih => exact .step ht (ih h')

theorem Steps.one {a b : Config} (h : turn PTable.rows a = .next b) : Steps a b := .step h (.refl _)

/-- What may come after an expression: the end, `)`, `,`, or an operator that does not bind tighter than what is open. -/
def Follows (e : Expr) (i : List Token) : Prop :=
  lookahead i = .eof ∨ lookahead i = .tok .closeP ∨ lookahead i = .tok .comma ∨
    ∃ o : BOp, lookahead i = .tok o.type ∧ ∀ l ∈ rightEdge e, o.level ≤ l

theorem follows_mono {a b : Expr} {i : List Token} (h : Follows a i) (hsub : ∀ l ∈ rightEdge b, l ∈ rightEdge a) : Follows b i := by
  rcases h with h | h | h | ⟨o, h, hl⟩
  · exact .inl h
  · exact .inr (.inl h)
  · exact .inr (.inr (.inl h))
  · exact .inr (.inr (.inr ⟨o, h, fun l hm => hl l (hsub l hm)⟩))

theorem eff_follows {e : Expr} {i : List Token} (x : Place) {p : Nat} (hp : x.prod = some p) (h : Follows e i)
    (hx : x.level ∈ rightEdge e) : eff (PTable.rows.row x.got) (lookahead i) = some (.reduce p) := by
  rcases h with h | h | h | ⟨o, h, hl⟩
  · exact eff_end x hp _ (.inl h)
  · exact eff_end x hp _ (.inr (.inl h))
  · exact eff_end x hp _ (.inr (.inr h))
  · rw [h, eff_op, if_neg (by have := hl _ hx; omega), hp]; rfl

theorem steps_shift {x : Place} {S : List (Nat × Val)} {t : Token} {i : List Token} {q : Nat} (hS : topState S = x.state)
    (hb : beginState t.type = some q) : turn PTable.rows ⟨S, t :: i⟩ = .next ⟨(q, .tok t) :: S, i⟩ := by
  apply turn_shift
  rw [hS, eff_begin, hb]
  rfl

theorem steps_leaf {x : Place} {S : List (Nat × Val)} {t : Token} {i : List Token} {q p : Nat} {e : Expr} (hS : topState S = x.state)
    (hb : beginState t.type = some q) (hq : ∀ s, eff (PTable.rows.row q) s = some (.reduce p))
    (hn : ((productions[p]?).map fun y => y.rhs.length).getD 0 = 1) (he : build p [.tok t] = .ok e) :
    Steps ⟨S, [t] ++ i⟩ ⟨(x.got, .expr e) :: S, i⟩ := by
  refine .step (steps_shift hS hb) (.one ?_)
  rw [turn_reduce (S := (q, .tok t) :: S) (hq _)]
  exact reduce_ok (P := [(q, .tok t)]) hS hn he

theorem leftEdge_ge : ∀ (e : Expr) (l : Nat), l ∈ leftEdge e → 3 ≤ l := by
  intro e
  induction e <;> intro l hl <;> simp only [leftEdge, List.mem_cons, List.not_mem_nil] at hl
  all_goals rename_i ih _; rcases hl with rfl | hl <;> first | exact ih _ hl | decide

theorem derives_steps {ts : List Token} {e : Expr} (hd : Derives ts e) : ∀ (x : Place) (S : List (Nat × Val)) (i : List Token),
    Grouped e → topState S = x.state → (∀ l ∈ leftEdge e, x.level < l) → Follows e i →
    Steps ⟨S, ts ++ i⟩ ⟨(x.got, .expr e) :: S, i⟩ := by
  have binary : ∀ (o : BOp) (op : CmpOp) (t : Token) (ts us : List Token) (a b : Expr), t.type = o.type →
      (o = .cmp → t.text = op.text) →
      (∀ (x : Place) (S : List (Nat × Val)) (i : List Token), Grouped a → topState S = x.state → (∀ l ∈ leftEdge a, x.level < l) →
        Follows a i → Steps ⟨S, ts ++ i⟩ ⟨(x.got, .expr a) :: S, i⟩) →
      (∀ (x : Place) (S : List (Nat × Val)) (i : List Token), Grouped b → topState S = x.state → (∀ l ∈ leftEdge b, x.level < l) →
        Follows b i → Steps ⟨S, us ++ i⟩ ⟨(x.got, .expr b) :: S, i⟩) →
      ∀ (x : Place) (S : List (Nat × Val)) (i : List Token), Grouped (o.expr op a b) → topState S = x.state →
        (∀ l ∈ leftEdge (o.expr op a b), x.level < l) → Follows (o.expr op a b) i →
        Steps ⟨S, (ts ++ [t] ++ us) ++ i⟩ ⟨(x.got, .expr (o.expr op a b)) :: S, i⟩ := by
    intro o op t ts us a b ht hop iha ihb x S i hg hS hl hf
    rw [BOp.grouped_expr] at hg
    rw [BOp.leftEdge_expr] at hl
    obtain ⟨⟨hra, hlb⟩, hga, hgb⟩ := hg
    have e1 : (ts ++ [t] ++ us) ++ i = ts ++ (t :: (us ++ i)) := by simp
    rw [e1]
    refine (iha x S (t :: (us ++ i)) hga hS (fun l h => hl l (List.mem_cons_of_mem _ h)) (.inr (.inr (.inr ⟨o, ?_, hra⟩)))).trans ?_
    · simp [lookahead, ht]
    refine .step (turn_shift (q := o.state) ?_) ?_
    · show eff (PTable.rows.row x.got) (.tok t.type) = _
      rw [ht, eff_op, if_pos (hl _ List.mem_cons_self)]
    refine (ihb (.bin o) _ i hgb rfl hlb (follows_mono hf ?_)).trans (.one ?_)
    · intro l h; rw [BOp.rightEdge_expr]; exact List.mem_cons_of_mem _ h
    rw [turn_reduce' (p := o.prod) (eff_follows (.bin o) rfl hf (by rw [BOp.rightEdge_expr]; exact List.mem_cons_self))]
    refine reduce_ok (P := [((Place.bin o).got, .expr b), (o.state, .tok t), (x.got, .expr a)]) hS ?_ ?_
    · cases o <;> rfl
    · cases o
      · rfl
      · rfl
      · rfl
      · rfl
      · show (match cmpOf t.text with | some op => Except.ok (Expr.bin op a b) | none => .error Err.key) = _
        rw [hop rfl, cmpOf_text]
        rfl
  induction hd with
  | @paren ts e o c ho hc h ih =>
    intro x S i hg hS _ hf
    have e1 : ([o] ++ ts ++ [c]) ++ i = o :: (ts ++ (c :: i)) := by simp
    rw [e1]
    refine .step (steps_shift hS (q := 2) (by rw [ho]; rfl)) ?_
    refine (ih .paren _ (c :: i) hg rfl (fun l hl => ?_) (.inr (.inl (by simp [lookahead, hc])))).trans ?_
    · have := leftEdge_ge _ _ hl; show 0 < l; omega
    refine .step (turn_shift (q := 27) ?_) (.one ?_)
    · rw [hc]; rfl
    rw [turn_reduce (p := 1) rfl]
    exact reduce_ok (P := [(27, .tok c), (17, .expr e), (2, .tok o)]) hS rfl rfl
  | @not ts e n hn h ih =>
    intro x S i hg hS _ hf
    have e1 : ([n] ++ ts) ++ i = n :: (ts ++ i) := by simp
    rw [e1]
    refine .step (steps_shift hS (q := 3) (by rw [hn]; rfl)) ?_
    refine (ih .not _ i hg rfl (fun l hl => ?_) (follows_mono hf ?_)).trans (.one ?_)
    · have := leftEdge_ge _ _ hl; show 2 < l; omega
    · intro l hl; exact List.mem_cons_of_mem _ hl
    rw [turn_reduce' (p := 2) (eff_follows .not rfl hf List.mem_cons_self)]
    exact reduce_ok (P := [(18, .expr e), (3, .tok n)]) hS rfl rfl
  | dropKeep t d ht h =>
    intro x S i _ hS _ _
    refine steps_leaf hS (q := 4) (p := 3) (by rw [ht]; rfl) (fun _ => rfl) rfl ?_
    show (do return Expr.dropKeep (← mkDropKeep t.text) : Res Expr) = _
    rw [h]; rfl
  | dice t d ht h =>
    intro x S i _ hS _ _
    refine steps_leaf hS (q := 5) (p := 4) (by rw [ht]; rfl) (fun _ => rfl) rfl ?_
    show (do return Expr.dice (← mkDice t.text) : Res Expr) = _
    rw [h]; rfl
  | constInt t ht =>
    intro x S i _ hS _ _
    exact steps_leaf hS (q := 6) (p := 5) (by rw [ht]; rfl) (fun _ => rfl) rfl rfl
  | constBin t ht =>
    intro x S i _ hS _ _
    exact steps_leaf hS (q := 7) (p := 6) (by rw [ht]; rfl) (fun _ => rfl) rfl rfl
  | add o ho _ _ iha ihb => exact binary .add .eq o _ _ _ _ ho (by simp) iha ihb
  | sub o ho _ _ iha ihb => exact binary .sub .eq o _ _ _ _ ho (by simp) iha ihb
  | mul o ho _ _ iha ihb => exact binary .mul .eq o _ _ _ _ ho (by simp) iha ihb
  | div o ho _ _ iha ihb => exact binary .div .eq o _ _ _ _ ho (by simp) iha ihb
  | bin o op ho hop _ _ iha ihb => exact binary .cmp op o _ _ _ _ ho (fun _ => hop) iha ihb
  | @minmax ts us a b m o k c isMax hm hmt ho hk hc _ _ iha ihb =>
    intro x S i hg hS _ hf
    have e1 : ([m, o] ++ ts ++ [k] ++ us ++ [c]) ++ i = m :: o :: (ts ++ (k :: (us ++ (c :: i)))) := by simp
    rw [e1]
    refine .step (steps_shift hS (q := 8) (by rw [hm]; rfl)) (.step (turn_shift (q := 19) (by rw [ho]; rfl)) ?_)
    refine (iha .mm1 _ _ hg.1 rfl (fun l hl => ?_) (.inr (.inr (.inl (by simp [lookahead, hk]))))).trans ?_
    · have := leftEdge_ge _ _ hl; show 0 < l; omega
    refine .step (turn_shift (q := 31) (by rw [hk]; rfl)) ?_
    refine (ihb .mm2 _ _ hg.2 rfl (fun l hl => ?_) (.inr (.inl (by simp [lookahead, hc])))).trans ?_
    · have := leftEdge_ge _ _ hl; show 0 < l; omega
    refine .step (turn_shift (q := 35) (by rw [hc]; rfl)) (.one ?_)
    rw [turn_reduce (p := 12) rfl]
    refine reduce_ok (P := [(35, .tok c), (34, .expr b), (31, .tok k), (28, .expr a), (19, .tok o), (8, .tok m)]) hS rfl ?_
    show (match minmaxOf m.text with | some k => Except.ok (Expr.minmax k a b) | none => .error Err.key) = _
    rw [hmt, minmaxOf_text]
  | @abs ts e m o c hm ho hc _ ih =>
    intro x S i hg hS _ hf
    have e1 : ([m, o] ++ ts ++ [c]) ++ i = m :: o :: (ts ++ (c :: i)) := by simp
    rw [e1]
    refine .step (steps_shift hS (q := 9) (by rw [hm]; rfl)) (.step (turn_shift (q := 20) (by rw [ho]; rfl)) ?_)
    refine (ih .abs _ _ hg rfl (fun l hl => ?_) (.inr (.inl (by simp [lookahead, hc])))).trans ?_
    · have := leftEdge_ge _ _ hl; show 0 < l; omega
    refine .step (turn_shift (q := 32) (by rw [hc]; rfl)) (.one ?_)
    rw [turn_reduce (p := 13) rfl]
    exact reduce_ok (P := [(32, .tok c), (29, .expr e), (20, .tok o), (9, .tok m)]) hS rfl rfl
  | @assign ts e v n a hv hn ha _ ih =>
    intro x S i hg hS _ hf
    have e1 : ([v, n, a] ++ ts) ++ i = v :: n :: a :: (ts ++ i) := by simp
    rw [e1]
    refine .step (steps_shift hS (q := 10) (by rw [hv]; rfl)) (.step (turn_shift (q := 21) (by rw [hn]; rfl))
      (.step (turn_shift (q := 30) (by rw [ha]; rfl)) ?_))
    refine (ih .assign _ i hg rfl (fun l hl => ?_) (follows_mono hf ?_)).trans (.one ?_)
    · have := leftEdge_ge _ _ hl; show 1 < l; omega
    · intro l hl; exact List.mem_cons_of_mem _ hl
    rw [turn_reduce' (p := 14) (eff_follows .assign rfl hf List.mem_cons_self)]
    exact reduce_ok (P := [(33, .expr e), (30, .tok a), (21, .tok n), (10, .tok v)]) hS rfl rfl
  | getVar t ht =>
    intro x S i _ hS _ _
    exact steps_leaf hS (q := 11) (p := 15) (by rw [ht]; rfl) (fun _ => rfl) rfl rfl

/-! ### Every result is a grouped derivation -/

/-- A token from which no expression can be built. -/
def BadToken (t : Token) (err : Err) : Prop :=
  (t.type = .dice ∧ mkDice t.text = .error err) ∨ (t.type = .dropKeep ∧ mkDropKeep t.text = .error err) ∨
    (t.type = .binop ∧ cmpOf t.text = none ∧ err = .key) ∨ (t.type = .minmax ∧ minmaxOf t.text = none ∧ err = .key)

/-- The stack expects an expression at a place, having consumed the tokens. -/
inductive Expecting : List (Nat × Val) → List Token → Place → Prop where
  | top : Expecting [] [] .top
  | paren {S : List (Nat × Val)} {c : List Token} {x : Place} (t : Token) (h : Expecting S c x) (ht : t.type = .openP) :
      Expecting ((2, .tok t) :: S) (c ++ [t]) .paren
  | not {S : List (Nat × Val)} {c : List Token} {x : Place} (t : Token) (h : Expecting S c x) (ht : t.type = .not) :
      Expecting ((3, .tok t) :: S) (c ++ [t]) .not
  | bin {S : List (Nat × Val)} {c ts : List Token} {x : Place} {a : Expr} (o : BOp) (t : Token) (h : Expecting S c x)
      (hd : Derives ts a) (hg : Grouped a) (hl : ∀ l ∈ leftEdge a, x.level < l) (ht : t.type = o.type) (hx : x.level < o.level)
      (hr : ∀ l ∈ rightEdge a, o.level ≤ l) :
      Expecting ((o.state, .tok t) :: (x.got, .expr a) :: S) (c ++ ts ++ [t]) (.bin o)
  | mm1 {S : List (Nat × Val)} {c : List Token} {x : Place} (m o : Token) (h : Expecting S c x) (hm : m.type = .minmax)
      (ho : o.type = .openP) : Expecting ((19, .tok o) :: (8, .tok m) :: S) (c ++ [m, o]) .mm1
  | mm2 {S : List (Nat × Val)} {c ts : List Token} {x : Place} {a : Expr} (m o k : Token) (h : Expecting S c x)
      (hm : m.type = .minmax) (ho : o.type = .openP) (hd : Derives ts a) (hg : Grouped a) (hk : k.type = .comma) :
      Expecting ((31, .tok k) :: (28, .expr a) :: (19, .tok o) :: (8, .tok m) :: S) (c ++ ([m, o] ++ ts ++ [k])) .mm2
  | abs {S : List (Nat × Val)} {c : List Token} {x : Place} (m o : Token) (h : Expecting S c x) (hm : m.type = .abs)
      (ho : o.type = .openP) : Expecting ((20, .tok o) :: (9, .tok m) :: S) (c ++ [m, o]) .abs
  | assign {S : List (Nat × Val)} {c : List Token} {x : Place} (v n a : Token) (h : Expecting S c x) (hv : v.type = .var)
      (hn : n.type = .name) (ha : a.type = .assign) :
      Expecting ((30, .tok a) :: (21, .tok n) :: (10, .tok v) :: S) (c ++ [v, n, a]) .assign

theorem expecting_top {S : List (Nat × Val)} {c : List Token} {x : Place} (h : Expecting S c x) : topState S = x.state := by
  cases h <;> rfl

/-- The state of a token that is an expression by itself, and its production. -/
def leafState : TokType → Option (Nat × Nat)
  | .dropKeep => some (4, 3) | .dice => some (5, 4) | .constInt => some (6, 5) | .constBin => some (7, 6) | .name => some (11, 15)
  | _ => none

/-- No operator comes next that would have bound tighter than what is open in the expression. -/
def NextOK (e : Expr) (i : List Token) : Prop := ∀ o : BOp, lookahead i = .tok o.type → ∀ l ∈ rightEdge e, o.level ≤ l

/-- The configurations that occur: the stack and what of the text it stands for. -/
inductive GoodConfig : List (Nat × Val) → List Token → List Token → Prop where
  | expecting {S : List (Nat × Val)} {c i : List Token} {x : Place} (h : Expecting S c x) : GoodConfig S c i
  | got {S : List (Nat × Val)} {c ts i : List Token} {x : Place} {a : Expr} (h : Expecting S c x) (hd : Derives ts a)
      (hg : Grouped a) (hl : ∀ l ∈ leftEdge a, x.level < l) (hn : NextOK a i) : GoodConfig ((x.got, .expr a) :: S) (c ++ ts) i
  | leaf {S : List (Nat × Val)} {c i : List Token} {x : Place} {q p : Nat} (t : Token) (h : Expecting S c x)
      (hq : leafState t.type = some (q, p)) : GoodConfig ((q, .tok t) :: S) (c ++ [t]) i
  | closeParen {S : List (Nat × Val)} {c ts i : List Token} {x : Place} {a : Expr} (o k : Token) (h : Expecting S c x)
      (ho : o.type = .openP) (hd : Derives ts a) (hg : Grouped a) (hk : k.type = .closeP) :
      GoodConfig ((27, .tok k) :: (17, .expr a) :: (2, .tok o) :: S) (c ++ ([o] ++ ts ++ [k])) i
  | closeAbs {S : List (Nat × Val)} {c ts i : List Token} {x : Place} {a : Expr} (m o k : Token) (h : Expecting S c x)
      (hm : m.type = .abs) (ho : o.type = .openP) (hd : Derives ts a) (hg : Grouped a) (hk : k.type = .closeP) :
      GoodConfig ((32, .tok k) :: (29, .expr a) :: (20, .tok o) :: (9, .tok m) :: S) (c ++ ([m, o] ++ ts ++ [k])) i
  | closeMinmax {S : List (Nat × Val)} {c ts us i : List Token} {x : Place} {a b : Expr} (m o k l : Token) (h : Expecting S c x)
      (hm : m.type = .minmax) (ho : o.type = .openP) (hda : Derives ts a) (hga : Grouped a) (hk : k.type = .comma)
      (hdb : Derives us b) (hgb : Grouped b) (hl : l.type = .closeP) :
      GoodConfig ((35, .tok l) :: (34, .expr b) :: (31, .tok k) :: (28, .expr a) :: (19, .tok o) :: (8, .tok m) :: S)
        (c ++ ([m, o] ++ ts ++ [k] ++ us ++ [l])) i
  | minmax {S : List (Nat × Val)} {c i : List Token} {x : Place} (t : Token) (h : Expecting S c x) (ht : t.type = .minmax) :
      GoodConfig ((8, .tok t) :: S) (c ++ [t]) i
  | abs {S : List (Nat × Val)} {c i : List Token} {x : Place} (t : Token) (h : Expecting S c x) (ht : t.type = .abs) :
      GoodConfig ((9, .tok t) :: S) (c ++ [t]) i
  | var {S : List (Nat × Val)} {c i : List Token} {x : Place} (t : Token) (h : Expecting S c x) (ht : t.type = .var) :
      GoodConfig ((10, .tok t) :: S) (c ++ [t]) i
  | varName {S : List (Nat × Val)} {c i : List Token} {x : Place} (t n : Token) (h : Expecting S c x) (ht : t.type = .var)
      (hn : n.type = .name) : GoodConfig ((21, .tok n) :: (10, .tok t) :: S) (c ++ [t, n]) i

/-- What a stack entry counts in the measure that goes down with every turn. -/
def weight (s : Nat × Val) : Nat :=
  match s.2 with
  | .tok _ => 2
  | .expr _ => 1

/-- The measure. -/
def measure (S : List (Nat × Val)) (i : List Token) : Nat := 3 * i.length + (S.map weight).sum

/-- What one turn does to a good configuration. -/
def GoodTurn (tot : List Token) (m : Nat) : Turn → Prop
  | .next c => (∃ c', c' ++ c.input = tot ∧ GoodConfig c.stack c' c.input) ∧ measure c.stack c.input < m
  | .done e => Derives tot e ∧ Grouped e
  | .fail err => err = .value ∨ ∃ t ∈ tot, BadToken t err

theorem good_expecting {S : List (Nat × Val)} {c i : List Token} {x : Place} (h : Expecting S c x) :
    GoodTurn (c ++ i) (measure S i) (turn PTable.rows ⟨S, i⟩) := by
  have hS := expecting_top h
  cases i with
  | nil =>
    rw [turn_none (by rw [hS]; exact eff_begin_eof x)]
    exact .inl rfl
  | cons t i =>
    cases hb : beginState t.type with
    | none =>
      rw [turn_none (by rw [hS]; show eff _ (.tok t.type) = none; rw [eff_begin, hb]; rfl)]
      exact .inl rfl
    | some q =>
      rw [steps_shift hS hb]
      refine ⟨⟨c ++ [t], by simp, ?_⟩, ?_⟩
      · dsimp only
        cases ht : t.type <;> rw [ht] at hb <;> cases hb
        · exact .expecting (.paren t h ht)
        · exact .expecting (.not t h ht)
        · exact .leaf t h (p := 3) (by rw [ht]; rfl)
        · exact .leaf t h (p := 4) (by rw [ht]; rfl)
        · exact .leaf t h (p := 5) (by rw [ht]; rfl)
        · exact .leaf t h (p := 6) (by rw [ht]; rfl)
        · exact .minmax t h ht
        · exact .abs t h ht
        · exact .var t h ht
        · exact .leaf t h (p := 15) (by rw [ht]; rfl)
      · simp [measure, weight]; omega

/-- A reduction to a finished expression. -/
theorem good_reduce {S P : List (Nat × Val)} {c ts i : List Token} {x : Place} {p : Nat} {e : Expr} {m : Nat} (h : Expecting S c x)
    (hn : ((productions[p]?).map fun y => y.rhs.length).getD 0 = P.length) (hb : build p (P.reverse.map Prod.snd) = .ok e)
    (hd : Derives ts e) (hg : Grouped e) (hl : ∀ l ∈ leftEdge e, x.level < l) (hnx : NextOK e i)
    (hm : measure ((x.got, .expr e) :: S) i < m) :
    GoodTurn ((c ++ ts) ++ i) m (reduceBy PTable.rows p ⟨P ++ S, i⟩) := by
  rw [reduce_ok (expecting_top h) hn hb]
  exact ⟨⟨c ++ ts, rfl, .got h hd hg hl hnx⟩, hm⟩

theorem nextOK_nil {e : Expr} {i : List Token} (h : rightEdge e = []) : NextOK e i := by
  intro o _ l hl
  rw [h] at hl
  cases hl

theorem good_leaf {S : List (Nat × Val)} {c i : List Token} {x : Place} {q p : Nat} (t : Token) (h : Expecting S c x)
    (hq : leafState t.type = some (q, p)) :
    GoodTurn (c ++ [t] ++ i) (measure ((q, .tok t) :: S) i) (turn PTable.rows ⟨(q, .tok t) :: S, i⟩) := by
  have hm : ∀ e, measure ((x.got, .expr e) :: S) i < measure ((q, .tok t) :: S) i := by
    intro e; simp [measure, weight]
  cases ht : t.type <;> rw [ht] at hq <;> cases hq
  · rw [turn_reduce' (p := 3) rfl]
    cases hd : mkDropKeep t.text with
    | error err =>
      rw [show reduceBy PTable.rows 3 ⟨(4, .tok t) :: S, i⟩ = .fail err from
        reduce_error (P := [(4, .tok t)]) (p := 3) rfl (by
          show (do return Expr.dropKeep (← mkDropKeep t.text) : Res Expr) = _
          rw [hd]; rfl)]
      exact .inr ⟨t, by simp, .inr (.inl ⟨ht, hd⟩)⟩
    | ok d =>
      refine good_reduce (P := [(4, .tok t)]) (e := .dropKeep d) h rfl ?_ (.dropKeep t d ht hd) trivial (by simp [leftEdge])
        (nextOK_nil rfl) (hm _)
      show (do return Expr.dropKeep (← mkDropKeep t.text) : Res Expr) = _
      rw [hd]; rfl
  · rw [turn_reduce' (p := 4) rfl]
    cases hd : mkDice t.text with
    | error err =>
      rw [show reduceBy PTable.rows 4 ⟨(5, .tok t) :: S, i⟩ = .fail err from
        reduce_error (P := [(5, .tok t)]) (p := 4) rfl (by
          show (do return Expr.dice (← mkDice t.text) : Res Expr) = _
          rw [hd]; rfl)]
      exact .inr ⟨t, by simp, .inl ⟨ht, hd⟩⟩
    | ok d =>
      refine good_reduce (P := [(5, .tok t)]) (e := .dice d) h rfl ?_ (.dice t d ht hd) trivial (by simp [leftEdge])
        (nextOK_nil rfl) (hm _)
      show (do return Expr.dice (← mkDice t.text) : Res Expr) = _
      rw [hd]; rfl
  · rw [turn_reduce' (p := 5) rfl]
    exact good_reduce (P := [(6, .tok t)]) (e := .constInt t.text) h rfl rfl (.constInt t ht) trivial (by simp [leftEdge])
      (nextOK_nil rfl) (hm _)
  · rw [turn_reduce' (p := 6) rfl]
    exact good_reduce (P := [(7, .tok t)]) (e := .constBin t.text) h rfl rfl (.constBin t ht) trivial (by simp [leftEdge])
      (nextOK_nil rfl) (hm _)
  · rw [turn_reduce' (p := 15) rfl]
    exact good_reduce (P := [(11, .tok t)]) (e := .getVar t.text) h rfl rfl (.getVar t ht) trivial (by simp [leftEdge])
      (nextOK_nil rfl) (hm _)

/-- The next token closes or continues the expression at a place. -/
theorem good_got {S : List (Nat × Val)} {c ts i : List Token} {x : Place} {a : Expr} (h : Expecting S c x) (hd : Derives ts a)
    (hg : Grouped a) (hl : ∀ l ∈ leftEdge a, x.level < l) (hn : NextOK a i) :
    GoodTurn (c ++ ts ++ i) (measure ((x.got, .expr a) :: S) i) (turn PTable.rows ⟨(x.got, .expr a) :: S, i⟩) := by
  by_cases hop : ∃ o : BOp, lookahead i = .tok o.type ∧ x.level < o.level
  · obtain ⟨o, ho, hlt⟩ := hop
    have hr := hn o ho
    cases i with
    | nil => cases ho
    | cons t i =>
      simp only [lookahead, Sym.tok.injEq] at ho
      rw [turn_shift (q := o.state) (by
        show eff (PTable.rows.row x.got) (.tok t.type) = _
        rw [ho, eff_op, if_pos hlt])]
      refine ⟨⟨c ++ ts ++ [t], by simp, .expecting (.bin o t h hd hg hl ho hlt hr)⟩, ?_⟩
      simp [measure, weight]; omega
  · have hno : ∀ o : BOp, lookahead i = .tok o.type → o.level ≤ x.level := by
      intro o ho
      by_contra hc
      exact hop ⟨o, ho, by omega⟩
    cases hp : x.prod with
    | some p =>
      rcases eff_other x hp _ hno with he | he
      swap
      · rw [turn_none (S := (x.got, .expr a) :: S) he]
        exact .inl rfl
      rw [turn_reduce' he]
      cases h with
      | top => cases hp
      | paren => cases hp
      | mm1 => cases hp
      | mm2 => cases hp
      | abs => cases hp
      | @not S c x t h ht =>
        cases hp
        have := good_reduce (P := [(18, .expr a), (3, .tok t)]) (e := .not a) (i := i) (p := 2)
          (m := measure (((18, .expr a) : Nat × Val) :: (3, .tok t) :: S) i) h rfl rfl (.not t ht hd) hg (by simp [leftEdge]) ?_ ?_
        · rw [List.append_assoc c [t] ts]; exact this
        · intro o ho l hm
          rcases List.mem_cons.mp hm with rfl | hm
          · exact hno o ho
          · exact hn o ho l hm
        · simp [measure, weight]
      | @assign S c x v n k h hv hnn hk =>
        cases hp
        have := good_reduce (P := [(33, .expr a), (30, .tok k), (21, .tok n), (10, .tok v)]) (e := .assign n.text a) (i := i)
          (p := 14) (m := measure (((33, .expr a) : Nat × Val) :: (30, .tok k) :: (21, .tok n) :: (10, .tok v) :: S) i) h rfl rfl
          (.assign v n k hv hnn hk hd) hg (by simp [leftEdge]) ?_ ?_
        · rw [List.append_assoc c [v, n, k] ts]; exact this
        · intro o ho l hm
          rcases List.mem_cons.mp hm with rfl | hm
          · exact hno o ho
          · exact hn o ho l hm
        · simp [measure, weight]; omega
      | @bin S c us x b o t h hdb hgb hlb ht hx hr =>
        have hpo : p = o.prod := by cases hp; rfl
        subst hpo
        have ok : ∀ op : CmpOp, (o = .cmp → t.text = op.text) →
            GoodTurn (c ++ us ++ [t] ++ ts ++ i) (measure (((Place.bin o).got, .expr a) :: (o.state, .tok t) :: (x.got, .expr b) :: S) i)
              (reduceBy PTable.rows o.prod ⟨((Place.bin o).got, .expr a) :: (o.state, .tok t) :: (x.got, .expr b) :: S, i⟩) := by
          intro op hopt
          have := good_reduce (P := [((Place.bin o).got, .expr a), (o.state, .tok t), (x.got, .expr b)]) (e := o.expr op b a) (i := i)
            (p := o.prod) (m := measure (((Place.bin o).got, .expr a) :: (o.state, .tok t) :: (x.got, .expr b) :: S) i) h
            ?_ ?_ (BOp.derives_expr o op t ht hopt hdb hd) ?_ ?_ ?_ ?_
          · simpa using this
          · cases o <;> rfl
          · cases o
            · rfl
            · rfl
            · rfl
            · rfl
            · show (match cmpOf t.text with | some op => Except.ok (Expr.bin op b a) | none => .error Err.key) = _
              rw [hopt rfl, cmpOf_text]
              rfl
          · rw [BOp.grouped_expr]
            exact ⟨⟨hr, hl⟩, hgb, hg⟩
          · rw [BOp.leftEdge_expr]
            intro l hm
            rcases List.mem_cons.mp hm with rfl | hm
            · exact hx
            · exact hlb l hm
          · intro o' ho' l hm
            rw [BOp.rightEdge_expr] at hm
            rcases List.mem_cons.mp hm with rfl | hm
            · exact hno o' ho'
            · exact hn o' ho' l hm
          · simp [measure, weight]; omega
        by_cases hc : o = .cmp
        · cases ho : cmpOf t.text with
          | some op => exact ok op (fun _ => cmpOf_some ho)
          | none =>
            subst hc
            rw [show ((Place.bin BOp.cmp).got, Val.expr a) :: (BOp.cmp.state, Val.tok t) :: (x.got, Val.expr b) :: S =
              [((Place.bin BOp.cmp).got, Val.expr a), (BOp.cmp.state, Val.tok t), (x.got, Val.expr b)] ++ S from rfl,
              reduce_error (err := .key) rfl (by
                show (match cmpOf t.text with | some op => Except.ok (Expr.bin op b a) | none => .error Err.key) = _
                rw [ho])]
            exact .inr ⟨t, by simp, .inr (.inr (.inl ⟨ht, ho, rfl⟩))⟩
        · exact ok .eq (fun h => absurd h hc)
    | none =>
      have hno' : ∀ o : BOp, lookahead i ≠ .tok o.type := by
        intro o ho
        have h1 := hno o ho
        have h2 : x.level = 0 := by
          cases x <;> first | rfl | cases hp
        have h3 : 3 ≤ o.level := by cases o <;> decide
        omega
      have he := eff_close x hp (lookahead i) hno' (by cases i <;> simp [lookahead]) (by cases i <;> simp [lookahead])
      cases hc : closeAct x (lookahead i) with
      | none =>
        rw [turn_none (S := (x.got, .expr a) :: S) (he.trans hc)]
        exact .inl rfl
      | some act =>
        rw [hc] at he
        cases h with
        | not => cases hp
        | assign => cases hp
        | bin => cases hp
        | top =>
          cases i with
          | cons t i => exfalso; simp [lookahead, closeAct] at hc
          | nil =>
            cases hc
            rw [turn_accept he]
            exact ⟨by simpa using hd, hg⟩
        | @paren S c x o h ho =>
          cases i with
          | nil => cases hc
          | cons t i =>
            cases ht : t.type <;> rw [lookahead, ht] at hc <;> cases hc
            rw [turn_shift (S := (Place.paren.got, .expr a) :: _) (q := 27) he]
            refine ⟨⟨c ++ ([o] ++ ts ++ [t]), by simp, .closeParen o t h ho hd hg ht⟩, ?_⟩
            simp [measure, weight]; omega
        | @abs S c x m o h hm ho =>
          cases i with
          | nil => cases hc
          | cons t i =>
            cases ht : t.type <;> rw [lookahead, ht] at hc <;> cases hc
            rw [turn_shift (S := (Place.abs.got, .expr a) :: _) (q := 32) he]
            refine ⟨⟨c ++ ([m, o] ++ ts ++ [t]), by simp, .closeAbs m o t h hm ho hd hg ht⟩, ?_⟩
            simp [measure, weight]; omega
        | @mm1 S c x m o h hm ho =>
          cases i with
          | nil => cases hc
          | cons t i =>
            cases ht : t.type <;> rw [lookahead, ht] at hc <;> cases hc
            rw [turn_shift (S := (Place.mm1.got, .expr a) :: _) (q := 31) he]
            refine ⟨⟨c ++ ([m, o] ++ ts ++ [t]), by simp, .expecting (.mm2 m o t h hm ho hd hg ht)⟩, ?_⟩
            simp [measure, weight]; omega
        | @mm2 S c us x b m o k h hm ho hdb hgb hk =>
          cases i with
          | nil => cases hc
          | cons t i =>
            cases ht : t.type <;> rw [lookahead, ht] at hc <;> cases hc
            rw [turn_shift (S := (Place.mm2.got, .expr a) :: _) (q := 35) he]
            refine ⟨⟨c ++ ([m, o] ++ us ++ [k] ++ ts ++ [t]), by simp, .closeMinmax m o k t h hm ho hdb hgb hk hd hg ht⟩, ?_⟩
            simp [measure, weight]; omega

/-- A state with a single action, a shift. -/
theorem good_single {q q' : Nat} {v : Val} {S : List (Nat × Val)} {tot i : List Token} {ty : TokType} (htot : ∃ c, c ++ i = tot)
    (hq : ∀ s, s ≠ .tok ty → s ≠ .expr → s ≠ .start → eff (PTable.rows.row q) s = none)
    (hs : eff (PTable.rows.row q) (.tok ty) = some (.shift q'))
    (hg : ∀ t i' c, t.type = ty → i = t :: i' → c ++ i = tot → GoodConfig ((q', .tok t) :: (q, v) :: S) (c ++ [t]) i') :
    GoodTurn tot (measure ((q, v) :: S) i) (turn PTable.rows ⟨(q, v) :: S, i⟩) := by
  by_cases h : lookahead i = .tok ty
  · cases i with
    | nil => cases h
    | cons t i =>
      simp only [lookahead, Sym.tok.injEq] at h
      obtain ⟨c, hc⟩ := htot
      rw [turn_shift (S := (q, v) :: S) (q := q') (by rw [h]; exact hs)]
      refine ⟨⟨c ++ [t], by simpa using hc, hg t i c h rfl hc⟩, ?_⟩
      simp [measure, weight]; omega
  · rw [turn_none (S := (q, v) :: S) (hq _ h (by cases i <;> simp [lookahead]) (by cases i <;> simp [lookahead]))]
    exact .inl rfl

theorem good_turn {S : List (Nat × Val)} {c i : List Token} (h : GoodConfig S c i) :
    GoodTurn (c ++ i) (measure S i) (turn PTable.rows ⟨S, i⟩) := by
  cases h with
  | expecting h => exact good_expecting h
  | got h hd hg hl hn => exact good_got h hd hg hl hn
  | leaf t h hq => exact good_leaf t h hq
  | @closeParen S c ts _ x a o k h ho hd hg hk =>
    rw [turn_reduce' (p := 1) rfl]
    refine good_reduce (P := [(27, .tok k), (17, .expr a), (2, .tok o)]) (e := .paren a) h rfl rfl (.paren o k ho hk hd) hg
      (by simp [leftEdge]) (nextOK_nil rfl) ?_
    simp [measure, weight]; omega
  | @closeAbs S c ts _ x a m o k h hm ho hd hg hk =>
    rw [turn_reduce' (p := 13) rfl]
    refine good_reduce (P := [(32, .tok k), (29, .expr a), (20, .tok o), (9, .tok m)]) (e := .abs a) h rfl rfl
      (.abs m o k hm ho hk hd) hg (by simp [leftEdge]) (nextOK_nil rfl) ?_
    simp [measure, weight]; omega
  | @closeMinmax S c ts us _ x a b m o k l h hm ho hda hga hk hdb hgb hl =>
    rw [turn_reduce' (p := 12) rfl]
    cases hmm : minmaxOf m.text with
    | some isMax =>
      refine good_reduce (P := [(35, .tok l), (34, .expr b), (31, .tok k), (28, .expr a), (19, .tok o), (8, .tok m)])
        (e := .minmax isMax a b) h rfl ?_ (.minmax m o k l isMax hm (minmaxOf_some hmm) ho hk hl hda hdb) ⟨hga, hgb⟩
        (by simp [leftEdge]) (nextOK_nil rfl) ?_
      · show (match minmaxOf m.text with | some k => Except.ok (Expr.minmax k a b) | none => .error Err.key) = _
        rw [hmm]
      · simp [measure, weight]; omega
    | none =>
      rw [show (((35, .tok l) : Nat × Val) :: (34, .expr b) :: (31, .tok k) :: (28, .expr a) :: (19, .tok o) :: (8, .tok m) :: S) =
        [(35, .tok l), (34, .expr b), (31, .tok k), (28, .expr a), (19, .tok o), (8, .tok m)] ++ S from rfl,
        reduce_error (err := .key) rfl (by
          show (match minmaxOf m.text with | some k => Except.ok (Expr.minmax k a b) | none => .error Err.key) = _
          rw [hmm])]
      exact .inr ⟨m, by simp, .inr (.inr (.inr ⟨hm, hmm, rfl⟩))⟩
  | @minmax S c _ x t h ht =>
    refine good_single (ty := .openP) (q' := 19) ⟨_, rfl⟩ ?_ rfl ?_
    · intro s h1 h2 h3; rcases s with ty | _ | _ | _ <;> (try cases ty) <;> first | rfl | contradiction
    · intro o i' c' ho hi hc
      subst hi
      have : c' = c ++ [t] := List.append_cancel_right hc
      rw [this, List.append_assoc]
      exact .expecting (.mm1 t o h ht ho)
  | @abs S c _ x t h ht =>
    refine good_single (ty := .openP) (q' := 20) ⟨_, rfl⟩ ?_ rfl ?_
    · intro s h1 h2 h3; rcases s with ty | _ | _ | _ <;> (try cases ty) <;> first | rfl | contradiction
    · intro o i' c' ho hi hc
      subst hi
      have : c' = c ++ [t] := List.append_cancel_right hc
      rw [this, List.append_assoc]
      exact .expecting (.abs t o h ht ho)
  | @var S c _ x t h ht =>
    refine good_single (ty := .name) (q' := 21) ⟨_, rfl⟩ ?_ rfl ?_
    · intro s h1 h2 h3; rcases s with ty | _ | _ | _ <;> (try cases ty) <;> first | rfl | contradiction
    · intro n i' c' hn hi hc
      subst hi
      have : c' = c ++ [t] := List.append_cancel_right hc
      rw [this, List.append_assoc]
      exact .varName t n h ht hn
  | @varName S c _ x t n h ht hn =>
    refine good_single (ty := .assign) (q' := 30) ⟨_, rfl⟩ ?_ rfl ?_
    · intro s h1 h2 h3; rcases s with ty | _ | _ | _ <;> (try cases ty) <;> first | rfl | contradiction
    · intro a i' c' ha hi hc
      subst hi
      have : c' = c ++ [t, n] := List.append_cancel_right hc
      rw [this, List.append_assoc]
      exact .expecting (.assign t n a h ht hn ha)

/-! ### The whole run -/

/-- The driver ends with a result. -/
inductive Ends : Config → Res Expr → Prop where
  | done {c : Config} {e : Expr} (h : turn PTable.rows c = .done e) : Ends c (.ok e)
  | fail {c : Config} {err : Err} (h : turn PTable.rows c = .fail err) : Ends c (.error err)
  | next {c c' : Config} {r : Res Expr} (h : turn PTable.rows c = .next c') (hr : Ends c' r) : Ends c r

theorem ends_unique {c : Config} {r r' : Res Expr} (h : Ends c r) (h' : Ends c r') : r = r' := by
  induction h generalizing r' with
  | done h => cases h' with
    | done h' => rw [h] at h'; cases h'; rfl
    | fail h' => rw [h] at h'; cases h'
    | next h' => rw [h] at h'; cases h'
  | fail h => cases h' with
    | done h' => rw [h] at h'; cases h'
    | fail h' => rw [h] at h'; cases h'; rfl
    | next h' => rw [h] at h'; cases h'
  | next h _ ih => cases h' with
    | done h' => rw [h] at h'; cases h'
    | fail h' => rw [h] at h'; cases h'
    | next h' hr' => rw [h] at h'; cases h'; exact ih hr'

theorem steps_ends {c c' : Config} {r : Res Expr} (h : Steps c c') (he : Ends c' r) : Ends c r := by
  induction h with
  | refl => exact he
  | step ht _ ih => exact .next ht (ih he)

theorem drive_ends : ∀ (n : Nat) (S : List (Nat × Val)) (c i : List Token), GoodConfig S c i → measure S i < n →
    Ends ⟨S, i⟩ (drive PTable.rows n ⟨S, i⟩) := by
  intro n
  induction n with
  | zero => intro S c i _ h; omega
  | succ n ih =>
    intro S c i hg hm
    have ht := good_turn hg
    unfold drive
    cases hturn : turn PTable.rows ⟨S, i⟩ with
    | done e => exact .done hturn
    | fail err => exact .fail hturn
    | next cfg =>
      rw [hturn] at ht
      obtain ⟨⟨c', _, hg'⟩, hlt⟩ := ht
      exact .next hturn (ih cfg.stack c' cfg.input hg' (by omega))

/-- What the result of a run says about the tokens. -/
def Sound (tot : List Token) : Res Expr → Prop
  | .ok e => Derives tot e ∧ Grouped e
  | .error err => err = .value ∨ ∃ t ∈ tot, BadToken t err

theorem ends_sound {cfg : Config} {r : Res Expr} (h : Ends cfg r) : ∀ c, GoodConfig cfg.stack c cfg.input →
    Sound (c ++ cfg.input) r := by
  induction h with
  | @done c e h => intro p hg; have := good_turn hg; rw [show turn PTable.rows ⟨c.stack, c.input⟩ = _ from h] at this; exact this
  | @fail c err h => intro p hg; have := good_turn hg; rw [show turn PTable.rows ⟨c.stack, c.input⟩ = _ from h] at this; exact this
  | @next c c' r h _ ih =>
    intro p hg
    have := good_turn hg
    rw [show turn PTable.rows ⟨c.stack, c.input⟩ = _ from h] at this
    obtain ⟨⟨p', hp, hg'⟩, _⟩ := this
    rw [← hp]
    exact ih p' hg'

theorem parseTokens_ends (ts : List Token) : Ends ⟨[], ts⟩ (parseTokens ts) := by
  unfold parseTokens
  rw [PTable.lrTable_eq]
  exact drive_ends _ _ _ _ (.expecting .top) (by simp [measure])

theorem parseTokens_ok (ts : List Token) (e : Expr) : parseTokens ts = .ok e ↔ Derives ts e ∧ Grouped e := by
  constructor
  · intro h
    have := ends_sound (parseTokens_ends ts) [] (.expecting .top)
    rw [h] at this
    exact this
  · rintro ⟨hd, hg⟩
    refine ends_unique (parseTokens_ends ts) ?_
    have hs := derives_steps hd .top [] [] hg rfl (fun l hl => by have := leftEdge_ge _ _ hl; show 0 < l; omega) (.inl rfl)
    rw [List.append_nil] at hs
    exact steps_ends hs (.done (turn_accept rfl))

theorem parseTokens_error (ts : List Token) (err : Err) (h : parseTokens ts = .error err) :
    err = .value ∨ ∃ t ∈ ts, BadToken t err := by
  have := ends_sound (parseTokens_ends ts) [] (.expecting .top)
  rw [h] at this
  exact this

/-! ### Operators by their tokens -/

theorem ParseSpec.Joins.derives {t : Token} {n : Nat} {f : Expr → Expr → Expr} (h : Joins t n f) {ts us : List Token} {a b : Expr}
    (ha : Derives ts a) (hb : Derives us b) : Derives (ts ++ [t] ++ us) (f a b) := by
  cases h with
  | add h => exact .add t h ha hb
  | sub h => exact .sub t h ha hb
  | mul h => exact .mul t h ha hb
  | div h => exact .div t h ha hb
  | cmp op h ht => exact .bin t op h ht ha hb

theorem ParseSpec.Joins.grouped {t : Token} {n : Nat} {f : Expr → Expr → Expr} (h : Joins t n f) (a b : Expr) :
    (Grouped (f a b) ↔ Operands n a b ∧ Grouped a ∧ Grouped b) ∧ rightEdge (f a b) = n :: rightEdge b ∧
      leftEdge (f a b) = n :: leftEdge a := by
  cases h <;> exact ⟨Iff.rfl, rfl, rfl⟩

end PyDice
