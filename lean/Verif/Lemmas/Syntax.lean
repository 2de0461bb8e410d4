import Verif.ParserError
import Verif.Spec.Syntax
import Verif.Lemmas.Tokens
/-!
# Where the parser stops

The tokens read so far can always be completed (`good_canBegin`); that nothing of the type of the token at which the table has no action
can come next is seen with a small automaton that accepts everything the grammar derives (`scan`).
-/

namespace PyDice
open ParseSpec LexSpec

/-! ### A stack automaton for the token types -/

/-- What has been opened. -/
inductive Bracket where
  | paren | mm1 | mm2 | abs

/-- What has to come next. -/
inductive Want where
  | operand | operator | opening (b : Bracket) | name | equals

/-- One token: what has to come then and what is open then. -/
def scanStep : Want × List Bracket → TokType → Option (Want × List Bracket)
  | (.operand, st), .openP => some (.operand, .paren :: st)
  | (.operand, st), .not => some (.operand, st)
  | (.operand, st), .dropKeep => some (.operator, st)
  | (.operand, st), .dice => some (.operator, st)
  | (.operand, st), .constInt => some (.operator, st)
  | (.operand, st), .constBin => some (.operator, st)
  | (.operand, st), .name => some (.operator, st)
  | (.operand, st), .minmax => some (.opening .mm1, st)
  | (.operand, st), .abs => some (.opening .abs, st)
  | (.operand, st), .var => some (.name, st)
  | (.operator, st), .add => some (.operand, st)
  | (.operator, st), .sub => some (.operand, st)
  | (.operator, st), .mul => some (.operand, st)
  | (.operator, st), .div => some (.operand, st)
  | (.operator, st), .binop => some (.operand, st)
  | (.operator, .paren :: st), .closeP => some (.operator, st)
  | (.operator, .abs :: st), .closeP => some (.operator, st)
  | (.operator, .mm2 :: st), .closeP => some (.operator, st)
  | (.operator, .mm1 :: st), .comma => some (.operand, .mm2 :: st)
  | (.opening b, st), .openP => some (.operand, b :: st)
  | (.name, st), .name => some (.equals, st)
  | (.equals, st), .assign => some (.operand, st)
  | _, _ => none

/-- A sequence of tokens. -/
def scan : Want × List Bracket → List Token → Option (Want × List Bracket)
  | s, [] => some s
  | s, t :: ts => (scanStep s t.type).bind fun s' => scan s' ts

theorem scan_append (s : Want × List Bracket) (ts us : List Token) : scan s (ts ++ us) = (scan s ts).bind fun s' => scan s' us := by
  induction ts generalizing s with
  | nil => rfl
  | cons t ts ih =>
    show (scanStep s t.type).bind _ = ((scanStep s t.type).bind _).bind _
    cases scanStep s t.type with
    | none => rfl
    | some s' => exact ih s'

theorem scan_one (s : Want × List Bracket) (t : Token) : scan s [t] = scanStep s t.type := by
  show (scanStep s t.type).bind _ = _
  cases scanStep s t.type <;> rfl

theorem scan_derives {ts : List Token} {e : Expr} (h : Derives ts e) : ∀ st, scan (.operand, st) ts = some (.operator, st) := by
  induction h with
  | paren o c ho hc h ih =>
    intro st
    rw [List.append_assoc, scan_append, scan_one, ho]
    show scan (.operand, .paren :: st) _ = _
    rw [scan_append, ih, Option.bind_some, scan_one, hc]
    rfl
  | not n hn h ih =>
    intro st
    rw [scan_append, scan_one, hn]
    exact ih st
  | dropKeep t d ht h => intro st; rw [scan_one, ht]; rfl
  | dice t d ht h => intro st; rw [scan_one, ht]; rfl
  | constInt t ht => intro st; rw [scan_one, ht]; rfl
  | constBin t ht => intro st; rw [scan_one, ht]; rfl
  | add o ho ha hb iha ihb => intro st; simp only [scan_append, iha, Option.bind_some, scan_one, ho]; exact ihb st
  | sub o ho ha hb iha ihb => intro st; simp only [scan_append, iha, Option.bind_some, scan_one, ho]; exact ihb st
  | mul o ho ha hb iha ihb => intro st; simp only [scan_append, iha, Option.bind_some, scan_one, ho]; exact ihb st
  | div o ho ha hb iha ihb => intro st; simp only [scan_append, iha, Option.bind_some, scan_one, ho]; exact ihb st
  | bin o op ho hop ha hb iha ihb => intro st; simp only [scan_append, iha, Option.bind_some, scan_one, ho]; exact ihb st
  | minmax m o k c isMax hm hmt ho hk hc ha hb iha ihb =>
    intro st
    have h1 : scan (.operand, st) [m, o] = some (.operand, .mm1 :: st) := by simp [scan, hm, ho, scanStep]
    simp only [scan_append, h1, iha, Option.bind_some, scan_one, hk]
    show ((scan (.operand, .mm2 :: st) _).bind _) = _
    rw [ihb, Option.bind_some, hc]
    rfl
  | abs m o c hm ho hc h ih =>
    intro st
    have h1 : scan (.operand, st) [m, o] = some (.operand, .abs :: st) := by simp [scan, hm, ho, scanStep]
    simp only [scan_append, h1, ih, Option.bind_some, scan_one, hc]
    rfl
  | assign v n a hv hn ha h ih =>
    intro st
    have h1 : scan (.operand, st) [v, n, a] = some (.operand, st) := by simp [scan, hv, hn, ha, scanStep]
    simp only [scan_append, h1, ih, Option.bind_some]
  | getVar t ht => intro st; rw [scan_one, ht]; rfl

/-- What is open at a place. -/
def Inside : Place → List Bracket → Prop
  | .top, st => st = []
  | .paren, st => ∃ r, st = .paren :: r
  | .mm1, st => ∃ r, st = .mm1 :: r
  | .mm2, st => ∃ r, st = .mm2 :: r
  | .abs, st => ∃ r, st = .abs :: r
  | _, _ => True

theorem scan_expecting {S : List (Nat × Val)} {c : List Token} {x : Place} (h : Expecting S c x) :
    ∃ st, scan (.operand, []) c = some (.operand, st) ∧ Inside x st := by
  induction h with
  | top => exact ⟨[], rfl, rfl⟩
  | paren t h ht ih =>
    obtain ⟨st, hs, _⟩ := ih
    refine ⟨.paren :: st, ?_, st, rfl⟩
    rw [scan_append, hs, Option.bind_some, scan_one, ht]; rfl
  | not t h ht ih =>
    obtain ⟨st, hs, _⟩ := ih
    refine ⟨st, ?_, trivial⟩
    rw [scan_append, hs, Option.bind_some, scan_one, ht]; rfl
  | bin o t h hd hg hl ht hx hr ih =>
    obtain ⟨st, hs, _⟩ := ih
    refine ⟨st, ?_, trivial⟩
    rw [scan_append, scan_append, hs, Option.bind_some, scan_derives hd, Option.bind_some, scan_one, ht]
    cases o <;> rfl
  | mm1 m o h hm ho ih =>
    obtain ⟨st, hs, _⟩ := ih
    refine ⟨.mm1 :: st, ?_, st, rfl⟩
    rw [scan_append, hs]
    simp [scan, hm, ho, scanStep]
  | mm2 m o k h hm ho hd hg hk ih =>
    obtain ⟨st, hs, _⟩ := ih
    refine ⟨.mm2 :: st, ?_, st, rfl⟩
    have h1 : scan (.operand, st) [m, o] = some (.operand, .mm1 :: st) := by simp [scan, hm, ho, scanStep]
    simp only [scan_append, hs, h1, scan_derives hd, Option.bind_some, scan_one, hk]
    rfl
  | abs m o h hm ho ih =>
    obtain ⟨st, hs, _⟩ := ih
    refine ⟨.abs :: st, ?_, st, rfl⟩
    rw [scan_append, hs]
    simp [scan, hm, ho, scanStep]
  | assign v n a h hv hn ha ih =>
    obtain ⟨st, hs, _⟩ := ih
    refine ⟨st, ?_, trivial⟩
    rw [scan_append, hs]
    simp [scan, hv, hn, ha, scanStep]

/-! ### Where the table has no action -/

theorem not_canFollow {c : List Token} {ty : TokType} {s : Want × List Bracket} (h : scan (.operand, []) c = some s)
    (hs : scanStep s ty = none) : ¬ CanFollow c ty := by
  rintro ⟨t, ht, us, e, hd⟩
  have := scan_derives hd []
  rw [scan_append, scan_append, h, Option.bind_some, scan_one, ht, hs] at this
  cases this

/-- The row has no action for the look-ahead. -/
def NoAction (S : List (Nat × Val)) (i : List Token) : Prop := eff (PTable.rows.row (topState S)) (lookahead i) = none

theorem good_single_stuck {q q' : Nat} {ty : TokType} (hs : eff (PTable.rows.row q) (.tok ty) = some (.shift q'))
    {v : Val} {S : List (Nat × Val)} {t : Token} {i : List Token} (h : NoAction ((q, v) :: S) (t :: i)) : t.type ≠ ty := by
  rintro rfl
  rw [NoAction, show topState ((q, v) :: S) = q from rfl, lookahead, hs] at h
  cases h

theorem eff_leaf {ty : TokType} {q p : Nat} (h : leafState ty = some (q, p)) (s : Sym) :
    eff (PTable.rows.row q) s = some (.reduce p) := by
  cases ty <;> cases h <;> rfl

/-- With a complete production an error is due to a token that is neither an operator nor closes anything. -/
theorem eff_none_prod (x : Place) {p : Nat} (hp : x.prod = some p) {ty : TokType} (h : eff (PTable.rows.row x.got) (.tok ty) = none)
    (st : List Bracket) : scanStep (.operator, st) ty = none := by
  rcases x with _ | _ | _ | o | _ | _ | _ | _ <;> (try cases o) <;> cases hp <;> cases ty <;>
    first | rfl | (exfalso; revert h; decide)

theorem eff_none_close (x : Place) (hp : x.prod = none) {ty : TokType} (h : eff (PTable.rows.row x.got) (.tok ty) = none)
    {st : List Bracket} (hst : Inside x st) : scanStep (.operator, st) ty = none := by
  rcases x with _ | _ | _ | o | _ | _ | _ | _ <;> cases hp <;> (try obtain ⟨r, rfl⟩ := hst) <;> cases ty <;>
    first | rfl | (exfalso; revert h; decide)

theorem stuck_token {S : List (Nat × Val)} {c i : List Token} {t : Token} (h : GoodConfig S c (t :: i)) (hn : NoAction S (t :: i)) :
    ¬ CanFollow c t.type := by
  cases h with
  | @expecting _ _ _ x h =>
    obtain ⟨st, hs, _⟩ := scan_expecting h
    refine not_canFollow hs ?_
    have he : eff (PTable.rows.row x.state) (.tok t.type) = none := by rw [← expecting_top h]; exact hn
    rw [eff_begin] at he
    cases ht : t.type <;> rw [ht] at he <;> first | rfl | (exfalso; simp [beginState] at he)
  | @got S c ts _ x a h hd hg hl hnx =>
    obtain ⟨st, hs, hin⟩ := scan_expecting h
    refine not_canFollow (s := (.operator, st)) (by rw [scan_append, hs, Option.bind_some, scan_derives hd]) ?_
    cases hp : x.prod with
    | some p => exact eff_none_prod x hp hn st
    | none => exact eff_none_close x hp hn hin
  | leaf t' h hq =>
    have he := (eff_leaf hq _).symm.trans hn
    cases he
  | closeParen => exact absurd hn (by simp [NoAction, topState, eff, PTable.rows, Table.row])
  | closeAbs => exact absurd hn (by simp [NoAction, topState, eff, PTable.rows, Table.row])
  | closeMinmax => exact absurd hn (by simp [NoAction, topState, eff, PTable.rows, Table.row])
  | minmax m h hm =>
    obtain ⟨st, hs, _⟩ := scan_expecting h
    refine not_canFollow (s := (.opening .mm1, st)) (by rw [scan_append, hs, Option.bind_some, scan_one, hm]; rfl) ?_
    have := good_single_stuck (q' := 19) (ty := .openP) rfl hn
    revert this
    cases t.type <;> intro h <;> first | rfl | exact absurd rfl h
  | abs m h hm =>
    obtain ⟨st, hs, _⟩ := scan_expecting h
    refine not_canFollow (s := (.opening .abs, st)) (by rw [scan_append, hs, Option.bind_some, scan_one, hm]; rfl) ?_
    have := good_single_stuck (q' := 20) (ty := .openP) rfl hn
    revert this
    cases t.type <;> intro h <;> first | rfl | exact absurd rfl h
  | var m h hm =>
    obtain ⟨st, hs, _⟩ := scan_expecting h
    refine not_canFollow (s := (.name, st)) (by rw [scan_append, hs, Option.bind_some, scan_one, hm]; rfl) ?_
    have := good_single_stuck (q' := 21) (ty := .name) rfl hn
    revert this
    cases t.type <;> intro h <;> first | rfl | exact absurd rfl h
  | varName m n h hm hnm =>
    obtain ⟨st, hs, _⟩ := scan_expecting h
    refine not_canFollow (s := (.equals, st)) (by rw [scan_append, hs]; simp [scan, hm, hnm, scanStep]) ?_
    have := good_single_stuck (q' := 30) (ty := .assign) rfl hn
    revert this
    cases t.type <;> intro h <;> first | rfl | exact absurd rfl h

theorem not_derives {c : List Token} {s : Want × List Bracket} (h : scan (.operand, []) c = some s) (hs : s ≠ (.operator, []))
    (e : Expr) : ¬ Derives c e := by
  intro hd
  have := scan_derives hd []
  rw [h] at this
  exact hs (Option.some.inj this)

theorem stuck_end {S : List (Nat × Val)} {c : List Token} (h : GoodConfig S c []) (hn : NoAction S []) (e : Expr) :
    ¬ Derives c e := by
  cases h with
  | @expecting _ _ _ x h =>
    obtain ⟨st, hs, _⟩ := scan_expecting h
    exact not_derives hs (by simp) e
  | @got S c ts _ x a h hd hg hl hnx =>
    obtain ⟨st, hs, hin⟩ := scan_expecting h
    refine not_derives (s := (.operator, st)) (by rw [scan_append, hs, Option.bind_some, scan_derives hd]) ?_ e
    cases hp : x.prod with
    | some p =>
      have := eff_end x hp .eof (.inl rfl)
      rw [show eff (PTable.rows.row x.got) .eof = none from hn] at this
      cases this
    | none =>
      rcases x with _ | _ | _ | o | _ | _ | _ | _ <;> cases hp
      · have he : eff (PTable.rows.row 1) .eof = none := hn
        exact absurd he (by decide)
      all_goals (obtain ⟨r, rfl⟩ := hin; simp)
  | leaf t' h hq =>
    have he := (eff_leaf hq _).symm.trans hn
    cases he
  | closeParen => exact absurd hn (by simp [NoAction, topState, eff, PTable.rows, Table.row])
  | closeAbs => exact absurd hn (by simp [NoAction, topState, eff, PTable.rows, Table.row])
  | closeMinmax => exact absurd hn (by simp [NoAction, topState, eff, PTable.rows, Table.row])
  | minmax m h hm =>
    obtain ⟨st, hs, _⟩ := scan_expecting h
    exact not_derives (s := (.opening .mm1, st)) (by rw [scan_append, hs, Option.bind_some, scan_one, hm]; rfl) (by simp) e
  | abs m h hm =>
    obtain ⟨st, hs, _⟩ := scan_expecting h
    exact not_derives (s := (.opening .abs, st)) (by rw [scan_append, hs, Option.bind_some, scan_one, hm]; rfl) (by simp) e
  | var m h hm =>
    obtain ⟨st, hs, _⟩ := scan_expecting h
    exact not_derives (s := (.name, st)) (by rw [scan_append, hs, Option.bind_some, scan_one, hm]; rfl) (by simp) e
  | varName m n h hm hnm =>
    obtain ⟨st, hs, _⟩ := scan_expecting h
    exact not_derives (s := (.equals, st)) (by rw [scan_append, hs]; simp [scan, hm, hnm, scanStep]) (by simp) e

/-! ### What has been read can be completed -/

/-- The operators and `MAX`, `MIN` are spelled as the lexer spells them. -/
def OpSpelt (t : Token) : Prop :=
  (t.type = .binop → ∃ op : CmpOp, t.text = op.text) ∧
    (t.type = .minmax → ∃ isMax : Bool, t.text = if isMax then ['M', 'A', 'X'] else ['M', 'I', 'N'])

theorem wellSpelt_opSpelt {t : Token} (h : WellSpelt t) : OpSpelt t := by
  refine ⟨fun ht => ?_, fun ht => ?_⟩
  · cases hc : cmpOf t.text with
    | some op => exact ⟨op, cmpOf_some hc⟩
    | none => exact absurd (badToken_value h (.inr (.inr (.inl ⟨ht, hc, rfl⟩)))) (by decide)
  · cases hc : minmaxOf t.text with
    | some k => exact ⟨k, minmaxOf_some hc⟩
    | none => exact absurd (badToken_value h (.inr (.inr (.inr ⟨ht, hc, rfl⟩)))) (by decide)

/-- A token of a type. -/
def anyToken (ty : TokType) : Token := ⟨ty, ['1'], 0⟩

theorem anyOne : Derives [anyToken .constInt] (.constInt ['1']) := .constInt _ rfl

theorem expecting_completes {S : List (Nat × Val)} {c : List Token} {x : Place} (h : Expecting S c x) (hs : ∀ t ∈ c, OpSpelt t) :
    ∀ {ts : List Token} {a : Expr}, Derives ts a → ∃ us e, Derives (c ++ ts ++ us) e := by
  induction h with
  | top => intro ts a ha; exact ⟨[], a, by simpa using ha⟩
  | paren t h ht ih =>
    intro ts a ha
    obtain ⟨us, e, he⟩ := ih (fun t ht => hs t (by simp [ht])) (.paren t (anyToken .closeP) ht rfl ha)
    exact ⟨[anyToken .closeP] ++ us, e, by simpa using he⟩
  | not t h ht ih =>
    intro ts a ha
    obtain ⟨us, e, he⟩ := ih (fun t ht => hs t (by simp [ht])) (.not t ht ha)
    exact ⟨us, e, by simpa using he⟩
  | @bin S c ts' x a' o t h hd hg hl ht hx hr ih =>
    intro ts a ha
    have hop : ∃ op : CmpOp, o = .cmp → t.text = op.text := by
      by_cases ho : o = .cmp
      · subst ho
        obtain ⟨op, h⟩ := (hs t (by simp)).1 ht
        exact ⟨op, fun _ => h⟩
      · exact ⟨.eq, fun h => absurd h ho⟩
    obtain ⟨op, hop⟩ := hop
    obtain ⟨us, e, he⟩ := ih (fun t ht => hs t (by simp [ht])) (BOp.derives_expr o op t ht hop hd ha)
    exact ⟨us, e, by simpa using he⟩
  | mm1 m o h hm ho ih =>
    intro ts a ha
    obtain ⟨k, hk⟩ := (hs m (by simp)).2 hm
    obtain ⟨us, e, he⟩ := ih (fun t ht => hs t (by simp [ht]))
      (.minmax m o (anyToken .comma) (anyToken .closeP) k hm hk ho rfl rfl ha anyOne)
    exact ⟨[anyToken .comma, anyToken .constInt, anyToken .closeP] ++ us, e, by simpa using he⟩
  | mm2 m o k h hm ho hd hg hk ih =>
    intro ts a ha
    obtain ⟨b, hb⟩ := (hs m (by simp)).2 hm
    obtain ⟨us, e, he⟩ := ih (fun t ht => hs t (by simp [ht])) (.minmax m o k (anyToken .closeP) b hm hb ho hk rfl hd ha)
    exact ⟨[anyToken .closeP] ++ us, e, by simpa using he⟩
  | abs m o h hm ho ih =>
    intro ts a ha
    obtain ⟨us, e, he⟩ := ih (fun t ht => hs t (by simp [ht])) (.abs m o (anyToken .closeP) hm ho rfl ha)
    exact ⟨[anyToken .closeP] ++ us, e, by simpa using he⟩
  | assign v n k h hv hn hk ih =>
    intro ts a ha
    obtain ⟨us, e, he⟩ := ih (fun t ht => hs t (by simp [ht])) (.assign v n k hv hn hk ha)
    exact ⟨us, e, by simpa using he⟩

theorem expecting_canBegin {S : List (Nat × Val)} {c : List Token} {x : Place} (h : Expecting S c x) (hs : ∀ t ∈ c, OpSpelt t)
    {ts vs : List Token} {a : Expr} (ha : Derives (ts ++ vs) a) : CanBegin (c ++ ts) := by
  obtain ⟨us, e, he⟩ := expecting_completes h hs ha
  exact ⟨vs ++ us, e, by simpa using he⟩

theorem stuck_canBegin {S : List (Nat × Val)} {c i : List Token} (h : GoodConfig S c i) (hs : ∀ t ∈ c, OpSpelt t)
    (hn : NoAction S i) : CanBegin c := by
  cases h with
  | expecting h =>
    have := expecting_canBegin h hs (ts := []) (vs := [anyToken .constInt]) anyOne
    simpa using this
  | got h hd hg hl hnx =>
    exact expecting_canBegin h (fun t ht => hs t (by simp [ht])) (vs := []) (by simpa using hd)
  | leaf t' h hq =>
    have he := (eff_leaf hq _).symm.trans hn
    cases he
  | closeParen => exact absurd hn (by simp [NoAction, topState, eff, PTable.rows, Table.row])
  | closeAbs => exact absurd hn (by simp [NoAction, topState, eff, PTable.rows, Table.row])
  | closeMinmax => exact absurd hn (by simp [NoAction, topState, eff, PTable.rows, Table.row])
  | minmax m h hm =>
    obtain ⟨k, hk⟩ := (hs m (by simp)).2 hm
    exact expecting_canBegin h (fun t ht => hs t (by simp [ht])) (ts := [m])
      (vs := [anyToken .openP, anyToken .constInt, anyToken .comma, anyToken .constInt, anyToken .closeP])
      (.minmax m (anyToken .openP) (anyToken .comma) (anyToken .closeP) k hm hk rfl rfl rfl anyOne anyOne)
  | abs m h hm =>
    exact expecting_canBegin h (fun t ht => hs t (by simp [ht])) (ts := [m])
      (vs := [anyToken .openP, anyToken .constInt, anyToken .closeP])
      (.abs m (anyToken .openP) (anyToken .closeP) hm rfl rfl anyOne)
  | var m h hm =>
    exact expecting_canBegin h (fun t ht => hs t (by simp [ht])) (ts := [m])
      (vs := [anyToken .name, anyToken .assign, anyToken .constInt]) (.assign m (anyToken .name) (anyToken .assign) hm rfl rfl anyOne)
  | varName m n h hm hnm =>
    exact expecting_canBegin h (fun t ht => hs t (by simp [ht])) (ts := [m, n])
      (vs := [anyToken .assign, anyToken .constInt]) (.assign m n (anyToken .assign) hm hnm rfl anyOne)

/-! ### What a production can raise -/

theorem eff_eof_shift (x : Place) (q : Nat) : eff (PTable.rows.row x.got) (lookahead []) ≠ some (.shift q) := by
  rcases x with _ | _ | _ | o | _ | _ | _ | _ <;> (try cases o) <;> intro h <;> cases h

theorem eff_reduce_prod (x : Place) (s : Sym) {p : Nat} (h : eff (PTable.rows.row x.got) s = some (.reduce p)) : x.prod = some p := by
  rcases x with _ | _ | _ | o | _ | _ | _ | _ <;> (try cases o) <;> rcases s with ty | _ | _ | _ <;> (try cases ty) <;> cases h <;> rfl

/-- With spelled tokens only dice raise. -/
theorem fail_leaf {S : List (Nat × Val)} {c i : List Token} {err : Err} (h : GoodConfig S c i) (hs : ∀ t ∈ c, OpSpelt t)
    (hn : ¬ NoAction S i) (hf : turn PTable.rows ⟨S, i⟩ = .fail err) :
    ∃ S' c' x t, c = c' ++ [t] ∧ Expecting S' c' x ∧
      ((t.type = .dice ∧ mkDice t.text = .error err) ∨ (t.type = .dropKeep ∧ mkDropKeep t.text = .error err)) := by
  cases h with
  | @expecting _ _ _ x h =>
    exfalso
    have hS := expecting_top h
    cases i with
    | nil => exact hn (by rw [NoAction, hS]; exact eff_begin_eof x)
    | cons t i =>
      cases hb : beginState t.type with
      | none => exact hn (by rw [NoAction, hS]; show eff _ (.tok t.type) = none; rw [eff_begin, hb]; rfl)
      | some q => rw [steps_shift hS hb] at hf; cases hf
  | @leaf S c _ x q p t h hq =>
    refine ⟨S, c, x, t, rfl, h, ?_⟩
    cases ht : t.type <;> rw [ht] at hq <;> cases hq
    · rw [turn_reduce' (p := 3) rfl] at hf
      cases hd : mkDropKeep t.text with
      | error err' =>
        rw [show reduceBy PTable.rows 3 ⟨(4, .tok t) :: S, i⟩ = .fail err' from
          reduce_error (P := [(4, .tok t)]) (p := 3) rfl (by
            show (do return Expr.dropKeep (← mkDropKeep t.text) : Res Expr) = _
            rw [hd]; rfl)] at hf
        cases hf
        exact .inr ⟨rfl, rfl⟩
      | ok d =>
        rw [show reduceBy PTable.rows 3 ⟨(4, .tok t) :: S, i⟩ = _ from
          reduce_ok (P := [(4, .tok t)]) (e := .dropKeep d) (p := 3) (expecting_top h) rfl (by
            show (do return Expr.dropKeep (← mkDropKeep t.text) : Res Expr) = _
            rw [hd]; rfl)] at hf
        cases hf
    · rw [turn_reduce' (p := 4) rfl] at hf
      cases hd : mkDice t.text with
      | error err' =>
        rw [show reduceBy PTable.rows 4 ⟨(5, .tok t) :: S, i⟩ = .fail err' from
          reduce_error (P := [(5, .tok t)]) (p := 4) rfl (by
            show (do return Expr.dice (← mkDice t.text) : Res Expr) = _
            rw [hd]; rfl)] at hf
        cases hf
        exact .inl ⟨rfl, rfl⟩
      | ok d =>
        rw [show reduceBy PTable.rows 4 ⟨(5, .tok t) :: S, i⟩ = _ from
          reduce_ok (P := [(5, .tok t)]) (e := .dice d) (p := 4) (expecting_top h) rfl (by
            show (do return Expr.dice (← mkDice t.text) : Res Expr) = _
            rw [hd]; rfl)] at hf
        cases hf
    · rw [turn_reduce' (p := 5) rfl, show reduceBy PTable.rows 5 ⟨(6, .tok t) :: S, i⟩ = _ from
        reduce_ok (P := [(6, .tok t)]) (e := .constInt t.text) (p := 5) (expecting_top h) rfl rfl] at hf
      cases hf
    · rw [turn_reduce' (p := 6) rfl, show reduceBy PTable.rows 6 ⟨(7, .tok t) :: S, i⟩ = _ from
        reduce_ok (P := [(7, .tok t)]) (e := .constBin t.text) (p := 6) (expecting_top h) rfl rfl] at hf
      cases hf
    · rw [turn_reduce' (p := 15) rfl, show reduceBy PTable.rows 15 ⟨(11, .tok t) :: S, i⟩ = _ from
        reduce_ok (P := [(11, .tok t)]) (e := .getVar t.text) (p := 15) (expecting_top h) rfl rfl] at hf
      cases hf
  | @closeParen S c ts _ x a o k h ho hd hg hk =>
    exfalso
    rw [turn_reduce' (p := 1) rfl, show reduceBy PTable.rows 1 ⟨(27, .tok k) :: (17, .expr a) :: (2, .tok o) :: S, i⟩ = _ from
      reduce_ok (P := [(27, .tok k), (17, .expr a), (2, .tok o)]) (e := .paren a) (expecting_top h) rfl rfl] at hf
    cases hf
  | @closeAbs S c ts _ x a m o k h hm ho hd hg hk =>
    exfalso
    rw [turn_reduce' (p := 13) rfl,
      show reduceBy PTable.rows 13 ⟨(32, .tok k) :: (29, .expr a) :: (20, .tok o) :: (9, .tok m) :: S, i⟩ = _ from
      reduce_ok (P := [(32, .tok k), (29, .expr a), (20, .tok o), (9, .tok m)]) (e := .abs a) (expecting_top h) rfl rfl] at hf
    cases hf
  | @closeMinmax S c ts us _ x a b m o k l h hm ho hda hga hk hdb hgb hl =>
    exfalso
    obtain ⟨isMax, hmm⟩ := (hs m (by simp)).2 hm
    rw [turn_reduce' (p := 12) rfl, show reduceBy PTable.rows 12
      ⟨(35, .tok l) :: (34, .expr b) :: (31, .tok k) :: (28, .expr a) :: (19, .tok o) :: (8, .tok m) :: S, i⟩ = _ from
      reduce_ok (P := [(35, .tok l), (34, .expr b), (31, .tok k), (28, .expr a), (19, .tok o), (8, .tok m)])
        (e := .minmax isMax a b) (expecting_top h) rfl (by
          show (match minmaxOf m.text with | some k => Except.ok (Expr.minmax k a b) | none => .error Err.key) = _
          rw [hmm, minmaxOf_text])] at hf
    cases hf
  | @minmax S c _ x t h ht =>
    exfalso
    by_cases hl : lookahead i = .tok .openP
    · cases i with
      | nil => cases hl
      | cons o i => rw [turn_shift (S := (8, .tok t) :: S) (q := 19) (by rw [show Sym.tok o.type = _ from hl]; rfl)] at hf; cases hf
    · refine hn ?_
      unfold NoAction
      cases i with
      | nil => rfl
      | cons o i =>
        revert hl
        show lookahead (o :: i) ≠ _ → eff _ (.tok o.type) = none
        rw [lookahead]
        cases o.type <;> intro hl <;> first | rfl | exact absurd rfl hl
  | @abs S c _ x t h ht =>
    exfalso
    by_cases hl : lookahead i = .tok .openP
    · cases i with
      | nil => cases hl
      | cons o i => rw [turn_shift (S := (9, .tok t) :: S) (q := 20) (by rw [show Sym.tok o.type = _ from hl]; rfl)] at hf; cases hf
    · refine hn ?_
      unfold NoAction
      cases i with
      | nil => rfl
      | cons o i =>
        revert hl
        show lookahead (o :: i) ≠ _ → eff _ (.tok o.type) = none
        rw [lookahead]
        cases o.type <;> intro hl <;> first | rfl | exact absurd rfl hl
  | @var S c _ x t h ht =>
    exfalso
    by_cases hl : lookahead i = .tok .name
    · cases i with
      | nil => cases hl
      | cons o i => rw [turn_shift (S := (10, .tok t) :: S) (q := 21) (by rw [show Sym.tok o.type = _ from hl]; rfl)] at hf; cases hf
    · refine hn ?_
      unfold NoAction
      cases i with
      | nil => rfl
      | cons o i =>
        revert hl
        show lookahead (o :: i) ≠ _ → eff _ (.tok o.type) = none
        rw [lookahead]
        cases o.type <;> intro hl <;> first | rfl | exact absurd rfl hl
  | @varName S c _ x t n h ht hnm =>
    exfalso
    by_cases hl : lookahead i = .tok .assign
    · cases i with
      | nil => cases hl
      | cons o i =>
        rw [turn_shift (S := (21, .tok n) :: (10, .tok t) :: S) (q := 30) (by rw [show Sym.tok o.type = _ from hl]; rfl)] at hf
        cases hf
    · refine hn ?_
      unfold NoAction
      cases i with
      | nil => rfl
      | cons o i =>
        revert hl
        show lookahead (o :: i) ≠ _ → eff _ (.tok o.type) = none
        rw [lookahead]
        cases o.type <;> intro hl <;> first | rfl | exact absurd rfl hl
  | @got S c ts _ x a h hd hg hl hnx =>
    exfalso
    cases he : eff (PTable.rows.row x.got) (lookahead i) with
    | none => exact hn he
    | some act =>
      cases act with
      | shift q =>
        cases i with
        | nil =>
          exact absurd he (eff_eof_shift x q)
        | cons t i => rw [turn_shift (S := (x.got, .expr a) :: S) he] at hf; cases hf
      | accept => rw [turn_accept he] at hf; cases hf
      | reduce p =>
        rw [turn_reduce' he] at hf
        have hp := eff_reduce_prod x _ he
        cases h with
        | top => cases hp
        | paren => cases hp
        | mm1 => cases hp
        | mm2 => cases hp
        | abs => cases hp
        | @not S c x t h ht =>
          cases hp
          rw [show reduceBy PTable.rows 2 ⟨(Place.not.got, .expr a) :: (3, .tok t) :: S, i⟩ = _ from
            reduce_ok (P := [(18, .expr a), (3, .tok t)]) (e := .not a) (p := 2) (expecting_top h) rfl rfl] at hf
          cases hf
        | @assign S c x v n k h hv hnn hk =>
          cases hp
          rw [show reduceBy PTable.rows 14 ⟨(Place.assign.got, .expr a) :: (30, .tok k) :: (21, .tok n) :: (10, .tok v) :: S, i⟩ = _ from
            reduce_ok (P := [(33, .expr a), (30, .tok k), (21, .tok n), (10, .tok v)]) (e := .assign n.text a) (p := 14)
              (expecting_top h) rfl rfl] at hf
          cases hf
        | @bin S c us x b o t h hdb hgb hlb ht hx hr =>
          have hpo : p = o.prod := by cases hp; rfl
          subst hpo
          have hop : ∃ op : CmpOp, o = .cmp → t.text = op.text := by
            by_cases ho : o = .cmp
            · subst ho
              obtain ⟨op, h⟩ := (hs t (by simp)).1 ht
              exact ⟨op, fun _ => h⟩
            · exact ⟨.eq, fun h => absurd h ho⟩
          obtain ⟨op, hop⟩ := hop
          rw [show reduceBy PTable.rows o.prod ⟨((Place.bin o).got, .expr a) :: (o.state, .tok t) :: (x.got, .expr b) :: S, i⟩ = _ from
            reduce_ok (P := [((Place.bin o).got, .expr a), (o.state, .tok t), (x.got, .expr b)]) (e := o.expr op b a) (p := o.prod)
              (expecting_top h) (by cases o <;> rfl) (by
                cases o
                · rfl
                · rfl
                · rfl
                · rfl
                · show (match cmpOf t.text with | some op => Except.ok (Expr.bin op b a) | none => .error Err.key) = _
                  rw [hop rfl, cmpOf_text]
                  rfl)] at hf
          cases hf

/-! ### The whole run -/

theorem handlerCalled_iff {S : List (Nat × Val)} {i : List Token} : handlerCalled PTable.rows ⟨S, i⟩ = true ↔ NoAction S i := by
  unfold handlerCalled NoAction eff
  dsimp only
  cases (PTable.rows.row (topState S)).default with
  | none => simp
  | some p => simp

/-- What the outcome of a run says about the tokens. -/
def SaysOf (tot : List Token) : Except ParseFail Expr → Prop
  | .ok e => Derives tot e ∧ Grouped e
  | .error (.unexpected (some t)) => ∃ c, FirstMisplaced tot c t
  | .error (.unexpected none) => Incomplete tot
  | .error (.raised err) => err = .value ∧ ∃ c t, FirstUnreadable tot c t

theorem die_canFollow {S : List (Nat × Val)} {c : List Token} {x : Place} (h : Expecting S c x) (hs : ∀ t ∈ c, OpSpelt t) {ty : TokType}
    (ht : ty = .dice ∨ ty = .dropKeep) : CanFollow c ty := by
  rcases ht with rfl | rfl
  · obtain ⟨d, hd⟩ : ∃ d, mkDice ['d', '6'] = .ok d := by
      cases hd : mkDice ['d', '6'] with
      | ok d => exact ⟨d, rfl⟩
      | error err => exact absurd hd (by rcases err <;> decide +kernel)
    exact ⟨⟨.dice, ['d', '6'], 0⟩, rfl, expecting_canBegin h hs (vs := []) (.dice _ d rfl hd)⟩
  · obtain ⟨d, hd⟩ : ∃ d, mkDropKeep ['2', 'd', '6', 'k', '1'] = .ok d := by
      cases hd : mkDropKeep ['2', 'd', '6', 'k', '1'] with
      | ok d => exact ⟨d, rfl⟩
      | error err => exact absurd hd (by rcases err <;> decide +kernel)
    exact ⟨⟨.dropKeep, ['2', 'd', '6', 'k', '1'], 0⟩, rfl, expecting_canBegin h hs (vs := []) (.dropKeep _ d rfl hd)⟩

theorem drive_reports : ∀ (n : Nat) (S : List (Nat × Val)) (c i : List Token), GoodConfig S c i → measure S i < n →
    (∀ t ∈ c ++ i, WellSpelt t) → SaysOf (c ++ i) (driveReported PTable.rows n ⟨S, i⟩) := by
  intro n
  induction n with
  | zero => intro S c i _ h; omega
  | succ n ih =>
    intro S c i hg hm hw
    have hs : ∀ t ∈ c, OpSpelt t := fun t ht => wellSpelt_opSpelt (hw t (by simp [ht]))
    unfold driveReported
    by_cases hn : NoAction S i
    · rw [if_pos (handlerCalled_iff.mpr hn)]
      have hb := stuck_canBegin hg hs hn
      cases i with
      | nil => exact ⟨by simpa using hb, by simpa using stuck_end hg hn⟩
      | cons t i => exact ⟨c, ⟨i, rfl⟩, hb, stuck_token hg hn⟩
    · rw [if_neg (fun h => hn (handlerCalled_iff.mp h))]
      have ht := good_turn hg
      cases hturn : turn PTable.rows ⟨S, i⟩ with
      | done e => rw [hturn] at ht; exact ht
      | next cfg =>
        rw [hturn] at ht
        obtain ⟨⟨c', hc', hg'⟩, hlt⟩ := ht
        have := ih cfg.stack c' cfg.input hg' (by omega) (by rw [hc']; exact hw)
        rw [hc'] at this
        exact this
      | fail err =>
        obtain ⟨S', c', x, t, rfl, hx, hbad⟩ := fail_leaf hg hs hn hturn
        have hs' : ∀ t ∈ c', OpSpelt t := fun t ht => hs t (by simp [ht])
        have herr : err = .value := badToken_value (hw t (by simp)) (by
          rcases hbad with h | h
          · exact .inl h
          · exact .inr (.inl h))
        subst herr
        refine ⟨rfl, c', t, ⟨i, by simp⟩, ?_, ?_, hbad⟩
        · have := expecting_canBegin hx hs' (ts := []) (vs := [anyToken .constInt]) anyOne
          simpa using this
        · exact die_canFollow hx hs' (by rcases hbad with h | h <;> simp [h.1])

theorem parseReported_reports (ts : List Token) (hw : ∀ t ∈ ts, WellSpelt t) : SaysOf ts (parseReported ts) := by
  unfold parseReported
  rw [PTable.lrTable_eq]
  exact drive_reports _ _ [] ts (.expecting .top) (by simp [measure]) hw

/-! ### The descriptions exclude each other -/

theorem derives_readable {ts : List Token} {e : Expr} (h : Derives ts e) : ∀ t ∈ ts, ¬ Unreadable t := by
  have other : ∀ {t : Token} {ty : TokType}, t.type = ty → ty ≠ .dice → ty ≠ .dropKeep → ¬ Unreadable t := by
    rintro t ty rfl h1 h2 (⟨h, _⟩ | ⟨h, _⟩)
    · exact h1 h
    · exact h2 h
  induction h with
  | paren o c ho hc h ih =>
    intro t ht
    simp only [List.mem_append, List.mem_singleton] at ht
    rcases ht with (rfl | ht) | rfl
    · exact other ho (by decide) (by decide)
    · exact ih t ht
    · exact other hc (by decide) (by decide)
  | not n hn h ih =>
    intro t ht
    simp only [List.mem_append, List.mem_singleton] at ht
    rcases ht with rfl | ht
    · exact other hn (by decide) (by decide)
    · exact ih t ht
  | dropKeep t d ht h =>
    intro t' ht'
    cases List.mem_singleton.mp ht'
    rintro (⟨h1, _⟩ | ⟨_, h1⟩)
    · rw [ht] at h1; cases h1
    · rw [h] at h1; cases h1
  | dice t d ht h =>
    intro t' ht'
    cases List.mem_singleton.mp ht'
    rintro (⟨_, h1⟩ | ⟨h1, _⟩)
    · rw [h] at h1; cases h1
    · rw [ht] at h1; cases h1
  | constInt t ht => intro t' ht'; cases List.mem_singleton.mp ht'; exact other ht (by decide) (by decide)
  | constBin t ht => intro t' ht'; cases List.mem_singleton.mp ht'; exact other ht (by decide) (by decide)
  | add o ho ha hb iha ihb | sub o ho ha hb iha ihb | mul o ho ha hb iha ihb | div o ho ha hb iha ihb | bin o op ho hop ha hb iha ihb =>
    intro t ht
    simp only [List.mem_append, List.mem_singleton] at ht
    rcases ht with (ht | rfl) | ht
    · exact iha t ht
    · exact other ho (by decide) (by decide)
    · exact ihb t ht
  | minmax m o k c isMax hm hmt ho hk hc ha hb iha ihb =>
    intro t ht
    simp only [List.mem_append, List.mem_cons, List.not_mem_nil, or_false] at ht
    rcases ht with ((((rfl | rfl) | ht) | rfl) | ht) | rfl
    · exact other hm (by decide) (by decide)
    · exact other ho (by decide) (by decide)
    · exact iha t ht
    · exact other hk (by decide) (by decide)
    · exact ihb t ht
    · exact other hc (by decide) (by decide)
  | abs m o c hm ho hc h ih =>
    intro t ht
    simp only [List.mem_append, List.mem_cons, List.not_mem_nil, or_false] at ht
    rcases ht with ((rfl | rfl) | ht) | rfl
    · exact other hm (by decide) (by decide)
    · exact other ho (by decide) (by decide)
    · exact ih t ht
    · exact other hc (by decide) (by decide)
  | assign v n a hv hn ha h ih =>
    intro t ht
    simp only [List.mem_append, List.mem_cons, List.not_mem_nil, or_false] at ht
    rcases ht with (rfl | rfl | rfl) | ht
    · exact other hv (by decide) (by decide)
    · exact other hn (by decide) (by decide)
    · exact other ha (by decide) (by decide)
    · exact ih t ht
  | getVar t ht => intro t' ht'; cases List.mem_singleton.mp ht'; exact other ht (by decide) (by decide)

theorem canBegin_left {c d : List Token} (h : CanBegin (c ++ d)) : CanBegin c := by
  obtain ⟨us, e, he⟩ := h
  exact ⟨d ++ us, e, by simpa using he⟩

theorem canBegin_readable {c : List Token} (h : CanBegin c) : ∀ t ∈ c, ¬ Unreadable t := by
  obtain ⟨us, e, he⟩ := h
  exact fun t ht => derives_readable he t (by simp [ht])

theorem derives_canBegin {ts : List Token} {e : Expr} (h : Derives ts e) : CanBegin ts := ⟨[], e, by simpa using h⟩

/-- Where one reading ends is where every reading ends. -/
theorem same_place {ts c c' : List Token} {t t' : Token} {i i' : List Token} (h : ts = c ++ t :: i) (h' : ts = c' ++ t' :: i')
    (hb : CanBegin c) (hb' : CanBegin c') (hx : ¬ CanBegin (c ++ [t])) (hx' : ¬ CanBegin (c' ++ [t'])) : c = c' ∧ t = t' := by
  rw [h] at h'
  rcases List.append_eq_append_iff.mp h' with ⟨a, h1, h2⟩ | ⟨a, h1, h2⟩
  · cases a with
    | nil => simp at h1 h2; exact ⟨h1.symm, h2.1⟩
    | cons b a =>
      simp only [List.cons_append, List.cons.injEq] at h2
      rw [h1, ← h2.1] at hb'
      exact absurd (canBegin_left (d := a) (by simpa using hb')) hx
  · cases a with
    | nil => simp at h1 h2; exact ⟨h1, h2.1.symm⟩
    | cons b a =>
      simp only [List.cons_append, List.cons.injEq] at h2
      rw [h1, ← h2.1] at hb
      exact absurd (canBegin_left (d := a) (by simpa using hb)) hx'

theorem misplaced_stop {ts c : List Token} {t : Token} (h : FirstMisplaced ts c t) : ¬ CanBegin (c ++ [t]) :=
  fun hb => h.2.2 ⟨t, rfl, hb⟩

theorem unreadable_stop {ts c : List Token} {t : Token} (h : FirstUnreadable ts c t) : ¬ CanBegin (c ++ [t]) :=
  fun hb => canBegin_readable hb t (by simp) h.2.2.2

theorem stop_not_canBegin {ts c : List Token} {t : Token} {i : List Token} (h : ts = c ++ t :: i) (hx : ¬ CanBegin (c ++ [t])) :
    ¬ CanBegin ts := by
  intro hb
  rw [h, show c ++ t :: i = (c ++ [t]) ++ i by simp] at hb
  exact hx (canBegin_left hb)

/-! ### Forgetting what is reported -/

/-- The kind of exception. -/
def ParseFail.kind : ParseFail → Err
  | .unexpected _ => .value
  | .raised err => err

theorem turn_handler {tb : Table} {c : Config} (h : handlerCalled tb c = true) : turn tb c = .fail .value := by
  simp only [handlerCalled, Bool.and_eq_true, Option.isNone_iff_eq_none] at h
  simp only [turn, h.1, h.2]

theorem drive_forget (tb : Table) : ∀ (n : Nat) (c : Config), drive tb n c = (driveReported tb n c).mapError ParseFail.kind := by
  intro n
  induction n with
  | zero => intro c; rfl
  | succ n ih =>
    intro c
    unfold drive driveReported
    by_cases h : handlerCalled tb c = true
    · rw [if_pos h, turn_handler h]
      rfl
    · rw [if_neg h]
      cases turn tb c with
      | next c' => exact ih c'
      | done e => rfl
      | fail err => rfl

/-! ### Lines and columns -/

theorem lexed_solid {b s : Str} {ts : List Token} (h : Lexed b s ts) : ∀ t ∈ ts, ∃ c w, t.text = c :: w ∧ isSpace c = false := by
  induction h with
  | done => intro t ht; simp at ht
  | @token b u w v ty ts hu hs hne ht hrest ih =>
    intro t' ht'
    rcases List.mem_cons.mp ht' with rfl | ht'
    · cases w with
      | nil => exact absurd rfl hne
      | cons c w => exact ⟨c, w, rfl, hs⟩
    · exact ih t' ht'

theorem source_line {text : Str} {idx : Nat} (h : idx ≤ text.length) : ∃ line start, LineAt text line start ∧
    start + sourceCol text idx = idx + 1 ∧ idx ≤ start + line.length ∧ sourceLine text idx = 1 + (text.take start).count '\n' := by
  have hsplit : text = text.take idx ++ text.drop idx := (List.take_append_drop idx text).symm
  obtain ⟨p, hp⟩ : ∃ p, p = text.take idx := ⟨_, rfl⟩
  obtain ⟨q, hq⟩ : ∃ q, q = text.drop idx := ⟨_, rfl⟩
  have hlen : p.length = idx := by rw [hp]; simp [h]
  have hr := List.takeWhile_append_dropWhile (p := fun c => c != '\n') (l := p.reverse)
  have hp2 : p = (p.reverse.dropWhile (· != '\n')).reverse ++ (p.reverse.takeWhile (· != '\n')).reverse := by
    rw [← List.reverse_append, hr, List.reverse_reverse]
  generalize hA : (p.reverse.dropWhile (· != '\n')).reverse = A at hp2
  generalize hB : (p.reverse.takeWhile (· != '\n')).reverse = B at hp2
  have hBn : '\n' ∉ B := by
    intro hm
    rw [← hB, List.mem_reverse] at hm
    have := List.all_eq_true.mp List.all_takeWhile _ hm
    simp at this
  have hAn : A = [] ∨ ∃ A', A = A' ++ ['\n'] := by
    rw [← hA]
    cases hd : p.reverse.dropWhile (· != '\n') with
    | nil => exact .inl rfl
    | cons c r =>
      have h1 := List.head_dropWhile_not (fun c => c != '\n') (l := p.reverse) (by rw [hd]; simp)
      simp only [hd, List.head_cons, bne_eq_false_iff_eq] at h1
      right
      exact ⟨r.reverse, by rw [h1]; simp⟩
  have hq2 := List.takeWhile_append_dropWhile (p := fun c => c != '\n') (l := q)
  generalize hC : q.takeWhile (· != '\n') = C at hq2
  generalize hD : q.dropWhile (· != '\n') = D at hq2
  have hCn : '\n' ∉ C := by
    intro hm
    rw [← hC] at hm
    have := List.all_eq_true.mp List.all_takeWhile _ hm
    simp at this
  have hDn : D = [] ∨ ∃ D', D = '\n' :: D' := by
    cases hd : D with
    | nil => exact .inl rfl
    | cons c r =>
      have h1 := List.head_dropWhile_not (fun c => c != '\n') (l := q) (by rw [hD, hd]; simp)
      simp only [hD, hd, List.head_cons, bne_eq_false_iff_eq] at h1
      exact .inr ⟨r, by rw [h1]⟩
  have htext : text = A ++ ((B ++ C) ++ D) := by
    rw [hsplit, ← hp, ← hq, hp2, ← hq2]
    simp
  have hABl : A.length + B.length = idx := by rw [← hlen, hp2]; simp
  have hcol : sourceCol text idx = B.length + 1 := by rw [sourceCol, ← hp, ← hB, List.length_reverse]
  refine ⟨B ++ C, A.length, ⟨A, D, htext, rfl, by simp [hBn, hCn], hAn, hDn⟩, by omega, by simp; omega, ?_⟩
  have hA' : text.take A.length = A := by rw [htext, List.take_left]
  rw [sourceLine, ← hp, hA', hp2, List.count_append, List.count_eq_zero.mpr hBn, Nat.add_zero]

end PyDice
