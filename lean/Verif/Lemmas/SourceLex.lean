import Verif.Lemmas.KernelRfl
import Verif.Source.Lex
import Verif.Source.Run
/-!
# The text of `PythonDiceLexer.lex`: steps
-/
namespace PyDice.Source
set_option linter.unusedSimpArgs false
set_option maxHeartbeats 1000000

/-- The search for the line, with the index of the line found. -/
def findLineIx : List Str → Nat → Nat → Option (Nat × Nat)
  | [], _, _ => none
  | line :: rest, k, col => if line.length < col then findLineIx rest (k + 1) (col - (line.length + 1)) else some (k, col)

theorem findLineIx_some {lines : List Str} {k col j c : Nat} (h : findLineIx lines k col = some (j, c)) :
    ∃ line, k ≤ j ∧ lines[j - k]? = some line ∧ findLine lines col = some (line, c) := by
  induction lines generalizing k col with
  | nil => cases h
  | cons l t ih =>
    rw [findLineIx] at h
    split at h
    · next hl =>
      obtain ⟨line, hk, he, hf⟩ := ih h
      refine ⟨line, by omega, ?_, by rw [findLine, if_pos hl, hf]⟩
      have : j - k = (j - (k + 1)) + 1 := by omega
      rw [this, List.getElem?_cons_succ, he]
    · next hl =>
      cases h
      exact ⟨l, Nat.le_refl _, by simp, by rw [findLine, if_neg hl]⟩

theorem findLineIx_none {lines : List Str} {k col : Nat} (h : findLineIx lines k col = none) : findLine lines col = none := by
  induction lines generalizing k col with
  | nil => rfl
  | cons l t ih =>
    rw [findLineIx] at h
    split at h
    · next hl => rw [findLine, if_pos hl, ih h]
    · cases h

variable (fu : Nat)
local notation "L" => lexWorld fu

@[src] theorem L_raise {α : Type} (e : Err) : (L).raise (α := α) e = lexRaise e := rfl
@[src] theorem L_attr (o : LObj) (a : String) : (L).attr o a = lexAttr o a := rfl
@[src] theorem L_method (o : LObj) (f : String) (args : List (Val LObj)) : (L).method o f args = lexMethod o f args := rfl
@[src] theorem L_func (p : List String) (args : List (Val LObj)) : (L).func p args = lexFunc p args := rfl
@[src] theorem L_iter (text : Str) : (L).iter (.stream text) = streamOf (lexText text) := rfl
@[src] theorem L_fuel : (L).fuel = fu := rfl
@[src] theorem L_throw {α : Type} (o : LObj) : (L).throw (α := α) (.obj o) = .error (.raised o) := rfl
@[src] theorem L_attempt {α : Type} (x : LexM α) : (L).attempt ["rply", "errors", "LexingError"] x = catchLexing x := rfl
@[src] theorem L_valueError (m : Str) : callGlob L ["ValueError"] [.str m] = pure (.obj (.valueError m)) := rfl
@[src] theorem L_index {α : Type} (x : α) : (L).lift (.ok x) = pure x := rfl
@[src] theorem L_indexE {α : Type} : (L).lift (α := α) (.error .index) = lexRaise .index := rfl
@[src] theorem lexRaise_bind {α β : Type} (e : Err) (f : α → LexM β) : ((lexRaise e : LexM α) >>= f) = lexRaise e := rfl
@[src] theorem lexRaise_map {α β : Type} (e : Err) (f : α → β) : (f <$> (lexRaise e : LexM α)) = lexRaise e := rfl
@[src] theorem lexRaised_bind {α β : Type} (e : LExc) (f : α → LexM β) : ((Except.error e : LexM α) >>= f) = .error e := rfl
@[src] theorem lexRaised_map {α β : Type} (e : LExc) (f : α → β) : (f <$> (Except.error e : LexM α)) = .error e := rfl

theorem lexOk {α : Type} (a : α) : (Except.ok a : LexM α) = pure a := rfl
theorem catch_pure {α : Type} (a : α) : catchLexing (pure a : LexM α) = pure (.inl a) := rfl
theorem catch_lexing {α : Type} (i : Nat) : catchLexing (.error (.raised (.lexingError i)) : LexM α) = pure (.inr (.obj (.lexingError i))) := rfl
theorem catch_err {α : Type} (e : Err) : catchLexing (.error (.err e) : LexM α) = .error (.err e) := rfl

/-- The variables of `lex` while the line is looked for. -/
def lexEnv (text : Str) (e : Val LObj) (lines : List Str) (col k : Nat) : Env LObj :=
  [("self", .obj .this), ("input_text", .str text), ("exception", e), ("input_lines", .list (lines.map .str)),
   ("source_column_number", .int col), ("current_line_index", .int k), ("sub_string_start", .unbound), ("sub_string_end", .unbound),
   ("sub_string", .unbound), ("arrow_line", .unbound), ("message", .unbound), ("new_exception", .unbound)]

/-- The condition of the loop. -/
def lexCond : PyE :=
  .cmp .lt (.callName "len" (.cons (.index (.name "input_lines") (.name "current_line_index")) .nil)) (.name "source_column_number")
/-- The body of the loop. -/
def lexBody : PyS :=
  .seq (.aug .sub (.name "source_column_number") (.bin .add (.callName "len" (.cons (.index (.name "input_lines") (.name "current_line_index")) .nil)) (.int 1)))
    (.seq (.aug .add (.name "current_line_index") (.int 1)) .done)

theorem indexL_nat {α : Type} (l : List α) (k : Nat) :
    indexL l (k : Int) = match l[k]? with | some x => .ok x | none => .error .index := by
  simp only [indexL, if_neg (show ¬ (k : Int) < 0 by omega), Int.toNat_natCast]
  cases l[k]? <;> rfl

theorem lexCond_some {text : Str} {e : Val LObj} {lines : List Str} {col k : Nat} {line : Str} (h : lines[k]? = some line) :
    evalE L [] lexCond (lexEnv text e lines col k) = pure (.bool (decide ((line.length : Int) < col)), lexEnv text e lines col k) := by
  have hi : indexL (lines.map (Val.str (Ω := LObj))) (k : Int) = .ok (.str line) := by
    rw [indexL_nat, List.getElem?_map, h]; rfl
  simp [src, lexCond, lexEnv, hi]

theorem lexCond_none {text : Str} {e : Val LObj} {lines : List Str} {col k : Nat} (h : lines[k]? = none) :
    evalE L [] lexCond (lexEnv text e lines col k) = lexRaise .index := by
  have hi : indexL (lines.map (Val.str (Ω := LObj))) (k : Int) = .error .index := by
    rw [indexL_nat, List.getElem?_map, h]; rfl
  simp [src, lexCond, lexEnv, hi]

theorem lexBody_some {text : Str} {e : Val LObj} {lines : List Str} {col k : Nat} {line : Str} (h : lines[k]? = some line)
    (hc : line.length < col) :
    exec L [] lexBody (lexEnv text e lines col k) = pure (.next, lexEnv text e lines (col - (line.length + 1)) (k + 1)) := by
  have hi : indexL (lines.map (Val.str (Ω := LObj))) (k : Int) = .ok (.str line) := by
    rw [indexL_nat, List.getElem?_map, h]; rfl
  have e1 : ((col : Int) - ((line.length : Int) + 1)) = ((col - (line.length + 1) : Nat) : Int) := by omega
  simp [src, lexBody, lexEnv, hi, e1]

theorem lexLoop_run (text : Str) (e : Val LObj) (lines : List Str) (n k col : Nat) (hn : lines.length ≤ n + k) :
    whileLoop L [] lexCond lexBody n (lexEnv text e lines col k) =
      match findLineIx (lines.drop k) k col with
      | none => lexRaise .index
      | some (j, c) => pure (.next, lexEnv text e lines c j) := by
  have step : ∀ n k col, (∀ line, lines[k]? = some line → line.length < col →
        n ≠ 0 ∧ whileLoop L [] lexCond lexBody (n - 1) (lexEnv text e lines (col - (line.length + 1)) (k + 1)) =
          match findLineIx (lines.drop (k + 1)) (k + 1) (col - (line.length + 1)) with
          | none => lexRaise .index
          | some (j, c) => pure (.next, lexEnv text e lines c j)) →
      whileLoop L [] lexCond lexBody n (lexEnv text e lines col k) =
      match findLineIx (lines.drop k) k col with
      | none => lexRaise .index
      | some (j, c) => pure (.next, lexEnv text e lines c j) := by
    intro n k col hs
    cases hl : lines[k]? with
    | none =>
      have hd : lines.drop k = [] := List.drop_eq_nil_of_le (List.getElem?_eq_none_iff.mp hl)
      rw [hd]
      cases n <;> simp only [whileLoop, whileS, lexCond_none fu hl, lexRaise_bind, findLineIx]
    | some line =>
      have hd : lines.drop k = line :: lines.drop (k + 1) := by
        obtain ⟨hlt, he⟩ := List.getElem?_eq_some_iff.mp hl
        rw [← he]; exact List.drop_eq_getElem_cons hlt
      rw [hd, findLineIx]
      by_cases hc : line.length < col
      · obtain ⟨h0, hw⟩ := hs line hl hc
        obtain ⟨n, rfl⟩ : ∃ m, n = m + 1 := ⟨n - 1, by omega⟩
        rw [if_pos hc, ← hw]
        have hc' : decide ((line.length : Int) < col) = true := by simpa using hc
        simp only [whileLoop, whileS, lexCond_some fu hl, pure_bind, hc', truthV, if_true, lexBody_some fu hl hc, Nat.add_sub_cancel]
      · rw [if_neg hc]
        have hc' : decide ((line.length : Int) < col) = false := by simpa using hc
        cases n <;> simp only [whileLoop, whileS, lexCond_some fu hl, pure_bind, hc', truthV, Bool.false_eq_true, if_false]
  induction n generalizing k col with
  | zero =>
    refine step 0 k col fun line hl _ => ?_
    have := (List.getElem?_eq_some_iff.mp hl).1
    omega
  | succ n ih =>
    refine step (n + 1) k col fun line hl _ => ⟨by omega, ?_⟩
    exact ih (k + 1) (col - (line.length + 1)) (by omega)

theorem sliceBound_eq (n k : Nat) : sliceBound n (k : Int) = min n k := by
  simp only [sliceBound]
  split <;> omega

/-- The message: the part of the line around the column, and an arrow. -/
theorem lexMessage_text (n : Nat) (line : Str) (col : Nat) :
    sliceL line (some (if (col : Int) - 50 > 0 then (col : Int) - 50 else 0)) (some (if (col : Int) + 50 < n then (col : Int) + 50 else n)) ++
      ('\n' :: ((List.replicate ((col : Int) - (if (col : Int) - 50 > 0 then (col : Int) - 50 else 0)).toNat ['-']).flatten ++ ['^'])) =
    lexMessage n line col := by
  have e1 : (if (col : Int) - 50 > 0 then (col : Int) - 50 else 0) = ((col - 50 : Nat) : Int) := by split <;> omega
  have e2 : (if (col : Int) + 50 < n then (col : Int) + 50 else (n : Int)) = ((min n (col + 50) : Nat) : Int) := by split <;> omega
  have e3 : ((col : Int) - ((col - 50 : Nat) : Int)).toNat = col - (col - 50) := by omega
  rw [e1, e2, e3]
  simp only [sliceL, sliceBound_eq, lexMessage]
  rw [show ∀ k, (List.replicate k ['-']).flatten = List.replicate k '-' from fun k => by
    induction k with
    | zero => rfl
    | succ k ih => rw [List.replicate_succ, List.flatten_cons, ih]; rfl]
  congr 1
  have ht : line.take (min line.length (min n (col + 50))) = line.take (min n (col + 50)) := by
    rw [Nat.min_comm, ← List.take_take, List.take_length]
  rw [ht]
  by_cases h : col - 50 ≤ line.length
  · rw [Nat.min_eq_right h]
  · rw [Nat.min_eq_left (by omega), List.drop_eq_nil_of_le (by simp), List.drop_eq_nil_of_le (by simp; omega)]

theorem lex_run (text : Str) (hf : (splitOn (· == '\n') text).length ≤ fu) :
    PyFun.run L Text.PythonDiceLexer.lex [.obj .this, .str text] = lexed (lex text) := by
  cases h : lexText text with
  | tokens ts => simp [src, Text.PythonDiceLexer.lex, lexAttr, lexMethod, h, streamOf, lexOk, catch_pure, lex, lexed]
  | diverges => simp [src, Text.PythonDiceLexer.lex, lexAttr, lexMethod, h, streamOf, lexOk, catch_err, lex, lexed]
  | lexingError i =>
    have hw := lexLoop_run fu text (.obj (.lexingError i)) (splitOn (· == '\n') text) fu 0 i (by simpa using hf)
    simp only [lexCond, lexBody, lexEnv, List.drop_zero, Nat.cast_zero, Nat.cast_ofNat] at hw
    cases hx : findLineIx (splitOn (· == '\n') text) 0 i with
    | none =>
      rw [hx] at hw
      simp [src, Text.PythonDiceLexer.lex, lexAttr, lexMethod, h, streamOf, lexOk, catch_lexing, hw, lex, findLineIx_none hx, lexed]
      rfl
    | some p =>
      obtain ⟨j, c⟩ := p
      obtain ⟨line, _, hl, hfl⟩ := findLineIx_some hx
      rw [Nat.sub_zero] at hl
      have hi : indexL ((splitOn (· == '\n') text).map (Val.str (Ω := LObj))) (j : Int) = .ok (.str line) := by
        rw [indexL_nat, List.getElem?_map, hl]; rfl
      rw [hx] at hw
      simp [src, Text.PythonDiceLexer.lex, lexAttr, lexMethod, lexFunc, h, streamOf, lexOk, catch_lexing, hw, hi, lex, hfl, lexed, ← lexMessage_text]

/-- The argument of an error handler's exception, with the fixed parts given. -/
def handlerTextOf (a b c d : Str) : PyE :=
  .fstr (.cons (.str a) (.cons (.callAttr (.name "token") "gettokentype" .nil) (.cons (.str b) (.cons (.callAttr (.name "token") "getstr" .nil)
    (.cons (.str c) (.cons (.callAttr (.name "token") "getsourcepos" .nil) (.cons (.str d) .nil)))))))

theorem handlerTextOf_eval (a b c d text : Str) (t : Option Token) (state : Val LObj) :
    Prod.fst <$> evalE L [] (handlerTextOf a b c d) [("_", state), ("token", .obj (.seen text t))] =
      .ok (.str (let (name, str, pos) := match t with
          | some t => (t.type.tokenName, t.text, sourcePos text t.idx)
          | none => ("$end".toList, "$end".toList, "None".toList)
        a ++ name ++ b ++ str ++ c ++ pos ++ d)) := by
  cases t with
  | none =>
    refine (show _ = Except.ok (Val.str (a ++ ("$end".toList ++ (b ++ ("$end".toList ++ (c ++ ("None".toList ++ (d ++ [])))))))) from rfl).trans ?_
    simp only [List.append_assoc, List.append_nil]
  | some t =>
    refine (show _ = Except.ok (Val.str (a ++ (t.type.tokenName ++ (b ++ (t.text ++ (c ++ (sourcePos text t.idx ++ (d ++ [])))))))) from rfl).trans ?_
    simp only [List.append_assoc, List.append_nil]

/-- The argument of the error handler's exception. -/
def handlerText : PyE :=
  handlerTextOf ['R', 'a', 'n', ' ', 'i', 'n', 't', 'o', ' ', 'a', ' '] [' ', '(']
    [')', ' ', 'w', 'h', 'e', 'r', 'e', ' ', 'i', 't', ' ', 'w', 'a', 's', 'n', '\'', 't', ' ', 'e', 'x', 'p', 'e', 'c', 't', 'e', 'd', ',', ' ', 'a', 't', ' ', 'p', 'o', 's', 'i', 't', 'i', 'o', 'n', ' '] ['.']

theorem handlerText_eq : handlerText = handlerTextOf "Ran into a ".toList " (".toList ") where it wasn't expected, at position ".toList ".".toList := by
  rw [handlerText]; congr 1

theorem handlerText_eval (text : Str) (t : Option Token) (state : Val LObj) :
    Prod.fst <$> evalE L [] handlerText [("_", state), ("token", .obj (.seen text t))] = .ok (.str (handlerMessage text t)) := by
  refine (congrArg (fun e => Prod.fst <$> evalE L [] e [("_", state), ("token", .obj (.seen text t))]) handlerText_eq).trans ?_
  refine (handlerTextOf_eval fu _ _ _ _ text t state).trans ?_
  cases t <;> krfl

theorem handler_message (text : Str) (t : Option Token) (state : Val LObj) :
    ∃ body e, findDefn "error_handler" Text.PythonDiceParser.__init__.body = some body ∧ raisedMessage body = some e ∧
      Prod.fst <$> evalE L [] e [("_", state), ("token", .obj (.seen text t))] = .ok (.str (handlerMessage text t)) :=
  ⟨.seq (.raise (.callName "ValueError" (.cons handlerText .nil))) .done, handlerText, rfl, rfl, handlerText_eval fu text t state⟩

end PyDice.Source
