import Verif.Spec.Script
import Verif.Lemmas.Meaning
import Verif.Lemmas.Print
/-!
# Writing all digits in ASCII commutes with reading a text
-/

namespace PyDice
open LexSpec ParseSpec

/-! ### Characters -/

/-- The ASCII digit with the same value. -/
def plainDigit (c : Char) : Char := if isDigit c then digitChar (digitValue c) else c

/-- A text with ASCII digits. -/
def plainText (s : Str) : Str := s.map plainDigit

theorem digitValue_lt {c : Char} (h : isDigit c = true) : digitValue c < 10 := by
  unfold digitValue
  split
  · rename_i hc
    rw [digit_ascii hc] at h
    simp only [Bool.and_eq_true, decide_eq_true_eq] at h
    omega
  · rename_i hc
    rcases digit_code h with h | ⟨z, hz, h⟩
    · omega
    · cases hf : uniZeros.find? (fun z => decide (z ≤ c.toNat) && decide (c.toNat ≤ z + 9)) with
      | none =>
        have := List.find?_eq_none.mp hf z hz
        simp [h] at this
      | some z' =>
        have := List.find?_some hf
        simp only [Bool.and_eq_true, decide_eq_true_eq] at this
        simp only [Option.getD_some]
        omega

theorem plainDigit_of_not {c : Char} (h : isDigit c = false) : plainDigit c = c := by simp [plainDigit, h]

theorem plainDigit_of {c : Char} (h : isDigit c = true) : plainDigit c = digitChar (digitValue c) := by simp [plainDigit, h]

theorem isDigit_plain (c : Char) : isDigit (plainDigit c) = isDigit c := by
  cases h : isDigit c
  · rw [plainDigit_of_not h, h]
  · rw [plainDigit_of h]
    exact (digitChar_val (digitValue_lt h)).2

theorem digitValue_plain {c : Char} (h : isDigit c = true) : digitValue (plainDigit c) = digitValue c := by
  rw [plainDigit_of h]
  exact (digitChar_val (digitValue_lt h)).1

/-- A character that is no digit is left alone and no other becomes it. -/
theorem plain_eq_iff {x : Char} (hx : isDigit x = false) (c : Char) : plainDigit c = x ↔ c = x := by
  constructor
  · intro h
    have : isDigit c = false := by rw [← isDigit_plain, h, hx]
    rwa [plainDigit_of_not this] at h
  · rintro rfl
    exact plainDigit_of_not hx

theorem plain_beq {x : Char} (hx : isDigit x = false) (c : Char) : (plainDigit c == x) = (c == x) := by
  rw [Bool.eq_iff_iff, beq_iff_eq, beq_iff_eq]
  exact plain_eq_iff hx c

/-- A class that has all digits or none. -/
def Blind (p : Char → Bool) : Prop := ∀ c, p (plainDigit c) = p c

theorem blind_digit : Blind isDigit := isDigit_plain
theorem blind_word : Blind isWord := by
  intro c
  cases h : isDigit c
  · rw [plainDigit_of_not h]
  · rw [digit_word h, digit_word ((isDigit_plain c).trans h)]
theorem blind_space : Blind isSpace := by
  intro c
  cases h : isDigit c
  · rw [plainDigit_of_not h]
  · rw [digit_not_space h, digit_not_space ((isDigit_plain c).trans h)]
theorem blind_chr {x : Char} (hx : isDigit x = false) : Blind (fun c => c == x) := plain_beq hx

theorem nameChar_not_digit {c : Char} (h : isNameChar c = true) : isDigit c = false := by
  unfold isNameChar at h
  simp only [Bool.or_eq_true, Bool.and_eq_true, decide_eq_true_eq, beq_iff_eq] at h
  rcases h with h | rfl
  · rw [digit_ascii (by omega)]
    have : decide (c.toNat ≤ 57) = false := by simp; omega
    simp [this]
  · decide

theorem blind_name : Blind isNameChar := by
  intro c
  cases h : isDigit c
  · rw [plainDigit_of_not h]
  · have h1 : isNameChar c = false := by
      cases h2 : isNameChar c
      · rfl
      · rw [nameChar_not_digit h2] at h; cases h
    have h2 : isNameChar (plainDigit c) = false := by
      cases h2 : isNameChar (plainDigit c)
      · rfl
      · rw [← isDigit_plain, nameChar_not_digit h2] at h; cases h
    rw [h1, h2]

theorem zeros_apart : ∀ z ∈ uniZeros, ∀ z' ∈ uniZeros, z = z' ∨ z + 9 < z' ∨ z' + 9 < z := by decide +kernel

/-- The model's digits and their values are those of the specification. -/
theorem isDigitOf_iff (c : Char) (k : Nat) : IsDigitOf c k ↔ isDigit c = true ∧ digitValue c = k := by
  constructor
  · rintro ⟨hk, z, hz, hc⟩
    rcases List.mem_cons.mp hz with rfl | hz
    · refine ⟨?_, ?_⟩
      · rw [digit_ascii (by omega)]
        simp only [Bool.and_eq_true, decide_eq_true_eq]
        omega
      · unfold digitValue
        rw [if_pos (by omega)]
        omega
    · have h128 := zeros_high z hz
      refine ⟨?_, ?_⟩
      · unfold isDigit
        simp only [Bool.or_eq_true, Bool.and_eq_true, decide_eq_true_eq, List.any_eq_true]
        exact .inr ⟨by omega, z, hz, by omega, by omega⟩
      · unfold digitValue
        rw [if_neg (by omega)]
        cases hf : uniZeros.find? (fun z => decide (z ≤ c.toNat) && decide (c.toNat ≤ z + 9)) with
        | none =>
          have := List.find?_eq_none.mp hf z hz
          simp only [Bool.and_eq_true, decide_eq_true_eq] at this
          omega
        | some z' =>
          have h1 := List.find?_some hf
          simp only [Bool.and_eq_true, decide_eq_true_eq] at h1
          have := zeros_apart z hz z' (List.mem_of_find?_eq_some hf)
          simp only [Option.getD_some]
          omega
  · rintro ⟨h, rfl⟩
    refine ⟨digitValue_lt h, ?_⟩
    unfold digitValue
    rcases digit_code h with h1 | ⟨z, hz, h1⟩
    · refine ⟨48, by simp, ?_⟩
      rw [if_pos (by omega)]
      omega
    · have h128 := zeros_high z hz
      refine ⟨z, by simp [hz], ?_⟩
      rw [if_neg (by omega)]
      cases hf : uniZeros.find? (fun z => decide (z ≤ c.toNat) && decide (c.toNat ≤ z + 9)) with
      | none =>
        have := List.find?_eq_none.mp hf z hz
        simp only [Bool.and_eq_true, decide_eq_true_eq] at this
        omega
      | some z' =>
        have h2 := List.find?_some hf
        simp only [Bool.and_eq_true, decide_eq_true_eq] at h2
        have := zeros_apart z hz z' (List.mem_of_find?_eq_some hf)
        simp only [Option.getD_some]
        omega

theorem sameChar_iff (a b : Char) : SameChar a b ↔ plainDigit a = plainDigit b := by
  constructor
  · rintro (rfl | ⟨k, h1, h2⟩)
    · rfl
    · obtain ⟨h1, h1'⟩ := (isDigitOf_iff _ _).mp h1
      obtain ⟨h2, h2'⟩ := (isDigitOf_iff _ _).mp h2
      rw [plainDigit_of h1, plainDigit_of h2, h1', h2']
  · intro h
    have hd : isDigit a = isDigit b := by rw [← isDigit_plain a, h, isDigit_plain]
    cases ha : isDigit a
    · rw [plainDigit_of_not ha, plainDigit_of_not (hd ▸ ha)] at h
      exact .inl h
    · have hb := hd ▸ ha
      exact .inr ⟨_, (isDigitOf_iff _ _).mpr ⟨ha, rfl⟩, (isDigitOf_iff _ _).mpr ⟨hb, by rw [← digitValue_plain hb, ← h, digitValue_plain ha]⟩⟩

theorem sameText_iff (s t : Str) : SameText s t ↔ plainText s = plainText t := by
  unfold SameText plainText
  constructor
  · intro h
    induction h with
    | nil => rfl
    | cons h _ ih => rw [List.map_cons, List.map_cons, (sameChar_iff _ _).mp h, ih]
  · intro h
    induction s generalizing t with
    | nil =>
      cases t with
      | nil => exact .nil
      | cons b t => cases h
    | cons a s ih =>
      cases t with
      | nil => cases h
      | cons b t =>
        rw [List.map_cons, List.map_cons, List.cons.injEq] at h
        exact .cons ((sameChar_iff _ _).mpr h.1) (ih t h.2)

/-- A text without digits. -/
def NoDigits (w : Str) : Prop := ∀ c ∈ w, isDigit c = false

theorem plainText_of {w : Str} (h : NoDigits w) : plainText w = w := by
  unfold plainText
  conv_rhs => rw [← List.map_id w]
  exact List.map_congr_left fun c hc => plainDigit_of_not (h c hc)

theorem plainText_eq_iff {w : Str} (h : NoDigits w) (s : Str) : plainText s = w ↔ s = w := by
  constructor
  · intro hs
    have : NoDigits s := by
      intro c hc
      rw [← isDigit_plain]
      exact h _ (hs ▸ List.mem_map.mpr ⟨c, hc, rfl⟩)
    rw [plainText_of this] at hs
    exact hs
  · rintro rfl
    exact plainText_of h

/-! ### Patterns -/

/-- A position in the text with ASCII digits. -/
def Pos.plain (p : Pos) : Pos := ⟨plainText p.before, plainText p.after⟩

/-- A pattern that does not tell digits apart. -/
def Re.Blind : Re → Prop
  | .eps => True
  | .cls p => PyDice.Blind p
  | .seq r s => r.Blind ∧ s.Blind
  | .alt r s => r.Blind ∧ s.Blind
  | .star r => r.Blind
  | .opt r => r.Blind
  | .notAhead r => r.Blind
  | .notBehind w => NoDigits w
  | .wordB => True

theorem after_length_plain (p : Pos) : p.plain.after.length = p.after.length := by simp [Pos.plain, plainText]

theorem starN_plain {m : Pos → List Pos} (hm : ∀ p, m p.plain = (m p).map Pos.plain) : ∀ (n : Nat) (p : Pos),
    Re.starN m n p.plain = (Re.starN m n p).map Pos.plain := by
  intro n
  induction n with
  | zero => intro p; rfl
  | succ n ih =>
    intro p
    rw [Re.starN, Re.starN, hm, List.map_append, List.filter_map, List.flatMap_map, List.map_flatMap]
    congr 1
    have : ((fun q : Pos => decide (q.after.length < p.plain.after.length)) ∘ Pos.plain) =
        fun q : Pos => decide (q.after.length < p.after.length) := by
      funext q
      simp only [Function.comp, after_length_plain]
    rw [this]
    exact List.flatMap_congr fun q _ => ih q

theorem prefix_plain {w : Str} (hw : NoDigits w) : ∀ s : Str, w.isPrefixOf (plainText s) = w.isPrefixOf s := by
  induction w with
  | nil => intro s; rfl
  | cons c w ih =>
    intro s
    cases s with
    | nil => rfl
    | cons d s =>
      show (c == plainDigit d && w.isPrefixOf (plainText s)) = (c == d && w.isPrefixOf s)
      rw [ih (fun x hx => hw x (List.mem_cons_of_mem _ hx))]
      congr 1
      have := plain_beq (hw c (List.mem_cons_self ..)) d
      rw [Bool.eq_iff_iff, beq_iff_eq, beq_iff_eq] at this ⊢
      exact ⟨fun h => (this.mp h.symm).symm, fun h => (this.mpr h.symm).symm⟩

theorem matchesAt_plain : ∀ (r : Re), r.Blind → ∀ p : Pos, Re.matchesAt r p.plain = (Re.matchesAt r p).map Pos.plain := by
  intro r
  induction r with
  | eps => intro _ p; rfl
  | cls q =>
    intro h ⟨b, a⟩
    cases a with
    | nil => rfl
    | cons x xs =>
      show (if q (plainDigit x) then _ else _) = List.map _ (if q x then _ else _)
      rw [h x]
      split <;> rfl
  | seq r s ihr ihs =>
    intro h p
    rw [Re.matchesAt, Re.matchesAt, ihr h.1, List.flatMap_map, List.map_flatMap]
    exact List.flatMap_congr fun q _ => ihs h.2 q
  | alt r s ihr ihs =>
    intro h p
    rw [Re.matchesAt, Re.matchesAt, ihr h.1, ihs h.2, List.map_append]
  | star r ih =>
    intro h p
    rw [Re.matchesAt, Re.matchesAt, after_length_plain]
    exact starN_plain (ih h) _ p
  | opt r ih =>
    intro h p
    rw [Re.matchesAt, Re.matchesAt, ih h, List.map_append]
    rfl
  | notAhead r ih =>
    intro h p
    rw [Re.matchesAt, Re.matchesAt, ih h, List.isEmpty_map]
    split <;> rfl
  | notBehind w =>
    intro h p
    rw [Re.matchesAt, Re.matchesAt]
    have hw : NoDigits w.reverse := fun c hc => h c (List.mem_reverse.mp hc)
    show (if w.reverse.isPrefixOf (plainText p.before) then _ else _) = _
    rw [prefix_plain hw]
    split <;> rfl
  | wordB =>
    intro _ p
    rw [Re.matchesAt, Re.matchesAt]
    have : Re.atWordB p.plain = Re.atWordB p := by
      obtain ⟨b, a⟩ := p
      cases b <;> cases a <;> simp [Re.atWordB, Pos.plain, plainText, blind_word _]
    rw [this]
    split <;> rfl

theorem matchAt_plain {r : Re} (h : r.Blind) (p : Pos) : Re.matchAt r p.plain = (Re.matchAt r p).map Pos.plain := by
  unfold Re.matchAt
  rw [matchesAt_plain r h, List.head?_map]

theorem isMatch_plain {r : Re} (h : r.Blind) (s : Str) : Re.isMatch r (plainText s) = Re.isMatch r s := by
  unfold Re.isMatch
  rw [show (⟨[], plainText s⟩ : Pos) = (⟨[], s⟩ : Pos).plain from rfl, matchAt_plain h]
  cases Re.matchAt r ⟨[], s⟩ <;> rfl

theorem blind_plus_digit : (Re.plus Re.digit).Blind := ⟨blind_digit, blind_digit⟩
theorem blind_lit : ∀ {w : Str}, NoDigits w → (Re.lit w).Blind
  | [], _ => trivial
  | [c], h => blind_chr (h c (by simp))
  | c :: d :: w, h => ⟨blind_chr (h c (by simp)), blind_lit (w := d :: w) fun x hx => h x (List.mem_cons_of_mem _ hx)⟩
theorem blind_keyword {w : Str} (h : NoDigits w) : (Re.keyword w).Blind := ⟨trivial, blind_lit h, trivial⟩
theorem blind_int : reInt.Blind := ⟨blind_chr (by decide), blind_plus_digit⟩
theorem blind_range : reRange.Blind := ⟨blind_int, blind_chr (by decide), blind_chr (by decide), blind_plus_digit⟩
theorem blind_posStart : rePosStart.Blind := ⟨blind_plus_digit, blind_chr (by decide), blind_chr (by decide), blind_plus_digit⟩
theorem blind_negEnd : reNegEnd.Blind := ⟨blind_int, blind_chr (by decide), blind_chr (by decide), blind_plus_digit⟩
theorem blind_multiplied : reMultiplied.Blind := ⟨⟨blind_range, blind_int⟩, blind_chr (by decide), blind_plus_digit⟩
theorem blind_entry : reEntry.Blind :=
  ⟨⟨blind_range, blind_chr (by decide), blind_plus_digit⟩, blind_int, blind_chr (by decide), blind_plus_digit⟩
theorem blind_custom : reCustom.Blind :=
  ⟨blind_chr (by decide), ⟨blind_space, blind_entry, blind_space, blind_chr (by decide), blind_space⟩, blind_space, blind_entry,
    blind_space, blind_chr (by decide), blind_space, blind_chr (by decide)⟩
theorem blind_diceType : reDiceType.Blind := ⟨blind_plus_digit, blind_chr (by decide), blind_chr (by decide), blind_custom⟩
theorem blind_kd : Blind (fun c => c == 'k' || c == 'd') := by
  intro c
  show (plainDigit c == 'k' || plainDigit c == 'd') = _
  rw [plain_beq (by decide), plain_beq (by decide)]

theorem blind_regex (t : TokType) : t.regex.Blind := by
  have nd : ∀ {w : Str}, (w.all fun c => !isDigit c) = true → NoDigits w := by
    intro w h c hc
    have := List.all_eq_true.mp h c hc
    simpa using this
  cases t
  case not => exact ⟨blind_chr (by decide), blind_chr (by decide)⟩
  case dropKeep => exact ⟨blind_digit, blind_chr (by decide), blind_diceType, blind_kd, blind_plus_digit⟩
  case dice => exact ⟨blind_digit, blind_chr (by decide), blind_diceType⟩
  case binop =>
    exact ⟨blind_lit (nd (by decide)), blind_lit (nd (by decide)), blind_lit (nd (by decide)), blind_chr (by decide), blind_lit (nd (by decide)),
      blind_chr (by decide), blind_keyword (nd (by decide)), blind_keyword (nd (by decide))⟩
  case constInt => exact blind_int
  case constBin => exact ⟨blind_keyword (nd (by decide)), blind_keyword (nd (by decide))⟩
  case div => exact blind_lit (nd (by decide))
  case minmax => exact ⟨blind_keyword (nd (by decide)), blind_keyword (nd (by decide))⟩
  case abs => exact blind_keyword (nd (by decide))
  case assign => exact ⟨blind_chr (by decide), blind_chr (by decide), nd (by decide)⟩
  case var => exact blind_keyword (nd (by decide))
  case name => exact ⟨trivial, ⟨blind_name, blind_name⟩, trivial⟩
  all_goals exact blind_chr (by decide)

/-! ### Lexing -/

/-- A token with ASCII digits. -/
def Token.plain (t : Token) : Token := ⟨t.type, plainText t.text, t.idx⟩

/-- A result of lexing with ASCII digits. -/
def LexResult.plain : LexResult → LexResult
  | .tokens ts => .tokens (ts.map Token.plain)
  | r => r

theorem firstRule_plain (p : Pos) : ∀ ts : List TokType, firstRule ts p.plain = (firstRule ts p).map fun r => (r.1, r.2.plain) := by
  intro ts
  induction ts with
  | nil => rfl
  | cons t ts ih =>
    rw [firstRule, firstRule, matchAt_plain (blind_regex t)]
    cases Re.matchAt t.regex p with
    | none => exact ih
    | some q => rfl

theorem between_plain (p q : Pos) : between p.plain q.plain = plainText (between p q) := by
  simp [between, Pos.plain, plainText, List.map_take]

theorem lexLoop_plain : ∀ (n : Nat) (p : Pos), lexLoop n p.plain = (lexLoop n p).plain := by
  intro n
  induction n with
  | zero => intro p; rfl
  | succ n ih =>
    intro p
    rw [lexLoop, lexLoop]
    have h0 : p.plain.after = [] ↔ p.after = [] := by simp [Pos.plain, plainText]
    by_cases h : p.after = []
    · rw [if_pos h, if_pos (h0.mpr h)]; rfl
    · rw [if_neg h, if_neg (fun h' => h (h0.mp h')), matchAt_plain (r := reIgnore) ⟨blind_space, blind_space⟩, firstRule_plain]
      cases Re.matchAt reIgnore p with
      | some q => exact ih q
      | none =>
        cases firstRule lexerSyntax p with
        | none => simp [LexResult.plain, Pos.plain, plainText]
        | some r =>
          simp only [Option.map_none, Option.map_some, ih, between_plain]
          rw [show p.plain.before.length = p.before.length by simp [Pos.plain, plainText]]
          cases lexLoop n r.2 <;> rfl

theorem lexText_plain (s : Str) : lexText (plainText s) = (lexText s).plain := by
  unfold lexText
  rw [show (plainText s).length = s.length by simp [plainText]]
  exact lexLoop_plain _ ⟨[], s⟩

theorem splitOn_plain {p : Char → Bool} (hp : Blind p) : ∀ s : Str, splitOn p (plainText s) = (splitOn p s).map plainText := by
  intro s
  induction s with
  | nil => rfl
  | cons c s ih =>
    show splitOn p (plainDigit c :: plainText s) = _
    rw [splitOn, splitOn, hp c, ih]
    split
    · rfl
    · cases splitOn p s <;> rfl

theorem findLine_plain : ∀ (ls : List Str) (col : Nat),
    findLine (ls.map plainText) col = (findLine ls col).map fun r => (plainText r.1, r.2) := by
  intro ls
  induction ls with
  | nil => intro col; rfl
  | cons l ls ih =>
    intro col
    rw [List.map_cons, findLine, findLine, show (plainText l).length = l.length by simp [plainText], ih]
    split <;> rfl

/-- Lexing succeeds with the same tokens, or fails the same way. -/
theorem lex_plain (s : Str) : (∃ ts, lex s = .ok ts ∧ lex (plainText s) = .ok (ts.map Token.plain)) ∨
    (∃ m m', lex s = .error (.valueError m) ∧ lex (plainText s) = .error (.valueError m')) ∨
    (∃ e, lex s = .error e ∧ lex (plainText s) = .error e) := by
  unfold lex
  rw [lexText_plain, splitOn_plain (blind_chr (by decide)), show (plainText s).length = s.length by simp [plainText]]
  cases lexText s with
  | tokens ts => exact .inl ⟨ts, rfl, rfl⟩
  | diverges => exact .inr (.inr ⟨_, rfl, rfl⟩)
  | lexingError idx =>
    simp only [LexResult.plain, findLine_plain]
    cases findLine (splitOn (· == '\n') s) idx with
    | none => exact .inr (.inr ⟨_, rfl, rfl⟩)
    | some r => exact .inr (.inl ⟨_, _, rfl, rfl⟩)

/-! ### Dice terms -/

theorem natOf_plain {s : Str} (h : isDigits s = true) : natOf (plainText s) = natOf s := by
  have hall : ∀ c ∈ s, isDigit c = true := fun c hc => by
    simp only [isDigits, Bool.and_eq_true, List.all_eq_true] at h
    exact h.2 c hc
  unfold natOf plainText
  rw [List.foldl_map]
  clear h
  generalize 0 = a
  induction s generalizing a with
  | nil => rfl
  | cons c s ih =>
    rw [List.foldl_cons, List.foldl_cons, digitValue_plain (hall c (by simp))]
    exact ih (fun x hx => hall x (List.mem_cons_of_mem _ hx)) _

theorem isDigits_plain (s : Str) : isDigits (plainText s) = isDigits s := by
  unfold isDigits plainText
  rw [List.isEmpty_map, List.all_map]
  congr 2
  funext c
  exact isDigit_plain c

theorem pyInt_plain (s : Str) : pyInt (plainText s) = pyInt s := by
  have key : ∀ s : Str, (if isDigits (plainText s) then Except.ok (natOf (plainText s) : Int) else .error Err.value) =
      (if isDigits s then .ok (natOf s : Int) else .error .value) := by
    intro s
    rw [isDigits_plain]
    split
    · rename_i h; rw [natOf_plain h]
    · rfl
  cases s with
  | nil => rfl
  | cons c s =>
    by_cases hc : c = '-'
    · subst hc
      show (if isDigits (plainText s) then Except.ok (-(natOf (plainText s) : Int)) else .error Err.value) =
        (if isDigits s then .ok (-(natOf s : Int)) else .error .value)
      rw [isDigits_plain]
      split
      · rename_i h; rw [natOf_plain h]
      · rfl
    · have hc' : plainDigit c ≠ '-' := fun h => hc ((plain_eq_iff (by decide) c).mp h)
      have h1 : ∀ (d : Char) (r : Str), d ≠ '-' → pyInt (d :: r) = if isDigits (d :: r) then .ok (natOf (d :: r) : Int) else .error .value := by
        intro d r hd
        unfold pyInt
        split
        · rename_i h
          exact absurd (List.cons.inj h).1 hd
        · rfl
      rw [h1 c s hc, ← key (c :: s)]
      exact h1 _ _ hc'

theorem pyIndex_map {α β : Type} (f : α → β) (l : List α) (i : Nat) : pyIndex (l.map f) i = (pyIndex l i).map f := by
  unfold pyIndex
  rw [List.getElem?_map]
  cases l[i]? <;> rfl

theorem pyLast_map {α β : Type} (f : α → β) (l : List α) : pyLast (l.map f) = (pyLast l).map f := by
  unfold pyLast
  rw [List.getLast?_map]
  cases l.getLast? <;> rfl

theorem map_bind {α β γ : Type} (r : Res α) (f : α → β) (g : β → Res γ) : (r.map f >>= g) = (r >>= fun a => g (f a)) := by
  cases r <;> rfl

theorem findRange_plain (s : Str) : findRange (plainText s) = findRange s := by
  unfold findRange
  simp only [splitOn_plain (blind_chr (x := '-') (by decide)), isMatch_plain blind_posStart, isMatch_plain blind_negEnd, pyIndex_map, pyLast_map,
    map_bind, pyInt_plain]

theorem entryFaces_plain (s : Str) : entryFaces (plainText s) = entryFaces s := by
  have one : pyInt ['1'] = .ok 1 := rfl
  unfold entryFaces
  rw [isMatch_plain blind_multiplied, splitOn_plain (blind_chr (x := '*') (by decide))]
  by_cases h : Re.isMatch reMultiplied s = true
  · rw [if_pos h, if_pos h]
    rcases splitOn (· == '*') s with _ | ⟨v, _ | ⟨m, _ | ⟨x, l⟩⟩⟩
    · rfl
    · rfl
    · show (do let faces ← if Re.isMatch reRange (plainText v) then findRange (plainText v) else do let x ← pyInt (plainText v); pure [x]
               let m ← pyInt (plainText m); return (faces, m.toNat) : Res (List Int × Nat)) = _
      rw [isMatch_plain blind_range, findRange_plain, pyInt_plain, pyInt_plain]
      rfl
    · rfl
  · rw [if_neg h, if_neg h]
    show (do let faces ← if Re.isMatch reRange (plainText s) then findRange (plainText s) else do let x ← pyInt (plainText s); pure [x]
             let m ← pyInt ['1']; return (faces, m.toNat) : Res (List Int × Nat)) = _
    rw [isMatch_plain blind_range, findRange_plain, pyInt_plain]
    rfl

theorem entriesLoop_plain : ∀ (ls : List Str) (acc : List (Int × Nat)), entriesLoop (ls.map plainText) acc = entriesLoop ls acc := by
  intro ls
  induction ls with
  | nil => intro acc; rfl
  | cons l ls ih =>
    intro acc
    rw [List.map_cons, entriesLoop, entriesLoop, entryFaces_plain]
    simp only [ih]

theorem stripBrackets_plain (s : Str) : stripBrackets (plainText s) = plainText (stripBrackets s) := by
  unfold stripBrackets plainText
  rw [List.filter_map]
  congr 2
  funext c
  show (!(plainDigit c == '[' || plainDigit c == ']' || isSpace (plainDigit c))) = _
  rw [plain_beq (by decide), plain_beq (by decide), blind_space c]

theorem singleDiceMap_plain (s : Str) : singleDiceMap (plainText s) = singleDiceMap s := by
  unfold singleDiceMap
  have h1 : (plainText s = ['%']) = (s = ['%']) := propext (plainText_eq_iff (by intro c hc; simp at hc; subst hc; decide) s)
  have h2 : (plainText s = ['F']) = (s = ['F']) := propext (plainText_eq_iff (by intro c hc; simp at hc; subst hc; decide) s)
  simp only [isMatch_plain blind_plus_digit, pyInt_plain, h1, h2, stripBrackets_plain,
    splitOn_plain (blind_chr (x := ',') (by decide)), entriesLoop_plain]

theorem diceNumber_plain (s : Str) : diceNumber (plainText s) = diceNumber s := by
  unfold diceNumber
  have : (plainText s = []) = (s = []) := propext (by simp [plainText])
  simp only [this, pyInt_plain]

/-- A dice term with ASCII digits in its text. -/
def DiceTerm.plain (t : DiceTerm) : DiceTerm := ⟨plainText t.form, t.table, t.number⟩

theorem mkDice_script (s : Str) : mkDice (plainText s) = (mkDice s).map DiceTerm.plain := by
  unfold mkDice
  simp only [splitOn_plain (blind_chr (x := 'd') (by decide)), pyIndex_map]
  cases pyIndex (splitOn (· == 'd') s) 1 with
  | error e => rfl
  | ok x =>
    show (singleDiceMap (plainText x) >>= _) = _
    rw [singleDiceMap_plain]
    show _ = Except.map _ (singleDiceMap x >>= _)
    cases singleDiceMap x with
    | error e => rfl
    | ok table =>
      cases pyIndex (splitOn (· == 'd') s) 0 with
      | error e => rfl
      | ok y =>
        show (diceNumber (plainText y) >>= _) = Except.map _ (diceNumber y >>= _)
        rw [diceNumber_plain]
        cases diceNumber y <;> rfl

/-- The same for the simplified form of a keep/drop term. -/
def Simplified.plain : Simplified → Simplified
  | .none => .none
  | .dice d => .dice d.plain
  | .zero => .zero

/-- A keep/drop term with ASCII digits in its text. -/
def DropKeepTerm.plain (t : DropKeepTerm) : DropKeepTerm := ⟨plainText t.form, t.number, t.table, t.count, t.keep, t.simplified.plain⟩

theorem plainText_natStr (n : Nat) : plainText (natStr n) = natStr n := by
  have : ∀ f n : Nat, n < f → plainText (natStrAux f n) = natStrAux f n := by
    have hd : ∀ n < 10, plainDigit (digitChar n) = digitChar n := by decide
    intro f
    induction f with
    | zero => intro n h; omega
    | succ f ih =>
      intro n h
      unfold natStrAux
      split
      · exact congrArg (· :: []) (hd n ‹_›)
      · have := ih (n / 10) (by omega)
        unfold plainText at this ⊢
        rw [List.map_append, this]
        exact congrArg (_ ++ [·]) (hd (n % 10) (by omega))
  exact this _ _ (by omega)

theorem contains_plain (s : Str) : (plainText s).contains 'k' = s.contains 'k' := by
  induction s with
  | nil => rfl
  | cons c s ih =>
    show (plainDigit c :: plainText s).contains 'k' = _
    rw [List.contains_cons, List.contains_cons, ih]
    congr 1
    have := plain_eq_iff (x := 'k') (by decide) c
    rw [Bool.eq_iff_iff, beq_iff_eq, beq_iff_eq]
    exact ⟨fun h => (this.mp h.symm).symm, fun h => (this.mpr h.symm).symm⟩

theorem mkDropKeep_plain (s : Str) : mkDropKeep (plainText s) = (mkDropKeep s).map DropKeepTerm.plain := by
  have hb : Blind (fun c => c == 'd' || c == 'k') := by
    intro c
    show (plainDigit c == 'd' || plainDigit c == 'k') = _
    rw [plain_beq (by decide), plain_beq (by decide)]
  unfold mkDropKeep
  simp only [splitOn_plain hb, pyIndex_map, contains_plain]
  cases pyIndex (splitOn (fun c => c == 'd' || c == 'k') s) 0 with
  | error e => rfl
  | ok x =>
    show (diceNumber (plainText x) >>= _) = Except.map _ (diceNumber x >>= _)
    rw [diceNumber_plain]
    cases diceNumber x with
    | error e => rfl
    | ok n =>
      cases pyIndex (splitOn (fun c => c == 'd' || c == 'k') s) 1 with
      | error e => rfl
      | ok sides =>
        have hm : mkDice (natStr n ++ 'd' :: plainText sides) = (mkDice (natStr n ++ 'd' :: sides)).map DiceTerm.plain := by
          rw [← mkDice_script]
          congr 1
          conv_lhs => rw [← plainText_natStr n]
          unfold plainText
          rw [List.map_append]
          rfl
        show (singleDiceMap (plainText sides) >>= _) = Except.map _ (singleDiceMap sides >>= _)
        rw [singleDiceMap_plain]
        cases singleDiceMap sides with
        | error e => rfl
        | ok table =>
          cases pyIndex (splitOn (fun c => c == 'd' || c == 'k') s) 2 with
          | error e => rfl
          | ok y =>
            show (pyInt (plainText y) >>= _) = Except.map _ (pyInt y >>= _)
            rw [pyInt_plain]
            cases pyInt y with
            | error e => rfl
            | ok k =>
              simp only [hm]
              show Except.bind _ _ = Except.map _ (Except.bind _ _)
              simp only [Except.bind]
              split
              · split
                · cases mkDice (natStr n ++ 'd' :: sides) <;> rfl
                · split <;> rfl
              · split
                · rfl
                · split
                  · cases mkDice (natStr n ++ 'd' :: sides) <;> rfl
                  · rfl

/-! ### Parsing -/

/-- An expression with ASCII digits in its texts. -/
def Expr.plain : Expr → Expr
  | .paren e => .paren e.plain
  | .not e => .not e.plain
  | .dropKeep t => .dropKeep t.plain
  | .dice t => .dice t.plain
  | .constInt text => .constInt (plainText text)
  | .constBin text => .constBin (plainText text)
  | .add a b => .add a.plain b.plain
  | .sub a b => .sub a.plain b.plain
  | .mul a b => .mul a.plain b.plain
  | .div a b => .div a.plain b.plain
  | .bin op a b => .bin op a.plain b.plain
  | .minmax k a b => .minmax k a.plain b.plain
  | .abs e => .abs e.plain
  | .assign name e => .assign (plainText name) e.plain
  | .getVar name => .getVar (plainText name)

/-- The same on the stack of the parser. -/
def Val.plain : Val → Val
  | .tok t => .tok t.plain
  | .expr e => .expr e.plain

theorem noDigits_of {w : Str} (h : (w.all fun c => !isDigit c) = true) : NoDigits w := by
  intro c hc
  have := List.all_eq_true.mp h c hc
  simpa using this

theorem plainText_eq {w : Str} (h : (w.all fun c => !isDigit c) = true) (s : Str) : (plainText s = w) = (s = w) :=
  propext (plainText_eq_iff (noDigits_of h) s)

theorem cmpOf_plain (s : Str) : cmpOf (plainText s) = cmpOf s := by
  unfold cmpOf
  simp only [plainText_eq (w := ['=', '=']) (by decide), plainText_eq (w := ['!', '=']) (by decide), plainText_eq (w := ['<', '=']) (by decide),
    plainText_eq (w := ['<']) (by decide), plainText_eq (w := ['>', '=']) (by decide), plainText_eq (w := ['>']) (by decide),
    plainText_eq (w := ['A', 'N', 'D']) (by decide), plainText_eq (w := ['O', 'R']) (by decide)]

theorem minmaxOf_plain (s : Str) : minmaxOf (plainText s) = minmaxOf s := by
  unfold minmaxOf
  simp only [plainText_eq (w := ['M', 'A', 'X']) (by decide), plainText_eq (w := ['M', 'I', 'N']) (by decide)]

theorem build_plain (p : Nat) (vs : List Val) : build p (vs.map Val.plain) = (build p vs).map Expr.plain := by
  rcases p with _ | _ | _ | _ | _ | _ | _ | _ | _ | _ | _ | _ | _ | _ | _ | _ | p
  · rfl
  · rcases vs with _ | ⟨_ | _, _ | ⟨_ | _, _ | ⟨_ | _, _ | ⟨_, _⟩⟩⟩⟩ <;> rfl
  · rcases vs with _ | ⟨_ | _, _ | ⟨_ | _, _ | ⟨_, _⟩⟩⟩ <;> rfl
  · rcases vs with _ | ⟨t | _, _ | ⟨_, _⟩⟩
    any_goals rfl
    show (mkDropKeep (plainText t.text) >>= _) = Except.map _ (mkDropKeep t.text >>= _)
    rw [mkDropKeep_plain]
    cases mkDropKeep t.text <;> rfl
  · rcases vs with _ | ⟨t | _, _ | ⟨_, _⟩⟩
    any_goals rfl
    show (mkDice (plainText t.text) >>= _) = Except.map _ (mkDice t.text >>= _)
    rw [mkDice_script]
    cases mkDice t.text <;> rfl
  · rcases vs with _ | ⟨t | _, _ | ⟨_, _⟩⟩ <;> rfl
  · rcases vs with _ | ⟨t | _, _ | ⟨_, _⟩⟩ <;> rfl
  · rcases vs with _ | ⟨_ | _, _ | ⟨_ | _, _ | ⟨_ | _, _ | ⟨_, _⟩⟩⟩⟩ <;> rfl
  · rcases vs with _ | ⟨_ | _, _ | ⟨_ | _, _ | ⟨_ | _, _ | ⟨_, _⟩⟩⟩⟩ <;> rfl
  · rcases vs with _ | ⟨_ | _, _ | ⟨_ | _, _ | ⟨_ | _, _ | ⟨_, _⟩⟩⟩⟩ <;> rfl
  · rcases vs with _ | ⟨_ | _, _ | ⟨_ | _, _ | ⟨_ | _, _ | ⟨_, _⟩⟩⟩⟩ <;> rfl
  · rcases vs with _ | ⟨_ | a, _ | ⟨t | _, _ | ⟨_ | b, _ | ⟨_, _⟩⟩⟩⟩
    any_goals rfl
    simp only [List.map_cons, List.map_nil, Val.plain, build, Token.plain, cmpOf_plain]
    cases cmpOf t.text <;> rfl
  · rcases vs with _ | ⟨t | _, _ | ⟨_ | _, _ | ⟨_ | a, _ | ⟨_ | _, _ | ⟨_ | b, _ | ⟨_ | _, _ | ⟨_, _⟩⟩⟩⟩⟩⟩⟩
    any_goals rfl
    simp only [List.map_cons, List.map_nil, Val.plain, build, Token.plain, minmaxOf_plain]
    cases minmaxOf t.text <;> rfl
  · rcases vs with _ | ⟨_ | _, _ | ⟨_ | _, _ | ⟨_ | _, _ | ⟨_ | _, _ | ⟨_, _⟩⟩⟩⟩⟩ <;> rfl
  · rcases vs with _ | ⟨_ | _, _ | ⟨_ | _, _ | ⟨_ | _, _ | ⟨_ | _, _ | ⟨_, _⟩⟩⟩⟩⟩ <;> rfl
  · rcases vs with _ | ⟨t | _, _ | ⟨_, _⟩⟩ <;> rfl
  · rfl

/-- A configuration of the parser with ASCII digits. -/
def Config.plain (c : Config) : Config := ⟨c.stack.map fun x => (x.1, x.2.plain), c.input.map Token.plain⟩

/-- A turn of the parser with ASCII digits. -/
def Turn.plain : Turn → Turn
  | .next c => .next c.plain
  | .done e => .done e.plain
  | .fail err => .fail err

theorem topState_plain (l : List (Nat × Val)) : topState (l.map fun x => (x.1, x.2.plain)) = topState l := by cases l <;> rfl

theorem reduceBy_plain (tb : Table) (p : Nat) (c : Config) : reduceBy tb p c.plain = (reduceBy tb p c).plain := by
  unfold reduceBy
  simp only [Config.plain, ← List.map_take, ← List.map_drop, ← List.map_reverse, List.map_map, topState_plain]
  rw [show (Prod.snd ∘ fun x : Nat × Val => (x.1, x.2.plain)) = Val.plain ∘ Prod.snd from rfl, ← List.map_map, build_plain]
  generalize build p _ = r
  cases r with
  | error e => rfl
  | ok e =>
    simp only [Except.map]
    generalize (tb.row _).goto = g
    cases g <;> rfl

theorem lookahead_plain (ts : List Token) : lookahead (ts.map Token.plain) = lookahead ts := by cases ts <;> rfl

theorem turn_plain (tb : Table) (c : Config) : turn tb c.plain = (turn tb c).plain := by
  unfold turn
  rw [show topState c.plain.stack = topState c.stack from topState_plain _,
    show lookahead c.plain.input = lookahead c.input from lookahead_plain _]
  simp only [reduceBy_plain]
  obtain ⟨st, ts⟩ := c
  generalize tb.row (topState st) = row
  cases row.default with
  | some p => rfl
  | none =>
    cases row.act (lookahead ts) with
    | none => rfl
    | some a =>
      cases a with
      | shift q => cases ts <;> rfl
      | reduce p => rfl
      | accept => rcases st with _ | ⟨⟨q, _ | _⟩, st⟩ <;> rfl

theorem drive_plain (tb : Table) : ∀ (n : Nat) (c : Config), drive tb n c.plain = (drive tb n c).map Expr.plain := by
  intro n
  induction n with
  | zero => intro c; rfl
  | succ n ih =>
    intro c
    rw [drive, drive, turn_plain]
    cases turn tb c with
    | next c' => exact ih c'
    | done e => rfl
    | fail err => rfl

theorem parseTokens_plain (ts : List Token) : parseTokens (ts.map Token.plain) = (parseTokens ts).map Expr.plain := by
  unfold parseTokens
  rw [List.length_map]
  exact drive_plain _ _ ⟨[], ts⟩

theorem parse_plain (s : Str) : parse (plainText s) = (parse s).map Expr.plain := by
  unfold parse
  rcases lex_plain s with ⟨ts, h1, h2⟩ | ⟨m, m', h1, h2⟩ | ⟨e, h1, h2⟩
  · rw [h1, h2]
    exact parseTokens_plain ts
  · rw [h1, h2]
    rfl
  · rw [h1, h2]
    cases e <;> rfl

/-! ### Meaning -/

theorem binValue_plain (s : Str) : binValue (plainText s) = binValue s := by
  unfold binValue
  simp only [plainText_eq (w := ['T', 'r', 'u', 'e']) (by decide)]

theorem name_plain {n : Str} (h : ∀ c ∈ n, NameLetter c) : plainText n = n := by
  refine plainText_of fun c hc => nameChar_not_digit ?_
  rcases h c hc with rfl | ⟨h1, h2⟩
  · decide
  · unfold isNameChar
    simp only [Bool.or_eq_true, Bool.and_eq_true, decide_eq_true_eq]
    exact .inl ⟨h1, h2⟩

section
variable [R : PyRuntime]

theorem dropKeep_dist_plain (t : DropKeepTerm) : t.plain.dist = t.dist := by
  obtain ⟨f, n, tb, k, kp, s⟩ := t
  cases s <;> rfl

omit R in
theorem dropKeep_extreme_plain (isMax : Bool) (t : DropKeepTerm) : t.plain.extreme isMax = t.extreme isMax := by
  obtain ⟨f, n, tb, k, kp, s⟩ := t
  cases s <;> rfl

omit R in
theorem dropKeep_cost_plain (t : DropKeepTerm) : t.plain.cost = t.cost := by
  obtain ⟨f, n, tb, k, kp, s⟩ := t
  cases s <;> rfl

omit R in
theorem dropKeep_roll_plain (t : DropKeepTerm) : t.plain.roll = t.roll := by
  obtain ⟨f, n, tb, k, kp, s⟩ := t
  cases s <;> rfl

theorem dist_plain {e : Expr} (h : Spelt e) : e.plain.dist = e.dist := by
  induction e with
  | paren e ih => exact ih h
  | dice t => rfl
  | dropKeep t => exact congrArg EvalM.ofRes (dropKeep_dist_plain t)
  | constInt t => simp only [Expr.plain, Expr.dist, pyInt_plain]
  | constBin t => simp only [Expr.plain, Expr.dist, binValue_plain]
  | not e ih | abs e ih => simp only [Expr.plain, Expr.dist, ih h]
  | assign n e ih => simp only [Expr.plain, Expr.dist, ih h.2, name_plain h.1.2]
  | getVar n => simp only [Expr.plain, Expr.dist, name_plain h.2]
  | add a b iha ihb | sub a b iha ihb | mul a b iha ihb | div a b iha ihb | bin _ a b iha ihb | minmax _ a b iha ihb =>
    simp only [Expr.plain, Expr.dist, iha h.1, ihb h.2]

theorem extreme_plain (isMax : Bool) {e : Expr} (h : Spelt e) : e.plain.extreme isMax = e.extreme isMax := by
  induction e with
  | paren e ih => exact ih h
  | dice t => rfl
  | dropKeep t => exact congrArg EvalM.ofRes (dropKeep_extreme_plain isMax t)
  | constInt t => simp only [Expr.plain, Expr.extreme, pyInt_plain]
  | constBin t => simp only [Expr.plain, Expr.extreme, binValue_plain]
  | not e ih => exact congrArg (viaDist isMax) (dist_plain (e := .not e) h)
  | abs e ih => exact congrArg (viaDist isMax) (dist_plain (e := .abs e) h)
  | assign n e ih => simp only [Expr.plain, Expr.extreme, ih h.2, name_plain h.1.2, dist_plain h.2]
  | getVar n => simp only [Expr.plain, Expr.extreme, name_plain h.2]
  | add a b iha ihb => exact congrArg (viaDist isMax) (dist_plain (e := .add a b) h)
  | sub a b iha ihb => exact congrArg (viaDist isMax) (dist_plain (e := .sub a b) h)
  | mul a b iha ihb => exact congrArg (viaDist isMax) (dist_plain (e := .mul a b) h)
  | bin op a b iha ihb => exact congrArg (viaDist isMax) (dist_plain (e := .bin op a b) h)
  | div a b iha ihb =>
    have := dist_plain (e := .div a b) h
    simp only [Expr.plain] at this
    simp only [Expr.plain, Expr.extreme, dist_plain h.2, this]
  | minmax k a b iha ihb => simp only [Expr.plain, Expr.extreme, iha h.1, ihb h.2]

theorem cost_plain {e : Expr} (h : Spelt e) : e.plain.cost = e.cost := by
  induction e with
  | paren e ih => exact ih h
  | dice t => rfl
  | dropKeep t => exact congrArg pure (dropKeep_cost_plain t)
  | constInt t => rfl
  | constBin t => rfl
  | not e ih | abs e ih => simp only [Expr.plain, Expr.cost, ih h]
  | assign n e ih => simp only [Expr.plain, Expr.cost, ih h.2, name_plain h.1.2]
  | getVar n => simp only [Expr.plain, Expr.cost, name_plain h.2]
  | add a b iha ihb | sub a b iha ihb | mul a b iha ihb | div a b iha ihb | bin _ a b iha ihb | minmax _ a b iha ihb =>
    simp only [Expr.plain, Expr.cost, iha h.1, ihb h.2]

theorem roll_plain {e : Expr} (h : Spelt e) : e.plain.roll = e.roll := by
  induction e with
  | paren e ih => exact ih h
  | dice t => rfl
  | dropKeep t => exact congrArg RollM.ofRand (dropKeep_roll_plain t)
  | constInt t => simp only [Expr.plain, Expr.roll, pyInt_plain]
  | constBin t => simp only [Expr.plain, Expr.roll, binValue_plain]
  | not e ih | abs e ih => simp only [Expr.plain, Expr.roll, ih h]
  | assign n e ih => simp only [Expr.plain, Expr.roll, ih h.2, name_plain h.1.2]
  | getVar n => simp only [Expr.plain, Expr.roll, name_plain h.2]
  | add a b iha ihb | sub a b iha ihb | mul a b iha ihb | div a b iha ihb | bin _ a b iha ihb | minmax _ a b iha ihb =>
    simp only [Expr.plain, Expr.roll, iha h.1, ihb h.2]

theorem meaning_plain {e : Expr} (h : Spelt e) : SameMeaning e.plain e :=
  ⟨roll_plain h, fun isMax => extreme_plain isMax h, dist_plain h, cost_plain h⟩

end

end PyDice
