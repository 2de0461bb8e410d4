import Verif.Lemmas.Tokens
/-!
# The printed form of an expression is read back as its tokens
-/

namespace PyDice
open LexSpec ParseSpec

/-! ### Which rules can begin with a character -/

/-- The first characters of the texts a rule matches. -/
def firstOK : TokType → Char → Bool
  | .openP, c => c == '('
  | .closeP, c => c == ')'
  | .comma, c => c == ','
  | .not, c => c == '!'
  | .dropKeep, c => isDigit c || c == 'd'
  | .dice, c => isDigit c || c == 'd'
  | .binop, c => c == '=' || c == '!' || c == '<' || c == '>' || c == 'A' || c == 'O'
  | .constInt, c => isDigit c || c == '-'
  | .constBin, c => c == 'T' || c == 'F'
  | .add, c => c == '+'
  | .sub, c => c == '-'
  | .mul, c => c == '*'
  | .div, c => c == '/'
  | .minmax, c => c == 'M'
  | .abs, c => c == 'A'
  | .assign, c => c == '='
  | .var, c => c == 'V'
  | .name, c => isNameChar c

theorem first_digits {n : Str} {x : Char} {w : Str} {c : Char} {s : Str} (hn : Digits n) (h : c :: s = n ++ x :: w) :
    isDigit c = true ∨ c = x := by
  cases n with
  | nil => right; simpa using (List.cons.inj h).1
  | cons d n => left; rw [(List.cons.inj h).1]; exact hn d (by simp)

theorem applies_first {t : TokType} {b : Str} {c : Char} {s : Str} (h : Applies t b (c :: s)) : firstOK t c = true := by
  obtain ⟨w, v, hs, hm⟩ := h
  cases t
  case dropKeep =>
    obtain ⟨n, ty, k, m, rfl, hn, _⟩ := hm
    rcases first_digits hn (by rw [hs]; simp : c :: s = n ++ 'd' :: (ty ++ k :: m ++ v)) with h | h <;> simp [firstOK, h]
  case dice =>
    obtain ⟨n, ty, rfl, hn, _⟩ := hm
    rcases first_digits hn (by rw [hs]; simp : c :: s = n ++ 'd' :: (ty ++ v)) with h | h <;> simp [firstOK, h]
  case constInt =>
    obtain ⟨⟨n, hn, rfl⟩, _⟩ := hm
    unfold Num.text at hs
    split at hs
    · rw [(List.cons.inj hs).1]; rfl
    · obtain ⟨h1, h2⟩ := hn
      cases hd : n.digits with
      | nil => exact absurd hd h1
      | cons d ds =>
        rw [hd] at hs h2
        rw [(List.cons.inj hs).1]
        simp [firstOK, h2 d (by simp)]
  case name =>
    obtain ⟨hne, hw, _⟩ := hm
    cases w with
    | nil => exact absurd rfl hne
    | cons x w =>
      rw [(List.cons.inj hs).1]
      exact (Re.isNameChar_iff x).mpr (hw x (by simp))
  case not => rw [hm.1] at hs; rw [(List.cons.inj hs).1]; rfl
  case assign => rw [hm.1] at hs; rw [(List.cons.inj hs).1]; rfl
  case abs => rw [hm.1] at hs; rw [(List.cons.inj hs).1]; rfl
  case var => rw [hm.1] at hs; rw [(List.cons.inj hs).1]; rfl
  case constBin => rcases hm with hm | hm <;> (rw [hm.1] at hs; rw [(List.cons.inj hs).1]; rfl)
  case minmax => rcases hm with hm | hm <;> (rw [hm.1] at hs; rw [(List.cons.inj hs).1]; rfl)
  case binop =>
    rcases hm with h | h | h | h | ⟨h, _⟩ | ⟨h, _⟩ | ⟨h, _⟩ | ⟨h, _⟩ <;> rw [h] at hs <;> (rw [(List.cons.inj hs).1]; rfl)
  all_goals (rw [hm] at hs; rw [(List.cons.inj hs).1]; rfl)

/-- A match that no earlier rule can begin like is the best. -/
theorem best_first {t : TokType} {b : Str} {c : Char} {w v : Str} (h : Matches t b (c :: w) v)
    (hf : ∀ t', rank t' < rank t → firstOK t' c = true → ¬ Applies t' b ((c :: w) ++ v)) : Best t b (c :: w) v := by
  refine ⟨h, fun t' hr ha => ?_⟩
  exact hf t' hr (applies_first ha) ha

/-! ### The tokens of an expression -/

/-- What comes before a printed expression. -/
def Before (b : Str) : Prop := ¬ WordNext b

theorem space_not_word {c : Char} (h : isSpace c = true) : isWord c = false ∧ isDigit c = false := by
  constructor
  · cases hw : isWord c
    · rfl
    · rw [word_not_space hw] at h; cases h
  · cases hw : isDigit c
    · rfl
    · rw [digit_not_space hw] at h; cases h

/-- What comes after a printed expression. -/
def After (v : Str) : Prop := v = [] ∨ ∃ c s, v = c :: s ∧ (isSpace c = true ∨ c = ')' ∨ c = ',')

theorem after_cons {c : Char} {s : Str} (h : isSpace c = true ∨ c = ')' ∨ c = ',') : After (c :: s) := .inr ⟨c, s, rfl, h⟩

theorem after_word {v : Str} (h : After v) : ¬ WordNext v := by
  rcases h with rfl | ⟨c, s, rfl, h | rfl | rfl⟩
  · simp [WordNext]
  · simp [WordNext, (space_not_word h).1]
  all_goals simp [WordNext] <;> decide

theorem after_digit {v : Str} (h : After v) : ¬ DigitNext v := by
  rcases h with rfl | ⟨c, s, rfl, h | rfl | rfl⟩
  · simp [DigitNext]
  · simp [DigitNext, (space_not_word h).2]
  all_goals simp [DigitNext] <;> decide

theorem after_head {v : Str} {x : Char} (h : After v) (hx : isSpace x = false ∧ x ≠ ')' ∧ x ≠ ',') : v.head? ≠ some x := by
  rcases h with rfl | ⟨c, s, rfl, h | rfl | rfl⟩
  · simp
  · simp only [List.head?_cons, ne_eq, Option.some.injEq]
    rintro rfl
    rw [hx.1] at h; cases h
  all_goals simp <;> tauto

/-- The texts of the tokens of an expression are tokens. -/
def Spelt : Expr → Prop
  | .paren e => Spelt e
  | .not e => Spelt e
  | .dropKeep d => mkDropKeep d.form = .ok d ∧ ∃ n ty k m, d.form = n ++ 'd' :: ty ++ k :: m ∧ Digits n ∧
      (∀ v, DiceType ty (k :: m ++ v)) ∧ (k = 'k' ∨ k = 'd') ∧ m ≠ [] ∧ Digits m
  | .dice d => mkDice d.form = .ok d ∧ ∃ n ty, d.form = n ++ 'd' :: ty ∧ Digits n ∧ (∀ v, ¬ DigitNext v → DiceType ty v)
  | .constInt t => ∃ n : Num, n.WF ∧ t = n.text
  | .constBin t => t = ['T', 'r', 'u', 'e'] ∨ t = ['F', 'a', 'l', 's', 'e']
  | .add a b => Spelt a ∧ Spelt b
  | .sub a b => Spelt a ∧ Spelt b
  | .mul a b => Spelt a ∧ Spelt b
  | .div a b => Spelt a ∧ Spelt b
  | .bin _ a b => Spelt a ∧ Spelt b
  | .minmax _ a b => Spelt a ∧ Spelt b
  | .abs e => Spelt e
  | .assign n e => (n ≠ [] ∧ ∀ c ∈ n, NameLetter c) ∧ Spelt e
  | .getVar n => n ≠ [] ∧ ∀ c ∈ n, NameLetter c

/-- Reading on: whatever the rest is read as, the text before it is read as the tokens that spell `e`. -/
def Reads (b w v : Str) (P : List Token → Prop) : Prop :=
  ∀ ts, Lexed (w.reverse ++ b) v ts → ∃ us, P us ∧ Lexed b (w ++ v) (us ++ ts)

/-- One token. -/
theorem reads_token {t : TokType} {b w v : Str} (h : Best t b w v) : Reads b w v (fun us => ∃ i, us = [⟨t, w, i⟩]) := by
  intro ts hts
  have hne := matches_ne_nil h.1
  have := Lexed.token (b := b) (u := []) blank_nil (matches_solid h.1) hne h hts
  exact ⟨[⟨t, w, b.length⟩], ⟨_, rfl⟩, this⟩

theorem reads_append {b w w' v : Str} {P Q : List Token → Prop} (h : Reads b w (w' ++ v) P) (h' : Reads (w.reverse ++ b) w' v Q) :
    Reads b (w ++ w') v (fun us => ∃ x y, us = x ++ y ∧ P x ∧ Q y) := by
  intro ts hts
  rw [List.reverse_append, List.append_assoc] at hts
  obtain ⟨y, hy, hl⟩ := h' ts hts
  obtain ⟨x, hx, hl'⟩ := h _ hl
  exact ⟨x ++ y, ⟨x, y, rfl, hx, hy⟩, by simpa using hl'⟩

theorem reads_mono {b w v : Str} {P Q : List Token → Prop} (h : Reads b w v P) (hPQ : ∀ us, P us → Q us) : Reads b w v Q := by
  intro ts hts
  obtain ⟨us, hp, hl⟩ := h ts hts
  exact ⟨us, hPQ us hp, hl⟩

/-- A space. -/
theorem reads_space {b v : Str} : Reads b [' '] v (fun us => us = []) := by
  intro ts hts
  exact ⟨[], rfl, lexed_skip (u := [' ']) (by simp [Blank]; decide) hts⟩

/-! ### Each token in its place -/

theorem best_simple {t : TokType} {b : Str} {c : Char} {w v : Str} (h : Matches t b (c :: w) v)
    (hf : ∀ t', rank t' < rank t → firstOK t' c = false) : Best t b (c :: w) v :=
  best_first h fun t' hr hc => by rw [hf t' hr] at hc; cases hc

theorem best_open (b v : Str) : Best .openP b ['('] v := best_simple rfl (by intro t'; cases t' <;> decide)
theorem best_close (b v : Str) : Best .closeP b [')'] v := best_simple rfl (by intro t'; cases t' <;> decide)
theorem best_comma (b v : Str) : Best .comma b [','] v := best_simple rfl (by intro t'; cases t' <;> decide)
theorem best_add (b v : Str) : Best .add b ['+'] v := best_simple rfl (by intro t'; cases t' <;> decide)
theorem best_mul (b v : Str) : Best .mul b ['*'] v := best_simple rfl (by intro t'; cases t' <;> decide)
theorem best_div (b v : Str) : Best .div b ['/', '/'] v := best_simple rfl (by intro t'; cases t' <;> decide)
theorem best_not {b v : Str} (h : v.head? ≠ some '=') : Best .not b ['!'] v := best_simple ⟨rfl, h⟩ (by intro t'; cases t' <;> decide)

theorem best_sub (b v : Str) : Best .sub b ['-'] (' ' :: v) := by
  refine best_first rfl fun t' hr hf => ?_
  have : t' = .constInt := by revert hr hf; cases t' <;> decide
  subst this
  rintro ⟨w, v', hs, ⟨n, hn, rfl⟩, _⟩
  unfold Num.text at hs
  obtain ⟨h1, h2⟩ := hn
  cases hd : n.digits with
  | nil => exact h1 hd
  | cons d ds =>
    rw [hd] at hs h2
    have hdig := h2 d (by simp)
    split at hs
    · simp only [List.cons_append, List.nil_append, List.cons.injEq] at hs
      rw [← hs.2.1] at hdig; exact absurd hdig (by decide)
    · simp only [List.cons_append, List.cons.injEq] at hs
      rw [← hs.1] at hdig; exact absurd hdig (by decide)

theorem keyword_here {k b v : Str} (hb : ¬ WordNext b) (hv : ¬ WordNext v) : Keyword k b k v := ⟨rfl, hb, hv⟩

theorem best_cmp (op : CmpOp) {b : Str} (hb : ¬ WordNext b) (v : Str) : Best .binop b op.text (' ' :: v) := by
  have hv : ¬ WordNext (' ' :: v) := by simp [WordNext]; decide
  have hno : ∀ s, ¬ Applies .not b ('!' :: '=' :: s) := by
    rintro s ⟨w, v', hs, rfl, h⟩
    simp only [List.cons_append, List.nil_append, List.cons.injEq, true_and] at hs
    rw [← hs] at h; exact h rfl
  cases op
  · exact best_simple (.inl rfl) (by intro t'; cases t' <;> decide)
  · refine best_first (.inr (.inl rfl)) fun t' hr hf => ?_
    have : t' = .not := by revert hr hf; cases t' <;> decide
    subst this
    exact hno _
  · exact best_simple (.inr (.inr (.inl rfl))) (by intro t'; cases t' <;> decide)
  · exact best_simple (.inr (.inr (.inr (.inr (.inl ⟨rfl, by simp⟩))))) (by intro t'; cases t' <;> decide)
  · exact best_simple (.inr (.inr (.inr (.inl rfl)))) (by intro t'; cases t' <;> decide)
  · exact best_simple (.inr (.inr (.inr (.inr (.inr (.inl ⟨rfl, by simp⟩)))))) (by intro t'; cases t' <;> decide)
  · exact best_simple (.inr (.inr (.inr (.inr (.inr (.inr (.inl (keyword_here hb hv)))))))) (by intro t'; cases t' <;> decide)
  · exact best_simple (.inr (.inr (.inr (.inr (.inr (.inr (.inr (keyword_here hb hv)))))))) (by intro t'; cases t' <;> decide)

theorem best_minmax (k : Bool) {b : Str} (hb : ¬ WordNext b) (v : Str) :
    Best .minmax b (if k then ['M', 'A', 'X'] else ['M', 'I', 'N']) ('(' :: v) := by
  have hv : ¬ WordNext ('(' :: v) := by simp [WordNext]; decide
  cases k
  · exact best_simple (.inr (keyword_here hb hv)) (by intro t'; cases t' <;> decide)
  · exact best_simple (.inl (keyword_here hb hv)) (by intro t'; cases t' <;> decide)

theorem best_abs {b : Str} (hb : ¬ WordNext b) (v : Str) : Best .abs b ['A', 'B', 'S'] ('(' :: v) := by
  have hv : ¬ WordNext ('(' :: v) := by simp [WordNext]; decide
  refine best_first (keyword_here hb hv) fun t' hr hf => ?_
  have : t' = .binop := by revert hr hf; cases t' <;> decide
  subst this
  rintro ⟨w, v', hs, hm⟩
  rcases hm with rfl | rfl | rfl | rfl | ⟨rfl, _⟩ | ⟨rfl, _⟩ | ⟨rfl, _⟩ | ⟨rfl, _⟩ <;> simp at hs

theorem best_var {b : Str} (hb : ¬ WordNext b) (v : Str) : Best .var b ['V', 'A', 'R'] (' ' :: v) :=
  best_simple (keyword_here hb (by simp [WordNext]; decide)) (by intro t'; cases t' <;> decide)

theorem best_assign (b v : Str) : Best .assign (' ' :: b) ['='] (' ' :: v) := by
  refine best_first ⟨rfl, by simp, by simp⟩ fun t' hr hf => ?_
  have : t' = .binop := by revert hr hf; cases t' <;> decide
  subst this
  rintro ⟨w, v', hs, hm⟩
  rcases hm with rfl | rfl | rfl | rfl | ⟨rfl, _⟩ | ⟨rfl, _⟩ | ⟨rfl, _⟩ | ⟨rfl, _⟩ <;> simp at hs

theorem best_constBin {w b v : Str} (hw : w = ['T', 'r', 'u', 'e'] ∨ w = ['F', 'a', 'l', 's', 'e']) (hb : ¬ WordNext b)
    (hv : ¬ WordNext v) : Best .constBin b w v := by
  rcases hw with rfl | rfl
  · exact best_simple (.inl (keyword_here hb hv)) (by intro t'; cases t' <;> decide)
  · exact best_simple (.inr (keyword_here hb hv)) (by intro t'; cases t' <;> decide)

/-- Digits and then something else: where a dice term would have its `d`. -/
theorem number_d {n w s v : Str} (hn : Digits n) (hw : Digits w) (hv : ¬ DigitNext v) (h : w ++ v = n ++ 'd' :: s) :
    n = w ∧ v = 'd' :: s := by
  rcases Re.run_cut h hw hn (by simp [Re.ClsNext]; decide) with ⟨rfl, rfl⟩ | h
  · exact ⟨rfl, rfl⟩
  · exact absurd ((Re.clsNext_digit v).mp h) hv

theorem best_constInt {n : Num} (hn : n.WF) (b : Str) {v : Str} (hv : After v) : Best .constInt b n.text v := by
  have hm : Matches .constInt b n.text v := ⟨⟨n, hn, rfl⟩, after_digit hv⟩
  have hnd : ∀ s, v ≠ 'd' :: s := by
    rintro s rfl
    exact after_head hv (x := 'd') (by decide) rfl
  cases hneg : n.neg with
  | true =>
    have ht : n.text = '-' :: n.digits := by simp [Num.text, hneg]
    rw [ht] at hm ⊢
    exact best_simple hm (by intro t'; cases t' <;> decide)
  | false =>
    have ht : n.text = n.digits := by simp [Num.text, hneg]
    rw [ht] at hm ⊢
    refine ⟨hm, fun t' hr ha => ?_⟩
    obtain ⟨hne, hd⟩ := hn
    cases hds : n.digits with
    | nil => exact hne hds
    | cons d ds =>
      have hdig : isDigit d = true := by rw [hds] at hd; exact hd d (by simp)
      have hf : firstOK t' d = true := by rw [hds] at ha; exact applies_first ha
      have ht' : t' = .dropKeep ∨ t' = .dice := by
        cases t'
        case dropKeep => exact .inl rfl
        case dice => exact .inr rfl
        case openP => exact absurd (beq_iff_eq.mp hf) (digit_ne hdig (by decide))
        case closeP => exact absurd (beq_iff_eq.mp hf) (digit_ne hdig (by decide))
        case comma => exact absurd (beq_iff_eq.mp hf) (digit_ne hdig (by decide))
        case not => exact absurd (beq_iff_eq.mp hf) (digit_ne hdig (by decide))
        case binop =>
          exfalso
          simp only [firstOK, Bool.or_eq_true, beq_iff_eq] at hf
          rcases hf with ((((rfl | rfl) | rfl) | rfl) | rfl) | rfl <;> exact absurd hdig (by decide)
        all_goals exact absurd hr (by decide)
      rcases ht' with rfl | rfl
      · obtain ⟨w, v', hs, m, ty, k, j, rfl, hm', _⟩ := ha
        rw [List.append_assoc, List.append_assoc, List.cons_append] at hs
        exact hnd _ (number_d hm' hd (after_digit hv) hs).2
      · obtain ⟨w, v', hs, m, ty, rfl, hm', _⟩ := ha
        rw [List.append_assoc, List.cons_append] at hs
        exact hnd _ (number_d hm' hd (after_digit hv) hs).2

theorem diceType_unique {ty v ty' v' : Str} (h : DiceType ty v) (h' : DiceType ty' v') (hs : ty ++ v = ty' ++ v') :
    ty = ty' ∧ v = v' := by
  have h1 := Re.matchAt_diceType (b := []) h
  have h2 := Re.matchAt_diceType (b := []) h'
  rw [hs, h2] at h1
  simp only [Option.some.injEq, Pos.mk.injEq, List.append_nil, List.reverse_inj] at h1
  exact ⟨h1.1.symm, h1.2.symm⟩

/-- No rule before the dice rules begins with a digit or `d`. -/
theorem dice_first {t' : TokType} {c : Char} (hc : isDigit c = true ∨ c = 'd') (hr : rank t' < 4) : firstOK t' c = false := by
  cases t' <;> first | (exact absurd hr (by decide)) | (
    rcases hc with h | rfl
    · simp only [firstOK, beq_eq_false_iff_ne]; exact digit_ne h (by decide)
    · decide)

theorem best_dropKeep {b n ty : Str} {k : Char} {m v : Str} (hn : Digits n) (hty : DiceType ty (k :: m ++ v)) (hk : k = 'k' ∨ k = 'd')
    (hne : m ≠ []) (hm : Digits m) (hv : After v) : Best .dropKeep b (n ++ 'd' :: ty ++ k :: m) v := by
  refine ⟨⟨n, ty, k, m, rfl, hn, hty, hk, hne, hm, after_digit hv⟩, fun t' hr ha => ?_⟩
  have key : ∃ c s, (n ++ 'd' :: ty ++ k :: m) ++ v = c :: s ∧ (isDigit c = true ∨ c = 'd') := by
    cases n with
    | nil => exact ⟨'d', _, rfl, .inr rfl⟩
    | cons x n => exact ⟨x, _, rfl, .inl (hn x (by simp))⟩
  obtain ⟨c, s, hs, hc⟩ := key
  rw [hs] at ha
  have := applies_first ha
  rw [dice_first hc hr] at this
  cases this

theorem best_dice {b n ty v : Str} (hn : Digits n) (hty : DiceType ty v) (hv : After v) : Best .dice b (n ++ 'd' :: ty) v := by
  refine ⟨⟨n, ty, rfl, hn, hty⟩, fun t' hr ha => ?_⟩
  by_cases h4 : rank t' < 4
  · have key : ∃ c s, (n ++ 'd' :: ty) ++ v = c :: s ∧ (isDigit c = true ∨ c = 'd') := by
      cases n with
      | nil => exact ⟨'d', _, rfl, .inr rfl⟩
      | cons x n => exact ⟨x, _, rfl, .inl (hn x (by simp))⟩
    obtain ⟨c, s, hs, hc⟩ := key
    rw [hs] at ha
    have := applies_first ha
    rw [dice_first hc h4] at this
    cases this
  · have : t' = .dropKeep := by revert hr h4; cases t' <;> decide
    subst this
    obtain ⟨w, v', hs, n', ty', k, m, rfl, hn', hty', hk, _⟩ := ha
    have e1 : n ++ ('d' :: (ty ++ v)) = n' ++ 'd' :: (ty' ++ (k :: m ++ v')) := by simpa using hs
    obtain ⟨_, h2⟩ := number_d hn' hn (by simp [DigitNext]; decide) e1
    obtain ⟨_, h3⟩ := diceType_unique hty hty' (List.cons.inj h2).2
    have : v.head? = some k := by rw [h3]; rfl
    rcases hk with rfl | rfl
    · exact after_head hv (by decide) this
    · exact after_head hv (by decide) this

theorem best_name {b w v : Str} (hne : w ≠ []) (hw : ∀ c ∈ w, NameLetter c) (hb : ¬ WordNext b) (hv : After v) : Best .name b w v := by
  refine ⟨⟨hne, hw, hb, after_word hv⟩, fun t' hr ha => ?_⟩
  have hchars : ∀ c ∈ w, isNameChar c = true := fun c hc => (Re.isNameChar_iff c).mpr (hw c hc)
  cases w with
  | nil => exact hne rfl
  | cons c w =>
    have hc := hchars c (by simp)
    have hf := applies_first ha
    have hnd : isDigit c = false := by
      rcases hw c (by simp) with rfl | ⟨h1, h2⟩
      · decide
      · have : 'a'.toNat = 97 := rfl
        have : 'z'.toNat = 122 := rfl
        rw [digit_ascii (by omega)]
        have : decide (c.toNat ≤ 57) = false := by simp; omega
        simp [this]
    -- only the dice rules can begin with a letter, and only with `d`
    have ht' : c = 'd' ∧ (t' = .dropKeep ∨ t' = .dice) := by
      have excl : ∀ x : Char, isNameChar x = false → c ≠ x := by rintro x hx rfl; rw [hc] at hx; cases hx
      cases t'
      case dropKeep => simp only [firstOK, hnd, Bool.false_or, beq_iff_eq] at hf; exact ⟨hf, .inl rfl⟩
      case dice => simp only [firstOK, hnd, Bool.false_or, beq_iff_eq] at hf; exact ⟨hf, .inr rfl⟩
      case name => exact absurd hr (by decide)
      all_goals
        exfalso
        simp only [firstOK, hnd, Bool.false_or, Bool.or_eq_true, beq_iff_eq] at hf
        revert hf
        simp only [imp_false, not_or]
        simp only [excl '(' (by decide), excl ')' (by decide), excl ',' (by decide), excl '!' (by decide), excl '=' (by decide),
          excl '<' (by decide), excl '>' (by decide), excl 'A' (by decide), excl 'O' (by decide), excl '-' (by decide),
          excl 'T' (by decide), excl 'F' (by decide), excl '+' (by decide), excl '*' (by decide), excl '/' (by decide),
          excl 'M' (by decide), excl 'V' (by decide), not_false_eq_true, and_self]
    obtain ⟨rfl, ht'⟩ := ht'
    -- after the `d` comes the kind of die
    have hty : ∃ ty x s, DiceType ty x ∧ w ++ v = ty ++ s := by
      rcases ht' with rfl | rfl
      · obtain ⟨w', v', hs, n, ty, k, m, rfl, hn, hty, _⟩ := ha
        have e1 : ([] : Str) ++ ('d' :: (w ++ v)) = n ++ 'd' :: (ty ++ (k :: m ++ v')) := by simpa using hs
        obtain ⟨_, h2⟩ := number_d hn (by simp [Digits]) (by simp [DigitNext]; decide) e1
        exact ⟨ty, _, _, hty, (List.cons.inj h2).2⟩
      · obtain ⟨w', v', hs, n, ty, rfl, hn, hty⟩ := ha
        have e1 : ([] : Str) ++ ('d' :: (w ++ v)) = n ++ 'd' :: (ty ++ v') := by simpa using hs
        obtain ⟨_, h2⟩ := number_d hn (by simp [Digits]) (by simp [DigitNext]; decide) e1
        exact ⟨ty, _, _, hty, (List.cons.inj h2).2⟩
    obtain ⟨ty, x, s, hty, hs⟩ := hty
    have hfirst : ∃ c r, ty ++ s = c :: r ∧ (isDigit c = true ∨ c = '%' ∨ c = 'F' ∨ c = '[') := by
      rcases hty with ⟨hne, hd, _⟩ | rfl | rfl | hcu
      · obtain ⟨c, t, h1, h2⟩ := Re.digits_head (v := s) hne hd
        exact ⟨c, t, h1, .inl h2⟩
      · exact ⟨_, _, rfl, .inr (.inl rfl)⟩
      · exact ⟨_, _, rfl, .inr (.inr (.inl rfl))⟩
      · obtain ⟨body, rfl, _⟩ := Re.custom_shape hcu
        exact ⟨_, _, rfl, .inr (.inr (.inr rfl))⟩
    obtain ⟨c, r, h1, h2⟩ := hfirst
    rw [h1] at hs
    cases w with
    | nil =>
      rcases hv with rfl | ⟨c', s', rfl, hc'⟩
      · cases hs
      · rw [List.nil_append, List.cons.injEq] at hs
        rw [hs.1] at hc'
        rcases h2 with h2 | rfl | rfl | rfl
        · rcases hc' with h | rfl | rfl
          · rw [(space_not_word h).2] at h2; cases h2
          all_goals revert h2; decide
        · revert hc'; decide
        · revert hc'; decide
        · revert hc'; decide
    | cons y w =>
      rw [List.cons_append, List.cons.injEq] at hs
      have hy := hchars y (by simp)
      rw [hs.1] at hy
      rcases h2 with h2 | rfl | rfl | rfl
      · unfold isDigit at h2
        unfold isNameChar at hy
        simp only [Bool.and_eq_true, decide_eq_true_eq, Bool.or_eq_true, beq_iff_eq] at h2 hy
        rcases hy with hy | rfl
        · omega
        · revert h2; decide
      · revert hy; decide
      · revert hy; decide
      · revert hy; decide

/-! ### Whole expressions -/

theorem dice_first_char {n : Str} (hn : Digits n) (s : Str) : ∃ c r, n ++ 'd' :: s = c :: r ∧ c ≠ '=' := by
  cases n with
  | nil => exact ⟨'d', s, rfl, by decide⟩
  | cons x n => exact ⟨x, _, rfl, digit_ne (hn x (by simp)) (by decide)⟩

theorem name_first_char {n : Str} (h : n ≠ [] ∧ ∀ c ∈ n, NameLetter c) : ∃ c r, n = c :: r ∧ c ≠ '=' := by
  cases n with
  | nil => exact absurd rfl h.1
  | cons x n =>
    refine ⟨x, n, rfl, ?_⟩
    rintro rfl
    have := (Re.isNameChar_iff '=').mpr (h.2 '=' (by simp))
    revert this; decide

/-- A printed expression does not begin with `=`. -/
theorem str_first {e : Expr} (h : Spelt e) : ∃ c r, e.str = c :: r ∧ c ≠ '=' := by
  have app : ∀ {u : Str} (w : Str), (∃ c r, u = c :: r ∧ c ≠ '=') → ∃ c r, u ++ w = c :: r ∧ c ≠ '=' := by
    rintro u w ⟨c, r, rfl, hc⟩
    exact ⟨c, r ++ w, rfl, hc⟩
  induction e with
  | paren e => exact ⟨'(', _, rfl, by decide⟩
  | not e => exact ⟨'!', _, rfl, by decide⟩
  | dropKeep d =>
    obtain ⟨_, n, ty, k, m, hf, hn, _⟩ := h
    show ∃ c r, d.form = c :: r ∧ _
    rw [hf, List.append_assoc, List.cons_append]
    exact dice_first_char hn _
  | dice d =>
    obtain ⟨_, n, ty, hf, hn, _⟩ := h
    show ∃ c r, d.form = c :: r ∧ _
    rw [hf]
    exact dice_first_char hn _
  | constInt t =>
    obtain ⟨n, hn, rfl⟩ := h
    show ∃ c r, n.text = c :: r ∧ _
    unfold Num.text
    split
    · exact ⟨'-', _, rfl, by decide⟩
    · cases hd : n.digits with
      | nil => exact absurd hd hn.1
      | cons d ds => exact ⟨d, ds, rfl, digit_ne (hn.2 d (by simp [hd])) (by decide)⟩
  | constBin t => rcases h with rfl | rfl <;> exact ⟨_, _, rfl, by decide⟩
  | add a b iha _ => exact app _ (app _ (iha h.1))
  | sub a b iha _ => exact app _ (app _ (iha h.1))
  | mul a b iha _ => exact app _ (app _ (iha h.1))
  | div a b iha _ => exact app _ (app _ (iha h.1))
  | bin op a b iha _ => exact app _ (app _ (iha h.1))
  | minmax k a b => cases k <;> exact ⟨'M', _, rfl, by decide⟩
  | abs e => exact ⟨'A', _, rfl, by decide⟩
  | assign n e => exact ⟨'V', _, rfl, by decide⟩
  | getVar n => exact name_first_char h

theorem before_space (b : Str) : ¬ WordNext (' ' :: b) := by simp [WordNext]; decide

/-- An operator between spaces. -/
theorem reads_binary {t : TokType} {x op y b v : Str} {P Q : List Token → Prop}
    (hbest : ∀ b v, Best t (' ' :: b) op (' ' :: v))
    (hx : ∀ v', After v' → Reads b x v' P) (hy : ∀ b', ¬ WordNext b' → Reads b' y v Q) :
    Reads b (x ++ ([' '] ++ (op ++ ([' '] ++ y)))) v (fun us => ∃ p q i, us = p ++ [⟨t, op, i⟩] ++ q ∧ P p ∧ Q q) := by
  refine reads_mono (reads_append (hx _ (after_cons (.inl rfl))) (reads_append reads_space
    (reads_append (reads_token (hbest _ _)) (reads_append reads_space (hy _ (before_space _)))))) ?_
  rintro us ⟨p, _, rfl, hp, _, _, rfl, rfl, _, _, rfl, ⟨i, rfl⟩, _, q, rfl, rfl, hq⟩
  exact ⟨p, q, i, by simp, hp, hq⟩

/-- The printed form is read as tokens that spell the expression. -/
theorem reads_expr {e : Expr} : Spelt e → ∀ b v, ¬ WordNext b → After v → Reads b e.str v (fun us => Derives us e) := by
  induction e with
  | paren e ih =>
    intro h b v _ hv
    have e1 : (Expr.paren e).str = ['('] ++ (e.str ++ [')']) := by simp [Expr.str]
    rw [e1]
    refine reads_mono (reads_append (reads_token (best_open _ _)) (reads_append (ih h _ _ (by simp [WordNext]; decide)
      (after_cons (.inr (.inl rfl)))) (reads_token (best_close _ _)))) ?_
    rintro us ⟨_, _, rfl, ⟨i, rfl⟩, p, _, rfl, hp, ⟨j, rfl⟩⟩
    have := Derives.paren ⟨.openP, ['('], i⟩ ⟨.closeP, [')'], j⟩ rfl rfl hp
    simpa using this
  | not e ih =>
    intro h b v _ hv
    have e1 : (Expr.not e).str = ['!'] ++ e.str := rfl
    rw [e1]
    obtain ⟨c, r, hc, hne⟩ := str_first (e := e) h
    refine reads_mono (reads_append (reads_token (best_not ?_)) (ih h _ _ (by simp [WordNext]; decide) hv)) ?_
    · rw [hc]; simpa using hne
    · rintro us ⟨_, p, rfl, ⟨i, rfl⟩, hp⟩
      exact .not _ rfl hp
  | dropKeep d =>
    intro h b v _ hv
    obtain ⟨hd, n, ty, k, m, hf, hn, hty, hk, hne, hm⟩ := h
    have hb := best_dropKeep (b := b) hn (hty v) hk hne hm hv
    rw [← hf] at hb
    refine reads_mono (reads_token hb) ?_
    rintro us ⟨i, rfl⟩
    exact .dropKeep _ d rfl hd
  | dice d =>
    intro h b v _ hv
    obtain ⟨hd, n, ty, hf, hn, hty⟩ := h
    have hb := best_dice (b := b) hn (hty v (after_digit hv)) hv
    rw [← hf] at hb
    refine reads_mono (reads_token hb) ?_
    rintro us ⟨i, rfl⟩
    exact .dice _ d rfl hd
  | constInt t =>
    intro h b v _ hv
    obtain ⟨n, hn, rfl⟩ := h
    refine reads_mono (reads_token (best_constInt hn b hv)) ?_
    rintro us ⟨i, rfl⟩
    exact .constInt ⟨.constInt, n.text, i⟩ rfl
  | constBin t =>
    intro h b v hb hv
    refine reads_mono (reads_token (best_constBin h hb (after_word hv))) ?_
    rintro us ⟨i, rfl⟩
    exact .constBin ⟨.constBin, t, i⟩ rfl
  | add a c iha ihc =>
    intro h b v hb hv
    have e1 : (Expr.add a c).str = a.str ++ ([' '] ++ (['+'] ++ ([' '] ++ c.str))) := by simp [Expr.str]
    rw [e1]
    refine reads_mono (reads_binary (fun b v => best_add _ _) (fun v' hv' => iha h.1 b v' hb hv') (fun b' hb' => ihc h.2 b' v hb' hv)) ?_
    rintro us ⟨p, q, i, rfl, hp, hq⟩
    exact .add _ rfl hp hq
  | sub a c iha ihc =>
    intro h b v hb hv
    have e1 : (Expr.sub a c).str = a.str ++ ([' '] ++ (['-'] ++ ([' '] ++ c.str))) := by simp [Expr.str]
    rw [e1]
    refine reads_mono (reads_binary (fun b v => best_sub _ _) (fun v' hv' => iha h.1 b v' hb hv') (fun b' hb' => ihc h.2 b' v hb' hv)) ?_
    rintro us ⟨p, q, i, rfl, hp, hq⟩
    exact .sub _ rfl hp hq
  | mul a c iha ihc =>
    intro h b v hb hv
    have e1 : (Expr.mul a c).str = a.str ++ ([' '] ++ (['*'] ++ ([' '] ++ c.str))) := by simp [Expr.str]
    rw [e1]
    refine reads_mono (reads_binary (fun b v => best_mul _ _) (fun v' hv' => iha h.1 b v' hb hv') (fun b' hb' => ihc h.2 b' v hb' hv)) ?_
    rintro us ⟨p, q, i, rfl, hp, hq⟩
    exact .mul _ rfl hp hq
  | div a c iha ihc =>
    intro h b v hb hv
    have e1 : (Expr.div a c).str = a.str ++ ([' '] ++ (['/', '/'] ++ ([' '] ++ c.str))) := by simp [Expr.str]
    rw [e1]
    refine reads_mono (reads_binary (fun b v => best_div _ _) (fun v' hv' => iha h.1 b v' hb hv') (fun b' hb' => ihc h.2 b' v hb' hv)) ?_
    rintro us ⟨p, q, i, rfl, hp, hq⟩
    exact .div _ rfl hp hq
  | bin op a c iha ihc =>
    intro h b v hb hv
    have e1 : (Expr.bin op a c).str = a.str ++ ([' '] ++ (op.text ++ ([' '] ++ c.str))) := by simp [Expr.str]
    rw [e1]
    refine reads_mono (reads_binary (fun b v => best_cmp op (before_space b) v) (fun v' hv' => iha h.1 b v' hb hv')
      (fun b' hb' => ihc h.2 b' v hb' hv)) ?_
    rintro us ⟨p, q, i, rfl, hp, hq⟩
    exact .bin _ op rfl rfl hp hq
  | minmax k a c iha ihc =>
    intro h b v hb hv
    have e1 : (Expr.minmax k a c).str = (if k then ['M', 'A', 'X'] else ['M', 'I', 'N']) ++ (['('] ++ (a.str ++ ([','] ++ ([' '] ++
        (c.str ++ [')']))))) := by cases k <;> simp [Expr.str]
    rw [e1]
    refine reads_mono (reads_append (reads_token (best_minmax k hb _)) (reads_append (reads_token (best_open _ _))
      (reads_append (iha h.1 _ _ (by simp [WordNext]; decide) (after_cons (.inr (.inr rfl)))) (reads_append (reads_token (best_comma _ _))
        (reads_append reads_space (reads_append (ihc h.2 _ _ (before_space _) (after_cons (.inr (.inl rfl))))
          (reads_token (best_close _ _)))))))) ?_
    rintro us ⟨_, _, rfl, ⟨i, rfl⟩, _, _, rfl, ⟨i2, rfl⟩, p, _, rfl, hp, _, _, rfl, ⟨i3, rfl⟩, _, _, rfl, rfl, q, _, rfl, hq, ⟨i4, rfl⟩⟩
    have := Derives.minmax ⟨.minmax, if k then ['M', 'A', 'X'] else ['M', 'I', 'N'], i⟩ ⟨.openP, ['('], i2⟩ ⟨.comma, [','], i3⟩
      ⟨.closeP, [')'], i4⟩ k rfl rfl rfl rfl rfl hp hq
    simpa using this
  | abs e ih =>
    intro h b v hb hv
    have e1 : (Expr.abs e).str = ['A', 'B', 'S'] ++ (['('] ++ (e.str ++ [')'])) := by simp [Expr.str]
    rw [e1]
    refine reads_mono (reads_append (reads_token (best_abs hb _)) (reads_append (reads_token (best_open _ _))
      (reads_append (ih h _ _ (by simp [WordNext]; decide) (after_cons (.inr (.inl rfl)))) (reads_token (best_close _ _))))) ?_
    rintro us ⟨_, _, rfl, ⟨i, rfl⟩, _, _, rfl, ⟨i2, rfl⟩, p, _, rfl, hp, ⟨i3, rfl⟩⟩
    have := Derives.abs ⟨.abs, ['A', 'B', 'S'], i⟩ ⟨.openP, ['('], i2⟩ ⟨.closeP, [')'], i3⟩ rfl rfl rfl hp
    simpa using this
  | assign n e ih =>
    intro h b v hb hv
    have e1 : (Expr.assign n e).str = ['V', 'A', 'R'] ++ ([' '] ++ (n ++ ([' '] ++ (['='] ++ ([' '] ++ e.str))))) := by simp [Expr.str]
    rw [e1]
    refine reads_mono (reads_append (reads_token (best_var hb _)) (reads_append reads_space
      (reads_append (reads_token (best_name h.1.1 h.1.2 (before_space _) (after_cons (.inl rfl)))) (reads_append reads_space
        (reads_append (reads_token (best_assign _ _)) (reads_append reads_space (ih h.2 _ _ (before_space _) hv))))))) ?_
    rintro us ⟨_, _, rfl, ⟨i, rfl⟩, _, _, rfl, rfl, _, _, rfl, ⟨i2, rfl⟩, _, _, rfl, rfl, _, _, rfl, ⟨i3, rfl⟩, _, p, rfl, rfl, hp⟩
    exact .assign ⟨.var, ['V', 'A', 'R'], i⟩ ⟨.name, n, i2⟩ ⟨.assign, ['='], i3⟩ rfl rfl rfl hp
  | getVar n =>
    intro h b v hb hv
    refine reads_mono (reads_token (best_name h.1 h.2 hb hv)) ?_
    rintro us ⟨i, rfl⟩
    exact .getVar ⟨.name, n, i⟩ rfl

/-! ### Every parsed expression is made of such texts -/

theorem mkDice_form {form : Str} {d : DiceTerm} (h : mkDice form = .ok d) : d.form = form := by
  unfold mkDice at h
  simp only [bind, Except.bind] at h
  repeat' split at h
  all_goals first | (cases h; rfl) | (cases h)

theorem mkDropKeep_form {form : Str} {d : DropKeepTerm} (h : mkDropKeep form = .ok d) : d.form = form := by
  unfold mkDropKeep at h
  simp only [bind, Except.bind] at h
  repeat' split at h
  all_goals first | (cases h; rfl) | (cases h)

theorem derives_spelt {ts : List Token} {e : Expr} (hd : Derives ts e) (hts : ∀ t ∈ ts, WellSpelt t) : Spelt e := by
  induction hd with
  | paren o c ho hc h ih => exact ih fun t ht => hts t (by simp [ht])
  | not n hn h ih => exact ih fun t ht => hts t (by simp [ht])
  | dropKeep t d ht h =>
    obtain ⟨b, v, hm⟩ := hts t (by simp)
    rw [ht] at hm
    obtain ⟨n, ty, k, m, hw, hn, hty, hk, hne, hd, _⟩ := hm
    have hf := mkDropKeep_form h
    refine ⟨by rw [hf]; exact h, n, ty, k, m, by rw [hf]; exact hw, hn, fun v' => ?_, hk, hne, hd⟩
    exact Re.diceType_of_lang (Re.lang_of_diceType hty) (Re.kd_not_digit hk _)
  | dice t d ht h =>
    obtain ⟨b, v, hm⟩ := hts t (by simp)
    rw [ht] at hm
    obtain ⟨n, ty, hw, hn, hty⟩ := hm
    have hf := mkDice_form h
    exact ⟨by rw [hf]; exact h, n, ty, by rw [hf]; exact hw, hn, fun v' hv' => Re.diceType_of_lang (Re.lang_of_diceType hty) hv'⟩
  | constInt t ht =>
    obtain ⟨b, v, hm⟩ := hts t (by simp)
    rw [ht] at hm
    exact hm.1
  | constBin t ht =>
    obtain ⟨b, v, hm⟩ := hts t (by simp)
    rw [ht] at hm
    rcases hm with hm | hm
    · exact .inl hm.1
    · exact .inr hm.1
  | add o ho _ _ iha ihb => exact ⟨iha fun t ht => hts t (by simp [ht]), ihb fun t ht => hts t (by simp [ht])⟩
  | sub o ho _ _ iha ihb => exact ⟨iha fun t ht => hts t (by simp [ht]), ihb fun t ht => hts t (by simp [ht])⟩
  | mul o ho _ _ iha ihb => exact ⟨iha fun t ht => hts t (by simp [ht]), ihb fun t ht => hts t (by simp [ht])⟩
  | div o ho _ _ iha ihb => exact ⟨iha fun t ht => hts t (by simp [ht]), ihb fun t ht => hts t (by simp [ht])⟩
  | bin o op ho hop _ _ iha ihb => exact ⟨iha fun t ht => hts t (by simp [ht]), ihb fun t ht => hts t (by simp [ht])⟩
  | minmax m o k c isMax hm hmt ho hk hc _ _ iha ihb =>
    exact ⟨iha fun t ht => hts t (by simp [ht]), ihb fun t ht => hts t (by simp [ht])⟩
  | abs m o c hm ho hc _ ih => exact ih fun t ht => hts t (by simp [ht])
  | assign v n a hv hn ha _ ih =>
    obtain ⟨b, w, hm⟩ := hts n (by simp)
    rw [hn] at hm
    exact ⟨⟨hm.1, hm.2.1⟩, ih fun t ht => hts t (by simp [ht])⟩
  | getVar t ht =>
    obtain ⟨b, v, hm⟩ := hts t (by simp)
    rw [ht] at hm
    exact ⟨hm.1, hm.2.1⟩

end PyDice
