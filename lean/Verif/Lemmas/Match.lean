import Verif.Spec.Lexer
import Verif.Lemmas.Notation
/-!
# What the lexer's patterns match
-/

namespace PyDice
open LexSpec
namespace Re

theorem matchAt_none {r : Re} {p : Pos} : matchAt r p = none ↔ matchesAt r p = [] := by
  unfold matchAt; exact List.head?_eq_none_iff

theorem mem_of_matchAt {r : Re} {p q : Pos} (h : matchAt r p = some q) : q ∈ matchesAt r p := List.mem_of_head? h

theorem head?_flatMap_unique {α β : Type} {f : α → List β} : ∀ {l : List α} {x : α}, x ∈ l →
    (∀ y ∈ l, y ≠ x → f y = []) → (l.flatMap f).head? = (f x).head? := by
  intro l
  induction l with
  | nil => intro x h; simp at h
  | cons a l ih =>
    intro x hx hu
    rw [List.flatMap_cons]
    by_cases ha : a = x
    · subst ha
      cases hf : f a with
      | nil =>
        rw [List.nil_append, List.head?_nil, List.head?_eq_none_iff, List.flatMap_eq_nil_iff]
        intro y hy
        by_cases hya : y = a
        · rw [hya, hf]
        · exact hu y (by simp [hy]) hya
      | cons b t => rfl
    · rw [hu a (by simp) ha, List.nil_append]
      refine ih ?_ fun y hy hne => hu y (by simp [hy]) hne
      rcases List.mem_cons.mp hx with h | h
      · exact absurd h.symm ha
      · exact h

/-- A sequence whose first part can go on in one way only. -/
theorem matchAt_seq {r s : Re} {p x : Pos} (hx : x ∈ matchesAt r p) (hu : ∀ y ∈ matchesAt r p, y ≠ x → matchesAt s y = []) :
    matchAt (.seq r s) p = matchAt s x := by
  unfold matchAt; exact head?_flatMap_unique hx hu

theorem matchAt_alt_left {r s : Re} {p q : Pos} (h : matchAt r p = some q) : matchAt (.alt r s) p = some q := by
  unfold matchAt at h ⊢
  show (matchesAt r p ++ matchesAt s p).head? = _
  rw [List.head?_append, h]; rfl

theorem matchAt_alt_right {r s : Re} {p : Pos} (h : matchAt r p = none) : matchAt (.alt r s) p = matchAt s p := by
  unfold matchAt at h ⊢
  show (matchesAt r p ++ matchesAt s p).head? = _
  rw [List.head?_append, h]; rfl

theorem matchAt_alt (r s : Re) (p : Pos) : matchAt (.alt r s) p = (matchAt r p).or (matchAt s p) := by
  unfold matchAt
  show (matchesAt r p ++ matchesAt s p).head? = _
  rw [List.head?_append]

theorem matchAt_chr_cons (c : Char) (b : Str) (x : Char) (s : Str) :
    matchAt (chr c) ⟨b, x :: s⟩ = if x = c then some ⟨x :: b, s⟩ else none := by
  unfold matchAt
  show (if (x == c) = true then [(⟨x :: b, s⟩ : Pos)] else []).head? = _
  by_cases h : x = c
  · simp [h]
  · simp [h]

theorem matchAt_chr (c : Char) (b s : Str) (q : Pos) : matchAt (chr c) ⟨b, s⟩ = some q ↔ ∃ v, s = c :: v ∧ q = ⟨c :: b, v⟩ := by
  cases s with
  | nil => simp [matchAt, chr, matchesAt]
  | cons x s =>
    rw [matchAt_chr_cons]
    by_cases h : x = c
    · rw [if_pos h]; subst h
      simp [eq_comm]
    · rw [if_neg h]
      simp [h]

theorem matchesAt_chr_cons (c : Char) (b : Str) (x : Char) (s : Str) :
    matchesAt (chr c) ⟨b, x :: s⟩ = if x = c then [⟨x :: b, s⟩] else [] := by
  show (if (x == c) = true then [(⟨x :: b, s⟩ : Pos)] else []) = _
  by_cases h : x = c <;> simp [h]

theorem matchesAt_chr_nil (c : Char) (b : Str) : matchesAt (chr c) ⟨b, []⟩ = [] := rfl

theorem matchesAt_seq_chr (c : Char) (r : Re) (b : Str) (x : Char) (s : Str) :
    matchesAt (.seq (chr c) r) ⟨b, x :: s⟩ = if x = c then matchesAt r ⟨x :: b, s⟩ else [] := by
  show (matchesAt (chr c) ⟨b, x :: s⟩).flatMap (matchesAt r) = _
  rw [matchesAt_chr_cons]
  split <;> simp

theorem matchesAt_seq_chr_nil (c : Char) (r : Re) (b : Str) : matchesAt (.seq (chr c) r) ⟨b, []⟩ = [] := rfl

theorem matchesAt_lit : ∀ (w b s : Str), matchesAt (lit w) ⟨b, s⟩ = if w <+: s then [⟨w.reverse ++ b, s.drop w.length⟩] else [] := by
  intro w
  induction w with
  | nil => intro b s; simp [lit, matchesAt]
  | cons c w ih =>
    intro b s
    cases w with
    | nil =>
      cases s with
      | nil => simp [lit, matchesAt, chr]
      | cons x s =>
        rw [lit, matchesAt_chr_cons]
        by_cases h : x = c
        · simp [h]
        · simp [h, Ne.symm h]
    | cons d w =>
      rw [lit]
      · cases s with
        | nil => rw [matchesAt_seq_chr_nil]; simp
        | cons x s =>
          rw [matchesAt_seq_chr]
          by_cases h : x = c
          · subst h
            rw [if_pos rfl, ih]
            by_cases h2 : (d :: w) <+: s
            · rw [if_pos h2, if_pos (by simpa using h2)]; simp
            · rw [if_neg h2, if_neg (by simpa using h2)]
          · rw [if_neg h, if_neg]
            rintro ⟨v, hv⟩
            simp only [List.cons_append, List.cons.injEq] at hv
            exact h hv.1.symm
      · simp

theorem matchAt_lit (w b s : Str) (q : Pos) : matchAt (lit w) ⟨b, s⟩ = some q ↔ ∃ v, s = w ++ v ∧ q = ⟨w.reverse ++ b, v⟩ := by
  unfold matchAt
  rw [matchesAt_lit]
  by_cases h : w <+: s
  · rw [if_pos h]
    obtain ⟨v, rfl⟩ := h
    simp only [List.head?_cons, Option.some.injEq, List.drop_left, List.append_cancel_left_eq]
    constructor
    · rintro rfl; exact ⟨v, rfl, rfl⟩
    · rintro ⟨_, rfl, rfl⟩; rfl
  · rw [if_neg h]
    simp only [List.head?_nil, reduceCtorEq, false_iff]
    rintro ⟨v, rfl, _⟩
    exact h (List.prefix_append _ _)

/-! ### Runs of one class of characters -/

theorem starN_cls {c : Char → Bool} : ∀ (n : Nat) (b s : Str), s.length ≤ n →
    (starN (matchesAt (.cls c)) n ⟨b, s⟩).head? = some ⟨(s.takeWhile c).reverse ++ b, s.dropWhile c⟩ := by
  intro n
  induction n with
  | zero =>
    intro b s h
    have : s = [] := List.length_eq_zero_iff.mp (by omega)
    subst this
    simp [starN]
  | succ n ih =>
    intro b s h
    cases s with
    | nil => simp [starN, matchesAt]
    | cons x s =>
      by_cases hx : c x = true
      · have hm : matchesAt (.cls c) ⟨b, x :: s⟩ = [⟨x :: b, s⟩] := by simp [matchesAt, hx]
        simp only [starN, hm, List.length_cons, Nat.lt_add_one, decide_true, List.filter_cons_of_pos,
          List.filter_nil, List.flatMap_cons, List.flatMap_nil, List.append_nil, List.takeWhile_cons, List.dropWhile_cons, hx,
          if_true]
        rw [List.head?_append, ih _ _ (by simpa using h)]
        simp
      · simp [starN, matchesAt, hx]

theorem matchAt_star_cls (c : Char → Bool) (b s : Str) :
    matchAt (.star (.cls c)) ⟨b, s⟩ = some ⟨(s.takeWhile c).reverse ++ b, s.dropWhile c⟩ := starN_cls _ b s (Nat.le_refl _)

theorem mem_star_cls (c : Char → Bool) (b s : Str) (q : Pos) : q ∈ matchesAt (.star (.cls c)) ⟨b, s⟩ ↔
    ∃ w v, s = w ++ v ∧ (∀ x ∈ w, c x = true) ∧ q = ⟨w.reverse ++ b, v⟩ := by
  rw [mem_matchesAt _ (by simp [Plain])]
  constructor
  · rintro ⟨w, v, h, hw, hq⟩; exact ⟨w, v, h, rep_cls.mp hw, hq⟩
  · rintro ⟨w, v, h, hw, hq⟩; exact ⟨w, v, h, rep_cls.mpr hw, hq⟩

/-- The next character is in the class. -/
def ClsNext (c : Char → Bool) : Str → Prop
  | [] => False
  | x :: _ => c x = true

theorem takeWhile_run {c : Char → Bool} {w v : Str} (hw : ∀ x ∈ w, c x = true) (hv : ¬ ClsNext c v) :
    (w ++ v).takeWhile c = w ∧ (w ++ v).dropWhile c = v := by
  induction w with
  | nil =>
    cases v with
    | nil => simp
    | cons x v => simp only [ClsNext] at hv; simp [hv]
  | cons x w ih =>
    have := ih fun y hy => hw y (by simp [hy])
    simp [hw x (by simp), this]

theorem exists_run (c : Char → Bool) (s : Str) : ∃ w v, s = w ++ v ∧ (∀ x ∈ w, c x = true) ∧ ¬ ClsNext c v := by
  induction s with
  | nil => exact ⟨[], [], rfl, by simp, by simp [ClsNext]⟩
  | cons x s ih =>
    by_cases hx : c x = true
    · obtain ⟨w, v, rfl, hw, hv⟩ := ih
      exact ⟨x :: w, v, rfl, by simpa [hx] using hw, hv⟩
    · exact ⟨[], x :: s, rfl, by simp, by simpa [ClsNext] using hx⟩

/-- Two splits of a text into a run and a rest: the first is the full run or cut short. -/
theorem run_cut {c : Char → Bool} {w v w' v' : Str} (h : w ++ v = w' ++ v') (hw : ∀ x ∈ w, c x = true)
    (hw' : ∀ x ∈ w', c x = true) (hv' : ¬ ClsNext c v') : (w = w' ∧ v = v') ∨ ClsNext c v := by
  rcases List.append_eq_append_iff.mp h with ⟨a, rfl, rfl⟩ | ⟨a, rfl, rfl⟩
  · cases a with
    | nil => left; simp
    | cons x a => right; exact hw' x (by simp)
  · cases a with
    | nil => left; simp
    | cons x a => exact absurd (hw x (by simp)) hv'

theorem matchAt_plus_cls (c : Char → Bool) (b s : Str) (q : Pos) : matchAt (plus (.cls c)) ⟨b, s⟩ = some q ↔
    ∃ w v, s = w ++ v ∧ w ≠ [] ∧ (∀ x ∈ w, c x = true) ∧ ¬ ClsNext c v ∧ q = ⟨w.reverse ++ b, v⟩ := by
  have key : ∀ w v : Str, w ≠ [] → (∀ x ∈ w, c x = true) → ¬ ClsNext c v →
      matchAt (plus (.cls c)) ⟨b, w ++ v⟩ = some ⟨w.reverse ++ b, v⟩ := by
    intro w v hne hw hv
    cases w with
    | nil => exact absurd rfl hne
    | cons x w =>
      have hx : c x = true := hw x (by simp)
      rw [plus, List.cons_append, matchAt_seq (x := ⟨x :: b, w ++ v⟩), matchAt_star_cls]
      · obtain ⟨h1, h2⟩ := takeWhile_run (c := c) (w := w) (v := v) (fun y hy => hw y (by simp [hy])) hv
        rw [h1, h2]; simp
      · simp [matchesAt, hx]
      · intro y hy hne; simp [matchesAt, hx] at hy; exact absurd hy hne
  constructor
  · intro h
    obtain ⟨w, v, rfl, hw, hv⟩ := exists_run c s
    have hne : w ≠ [] := by
      rintro rfl
      cases v with
      | nil => simp [matchAt, plus, matchesAt] at h
      | cons x v => simp only [ClsNext] at hv; simp [matchAt, plus, matchesAt, hv] at h
    rw [key w v hne hw hv] at h
    exact ⟨w, v, rfl, hne, hw, hv, (Option.some.injEq .. ▸ h).symm⟩
  · rintro ⟨w, v, rfl, hne, hw, hv, rfl⟩
    exact key w v hne hw hv

theorem matchAt_seq_chr (c : Char) (r : Re) (b s : Str) : matchAt (.seq (chr c) r) ⟨b, c :: s⟩ = matchAt r ⟨c :: b, s⟩ := by
  unfold matchAt; rw [matchesAt_seq_chr, if_pos rfl]

theorem matchAt_seq_chr_iff (c : Char) (r : Re) (b s : Str) (q : Pos) : matchAt (.seq (chr c) r) ⟨b, s⟩ = some q ↔
    ∃ v, s = c :: v ∧ matchAt r ⟨c :: b, v⟩ = some q := by
  cases s with
  | nil => simp [matchAt, chr, matchesAt]
  | cons x s =>
    by_cases h : x = c
    · subst h; rw [matchAt_seq_chr]; simp
    · unfold matchAt; rw [matchesAt_seq_chr, if_neg h]; simp [h]

/-! ### Words standing alone -/

theorem atWordB_iff {b : Str} {c : Char} {s : Str} (hc : isWord c = true) : atWordB ⟨b, c :: s⟩ = true ↔ ¬ WordNext b := by
  unfold atWordB
  cases b with
  | nil => simp [WordNext, hc]
  | cons x b => simp [WordNext, hc]

theorem atWordB_after {b : Str} {c : Char} {s : Str} (hc : isWord c = true) : atWordB ⟨c :: b, s⟩ = true ↔ ¬ WordNext s := by
  unfold atWordB
  cases s with
  | nil => simp [WordNext, hc]
  | cons x b => simp [WordNext, hc]

theorem matchAt_wordB_seq (r : Re) (p q : Pos) : matchAt (.seq .wordB r) p = some q ↔ atWordB p = true ∧ matchAt r p = some q := by
  unfold matchAt
  show ((if atWordB p then [p] else []).flatMap _).head? = _ ↔ _
  split <;> simp_all

theorem matchAt_keyword {k : Str} (hne : k ≠ []) (hk : ∀ c ∈ k, isWord c = true) (b s : Str) (q : Pos) :
    matchAt (keyword k) ⟨b, s⟩ = some q ↔ ∃ w v, s = w ++ v ∧ Keyword k b w v ∧ q = ⟨w.reverse ++ b, v⟩ := by
  rw [keyword, matchAt_wordB_seq]
  have hlast : ∀ v, atWordB ⟨k.reverse ++ b, v⟩ = true ↔ ¬ WordNext v := by
    intro v
    cases hr : k.reverse with
    | nil => exact absurd (List.reverse_eq_nil_iff.mp hr) hne
    | cons c t =>
      have : c ∈ k := by rw [← List.mem_reverse, hr]; simp
      exact atWordB_after (hk c this)
  have hfirst : ∀ v, atWordB ⟨b, k ++ v⟩ = true ↔ ¬ WordNext b := by
    intro v
    cases k with
    | nil => exact absurd rfl hne
    | cons c t => exact atWordB_iff (hk c (by simp))
  have hm : matchAt (.seq (lit k) .wordB) ⟨b, s⟩ = some q ↔ ∃ v, s = k ++ v ∧ ¬ WordNext v ∧ q = ⟨k.reverse ++ b, v⟩ := by
    unfold matchAt
    show ((matchesAt (lit k) ⟨b, s⟩).flatMap _).head? = _ ↔ _
    rw [matchesAt_lit]
    by_cases h : k <+: s
    · obtain ⟨v, rfl⟩ := h
      rw [if_pos (List.prefix_append _ _), List.flatMap_cons, List.flatMap_nil, List.append_nil, List.drop_left]
      show (if atWordB ⟨k.reverse ++ b, v⟩ then [_] else []).head? = _ ↔ _
      by_cases hv : WordNext v
      · rw [if_neg (fun h => (hlast v).mp h hv)]
        simp only [List.head?_nil, reduceCtorEq, List.append_cancel_left_eq, false_iff]
        rintro ⟨_, rfl, h, _⟩; exact h hv
      · rw [if_pos ((hlast v).mpr hv)]
        simp only [List.head?_cons, Option.some.injEq, List.append_cancel_left_eq]
        constructor
        · rintro rfl; exact ⟨v, rfl, hv, rfl⟩
        · rintro ⟨_, rfl, _, rfl⟩; rfl
    · rw [if_neg h]
      simp only [List.flatMap_nil, List.head?_nil, reduceCtorEq, false_iff]
      rintro ⟨v, rfl, _⟩; exact h (List.prefix_append _ _)
  rw [hm]
  constructor
  · rintro ⟨hb, v, rfl, hv, rfl⟩
    exact ⟨k, v, rfl, ⟨rfl, (hfirst v).mp hb, hv⟩, rfl⟩
  · rintro ⟨w, v, rfl, ⟨rfl, hb, hv⟩, rfl⟩
    exact ⟨(hfirst v).mpr hb, v, rfl, hv, rfl⟩

theorem isNameChar_iff (c : Char) : isNameChar c = true ↔ NameLetter c := by
  unfold isNameChar NameLetter
  simp only [Bool.or_eq_true, Bool.and_eq_true, decide_eq_true_eq, beq_iff_eq]
  constructor
  · rintro (h | h)
    · exact Or.inr h
    · exact Or.inl h
  · rintro (h | h)
    · exact Or.inr h
    · exact Or.inl h

theorem isWord_of_name {c : Char} (h : isNameChar c = true) : isWord c = true := by
  unfold isNameChar at h
  unfold isWord
  simp only [Bool.or_eq_true, Bool.and_eq_true, decide_eq_true_eq, beq_iff_eq] at h ⊢
  tauto

theorem matchAt_name (b s : Str) (q : Pos) : matchAt (TokType.regex .name) ⟨b, s⟩ = some q ↔
    ∃ w v, s = w ++ v ∧ Matches .name b w v ∧ q = ⟨w.reverse ++ b, v⟩ := by
  have hfirst : ∀ w v : Str, w ≠ [] → (∀ c ∈ w, isNameChar c = true) → (atWordB ⟨b, w ++ v⟩ = true ↔ ¬ WordNext b) := by
    intro w v hne hw
    cases w with
    | nil => exact absurd rfl hne
    | cons c t => exact atWordB_iff (isWord_of_name (hw c (by simp)))
  have hlast : ∀ w v : Str, w ≠ [] → (∀ c ∈ w, isNameChar c = true) → (atWordB ⟨w.reverse ++ b, v⟩ = true ↔ ¬ WordNext v) := by
    intro w v hne hw
    cases hr : w.reverse with
    | nil => exact absurd (List.reverse_eq_nil_iff.mp hr) hne
    | cons c t =>
      have : c ∈ w := by rw [← List.mem_reverse, hr]; simp
      exact atWordB_after (isWord_of_name (hw c this))
  have mem_plus : ∀ y, y ∈ matchesAt (plus (.cls isNameChar)) ⟨b, s⟩ → ∃ w v, s = w ++ v ∧ w ≠ [] ∧
      (∀ c ∈ w, isNameChar c = true) ∧ y = ⟨w.reverse ++ b, v⟩ := by
    intro y hy
    obtain ⟨w, v, rfl, ⟨_, t, rfl, ⟨c, rfl, hc⟩, ht⟩, rfl⟩ := (mem_matchesAt _ (by simp [Plain, plus]) _ _ _).mp hy
    refine ⟨[c] ++ t, v, rfl, by simp, ?_, rfl⟩
    intro x hx
    rcases List.mem_cons.mp hx with rfl | hx
    · exact hc
    · exact rep_cls.mp ht x hx
  rw [TokType.regex, matchAt_wordB_seq]
  constructor
  · rintro ⟨hb, h⟩
    have := mem_of_matchAt h
    simp only [matchesAt, List.mem_flatMap] at this
    obtain ⟨y, hy, hq⟩ := this
    obtain ⟨w, v, rfl, hne, hw, rfl⟩ := mem_plus y hy
    split at hq
    · rename_i hB
      simp only [List.mem_singleton] at hq
      exact ⟨w, v, rfl, ⟨hne, fun c hc => (isNameChar_iff c).mp (hw c hc), (hfirst w v hne hw).mp hb, (hlast w v hne hw).mp hB⟩, hq⟩
    · simp at hq
  · rintro ⟨w, v, rfl, ⟨hne, hw, hb, hv⟩, rfl⟩
    have hw : ∀ c ∈ w, isNameChar c = true := fun c hc => (isNameChar_iff c).mpr (hw c hc)
    refine ⟨(hfirst w v hne hw).mpr hb, ?_⟩
    have hcls : ¬ ClsNext isNameChar v := by
      intro h
      cases v with
      | nil => exact h
      | cons x v => exact hv (isWord_of_name h)
    rw [matchAt_seq (x := ⟨w.reverse ++ b, v⟩)]
    · unfold matchAt
      show (if atWordB _ then [_] else []).head? = _
      rw [if_pos ((hlast w v hne hw).mpr hv)]; rfl
    · exact mem_of_matchAt ((matchAt_plus_cls _ _ _ _).mpr ⟨w, v, rfl, hne, hw, hcls, rfl⟩)
    · intro y hy hne'
      obtain ⟨w', v', h1, hne1, hw', rfl⟩ := mem_plus y hy
      rcases run_cut h1.symm hw' hw hcls with ⟨rfl, rfl⟩ | h
      · exact absurd rfl hne'
      · show (if atWordB _ then [_] else []) = _
        rw [if_neg]
        intro hB
        refine (hlast w' v' hne1 hw').mp hB ?_
        cases v' with
        | nil => exact h
        | cons x v' => exact isWord_of_name h

/-! ### Integers -/

theorem clsNext_digit (v : Str) : ClsNext isDigit v ↔ DigitNext v := by cases v <;> rfl

theorem matchAt_constInt (b s : Str) (q : Pos) : matchAt (TokType.regex .constInt) ⟨b, s⟩ = some q ↔
    ∃ w v, s = w ++ v ∧ Matches .constInt b w v ∧ q = ⟨w.reverse ++ b, v⟩ := by
  have key : ∀ (n : Num) (v : Str), n.WF → ¬ DigitNext v → matchAt reInt ⟨b, n.text ++ v⟩ = some ⟨n.text.reverse ++ b, v⟩ := by
    intro n v hn hv
    have hplus : ∀ b, matchAt (plus digit) ⟨b, n.digits ++ v⟩ = some ⟨n.digits.reverse ++ b, v⟩ := fun b =>
      (matchAt_plus_cls _ _ _ _).mpr ⟨n.digits, v, rfl, hn.1, hn.2, fun h => hv ((clsNext_digit v).mp h), rfl⟩
    unfold reInt
    unfold Num.text
    split
    · rw [matchAt_seq (x := ⟨'-' :: b, n.digits ++ v⟩), hplus]
      · simp
      · simp [matchesAt, chr]
      · intro y hy hne
        simp only [matchesAt, chr, List.cons_append, BEq.rfl, if_true, List.nil_append, List.mem_cons, List.not_mem_nil,
          or_false] at hy
        rcases hy with rfl | rfl
        · exact absurd rfl hne
        · simp [plus, digit, matchesAt, not_digit_minus]
    · rw [matchAt_seq (x := ⟨b, n.digits ++ v⟩), hplus]
      · simp [matchesAt]
      · intro y hy hne
        simp only [matchesAt, List.mem_append, List.mem_singleton] at hy
        rcases hy with hy | rfl
        · cases hd : n.digits with
          | nil => exact absurd hd hn.1
          | cons c t =>
            rw [hd] at hy
            have hc : isDigit c = true := hn.2 c (by rw [hd]; simp)
            have : (c == '-') = false := by
              rw [beq_eq_false_iff_ne]; rintro rfl; simp [not_digit_minus] at hc
            simp [chr, matchesAt, this] at hy
        · exact absurd rfl hne
  constructor
  · intro h
    obtain ⟨w, v, rfl, hw, _⟩ := (mem_matchesAt reInt (by simp [Plain, reInt, chr, plus, digit]) _ _ _).mp (mem_of_matchAt h)
    obtain ⟨n, hn, rfl⟩ := (lang_reInt w).mp hw
    obtain ⟨d, v', rfl, hd, hv'⟩ := exists_run isDigit v
    have hn' : (⟨n.neg, n.digits ++ d⟩ : Num).WF := by
      refine ⟨by simp [hn.1], ?_⟩
      intro c hc
      rcases List.mem_append.mp hc with hc | hc
      · exact hn.2 c hc
      · exact hd c hc
    have htext : (⟨n.neg, n.digits ++ d⟩ : Num).text = n.text ++ d := by unfold Num.text; split <;> simp
    have := key ⟨n.neg, n.digits ++ d⟩ v' hn' (fun h => hv' ((clsNext_digit _).mpr h))
    rw [htext, List.append_assoc] at this
    rw [TokType.regex, this] at h
    exact ⟨n.text ++ d, v', by simp, ⟨⟨_, hn', htext.symm⟩, fun h => hv' ((clsNext_digit _).mpr h)⟩, (Option.some.injEq .. ▸ h).symm⟩
  · rintro ⟨_, v, rfl, ⟨⟨n, hn, rfl⟩, hv⟩, rfl⟩
    exact key n v hn hv

/-! ### Custom dice -/

theorem lang_ws (w : Str) : (Re.star space).Lang w ↔ Blank w := rep_cls

theorem lang_reEntry (w : Str) : reEntry.Lang w ↔ ∃ e : Entry, e.WF ∧ w = e.text := by
  have htimes : ∀ t : Str, (Re.opt (.seq (chr '*') (plus digit))).Lang t ↔
      ∃ m : Option Str, (∀ d ∈ m, d ≠ [] ∧ ∀ c ∈ d, isDigit c = true) ∧ t = match m with | none => [] | some d => '*' :: d := by
    intro t
    constructor
    · rintro (⟨_, d, rfl, h1, hd⟩ | rfl)
      · obtain rfl := (lang_chr _ _).mp h1
        refine ⟨some d, ?_, rfl⟩
        intro d' hd'
        obtain rfl := Option.some.inj hd'
        exact (isDigits_iff _).mp ((lang_plus_digit _).mp hd)
      · exact ⟨none, by simp, rfl⟩
    · rintro ⟨m, hm, rfl⟩
      cases m with
      | none => exact Or.inr rfl
      | some d => exact Or.inl ⟨['*'], d, rfl, (lang_chr _ _).mpr rfl, (lang_plus_digit _).mpr ((isDigits_iff _).mpr (hm d rfl))⟩
  unfold reEntry
  constructor
  · rintro (⟨u, t, rfl, hu, ht⟩ | ⟨u, t, rfl, hu, ht⟩)
    · obtain ⟨a, b, ha, hb, rfl⟩ := (lang_reRange u).mp hu
      obtain ⟨m, hm, rfl⟩ := (htimes t).mp ht
      refine ⟨⟨a, some b, m⟩, ⟨ha, by simpa using hb, hm⟩, ?_⟩
      cases m <;> simp [Entry.text, Entry.core]
    · obtain ⟨a, ha, rfl⟩ := (lang_reInt u).mp hu
      obtain ⟨m, hm, rfl⟩ := (htimes t).mp ht
      refine ⟨⟨a, none, m⟩, ⟨ha, by simp, hm⟩, ?_⟩
      cases m <;> simp [Entry.text, Entry.core]
  · rintro ⟨⟨a, l, m⟩, ⟨ha, hl, hm⟩, rfl⟩
    have ht := (htimes _).mpr ⟨m, hm, rfl⟩
    cases l with
    | none =>
      refine Or.inr ⟨a.text, _, ?_, (lang_reInt _).mpr ⟨a, ha, rfl⟩, ht⟩
      cases m <;> simp [Entry.text, Entry.core]
    | some b =>
      refine Or.inl ⟨a.text ++ '-' :: b.text, _, ?_, (lang_reRange _).mpr ⟨a, b, ha, hl b rfl, rfl⟩, ht⟩
      cases m <;> simp [Entry.text, Entry.core]

theorem blank_append {u v : Str} (hu : Blank u) (hv : Blank v) : Blank (u ++ v) := by
  intro c hc
  rcases List.mem_append.mp hc with h | h
  · exact hu c h
  · exact hv c h

theorem padded_append {z y : Str} (hz : Blank z) (hy : Padded y) : Padded (z ++ y) := by
  obtain ⟨u, e, v, rfl, hu, he, hv⟩ := hy
  exact ⟨z ++ u, e, v, by simp, blank_append hz hu, he, hv⟩

/-- One repetition inside the brackets: an entry, a comma and whitespace. -/
def reItem : Re := .seq (.star space) (.seq reEntry (.seq (.star space) (.seq (chr ',') (.star space))))

theorem lang_reItem (w : Str) : reItem.Lang w ↔ ∃ x z, Padded x ∧ Blank z ∧ w = x ++ ',' :: z := by
  constructor
  · rintro ⟨u, _, rfl, hu, _, _, rfl, he, v, _, rfl, hv, _, z, rfl, hc, hz⟩
    obtain ⟨e, hwf, rfl⟩ := (lang_reEntry _).mp he
    obtain rfl := (lang_chr _ _).mp hc
    exact ⟨u ++ e.text ++ v, z, ⟨u, e, v, rfl, (lang_ws _).mp hu, hwf, (lang_ws _).mp hv⟩, (lang_ws _).mp hz, by simp⟩
  · rintro ⟨_, z, ⟨u, e, v, rfl, hu, he, hv⟩, hz, rfl⟩
    exact ⟨u, e.text ++ (v ++ ([','] ++ z)), by simp, (lang_ws _).mpr hu, e.text, v ++ ([','] ++ z), rfl,
      (lang_reEntry _).mpr ⟨e, he, rfl⟩, v, [','] ++ z, rfl, (lang_ws _).mpr hv, [','], z, rfl, (lang_chr _ _).mpr rfl, (lang_ws _).mpr hz⟩

theorem joinWith_cons₂ (sep : Char) (a b : Str) (l : List Str) : joinWith sep (a :: b :: l) = a ++ sep :: joinWith sep (b :: l) := rfl

theorem joinWith_pre (sep : Char) (z y : Str) (l : List Str) : joinWith sep ((z ++ y) :: l) = z ++ joinWith sep (y :: l) := by
  cases l with
  | nil => rfl
  | cons a l => rw [joinWith_cons₂, joinWith_cons₂]; simp

theorem rep_items {w : Str} (h : Rep reItem.Lang w) (x : Str) (hx : Padded x) :
    ∃ y xs, (∀ y' ∈ y :: xs, Padded y') ∧ w ++ x = joinWith ',' (y :: xs) := by
  induction h with
  | nil => exact ⟨x, [], by simpa using hx, rfl⟩
  | cons hu _ _ ih =>
    obtain ⟨a, z, ha, hz, rfl⟩ := (lang_reItem _).mp hu
    obtain ⟨y, xs, hp, heq⟩ := ih
    refine ⟨a, (z ++ y) :: xs, ?_, ?_⟩
    · intro y' hy'
      rcases List.mem_cons.mp hy' with rfl | hy'
      · exact ha
      · rcases List.mem_cons.mp hy' with rfl | hy'
        · exact padded_append hz (hp y (by simp))
        · exact hp y' (by simp [hy'])
    · rw [joinWith_cons₂, joinWith_pre, ← heq]; simp

theorem items_rep : ∀ (xs : List Str), xs ≠ [] → (∀ y ∈ xs, Padded y) → ∃ w x, Rep reItem.Lang w ∧ Padded x ∧ joinWith ',' xs = w ++ x
  | [], h, _ => absurd rfl h
  | [y], _, h => ⟨[], y, .nil, h y (by simp), rfl⟩
  | y :: y' :: xs, _, h => by
    obtain ⟨w, x, hw, hx, heq⟩ := items_rep (y' :: xs) (by simp) fun z hz => h z (by simp [hz])
    refine ⟨(y ++ [',']) ++ w, x, .cons ((lang_reItem _).mpr ⟨y, [], h y (by simp), by simp [Blank], rfl⟩) (by simp) hw, hx, ?_⟩
    rw [joinWith_cons₂, heq]; simp

theorem lang_reCustom (w : Str) : reCustom.Lang w ↔ Custom w := by
  constructor
  · rintro ⟨_, _, rfl, h0, r, _, rfl, hr, u, _, rfl, hu, _, _, rfl, he, v, _, rfl, hv, t, _, rfl, ht, z, _, rfl, hz, h1⟩
    obtain rfl := (lang_chr _ _).mp h0
    obtain rfl := (lang_chr _ _).mp h1
    obtain ⟨e, hwf, rfl⟩ := (lang_reEntry _).mp he
    rcases ht with ht | rfl
    · obtain rfl := (lang_chr _ _).mp ht
      obtain ⟨y, xs, hp, heq⟩ := rep_items hr (u ++ e.text ++ v) ⟨u, e, v, rfl, (lang_ws _).mp hu, hwf, (lang_ws _).mp hv⟩
      refine ⟨y :: xs, ',' :: z, by simp, hp, Or.inr ⟨z, rfl, (lang_ws _).mp hz⟩, ?_⟩
      rw [← heq]; simp
    · obtain ⟨y, xs, hp, heq⟩ := rep_items hr (u ++ e.text ++ (v ++ z))
        ⟨u, e, v ++ z, rfl, (lang_ws _).mp hu, hwf, blank_append ((lang_ws _).mp hv) ((lang_ws _).mp hz)⟩
      refine ⟨y :: xs, [], by simp, hp, Or.inl rfl, ?_⟩
      rw [← heq]; simp
  · rintro ⟨xs, tail, hne, hp, ht, rfl⟩
    obtain ⟨r, _, hr, ⟨u, e, v, rfl, hu, he, hv⟩, heq⟩ := items_rep xs hne hp
    have main : ∀ t z, (Re.opt (chr ',')).Lang t → Blank z → tail = t ++ z →
        reCustom.Lang ('[' :: (joinWith ',' xs ++ tail ++ [']'])) := by
      intro t z h1 h2 h3
      rw [h3, heq]
      exact ⟨['['], r ++ (u ++ (e.text ++ (v ++ (t ++ (z ++ [']']))))), by simp, (lang_chr _ _).mpr rfl, r, _, rfl, hr, u, _, rfl,
        (lang_ws _).mpr hu, e.text, _, rfl, (lang_reEntry _).mpr ⟨e, he, rfl⟩, v, _, rfl, (lang_ws _).mpr hv, t, _, rfl, h1, z, [']'], rfl,
        (lang_ws _).mpr h2, (lang_chr _ _).mpr rfl⟩
    rcases ht with rfl | ⟨z, rfl, hz⟩
    · exact main [] [] (Or.inr rfl) (by simp [Blank]) rfl
    · exact main [','] z (Or.inl ((lang_chr _ _).mpr rfl)) hz rfl

theorem padded_no_close {x : Str} (h : Padded x) : ']' ∉ x := by
  obtain ⟨u, e, v, rfl, hu, he, hv⟩ := h
  intro hm
  simp only [List.mem_append] at hm
  rcases hm with (hm | hm) | hm
  · exact absurd (hu _ hm) (by decide)
  · exact absurd (entry_chars he _ hm) (by decide)
  · exact absurd (hv _ hm) (by decide)

theorem custom_shape {w : Str} (h : Custom w) : ∃ body, w = '[' :: (body ++ [']']) ∧ ']' ∉ body := by
  obtain ⟨xs, tail, _, hp, ht, rfl⟩ := h
  refine ⟨_, rfl, ?_⟩
  have h1 := join_chars (p := fun c => c != ']') ',' (by decide) xs (fun x hx c hc => by
    simp only [bne_iff_ne]; rintro rfl; exact padded_no_close (hp x hx) hc)
  intro hm
  rcases List.mem_append.mp hm with hm | hm
  · have := h1 _ hm; simp at this
  · rcases ht with rfl | ⟨u, rfl, hu⟩
    · simp at hm
    · simp only [List.mem_cons] at hm
      rcases hm with hm | hm
      · exact absurd hm (by decide)
      · exact absurd (hu _ hm) (by decide)

theorem close_unique {u v u' v' : Str} {c : Char} (h : u ++ c :: v = u' ++ c :: v') (hu : c ∉ u) (hu' : c ∉ u') : u = u' ∧ v = v' := by
  induction u generalizing u' with
  | nil =>
    cases u' with
    | nil => simpa using h
    | cons x u' => simp only [List.nil_append, List.cons_append, List.cons.injEq] at h; exact absurd (by simp [h.1]) hu'
  | cons x u ih =>
    cases u' with
    | nil => simp only [List.nil_append, List.cons_append, List.cons.injEq] at h; exact absurd (by simp [h.1]) hu
    | cons y u' =>
      simp only [List.cons_append, List.cons.injEq] at h
      obtain ⟨h1, h2⟩ := ih h.2 (fun hm => hu (by simp [hm])) (fun hm => hu' (by simp [hm]))
      exact ⟨by rw [h.1, h1], h2⟩

theorem custom_unique {w v w' v' : Str} (hw : Custom w) (hw' : Custom w') (h : w ++ v = w' ++ v') : w = w' ∧ v = v' := by
  obtain ⟨b, rfl, hb⟩ := custom_shape hw
  obtain ⟨b', rfl, hb'⟩ := custom_shape hw'
  simp only [List.cons_append, List.append_assoc, List.cons.injEq, true_and, List.nil_append] at h
  obtain ⟨rfl, rfl⟩ := close_unique h hb hb'
  exact ⟨rfl, rfl⟩

theorem plain_reCustom : reCustom.Plain := by
  simp [Plain, reCustom, reEntry, reRange, reInt, chr, plus, digit, space]

theorem matchAt_custom (b s : Str) (q : Pos) : matchAt reCustom ⟨b, s⟩ = some q ↔
    ∃ w v, s = w ++ v ∧ Custom w ∧ q = ⟨w.reverse ++ b, v⟩ := by
  constructor
  · intro h
    obtain ⟨w, v, h1, hw, h2⟩ := (mem_matchesAt reCustom plain_reCustom _ _ _).mp (mem_of_matchAt h)
    exact ⟨w, v, h1, (lang_reCustom w).mp hw, h2⟩
  · rintro ⟨w, v, rfl, hw, rfl⟩
    have hmem := (mem_matchesAt reCustom plain_reCustom b (w ++ v) _).mpr ⟨w, v, rfl, (lang_reCustom w).mpr hw, rfl⟩
    cases hm : matchAt reCustom ⟨b, w ++ v⟩ with
    | none => rw [matchAt_none.mp hm] at hmem; simp at hmem
    | some q' =>
      obtain ⟨w', v', h1, hw', rfl⟩ := (mem_matchesAt reCustom plain_reCustom _ _ _).mp (mem_of_matchAt hm)
      obtain ⟨rfl, rfl⟩ := custom_unique ((lang_reCustom w').mp hw') hw h1.symm
      rfl

/-! ### Dice -/

theorem digits_head {w v : Str} (hne : w ≠ []) (hd : Digits w) : ∃ c t, w ++ v = c :: t ∧ isDigit c = true := by
  cases w with
  | nil => exact absurd rfl hne
  | cons c w => exact ⟨c, w ++ v, rfl, hd c (by simp)⟩

/-- The kinds of dice begin with different characters. -/
theorem diceType_alts {ty v w' v' : Str} (hty : DiceType ty v) (hw' : reDiceType.Lang w') (h : ty ++ v = w' ++ v') :
    (w' = ty ∧ v' = v) ∨ DigitNext v' := by
  rcases hw' with hd' | hp' | hf' | hc'
  · obtain ⟨hne', hd'⟩ := (isDigits_iff _).mp ((lang_plus_digit _).mp hd')
    obtain ⟨c', t', h1, hc'⟩ := digits_head (v := v') hne' hd'
    rw [h1] at h
    rcases hty with ⟨hne, hd, hv⟩ | rfl | rfl | hc
    · rw [← h1] at h
      rcases run_cut h.symm hd' hd (fun hn => hv ((clsNext_digit v).mp hn)) with ⟨rfl, rfl⟩ | hn
      · exact Or.inl ⟨rfl, rfl⟩
      · exact Or.inr ((clsNext_digit v').mp hn)
    · simp only [List.cons_append, List.cons.injEq] at h; rw [← h.1] at hc'; exact absurd hc' (by decide)
    · simp only [List.cons_append, List.cons.injEq] at h; rw [← h.1] at hc'; exact absurd hc' (by decide)
    · obtain ⟨body, rfl, _⟩ := custom_shape hc
      simp only [List.cons_append, List.cons.injEq] at h; rw [← h.1] at hc'; exact absurd hc' (by decide)
  · obtain rfl := (lang_chr _ _).mp hp'
    rcases hty with ⟨hne, hd, hv⟩ | rfl | rfl | hc
    · obtain ⟨c, t, h1, hc⟩ := digits_head (v := v) hne hd
      rw [h1] at h; simp only [List.cons_append, List.cons.injEq] at h; rw [h.1] at hc; exact absurd hc (by decide)
    · left; simpa using h.symm
    · simp at h
    · obtain ⟨body, rfl, _⟩ := custom_shape hc
      simp at h
  · obtain rfl := (lang_chr _ _).mp hf'
    rcases hty with ⟨hne, hd, hv⟩ | rfl | rfl | hc
    · obtain ⟨c, t, h1, hc⟩ := digits_head (v := v) hne hd
      rw [h1] at h; simp only [List.cons_append, List.cons.injEq] at h; rw [h.1] at hc; exact absurd hc (by decide)
    · simp at h
    · left; simpa using h.symm
    · obtain ⟨body, rfl, _⟩ := custom_shape hc
      simp at h
  · have hc' := (lang_reCustom _).mp hc'
    rcases hty with ⟨hne, hd, hv⟩ | rfl | rfl | hc
    · obtain ⟨body, rfl, _⟩ := custom_shape hc'
      obtain ⟨c, t, h1, hc⟩ := digits_head (v := v) hne hd
      rw [h1] at h; simp only [List.cons_append, List.cons.injEq] at h; rw [h.1] at hc; exact absurd hc (by decide)
    · obtain ⟨body, rfl, _⟩ := custom_shape hc'
      simp at h
    · obtain ⟨body, rfl, _⟩ := custom_shape hc'
      simp at h
    · obtain ⟨rfl, rfl⟩ := custom_unique hc hc' h
      exact Or.inl ⟨rfl, rfl⟩

theorem lang_of_diceType {ty v : Str} (h : DiceType ty v) : reDiceType.Lang ty := by
  rcases h with ⟨hne, hd, _⟩ | rfl | rfl | hc
  · exact Or.inl ((lang_plus_digit _).mpr ((isDigits_iff _).mpr ⟨hne, hd⟩))
  · exact Or.inr (Or.inl ((lang_chr _ _).mpr rfl))
  · exact Or.inr (Or.inr (Or.inl ((lang_chr _ _).mpr rfl)))
  · exact Or.inr (Or.inr (Or.inr ((lang_reCustom _).mpr hc)))

theorem diceType_of_lang {ty v : Str} (h : reDiceType.Lang ty) (hv : ¬ DigitNext v) : DiceType ty v := by
  rcases h with hd | hp | hf | hc
  · obtain ⟨hne, hd⟩ := (isDigits_iff _).mp ((lang_plus_digit _).mp hd)
    exact Or.inl ⟨hne, hd, hv⟩
  · exact Or.inr (Or.inl ((lang_chr _ _).mp hp))
  · exact Or.inr (Or.inr (Or.inl ((lang_chr _ _).mp hf)))
  · exact Or.inr (Or.inr (Or.inr ((lang_reCustom _).mp hc)))

/-- A dice type that may be cut short, extended to the full number. -/
theorem diceType_extend {ty v : Str} (h : reDiceType.Lang ty) : ∃ d v', v = d ++ v' ∧ DiceType (ty ++ d) v' := by
  rcases h with hd | hp | hf | hc
  · obtain ⟨hne, hd⟩ := (isDigits_iff _).mp ((lang_plus_digit _).mp hd)
    obtain ⟨d, v', rfl, h1, h2⟩ := exists_run isDigit v
    refine ⟨d, v', rfl, Or.inl ⟨by simp [hne], ?_, fun h => h2 ((clsNext_digit v').mpr h)⟩⟩
    intro c hc
    rcases List.mem_append.mp hc with hc | hc
    · exact hd c hc
    · exact h1 c hc
  · exact ⟨[], v, rfl, by rw [List.append_nil]; exact Or.inr (Or.inl ((lang_chr _ _).mp hp))⟩
  · exact ⟨[], v, rfl, by rw [List.append_nil]; exact Or.inr (Or.inr (Or.inl ((lang_chr _ _).mp hf)))⟩
  · exact ⟨[], v, rfl, by rw [List.append_nil]; exact Or.inr (Or.inr (Or.inr ((lang_reCustom _).mp hc)))⟩

theorem plain_reDiceType : reDiceType.Plain := ⟨by simp [Plain, plus, digit], by simp [Plain, chr], by simp [Plain, chr], plain_reCustom⟩

theorem matchAt_diceType {b ty v : Str} (h : DiceType ty v) : matchAt reDiceType ⟨b, ty ++ v⟩ = some ⟨ty.reverse ++ b, v⟩ := by
  have hplus : ∀ (c : Char) (t : Str), isDigit c = false → matchAt (plus digit) ⟨b, c :: t⟩ = none := by
    intro c t hc; simp [matchAt, plus, digit, matchesAt, hc]
  unfold reDiceType
  rcases h with ⟨hne, hd, hv⟩ | rfl | rfl | hc
  · exact matchAt_alt_left ((matchAt_plus_cls _ _ _ _).mpr ⟨ty, v, rfl, hne, hd, fun h => hv ((clsNext_digit v).mp h), rfl⟩)
  · rw [List.cons_append, matchAt_alt_right (hplus _ _ (by decide))]
    exact matchAt_alt_left ((matchAt_chr _ _ _ _).mpr ⟨v, rfl, rfl⟩)
  · rw [List.cons_append, matchAt_alt_right (hplus _ _ (by decide)), matchAt_alt_right (by rw [matchAt_chr_cons, if_neg (by decide)])]
    exact matchAt_alt_left ((matchAt_chr _ _ _ _).mpr ⟨v, rfl, rfl⟩)
  · have hm := (matchAt_custom b (ty ++ v) _).mpr ⟨ty, v, rfl, hc, rfl⟩
    obtain ⟨body, rfl, _⟩ := custom_shape hc
    rw [List.cons_append, matchAt_alt_right (hplus _ _ (by decide)), matchAt_alt_right (by rw [matchAt_chr_cons, if_neg (by decide)]),
      matchAt_alt_right (by rw [matchAt_chr_cons, if_neg (by decide)])]
    exact hm

/-- The number in front of a dice term. -/
theorem matchAt_number {b n s : Str} (r : Re) (hn : Digits n) :
    matchAt (.seq (.star digit) (.seq (chr 'd') r)) ⟨b, n ++ 'd' :: s⟩ = matchAt r ⟨'d' :: (n.reverse ++ b), s⟩ := by
  rw [matchAt_seq (x := ⟨n.reverse ++ b, 'd' :: s⟩), matchAt_seq_chr]
  · exact (mem_star_cls _ _ _ _).mpr ⟨n, 'd' :: s, rfl, hn, rfl⟩
  · intro y hy hne
    obtain ⟨n', v', h1, hn', rfl⟩ := (mem_star_cls _ _ _ _).mp hy
    rcases run_cut h1.symm hn' hn (by simp [ClsNext]; decide) with ⟨rfl, rfl⟩ | h
    · exact absurd rfl hne
    · cases v' with
      | nil => exact absurd h (by simp [ClsNext])
      | cons c v' =>
        rw [matchesAt_seq_chr, if_neg]
        rintro rfl
        exact absurd h (by simp [ClsNext]; decide)

theorem matchAt_dice (b s : Str) (q : Pos) : matchAt (TokType.regex .dice) ⟨b, s⟩ = some q ↔
    ∃ w v, s = w ++ v ∧ Matches .dice b w v ∧ q = ⟨w.reverse ++ b, v⟩ := by
  have key : ∀ n ty v : Str, Digits n → DiceType ty v →
      matchAt reDice ⟨b, n ++ 'd' :: (ty ++ v)⟩ = some ⟨(n ++ 'd' :: ty).reverse ++ b, v⟩ := by
    intro n ty v hn hty
    rw [reDice, matchAt_number _ hn, matchAt_diceType hty]; simp
  constructor
  · intro h
    obtain ⟨_, v, rfl, ⟨n, _, rfl, hn, _, ty, rfl, hd, hty⟩, _⟩ :=
      (mem_matchesAt reDice ⟨by simp [Plain, digit], by simp [Plain, chr], plain_reDiceType⟩ _ _ _).mp (mem_of_matchAt h)
    obtain rfl := (lang_chr _ _).mp hd
    obtain ⟨d, v', rfl, hty'⟩ := diceType_extend (v := v) hty
    have := key n _ _ (rep_cls.mp hn) hty'
    rw [TokType.regex, show n ++ ([ 'd' ] ++ ty) ++ (d ++ v') = n ++ 'd' :: (ty ++ d ++ v') by simp, this] at h
    exact ⟨n ++ 'd' :: (ty ++ d), v', by simp, ⟨n, ty ++ d, rfl, rep_cls.mp hn, hty'⟩, (Option.some.injEq .. ▸ h).symm⟩
  · rintro ⟨_, v, rfl, ⟨n, ty, rfl, hn, hty⟩, rfl⟩
    rw [TokType.regex, List.append_assoc, List.cons_append]; exact key n ty v hn hty

theorem kd_not_digit {k : Char} (h : k = 'k' ∨ k = 'd') (s : Str) : ¬ DigitNext (k :: s) := by
  rcases h with rfl | rfl <;> simp [DigitNext] <;> decide

theorem matchAt_dropKeep (b s : Str) (q : Pos) : matchAt (TokType.regex .dropKeep) ⟨b, s⟩ = some q ↔
    ∃ w v, s = w ++ v ∧ Matches .dropKeep b w v ∧ q = ⟨w.reverse ++ b, v⟩ := by
  have key : ∀ (n ty : Str) (k : Char) (m v : Str), Digits n → DiceType ty (k :: m ++ v) → (k = 'k' ∨ k = 'd') → m ≠ [] → Digits m →
      ¬ DigitNext v →
      matchAt reDropKeep ⟨b, n ++ 'd' :: (ty ++ k :: (m ++ v))⟩ = some ⟨(n ++ 'd' :: ty ++ k :: m).reverse ++ b, v⟩ := by
    intro n ty k m v hn hty hk hne hm hv
    have hk' : (k == 'k' || k == 'd') = true := by rcases hk with rfl | rfl <;> rfl
    rw [reDropKeep, matchAt_number _ hn, matchAt_seq (x := ⟨ty.reverse ++ ('d' :: (n.reverse ++ b)), k :: (m ++ v)⟩),
      matchAt_seq (x := ⟨k :: (ty.reverse ++ ('d' :: (n.reverse ++ b))), m ++ v⟩),
      show matchAt (plus digit) _ = _ from
        (matchAt_plus_cls _ _ _ _).mpr ⟨m, v, rfl, hne, hm, fun h => hv ((clsNext_digit v).mp h), rfl⟩]
    · simp
    · simp [matchesAt, hk']
    · intro y hy hne; simp [matchesAt, hk'] at hy; exact absurd hy hne
    · exact mem_of_matchAt (matchAt_diceType hty)
    · intro y hy hne
      obtain ⟨w', v', h1, hw', rfl⟩ := (mem_matchesAt _ plain_reDiceType _ _ _).mp hy
      rcases diceType_alts hty hw' h1 with ⟨rfl, rfl⟩ | hd
      · exact absurd rfl hne
      · cases v' with
        | nil => exact absurd hd (by simp [DigitNext])
        | cons c v' =>
          have : (c == 'k' || c == 'd') = false := by
            rw [Bool.or_eq_false_iff, beq_eq_false_iff_ne, beq_eq_false_iff_ne]
            constructor <;> rintro rfl <;> exact absurd hd (by simp [DigitNext]; decide)
          simp [matchesAt, this]
  constructor
  · intro h
    obtain ⟨_, v, rfl, ⟨n, _, rfl, hn, _, _, rfl, hd, ty, _, rfl, hty, _, m, rfl, ⟨k, rfl, hk⟩, hm⟩, _⟩ :=
      (mem_matchesAt reDropKeep ⟨by simp [Plain, digit], by simp [Plain, chr], plain_reDiceType, by simp [Plain, plus, digit]⟩
        _ _ _).mp (mem_of_matchAt h)
    obtain rfl := (lang_chr _ _).mp hd
    obtain ⟨hne, hm⟩ := (isDigits_iff _).mp ((lang_plus_digit _).mp hm)
    have hk : k = 'k' ∨ k = 'd' := by simpa using hk
    obtain ⟨d, v', rfl, h1, h2⟩ := exists_run isDigit v
    have hm' : Digits (m ++ d) := by
      intro c hc
      rcases List.mem_append.mp hc with hc | hc
      · exact hm c hc
      · exact h1 c hc
    have hty' : DiceType ty (k :: (m ++ d) ++ v') := diceType_of_lang hty (kd_not_digit hk _)
    have hv' : ¬ DigitNext v' := fun h => h2 ((clsNext_digit _).mpr h)
    have := key n ty k (m ++ d) v' (rep_cls.mp hn) hty' hk (by simp [hne]) hm' hv'
    rw [TokType.regex, show n ++ (['d'] ++ (ty ++ ([k] ++ m))) ++ (d ++ v') = n ++ 'd' :: (ty ++ k :: (m ++ d ++ v')) by simp, this] at h
    exact ⟨n ++ 'd' :: ty ++ k :: (m ++ d), v', by simp, ⟨n, ty, k, m ++ d, rfl, rep_cls.mp hn, hty', hk, by simp [hne], hm', hv'⟩,
      (Option.some.injEq .. ▸ h).symm⟩
  · rintro ⟨_, v, rfl, ⟨n, ty, k, m, rfl, hn, hty, hk, hne, hm, hv⟩, rfl⟩
    rw [TokType.regex, show n ++ 'd' :: ty ++ k :: m ++ v = n ++ 'd' :: (ty ++ k :: (m ++ v)) by simp]
    exact key n ty k m v hn hty hk hne hm hv

/-! ### The remaining rules -/

theorem matchAt_lit_none {w b s : Str} (h : ¬ w <+: s) : matchAt (lit w) ⟨b, s⟩ = none := by
  rw [matchAt_none, matchesAt_lit, if_neg h]

theorem matchAt_chr_none {c : Char} {b s : Str} (h : s.head? ≠ some c) : matchAt (chr c) ⟨b, s⟩ = none := by
  cases s with
  | nil => rfl
  | cons x s => rw [matchAt_chr_cons, if_neg]; rintro rfl; exact h rfl

theorem keyword_none {k : Str} (hne : k ≠ []) (hk : ∀ c ∈ k, isWord c = true) {b s : Str} (h : ¬ k <+: s) :
    matchAt (keyword k) ⟨b, s⟩ = none := by
  cases hm : matchAt (keyword k) ⟨b, s⟩ with
  | none => rfl
  | some q =>
    obtain ⟨w, v, rfl, ⟨rfl, _⟩, _⟩ := (matchAt_keyword hne hk b s q).mp hm
    exact absurd (List.prefix_append _ _) h

theorem prefix_second {c d : Char} {s : Str} : ([c, d] <+: c :: s) ↔ s.head? = some d := by
  cases s with
  | nil => simp
  | cons x s => simp [eq_comm]

theorem keyword_word (k : Str) (h : k.all isWord = true := by decide) : ∀ c ∈ k, isWord c = true := by
  simpa using h

theorem matchAt_keywords {k k' : Str} (hne : k ≠ []) (hk : ∀ c ∈ k, isWord c = true) (hne' : k' ≠ [])
    (hk' : ∀ c ∈ k', isWord c = true) (hd : ∀ v, ¬ k <+: k' ++ v) (b s : Str) (q : Pos) :
    matchAt (.alt (keyword k) (keyword k')) ⟨b, s⟩ = some q ↔
      ∃ w v, s = w ++ v ∧ (Keyword k b w v ∨ Keyword k' b w v) ∧ q = ⟨w.reverse ++ b, v⟩ := by
  rw [matchAt_alt, Option.or_eq_some_iff, matchAt_keyword hne hk, matchAt_keyword hne' hk']
  constructor
  · rintro (⟨w, v, h1, h2, h3⟩ | ⟨_, w, v, h1, h2, h3⟩)
    · exact ⟨w, v, h1, Or.inl h2, h3⟩
    · exact ⟨w, v, h1, Or.inr h2, h3⟩
  · rintro ⟨w, v, rfl, h2 | h2, h3⟩
    · exact Or.inl ⟨w, v, rfl, h2, h3⟩
    · refine Or.inr ⟨keyword_none hne hk ?_, w, v, rfl, h2, h3⟩
      rw [h2.1]; exact hd v

theorem matchAt_binop (b s : Str) (q : Pos) : matchAt (TokType.regex .binop) ⟨b, s⟩ = some q ↔
    ∃ w v, s = w ++ v ∧ Matches .binop b w v ∧ q = ⟨w.reverse ++ b, v⟩ := by
  rw [TokType.regex, reBinop]
  have hlast := matchAt_keywords (k := ['A', 'N', 'D']) (k' := ['O', 'R']) (by simp) (keyword_word _) (by simp) (keyword_word _)
    (by intro v; simp) b s q
  simp only [matchAt_alt _ _, Option.or_eq_some_iff] at hlast ⊢
  simp only [matchAt_lit, matchAt_chr]
  constructor
  · rintro (⟨v, rfl, rfl⟩ | ⟨_, ⟨v, rfl, rfl⟩ | ⟨_, ⟨v, rfl, rfl⟩ | ⟨hle, ⟨v, rfl, rfl⟩ | ⟨_, ⟨v, rfl, rfl⟩ | ⟨hge, ⟨v, rfl, rfl⟩ | ⟨_, h⟩⟩⟩⟩⟩⟩)
    · exact ⟨_, v, rfl, Or.inl rfl, rfl⟩
    · exact ⟨_, v, rfl, Or.inr (Or.inl rfl), rfl⟩
    · exact ⟨_, v, rfl, Or.inr (Or.inr (Or.inl rfl)), rfl⟩
    · refine ⟨['<'], v, rfl, Or.inr (Or.inr (Or.inr (Or.inr (Or.inl ⟨rfl, ?_⟩)))), rfl⟩
      intro h
      have := prefix_second (c := '<').mpr h
      obtain ⟨t, ht⟩ := this
      rw [Option.eq_none_iff_forall_ne_some] at hle
      exact hle _ ((matchAt_lit _ _ _ _).mpr ⟨t, ht.symm, rfl⟩)
    · exact ⟨_, v, rfl, Or.inr (Or.inr (Or.inr (Or.inl rfl))), rfl⟩
    · refine ⟨['>'], v, rfl, Or.inr (Or.inr (Or.inr (Or.inr (Or.inr (Or.inl ⟨rfl, ?_⟩))))), rfl⟩
      intro h
      have := prefix_second (c := '>').mpr h
      obtain ⟨t, ht⟩ := this
      rw [Option.eq_none_iff_forall_ne_some] at hge
      exact hge _ ((matchAt_lit _ _ _ _).mpr ⟨t, ht.symm, rfl⟩)
    · obtain ⟨w, v, h1, h2, h3⟩ := hlast.mp h
      exact ⟨w, v, h1, by rcases h2 with h2 | h2 <;> simp [Matches, h2], h3⟩
  · rintro ⟨w, v, rfl, hm, hq⟩
    have hlit : ∀ {k : Str}, (¬ k <+: w ++ v) → matchAt (lit k) ⟨b, w ++ v⟩ = none := matchAt_lit_none
    have hchr : ∀ {c : Char}, (w ++ v).head? ≠ some c → matchAt (chr c) ⟨b, w ++ v⟩ = none := matchAt_chr_none
    rcases hm with rfl | rfl | rfl | rfl | ⟨rfl, hv⟩ | ⟨rfl, hv⟩ | hm
    · exact Or.inl ⟨v, rfl, hq⟩
    · exact Or.inr ⟨hlit (by simp), Or.inl ⟨v, rfl, hq⟩⟩
    · exact Or.inr ⟨hlit (by simp), Or.inr ⟨hlit (by simp), Or.inl ⟨v, rfl, hq⟩⟩⟩
    · exact Or.inr ⟨hlit (by simp), Or.inr ⟨hlit (by simp), Or.inr ⟨hlit (by simp), Or.inr ⟨hchr (by simp), Or.inl ⟨v, rfl, hq⟩⟩⟩⟩⟩
    · exact Or.inr ⟨hlit (by simp), Or.inr ⟨hlit (by simp), Or.inr ⟨hlit (fun h => hv (prefix_second.mp h)), Or.inl ⟨v, rfl, hq⟩⟩⟩⟩
    · exact Or.inr ⟨hlit (by simp), Or.inr ⟨hlit (by simp), Or.inr ⟨hlit (by simp), Or.inr ⟨hchr (by simp),
        Or.inr ⟨hlit (fun h => hv (prefix_second.mp h)), Or.inl ⟨v, rfl, hq⟩⟩⟩⟩⟩⟩
    · have hl := hlast.mpr ⟨w, v, rfl, hm, hq⟩
      have hw : w = ['A', 'N', 'D'] ∨ w = ['O', 'R'] := by
        rcases hm with hm | hm
        · exact Or.inl hm.1
        · exact Or.inr hm.1
      refine Or.inr ⟨hlit ?_, Or.inr ⟨hlit ?_, Or.inr ⟨hlit ?_, Or.inr ⟨hchr ?_, Or.inr ⟨hlit ?_, Or.inr ⟨hchr ?_, hl⟩⟩⟩⟩⟩⟩ <;>
        (rcases hw with rfl | rfl <;> simp)

theorem matchAt_not (b s : Str) (q : Pos) : matchAt (TokType.regex .not) ⟨b, s⟩ = some q ↔
    ∃ w v, s = w ++ v ∧ Matches .not b w v ∧ q = ⟨w.reverse ++ b, v⟩ := by
  rw [TokType.regex, matchAt_seq_chr_iff]
  have hn : ∀ v, matchAt (.notAhead (chr '=')) ⟨'!' :: b, v⟩ = some q ↔ v.head? ≠ some '=' ∧ q = ⟨'!' :: b, v⟩ := by
    intro v
    unfold matchAt
    show (if (matchesAt (chr '=') ⟨'!' :: b, v⟩).isEmpty then [_] else []).head? = _ ↔ _
    cases v with
    | nil =>
      simp only [matchesAt_chr_nil, List.isEmpty_nil, if_true, List.head?_cons, Option.some.injEq, List.head?_nil, ne_eq, reduceCtorEq,
        not_false_eq_true, true_and]
      exact eq_comm
    | cons x v =>
      rw [matchesAt_chr_cons]
      by_cases hx : x = '='
      · simp [hx]
      · simp only [hx, if_false, List.isEmpty_nil, if_true, List.head?_cons, Option.some.injEq, ne_eq, not_false_eq_true, true_and]
        exact eq_comm
  simp only [hn]
  constructor
  · rintro ⟨v, rfl, h, rfl⟩; exact ⟨['!'], v, rfl, ⟨rfl, h⟩, rfl⟩
  · rintro ⟨w, v, rfl, ⟨rfl, h⟩, rfl⟩; exact ⟨v, rfl, h, rfl⟩

theorem matchAt_assign (b s : Str) (q : Pos) : matchAt (TokType.regex .assign) ⟨b, s⟩ = some q ↔
    ∃ w v, s = w ++ v ∧ Matches .assign b w v ∧ q = ⟨w.reverse ++ b, v⟩ := by
  rw [TokType.regex, matchAt_seq_chr_iff]
  have hb : (['=', '='].reverse.isPrefixOf ('=' :: b)) = true ↔ b.head? = some '=' := by
    cases b with
    | nil => simp [List.isPrefixOf]
    | cons x b =>
      show ((('=' == '=') && (('=' == x) && true)) = true) ↔ some x = some '='
      simp only [BEq.rfl, Bool.true_and, Bool.and_true, beq_iff_eq, Option.some.injEq]
      exact eq_comm
  have hn : ∀ v, matchAt (.seq (.notAhead (chr '=')) (.notBehind ['=', '='])) ⟨'=' :: b, v⟩ = some q ↔
      (v.head? ≠ some '=' ∧ b.head? ≠ some '=') ∧ q = ⟨'=' :: b, v⟩ := by
    intro v
    unfold matchAt
    show ((if (matchesAt (chr '=') ⟨'=' :: b, v⟩).isEmpty then [(⟨'=' :: b, v⟩ : Pos)] else []).flatMap
      fun p => if ['=', '='].reverse.isPrefixOf p.before then [] else [p]).head? = _ ↔ _
    have hv : (matchesAt (chr '=') ⟨'=' :: b, v⟩).isEmpty = true ↔ v.head? ≠ some '=' := by
      cases v with
      | nil => simp [matchesAt_chr_nil]
      | cons x v =>
        rw [matchesAt_chr_cons]
        by_cases hx : x = '=' <;> simp [hx]
    by_cases h1 : v.head? = some '='
    · rw [if_neg (fun h => hv.mp h h1)]; simp [h1]
    · rw [if_pos (hv.mpr h1), List.flatMap_cons, List.flatMap_nil, List.append_nil]
      by_cases h2 : b.head? = some '='
      · rw [if_pos (hb.mpr h2)]; simp [h2]
      · rw [if_neg (fun h => h2 (hb.mp h))]; simp [h1, h2, eq_comm]
  simp only [hn]
  constructor
  · rintro ⟨v, rfl, h, rfl⟩; exact ⟨['='], v, rfl, ⟨rfl, h⟩, rfl⟩
  · rintro ⟨w, v, rfl, ⟨rfl, h⟩, rfl⟩; exact ⟨v, rfl, h, rfl⟩

theorem matchAt_one (c : Char) (b s : Str) (q : Pos) : matchAt (chr c) ⟨b, s⟩ = some q ↔
    ∃ w v, s = w ++ v ∧ w = [c] ∧ q = ⟨w.reverse ++ b, v⟩ := by
  rw [matchAt_chr]
  constructor
  · rintro ⟨v, rfl, rfl⟩; exact ⟨[c], v, rfl, rfl, rfl⟩
  · rintro ⟨_, v, rfl, rfl, rfl⟩; exact ⟨v, rfl, rfl⟩

/-- Every rule of the lexer matches what the specification says it matches. -/
theorem matchAt_rule (t : TokType) (b s : Str) (q : Pos) : matchAt t.regex ⟨b, s⟩ = some q ↔
    ∃ w v, s = w ++ v ∧ Matches t b w v ∧ q = ⟨w.reverse ++ b, v⟩ := by
  cases t with
  | openP => exact matchAt_one _ b s q
  | closeP => exact matchAt_one _ b s q
  | comma => exact matchAt_one _ b s q
  | not => exact matchAt_not b s q
  | dropKeep => exact matchAt_dropKeep b s q
  | dice => exact matchAt_dice b s q
  | binop => exact matchAt_binop b s q
  | constInt => exact matchAt_constInt b s q
  | constBin =>
    exact matchAt_keywords (k := ['T', 'r', 'u', 'e']) (k' := ['F', 'a', 'l', 's', 'e']) (by simp) (keyword_word _) (by simp)
      (keyword_word _) (by intro v; simp) b s q
  | add => exact matchAt_one _ b s q
  | sub => exact matchAt_one _ b s q
  | mul => exact matchAt_one _ b s q
  | div =>
    refine (matchAt_lit _ b s q).trans ⟨?_, ?_⟩
    · rintro ⟨v, rfl, rfl⟩; exact ⟨_, v, rfl, rfl, rfl⟩
    · rintro ⟨_, v, rfl, rfl, rfl⟩; exact ⟨v, rfl, rfl⟩
  | minmax =>
    exact matchAt_keywords (k := ['M', 'A', 'X']) (k' := ['M', 'I', 'N']) (by simp) (keyword_word _) (by simp)
      (keyword_word _) (by intro v; simp) b s q
  | abs => exact matchAt_keyword (k := ['A', 'B', 'S']) (by simp) (keyword_word _) b s q
  | assign => exact matchAt_assign b s q
  | var => exact matchAt_keyword (k := ['V', 'A', 'R']) (by simp) (keyword_word _) b s q
  | name => exact matchAt_name b s q

theorem matchAt_rule_none (t : TokType) (b s : Str) : matchAt t.regex ⟨b, s⟩ = none ↔ ¬ Applies t b s := by
  rw [Option.eq_none_iff_forall_ne_some]
  constructor
  · rintro h ⟨w, v, h1, h2⟩; exact h _ ((matchAt_rule t b s _).mpr ⟨w, v, h1, h2, rfl⟩)
  · intro h q hq
    obtain ⟨w, v, h1, h2, _⟩ := (matchAt_rule t b s q).mp hq
    exact h ⟨w, v, h1, h2⟩

end Re
end PyDice
