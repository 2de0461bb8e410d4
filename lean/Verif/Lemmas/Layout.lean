import Verif.Spec.Layout
import Verif.Lemmas.Print
import Verif.Props.C38
/-!
# Tokens separated by whitespace; texts in brackets
-/

namespace PyDice
open LexSpec ParseSpec

theorem gap_after {v : Str} (h : Gap v) : After v := by
  rcases h with rfl | ⟨c, r, rfl, h⟩
  · exact .inl rfl
  · exact after_cons (.inl h)

theorem gap_word {v : Str} (h : Gap v) : ¬ WordNext v := after_word (gap_after h)

theorem gap_head {v : Str} (h : Gap v) {x : Char} (hx : isSpace x = false) : v.head? ≠ some x := by
  rcases h with rfl | ⟨c, r, rfl, h⟩
  · simp
  · simp only [List.head?_cons, ne_eq, Option.some.injEq]
    rintro rfl
    rw [hx] at h; cases h

/-- A word its rule can match anywhere is what that rule matches between gaps, and no earlier rule matches. -/
theorem best_gap {t : TokType} {b w v b' v' : Str} (h : Matches t b w v) (hb : Gap b') (hv : Gap v') : Best t b' w v' := by
  have wb := gap_word hb
  have wv := gap_word hv
  cases t
  case openP => obtain rfl := h; exact best_open _ _
  case closeP => obtain rfl := h; exact best_close _ _
  case comma => obtain rfl := h; exact best_comma _ _
  case add => obtain rfl := h; exact best_add _ _
  case mul => obtain rfl := h; exact best_mul _ _
  case div => obtain rfl := h; exact best_div _ _
  case not => obtain ⟨rfl, _⟩ := h; exact best_not (gap_head hv (by decide))
  case sub =>
    obtain rfl := h
    refine best_first rfl fun t' hr hf => ?_
    have : t' = .constInt := by revert hr hf; cases t' <;> decide
    subst this
    rintro ⟨w, v', hs, ⟨n, hn, rfl⟩, _⟩
    unfold Num.text at hs
    obtain ⟨h1, h2⟩ := hn
    cases hd : n.digits with
    | nil => exact h1 hd
    | cons d ds =>
      rw [hd] at hs h2
      have hdig := h2 d (by simp)
      split at hs
      · simp only [List.cons_append, List.nil_append, List.cons.injEq] at hs
        exact gap_head hv (digit_not_space hdig) (by rw [hs.2]; rfl)
      · simp only [List.cons_append, List.cons.injEq] at hs
        rw [← hs.1] at hdig; exact absurd hdig (by decide)
  case dropKeep =>
    obtain ⟨n, ty, k, m, rfl, hn, hty, hk, hne, hd, _⟩ := h
    exact best_dropKeep hn (Re.diceType_of_lang (Re.lang_of_diceType hty) (Re.kd_not_digit hk _)) hk hne hd (gap_after hv)
  case dice =>
    obtain ⟨n, ty, rfl, hn, hty⟩ := h
    exact best_dice hn (Re.diceType_of_lang (Re.lang_of_diceType hty) (after_digit (gap_after hv))) (gap_after hv)
  case constInt => obtain ⟨⟨n, hn, rfl⟩, _⟩ := h; exact best_constInt hn _ (gap_after hv)
  case constBin =>
    rcases h with ⟨h, _⟩ | ⟨h, _⟩
    · exact best_constBin (.inl h) wb wv
    · exact best_constBin (.inr h) wb wv
  case name => exact best_name h.1 h.2.1 wb (gap_after hv)
  case var => obtain ⟨rfl, _⟩ := h; exact best_simple (keyword_here wb wv) (by intro t'; cases t' <;> decide)
  case minmax =>
    rcases h with ⟨rfl, _⟩ | ⟨rfl, _⟩
    · exact best_simple (.inl (keyword_here wb wv)) (by intro t'; cases t' <;> decide)
    · exact best_simple (.inr (keyword_here wb wv)) (by intro t'; cases t' <;> decide)
  case abs =>
    obtain ⟨rfl, _⟩ := h
    refine best_first (keyword_here wb wv) fun t' hr hf => ?_
    have : t' = .binop := by revert hr hf; cases t' <;> decide
    subst this
    rintro ⟨w, v', hs, hm⟩
    rcases hm with rfl | rfl | rfl | rfl | ⟨rfl, _⟩ | ⟨rfl, _⟩ | ⟨rfl, _⟩ | ⟨rfl, _⟩ <;> simp at hs
  case assign =>
    obtain ⟨rfl, _⟩ := h
    refine best_first ⟨rfl, gap_head hv (by decide), gap_head hb (by decide)⟩ fun t' hr hf => ?_
    have : t' = .binop := by revert hr hf; cases t' <;> decide
    subst this
    rintro ⟨w, v'', hs, hm⟩
    rcases hm with rfl | rfl | rfl | rfl | ⟨rfl, _⟩ | ⟨rfl, _⟩ | ⟨rfl, _⟩ | ⟨rfl, _⟩ <;> simp at hs
    exact gap_head hv (x := '=') (by decide) (by rw [hs]; rfl)
  case binop =>
    have hno : ∀ s, ¬ Applies .not b' ('!' :: '=' :: s) := by
      rintro s ⟨w, v', hs, rfl, h⟩
      simp only [List.cons_append, List.nil_append, List.cons.injEq, true_and] at hs
      rw [← hs] at h; exact h rfl
    rcases h with rfl | rfl | rfl | rfl | ⟨rfl, _⟩ | ⟨rfl, _⟩ | ⟨rfl, _⟩ | ⟨rfl, _⟩
    · exact best_simple (.inl rfl) (by intro t'; cases t' <;> decide)
    · refine best_first (.inr (.inl rfl)) fun t' hr hf => ?_
      have : t' = .not := by revert hr hf; cases t' <;> decide
      subst this
      exact hno _
    · exact best_simple (.inr (.inr (.inl rfl))) (by intro t'; cases t' <;> decide)
    · exact best_simple (.inr (.inr (.inr (.inl rfl)))) (by intro t'; cases t' <;> decide)
    · exact best_simple (.inr (.inr (.inr (.inr (.inl ⟨rfl, gap_head hv (by decide)⟩))))) (by intro t'; cases t' <;> decide)
    · exact best_simple (.inr (.inr (.inr (.inr (.inr (.inl ⟨rfl, gap_head hv (by decide)⟩)))))) (by intro t'; cases t' <;> decide)
    · exact best_simple (.inr (.inr (.inr (.inr (.inr (.inr (.inl (keyword_here wb wv)))))))) (by intro t'; cases t' <;> decide)
    · exact best_simple (.inr (.inr (.inr (.inr (.inr (.inr (.inr (keyword_here wb wv)))))))) (by intro t'; cases t' <;> decide)

/-- Tokens without their positions. -/
def bare (ts : List Token) : List (TokType × Str) := ts.map fun t => (t.type, t.text)

theorem gap_reverse {u b : Str} (hu : Blank u) (hb : u = [] → Gap b) : Gap (u.reverse ++ b) := by
  rcases List.eq_nil_or_concat u with rfl | ⟨u', c, rfl⟩
  · exact hb rfl
  · refine .inr ⟨c, u'.reverse ++ b, by simp, hu c (by simp)⟩

theorem lexed_spaced : ∀ (ps : List (TokType × Str)) (b s : Str), (∀ p ∈ ps, ∃ b v, Matches p.1 b p.2 v) →
    Spaced (ps.map Prod.snd) s → (b = [] ∨ Gap s) → ∃ ts, Lexed b s ts ∧ bare ts = ps
  | [], b, s, _, hs, _ => ⟨[], .done hs, rfl⟩
  | (t, w) :: ps, b, s, hm, hs, hb => by
    obtain ⟨u, v, rfl, hu, hv, hrest⟩ := hs
    obtain ⟨b0, v0, h0⟩ := hm (t, w) (by simp)
    have hne := matches_ne_nil h0
    have hgap : Gap (u.reverse ++ b) := by
      refine gap_reverse hu ?_
      rintro rfl
      rcases hb with rfl | hb
      · exact .inl rfl
      · exfalso
        have hsol := matches_solid h0
        cases w with
        | nil => exact hne rfl
        | cons c w =>
          rcases hb with h | ⟨c', r, h, hc⟩
          · cases h
          · rw [List.nil_append, List.cons_append] at h
            obtain ⟨rfl, _⟩ := List.cons.inj h
            rw [show isSpace c = false from hsol] at hc; cases hc
    have hbest : Best t (u.reverse ++ b) w v := best_gap h0 hgap hv
    obtain ⟨ts, hl, hts⟩ := lexed_spaced ps (w.reverse ++ (u.reverse ++ b)) v (fun p hp => hm p (List.mem_cons_of_mem _ hp)) hrest
      (.inr hv)
    exact ⟨_, .token hu (matches_solid hbest.1) hne hbest hl, by simp [bare] at hts ⊢; exact hts⟩

/-! ### Parsing does not look at positions -/

theorem bare_append {ts us vs : List Token} (h : bare vs = bare (ts ++ us)) : ∃ ts' us', vs = ts' ++ us' ∧ bare ts' = bare ts ∧ bare us' = bare us := by
  unfold bare at h
  rw [List.map_append] at h
  obtain ⟨a, b, h1, h2, h3⟩ := List.map_eq_append_iff.mp h
  exact ⟨a, b, h1, h2, h3⟩

theorem bare_singleton {t : Token} {vs : List Token} (h : bare vs = bare [t]) : ∃ t', vs = [t'] ∧ t'.type = t.type ∧ t'.text = t.text := by
  match vs, h with
  | [], h => cases h
  | [t'], h => simp [bare] at h; exact ⟨t', rfl, h.1, h.2⟩
  | _ :: _ :: _, h => simp [bare] at h

theorem bare_cons {t : Token} {us vs : List Token} (h : bare vs = bare (t :: us)) :
    ∃ t' us', vs = t' :: us' ∧ t'.type = t.type ∧ t'.text = t.text ∧ bare us' = bare us := by
  match vs, h with
  | [], h => cases h
  | t' :: us', h => simp [bare] at h; exact ⟨t', us', rfl, h.1.1, h.1.2, by simpa [bare] using h.2⟩

theorem derives_bare {ts : List Token} {e : Expr} (h : Derives ts e) : ∀ {us : List Token}, bare us = bare ts → Derives us e := by
  have binary : ∀ {ts us vs : List Token} {o : Token}, bare vs = bare (ts ++ [o] ++ us) →
      ∃ ts' o' us', vs = ts' ++ [o'] ++ us' ∧ bare ts' = bare ts ∧ bare us' = bare us ∧ o'.type = o.type ∧ o'.text = o.text := by
    intro ts us vs o h
    obtain ⟨x, us', rfl, h1, h2⟩ := bare_append h
    obtain ⟨ts', y, rfl, h3, h4⟩ := bare_append h1
    obtain ⟨o', rfl, h5, h6⟩ := bare_singleton h4
    exact ⟨ts', o', us', rfl, h3, h2, h5, h6⟩
  induction h with
  | paren o c ho hc _ ih =>
    intro us hus
    obtain ⟨x, y, rfl, h1, h2⟩ := bare_append hus
    obtain ⟨o', z, rfl, h3, _, h4⟩ := bare_cons h1
    obtain ⟨c', rfl, h5, _⟩ := bare_singleton h2
    exact .paren o' c' (h3.trans ho) (h5.trans hc) (ih h4)
  | not n hn _ ih =>
    intro us hus
    obtain ⟨o', z, rfl, h3, _, h4⟩ := bare_cons hus
    exact .not o' (h3.trans hn) (ih h4)
  | dropKeep t d ht h =>
    intro us hus
    obtain ⟨t', rfl, h1, h2⟩ := bare_singleton hus
    exact .dropKeep t' d (h1.trans ht) (h2 ▸ h)
  | dice t d ht h =>
    intro us hus
    obtain ⟨t', rfl, h1, h2⟩ := bare_singleton hus
    exact .dice t' d (h1.trans ht) (h2 ▸ h)
  | constInt t ht =>
    intro us hus
    obtain ⟨t', rfl, h1, h2⟩ := bare_singleton hus
    exact h2 ▸ .constInt t' (h1.trans ht)
  | constBin t ht =>
    intro us hus
    obtain ⟨t', rfl, h1, h2⟩ := bare_singleton hus
    exact h2 ▸ .constBin t' (h1.trans ht)
  | getVar t ht =>
    intro us hus
    obtain ⟨t', rfl, h1, h2⟩ := bare_singleton hus
    exact h2 ▸ .getVar t' (h1.trans ht)
  | add o ho _ _ iha ihb =>
    intro us hus
    obtain ⟨x, o', y, rfl, h1, h2, h3, h4⟩ := binary hus
    exact .add o' (h3.trans ho) (iha h1) (ihb h2)
  | sub o ho _ _ iha ihb =>
    intro us hus
    obtain ⟨x, o', y, rfl, h1, h2, h3, h4⟩ := binary hus
    exact .sub o' (h3.trans ho) (iha h1) (ihb h2)
  | mul o ho _ _ iha ihb =>
    intro us hus
    obtain ⟨x, o', y, rfl, h1, h2, h3, h4⟩ := binary hus
    exact .mul o' (h3.trans ho) (iha h1) (ihb h2)
  | div o ho _ _ iha ihb =>
    intro us hus
    obtain ⟨x, o', y, rfl, h1, h2, h3, h4⟩ := binary hus
    exact .div o' (h3.trans ho) (iha h1) (ihb h2)
  | bin o op ho hop _ _ iha ihb =>
    intro us hus
    obtain ⟨x, o', y, rfl, h1, h2, h3, h4⟩ := binary hus
    exact .bin o' op (h3.trans ho) (h4.trans hop) (iha h1) (ihb h2)
  | minmax m o k c isMax hm hmt ho hk hc _ _ iha ihb =>
    intro us hus
    obtain ⟨x, y, rfl, h1, h2⟩ := bare_append hus
    obtain ⟨c', rfl, h3, _⟩ := bare_singleton h2
    obtain ⟨x', z, rfl, h4, h5⟩ := bare_append h1
    obtain ⟨p, q, rfl, h6, h7⟩ := bare_append h4
    obtain ⟨k', rfl, h8, _⟩ := bare_singleton h7
    obtain ⟨m', r, rfl, h9, h10, h11⟩ := bare_cons h6
    obtain ⟨o', s, rfl, h12, _, h13⟩ := bare_cons h11
    exact .minmax m' o' k' c' isMax (h9.trans hm) (h10.trans hmt) (h12.trans ho) (h8.trans hk) (h3.trans hc) (iha h13) (ihb h5)
  | abs m o c hm ho hc _ ih =>
    intro us hus
    obtain ⟨x, y, rfl, h1, h2⟩ := bare_append hus
    obtain ⟨c', rfl, h3, _⟩ := bare_singleton h2
    obtain ⟨m', r, rfl, h9, h10, h11⟩ := bare_cons h1
    obtain ⟨o', s, rfl, h12, _, h13⟩ := bare_cons h11
    exact .abs m' o' c' (h9.trans hm) (h12.trans ho) (h3.trans hc) (ih h13)
  | assign v n a hv hn ha _ ih =>
    intro us hus
    obtain ⟨v', r, rfl, h1, _, h2⟩ := bare_cons hus
    obtain ⟨n', s, rfl, h3, h4, h5⟩ := bare_cons h2
    obtain ⟨a', x, rfl, h6, _, h7⟩ := bare_cons h5
    exact h4 ▸ .assign v' n' a' (h1.trans hv) (h3.trans hn) (h6.trans ha) (ih h7)

/-! ### Texts in brackets -/

/-- What a rule can see of the text before. -/
def Alike (b b' : Str) : Prop := (WordNext b ↔ WordNext b') ∧ (b.head? = some '=' ↔ b'.head? = some '=')

theorem alike_append {w b b' : Str} (h : w = [] → Alike b b') : Alike (w.reverse ++ b) (w.reverse ++ b') := by
  rcases List.eq_nil_or_concat w with rfl | ⟨w', c, rfl⟩
  · exact h rfl
  · rw [List.concat_eq_append, List.reverse_append]; exact ⟨Iff.rfl, Iff.rfl⟩

theorem matches_alike {t : TokType} {b b' w v : Str} (h : Alike b b') (hm : Matches t b w v) : Matches t b' w v := by
  cases t <;> simp only [Matches, Keyword, h.1, h.2, ne_eq] at hm ⊢ <;> exact hm

theorem alike_symm {b b' : Str} (h : Alike b b') : Alike b' b := ⟨h.1.symm, h.2.symm⟩

/-- Text that no rule minds to find after its match. -/
def Inert (r : Str) : Prop := ¬ WordNext r ∧ ¬ DigitNext r ∧ r.head? ≠ some '='

theorem inert_close (r : Str) : Inert (')' :: r) := ⟨by simp [WordNext]; decide, by simp [DigitNext]; decide, by simp⟩

theorem inert_blank {u : Str} (h : Blank u) : Inert u := by
  have hg : Gap u := by
    cases u with
    | nil => exact .inl rfl
    | cons c u => exact .inr ⟨c, u, rfl, h c (by simp)⟩
  exact ⟨gap_word hg, after_digit (gap_after hg), gap_head hg (by decide)⟩

section
variable {r : Str} (hr : Inert r)
include hr

theorem wordNext_inert (v : Str) : WordNext (v ++ r) ↔ WordNext v := by
  cases v with
  | nil => simp only [List.nil_append, hr.1, false_iff]; simp [WordNext]
  | cons c v => rfl

theorem digitNext_inert (v : Str) : DigitNext (v ++ r) ↔ DigitNext v := by
  cases v with
  | nil => simp only [List.nil_append, hr.2.1, false_iff]; simp [DigitNext]
  | cons c v => rfl

theorem head_inert (v : Str) : (v ++ r).head? = some '=' ↔ v.head? = some '=' := by
  cases v with
  | nil => simp [hr.2.2]
  | cons c v => rfl

theorem diceType_inert (ty v : Str) : DiceType ty (v ++ r) ↔ DiceType ty v := by
  unfold DiceType; rw [digitNext_inert hr]

theorem matches_inert {t : TokType} {b w v : Str} : Matches t b w (v ++ r) ↔ Matches t b w v := by
  cases t <;> simp only [Matches, Keyword, wordNext_inert hr, digitNext_inert hr, head_inert hr, diceType_inert hr, ne_eq]
  case dropKeep => simp only [← List.append_assoc, diceType_inert hr]

end

theorem matches_close {t : TokType} {b w v r : Str} : Matches t b w (v ++ ')' :: r) ↔ Matches t b w v := matches_inert (inert_close r)

theorem padded_no_bracket {x : Str} (h : Padded x) : ')' ∉ x := by
  obtain ⟨u, e, v, rfl, hu, he, hv⟩ := h
  intro hm
  simp only [List.mem_append] at hm
  rcases hm with (hm | hm) | hm
  · exact absurd (hu _ hm) (by decide)
  · exact absurd (entry_chars he _ hm) (by decide)
  · exact absurd (hv _ hm) (by decide)

theorem digits_no_bracket {n : Str} (h : Digits n) : ')' ∉ n := fun hm => absurd (h _ hm) (by decide)

theorem custom_no_bracket {w : Str} (h : Custom w) : ')' ∉ w := by
  obtain ⟨xs, tail, _, hp, ht, rfl⟩ := h
  have h1 := join_chars (p := fun c => c != ')') ',' (by decide) xs (fun x hx c hc => by
    simp only [bne_iff_ne]; rintro rfl; exact padded_no_bracket (hp x hx) hc)
  intro hm
  simp only [List.mem_cons, List.mem_append] at hm
  rcases hm with hm | (hm | hm) | hm | hm
  · exact absurd hm (by decide)
  · have := h1 _ hm; simp at this
  · rcases ht with rfl | ⟨u, rfl, hu⟩
    · simp at hm
    · simp only [List.mem_cons] at hm
      rcases hm with hm | hm
      · exact absurd hm (by decide)
      · exact absurd (hu _ hm) (by decide)
  · exact absurd hm (by decide)
  · simp at hm

theorem diceType_no_bracket {w v : Str} (h : DiceType w v) : ')' ∉ w := by
  rcases h with ⟨_, h, _⟩ | rfl | rfl | h
  · exact digits_no_bracket h
  · decide
  · decide
  · exact custom_no_bracket h

theorem matches_bracket {t : TokType} {b w v : Str} (h : Matches t b w v) (hm : ')' ∈ w) : w = [')'] := by
  cases t
  case closeP => exact h
  case dropKeep =>
    exfalso
    obtain ⟨n, ty, k, m, rfl, hn, hty, hk, _, hd, _⟩ := h
    simp only [List.mem_cons, List.mem_append] at hm
    rcases hm with (hm | hm | hm) | hm | hm
    · exact digits_no_bracket hn hm
    · exact absurd hm (by decide)
    · exact diceType_no_bracket hty hm
    · rcases hk with rfl | rfl <;> exact absurd hm (by decide)
    · exact digits_no_bracket hd hm
  case dice =>
    exfalso
    obtain ⟨n, ty, rfl, hn, hty⟩ := h
    simp only [List.mem_cons, List.mem_append] at hm
    rcases hm with hm | hm | hm
    · exact digits_no_bracket hn hm
    · exact absurd hm (by decide)
    · exact diceType_no_bracket hty hm
  case constInt =>
    exfalso
    obtain ⟨⟨n, hn, rfl⟩, _⟩ := h
    unfold Num.text at hm
    split at hm
    · simp only [List.mem_cons] at hm
      rcases hm with hm | hm
      · exact absurd hm (by decide)
      · exact digits_no_bracket hn.2 hm
    · exact digits_no_bracket hn.2 hm
  case name =>
    exfalso
    have := h.2.1 _ hm
    revert this
    unfold NameLetter
    decide
  all_goals
    exfalso
    simp only [Matches, Keyword] at h
    first
      | (subst h; revert hm; decide)
      | (rcases h with rfl | rfl | rfl | rfl | ⟨rfl, _⟩ | ⟨rfl, _⟩ | ⟨rfl, _⟩ | ⟨rfl, _⟩ <;> (revert hm; decide))
      | (rcases h with ⟨rfl, _⟩ | ⟨rfl, _⟩ <;> (revert hm; decide))
      | (obtain ⟨rfl, _⟩ := h; revert hm; decide)

theorem applies_close {t : TokType} {b s r : Str} (hs : s ≠ []) (h : Applies t b (s ++ ')' :: r)) : Applies t b s := by
  obtain ⟨w, v, h1, h2⟩ := h
  rcases List.append_eq_append_iff.mp h1 with ⟨a, rfl, ha⟩ | ⟨a, rfl, ha⟩
  · cases a with
    | nil =>
      rw [List.append_nil] at h2
      refine ⟨s, [], by simp, ?_⟩
      rw [List.nil_append] at ha
      rw [← ha] at h2
      exact (matches_close (v := [])).mp h2
    | cons c a =>
      rw [List.cons_append, List.cons.injEq] at ha
      obtain ⟨rfl, _⟩ := ha
      have := matches_bracket h2 (by simp)
      cases s with
      | nil => exact absurd rfl hs
      | cons x s => simp at this
  · rw [ha] at h2
    exact ⟨w, a, rfl, matches_close.mp h2⟩

theorem best_close_after {t : TokType} {b b' w v r : Str} (hb : Alike b b') (h : Best t b w v) : Best t b' w (v ++ ')' :: r) := by
  refine ⟨matches_close.mpr (matches_alike hb h.1), fun t' hr ha => ?_⟩
  rw [← List.append_assoc] at ha
  have hne : w ++ v ≠ [] := by
    have := matches_ne_nil h.1
    cases w with
    | nil => exact absurd rfl this
    | cons => simp
  obtain ⟨w', v', h1, h2⟩ := applies_close hne ha
  exact h.2 t' hr ⟨w', v', h1, matches_alike (alike_symm hb) h2⟩

theorem lexed_close {b s : Str} {ts : List Token} (h : Lexed b s ts) : ∀ (b' r : Str) (us : List Token), Alike b b' →
    Lexed (s.reverse ++ b') (')' :: r) us → ∃ ts', bare ts' = bare ts ∧ Lexed b' (s ++ ')' :: r) (ts' ++ us) := by
  induction h with
  | done h => intro b' r us _ hus; exact ⟨[], rfl, lexed_skip h hus⟩
  | token hu hs hne ht rest ih =>
    rename_i b u w v t ts
    intro b' r us hb hus
    have hb' : Alike (u.reverse ++ b) (u.reverse ++ b') := alike_append fun _ => hb
    obtain ⟨ts', h1, h2⟩ := ih (w.reverse ++ (u.reverse ++ b')) r us (alike_append fun _ => hb') (by simpa using hus)
    have hbest := best_close_after (r := r) hb' ht
    have := Lexed.token hu (matches_solid hbest.1) hne hbest h2
    refine ⟨⟨t, w, b'.length + u.length⟩ :: ts', by simp [bare] at h1 ⊢; exact h1, ?_⟩
    simpa using this

/-- A text that is read as tokens is read the same between brackets. -/
theorem reads_bracket {s : Str} {ts : List Token} (h : Lexed [] s ts) (b r : Str) :
    Reads b ('(' :: (s ++ [')'])) r (fun us => ∃ o c us', us = [o] ++ us' ++ [c] ∧ o.type = .openP ∧ c.type = .closeP ∧ bare us' = bare ts) := by
  intro vs hvs
  obtain ⟨x, ⟨i, rfl⟩, h1⟩ := reads_token (best_close (s.reverse ++ '(' :: b) r) vs (by simpa using hvs)
  obtain ⟨ts', h2, h3⟩ := lexed_close h ('(' :: b) r _ (by
    refine ⟨?_, ?_⟩
    · simp only [WordNext, false_iff]; decide
    · simp) h1
  obtain ⟨y, ⟨j, rfl⟩, h4⟩ := reads_token (best_open b (s ++ ')' :: r)) _ h3
  exact ⟨[⟨.openP, ['('], j⟩] ++ ts' ++ [⟨.closeP, [')'], i⟩], ⟨_, _, _, rfl, rfl, rfl, h2⟩, by simpa using h4⟩

/-! ### Whitespace around a text -/

theorem ends_append {u w : Str} {c : Char} {d : Char} {w0 : Str} (h : u ++ d :: w = w0 ++ [c]) : c = d ∧ w = [] ∨ ∃ w1, w = w1 ++ [c] := by
  rcases List.eq_nil_or_concat w with rfl | ⟨w1, x, rfl⟩
  · left
    have := List.append_inj' h rfl
    simp at this
    exact ⟨this.2.symm, rfl⟩
  · right
    rw [List.concat_eq_append] at h ⊢
    have : (u ++ d :: w1) ++ [x] = w0 ++ [c] := by simpa using h
    have := List.append_inj' this rfl
    simp at this
    exact ⟨w1, by rw [this.2]⟩

theorem digits_end {w w0 : Str} {c : Char} (h : Digits w) (hw : w = w0 ++ [c]) : isSpace c = false :=
  digit_not_space (h c (by rw [hw]; simp))

theorem diceType_end {w v w0 : Str} {c : Char} (h : DiceType w v) (hw : w = w0 ++ [c]) : isSpace c = false := by
  rcases h with ⟨_, h, _⟩ | rfl | rfl | h
  · exact digits_end h hw
  · cases w0 with
    | nil => cases hw; decide
    | cons x w0 => simp at hw
  · cases w0 with
    | nil => cases hw; decide
    | cons x w0 => simp at hw
  · obtain ⟨body, rfl, _⟩ := Re.custom_shape h
    have hw' : ('[' :: body) ++ [']'] = w0 ++ [c] := hw
    have := List.append_inj' hw' rfl
    simp at this
    rw [← this.2]; decide

theorem matches_end {t : TokType} {b w v w0 : Str} {c : Char} (h : Matches t b w v) (hw : w = w0 ++ [c]) : isSpace c = false := by
  have fixed : ∀ k : Str, w = k → (∀ c ∈ k, isSpace c = false) → isSpace c = false := by
    rintro k rfl hk; exact hk c (by rw [hw]; simp)
  cases t
  case dropKeep =>
    obtain ⟨n, ty, k, m, rfl, hn, hty, hk, hne, hd, _⟩ := h
    rcases ends_append (u := n ++ 'd' :: ty) hw with ⟨_, h⟩ | ⟨w1, h⟩
    · exact absurd h hne
    · exact digits_end hd h
  case dice =>
    obtain ⟨n, ty, rfl, hn, hty⟩ := h
    rcases ends_append hw with ⟨rfl, _⟩ | ⟨w1, h⟩
    · decide
    · exact diceType_end hty h
  case constInt =>
    obtain ⟨⟨n, hn, rfl⟩, _⟩ := h
    unfold Num.text at hw
    split at hw
    · rcases ends_append (u := []) hw with ⟨rfl, _⟩ | ⟨w1, h⟩
      · decide
      · exact digits_end hn.2 h
    · exact digits_end hn.2 hw
  case name => exact name_not_space (h.2.1 c (by rw [hw]; simp))
  all_goals
    simp only [Matches, Keyword] at h
    first
      | exact fixed _ h (by decide)
      | (rcases h with h | h | h | h | ⟨h, _⟩ | ⟨h, _⟩ | ⟨h, _⟩ | ⟨h, _⟩ <;> exact fixed _ h (by decide))
      | (rcases h with ⟨h, _⟩ | ⟨h, _⟩ <;> exact fixed _ h (by decide))
      | exact fixed _ h.1 (by decide)

theorem applies_blank {t : TokType} {b s u : Str} (hu : Blank u) (h : Applies t b (s ++ u)) : Applies t b s := by
  obtain ⟨w, v, h1, h2⟩ := h
  rcases List.append_eq_append_iff.mp h1 with ⟨a, rfl, ha⟩ | ⟨a, rfl, ha⟩
  · rcases List.eq_nil_or_concat a with rfl | ⟨a', c, rfl⟩
    · rw [List.append_nil] at h2
      rw [List.nil_append] at ha
      subst ha
      exact ⟨s, [], by simp, (matches_inert (inert_blank hu) (v := [])).mp h2⟩
    · have hc : isSpace c = false := matches_end h2 (w0 := s ++ a') (by simp)
      rw [hu c (by rw [ha]; simp)] at hc; cases hc
  · subst ha
    exact ⟨w, a, rfl, (matches_inert (inert_blank hu)).mp h2⟩

theorem best_blank {t : TokType} {b b' w v u : Str} (hu : Blank u) (hb : Alike b b') (h : Best t b w v) : Best t b' w (v ++ u) := by
  refine ⟨(matches_inert (inert_blank hu)).mpr (matches_alike hb h.1), fun t' hr ha => ?_⟩
  rw [← List.append_assoc] at ha
  obtain ⟨w', v', h1, h2⟩ := applies_blank hu ha
  exact h.2 t' hr ⟨w', v', h1, matches_alike (alike_symm hb) h2⟩

theorem lexed_blank {b s : Str} {ts : List Token} (h : Lexed b s ts) : ∀ (b' u : Str), Blank u → Alike b b' →
    ∃ ts', bare ts' = bare ts ∧ Lexed b' (s ++ u) ts' := by
  induction h with
  | done h => intro b' u hu _; exact ⟨[], rfl, .done (Re.blank_append h hu)⟩
  | token hu hs hne ht rest ih =>
    rename_i b u w v t ts
    intro b' u' hu' hb
    have hb' : Alike (u.reverse ++ b) (u.reverse ++ b') := alike_append fun _ => hb
    obtain ⟨ts', h1, h2⟩ := ih (w.reverse ++ (u.reverse ++ b')) u' hu' (alike_append fun _ => hb')
    have hbest := best_blank hu' hb' ht
    have := Lexed.token hu (matches_solid hbest.1) hne hbest h2
    refine ⟨⟨t, w, b'.length + u.length⟩ :: ts', by simp [bare] at h1 ⊢; exact h1, ?_⟩
    simpa using this

theorem lexed_around {u s v : Str} {ts : List Token} (h : Lexed [] s ts) (hu : Blank u) (hv : Blank v) :
    ∃ us, Lexed [] (u ++ s ++ v) us ∧ bare us = bare ts := by
  have hg : Gap (u.reverse ++ []) := gap_reverse hu fun _ => .inl rfl
  obtain ⟨us, h1, h2⟩ := lexed_blank h (u.reverse ++ []) v hv (by
    refine ⟨?_, ?_⟩
    · simp only [gap_word hg, iff_false]; simp [WordNext]
    · simp only [gap_head hg (x := '=') (by decide), iff_false]; simp)
  exact ⟨us, by rw [List.append_assoc]; exact lexed_skip hu h2, h1⟩

end PyDice
