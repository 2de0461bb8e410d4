import Verif.Lemmas.Layout
import Verif.Lemmas.Lexer
/-!
# The texts of dice tokens: none of their numbers has a minus sign
-/
namespace PyDice
open LexSpec

/-- No character at which the constructor of drop and keep dice splits. -/
def NoMark (w : Str) : Prop := ∀ c ∈ w, (c == 'd' || c == 'k') = false

instance (w : Str) : Decidable (NoMark w) := by unfold NoMark; infer_instance

theorem noMark_digits {w : Str} (h : Digits w) : NoMark w := by
  intro c hc
  by_contra hn
  have hd := h c hc
  simp only [Bool.not_eq_false, Bool.or_eq_true, beq_iff_eq] at hn
  rcases hn with rfl | rfl <;> exact absurd hd (by decide)

theorem noMark_blank {w : Str} (h : Blank w) : NoMark w := by
  intro c hc
  by_contra hn
  have hd := h c hc
  simp only [Bool.not_eq_false, Bool.or_eq_true, beq_iff_eq] at hn
  rcases hn with rfl | rfl <;> exact absurd hd (by decide)

theorem noMark_entry {e : Entry} (h : e.WF) : NoMark e.text := by
  intro c hc
  by_contra hn
  have hd := entry_chars h c hc
  simp only [Bool.not_eq_false, Bool.or_eq_true, beq_iff_eq] at hn
  rcases hn with rfl | rfl <;> exact absurd hd (by decide)

theorem noMark_append {v w : Str} (hv : NoMark v) (hw : NoMark w) : NoMark (v ++ w) := by
  intro c hc
  rcases List.mem_append.mp hc with h | h
  · exact hv c h
  · exact hw c h

theorem noMark_custom {w : Str} (h : Custom w) : NoMark w := by
  obtain ⟨xs, tail, _, hp, ht, rfl⟩ := h
  have h1 : NoMark (joinWith ',' xs) := by
    intro c hc
    have := join_chars (p := fun c => !(c == 'd' || c == 'k')) ',' (by decide) xs (fun x hx c hc => by
      obtain ⟨u, e, v, rfl, hu, he, hv⟩ := hp x hx
      have := noMark_append (noMark_append (noMark_blank hu) (noMark_entry he)) (noMark_blank hv) c hc
      simpa using this) c hc
    simpa using this
  have h2 : NoMark tail := by
    rcases ht with rfl | ⟨u, rfl, hu⟩
    · intro c hc; cases hc
    · exact noMark_append (v := [',']) (by decide) (noMark_blank hu)
  exact noMark_append (v := ['[']) (by decide) (noMark_append (noMark_append h1 h2) (by decide))

theorem noMark_diceType {w v : Str} (h : DiceType w v) : NoMark w := by
  rcases h with ⟨_, h, _⟩ | rfl | rfl | h
  · exact noMark_digits h
  · decide
  · decide
  · exact noMark_custom h

theorem digits_head {n : Str} (h : Digits n) (t : Str) (ht : t.head? ≠ some '-') : (n ++ t).head? ≠ some '-' := by
  cases n with
  | nil => exact ht
  | cons c n =>
    intro e
    simp only [List.cons_append, List.head?_cons, Option.some.injEq] at e
    subst e
    exact absurd (h _ List.mem_cons_self) (by decide)

theorem dice_no_minus {b w v : Str} (h : Matches .dice b w v) : w.head? ≠ some '-' := by
  obtain ⟨n, ty, rfl, hn, _⟩ := h
  exact digits_head hn _ (by simp)

theorem dropKeep_no_minus {b w v : Str} (h : Matches .dropKeep b w v) : w.head? ≠ some '-' ∧
    ∀ p, pyIndex (splitOn (fun c => c == 'd' || c == 'k') w) 2 = .ok p → p.head? ≠ some '-' := by
  obtain ⟨n, ty, k, m, rfl, hn, hty, hk, hne, hm, _⟩ := h
  refine ⟨by rw [List.append_assoc]; exact digits_head hn _ (by simp), ?_⟩
  have e : splitOn (fun c => c == 'd' || c == 'k') (n ++ 'd' :: ty ++ k :: m) = [n, ty, m] := by
    rw [List.append_assoc, List.cons_append, splitOn_sep (noMark_digits hn) (by decide),
      splitOn_sep (noMark_diceType hty) (by rcases hk with rfl | rfl <;> decide), splitOn_clean (noMark_digits hm)]
  intro p hp
  rw [e] at hp
  have : p = m := by
    have h2 : pyIndex [n, ty, m] 2 = .ok m := rfl
    rw [h2] at hp
    exact (Except.ok.inj hp).symm
  subst this
  have := digits_head hm [] (by simp)
  rwa [List.append_nil] at this

/-- The text of a token of the lexer is one its rule matches. -/
theorem lexed_matches {b s : Str} {ts : List Token} (h : Lexed b s ts) : ∀ t ∈ ts, ∃ b v, Matches t.type b t.text v := by
  induction h with
  | done => intro t ht; cases ht
  | token hu hs hne hb rest ih =>
    intro t ht
    rcases List.mem_cons.mp ht with rfl | ht
    · exact ⟨_, _, hb.1⟩
    · exact ih t ht

theorem lex_matches {text : Str} {ts : List Token} (h : lex text = .ok ts) : ∀ t ∈ ts, ∃ b v, Matches t.type b t.text v := by
  refine lexed_matches (b := []) (s := text) (lexText_tokens.mp ?_)
  unfold lex at h
  cases e : lexText text with
  | tokens l => rw [e] at h; cases h; rfl
  | diverges => rw [e] at h; cases h
  | lexingError i =>
    rw [e] at h
    simp only at h
    split at h <;> cases h

end PyDice
