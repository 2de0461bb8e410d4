import Verif.Regex
import Verif.Lemmas.Text
/-!
# The words a pattern without look-around matches
-/

namespace PyDice
namespace Re

/-- No look-around. -/
def Plain : Re → Prop
  | .eps => True
  | .cls _ => True
  | .seq r s => r.Plain ∧ s.Plain
  | .alt r s => r.Plain ∧ s.Plain
  | .star r => r.Plain
  | .opt r => r.Plain
  | .notAhead _ => False
  | .notBehind _ => False
  | .wordB => False

/-- Repetition of non-empty words. -/
inductive Rep (L : Str → Prop) : Str → Prop where
  | nil : Rep L []
  | cons {u v : Str} (hu : L u) (hne : u ≠ []) (hv : Rep L v) : Rep L (u ++ v)

/-- The words of a pattern. -/
def Lang : Re → Str → Prop
  | .eps, w => w = []
  | .cls p, w => ∃ c, w = [c] ∧ p c = true
  | .seq r s, w => ∃ u v, w = u ++ v ∧ r.Lang u ∧ s.Lang v
  | .alt r s, w => r.Lang w ∨ s.Lang w
  | .star r, w => Rep r.Lang w
  | .opt r, w => r.Lang w ∨ w = []
  | .notAhead _, _ => False
  | .notBehind _, _ => False
  | .wordB, _ => False

theorem mem_starN {m : Pos → List Pos} {L : Str → Prop}
    (hm : ∀ b s q, q ∈ m ⟨b, s⟩ ↔ ∃ w v, s = w ++ v ∧ L w ∧ q = ⟨w.reverse ++ b, v⟩) :
    ∀ (n : Nat) (b s : Str) (q : Pos), s.length ≤ n →
      (q ∈ starN m n ⟨b, s⟩ ↔ ∃ w v, s = w ++ v ∧ Rep L w ∧ q = ⟨w.reverse ++ b, v⟩) := by
  intro n
  induction n with
  | zero =>
    intro b s q hs
    have : s = [] := List.length_eq_zero_iff.mp (by omega)
    subst this
    simp only [starN, List.mem_singleton]
    constructor
    · rintro rfl; exact ⟨[], [], rfl, .nil, rfl⟩
    · rintro ⟨w, v, h, _, rfl⟩
      obtain ⟨rfl, rfl⟩ := List.append_eq_nil_iff.mp h.symm
      rfl
  | succ n ih =>
    intro b s q hs
    simp only [starN, List.mem_append, List.mem_flatMap, List.mem_filter, List.mem_singleton, decide_eq_true_eq]
    constructor
    · rintro (⟨q', ⟨hq', hlt⟩, hq⟩ | rfl)
      · obtain ⟨u, v, rfl, hu, rfl⟩ := (hm b s q').mp hq'
        simp only [List.length_append] at hlt hs
        obtain ⟨w, v', rfl, hw, rfl⟩ := (ih _ v q (by omega)).mp hq
        refine ⟨u ++ w, v', by simp, .cons hu ?_ hw, by simp⟩
        rintro rfl; simp at hlt
      · exact ⟨[], s, rfl, .nil, rfl⟩
    · rintro ⟨w, v, rfl, hw, rfl⟩
      cases hw with
      | nil => exact Or.inr rfl
      | cons hu hne hv =>
        rename_i u w
        refine Or.inl ⟨⟨u.reverse ++ b, w ++ v⟩, ⟨(hm _ _ _).mpr ⟨u, w ++ v, by simp, hu, rfl⟩, ?_⟩, ?_⟩
        · have : 0 < u.length := List.length_pos_iff.mpr hne
          simpa using this
        · refine (ih _ _ _ ?_).mpr ⟨w, v, rfl, hv, by simp⟩
          have : 0 < u.length := List.length_pos_iff.mpr hne
          simp only [List.length_append] at hs ⊢
          omega

/-- For a pattern without look-around, the ends of its matches are exactly the positions after a word of the pattern. -/
theorem mem_matchesAt : ∀ (r : Re), r.Plain → ∀ (b s : Str) (q : Pos),
    q ∈ matchesAt r ⟨b, s⟩ ↔ ∃ w v, s = w ++ v ∧ r.Lang w ∧ q = ⟨w.reverse ++ b, v⟩ := by
  intro r
  induction r with
  | eps =>
    intro _ b s q
    simp only [matchesAt, List.mem_singleton, Lang]
    constructor
    · rintro rfl; exact ⟨[], s, rfl, rfl, rfl⟩
    · rintro ⟨w, v, rfl, rfl, rfl⟩; rfl
  | cls p =>
    intro _ b s q
    cases s with
    | nil =>
      simp only [matchesAt, List.not_mem_nil, Lang, false_iff]
      rintro ⟨w, v, h, ⟨c, rfl, _⟩, _⟩
      simp at h
    | cons x s =>
      simp only [matchesAt, Lang]
      by_cases hx : p x = true
      · rw [if_pos hx, List.mem_singleton]
        constructor
        · rintro rfl; exact ⟨[x], s, rfl, ⟨x, rfl, hx⟩, rfl⟩
        · rintro ⟨w, v, h, ⟨c, rfl, _⟩, rfl⟩
          simp only [List.cons_append, List.nil_append, List.cons.injEq] at h
          obtain ⟨rfl, rfl⟩ := h
          rfl
      · rw [if_neg hx]
        simp only [List.not_mem_nil, false_iff]
        rintro ⟨w, v, h, ⟨c, rfl, hc⟩, _⟩
        simp only [List.cons_append, List.nil_append, List.cons.injEq] at h
        rw [h.1] at hx; exact hx hc
  | seq r s ihr ihs =>
    intro hp b t q
    simp only [matchesAt, List.mem_flatMap, Lang]
    constructor
    · rintro ⟨q', h1, h2⟩
      obtain ⟨u, v, rfl, hu, rfl⟩ := (ihr hp.1 _ _ _).mp h1
      obtain ⟨u', v', rfl, hu', rfl⟩ := (ihs hp.2 _ _ _).mp h2
      exact ⟨u ++ u', v', by simp, ⟨u, u', rfl, hu, hu'⟩, by simp⟩
    · rintro ⟨w, v, rfl, ⟨u, u', rfl, hu, hu'⟩, rfl⟩
      refine ⟨⟨u.reverse ++ b, u' ++ v⟩, (ihr hp.1 _ _ _).mpr ⟨u, u' ++ v, by simp, hu, rfl⟩, ?_⟩
      exact (ihs hp.2 _ _ _).mpr ⟨u', v, rfl, hu', by simp⟩
  | alt r s ihr ihs =>
    intro hp b t q
    simp only [matchesAt, List.mem_append, Lang, ihr hp.1, ihs hp.2]
    constructor
    · rintro (⟨w, v, h1, h2, h3⟩ | ⟨w, v, h1, h2, h3⟩)
      · exact ⟨w, v, h1, Or.inl h2, h3⟩
      · exact ⟨w, v, h1, Or.inr h2, h3⟩
    · rintro ⟨w, v, h1, h2 | h2, h3⟩
      · exact Or.inl ⟨w, v, h1, h2, h3⟩
      · exact Or.inr ⟨w, v, h1, h2, h3⟩
  | star r ih =>
    intro hp b t q
    exact mem_starN (ih hp) _ b t q (Nat.le_refl _)
  | opt r ih =>
    intro hp b t q
    simp only [matchesAt, List.mem_append, List.mem_singleton, Lang, ih hp]
    constructor
    · rintro (⟨w, v, h1, h2, h3⟩ | rfl)
      · exact ⟨w, v, h1, Or.inl h2, h3⟩
      · exact ⟨[], t, rfl, Or.inr rfl, rfl⟩
    · rintro ⟨w, v, rfl, h2 | rfl, rfl⟩
      · exact Or.inl ⟨w, v, rfl, h2, rfl⟩
      · exact Or.inr rfl
  | notAhead r ih => intro hp; exact absurd hp (by simp [Plain])
  | notBehind w => intro hp; exact absurd hp (by simp [Plain])
  | wordB => intro hp; exact absurd hp (by simp [Plain])

theorem isMatch_iff {r : Re} (h : r.Plain) (s : Str) : isMatch r s = true ↔ ∃ w v, s = w ++ v ∧ r.Lang w := by
  unfold isMatch matchAt
  rw [List.isSome_head?]
  constructor
  · intro hne
    obtain ⟨q, hq⟩ := List.exists_mem_of_ne_nil _ hne
    obtain ⟨w, v, h1, h2, _⟩ := (mem_matchesAt r h _ _ _).mp hq
    exact ⟨w, v, h1, h2⟩
  · rintro ⟨w, v, h1, h2⟩
    exact List.ne_nil_of_mem ((mem_matchesAt r h _ _ _).mpr ⟨w, v, h1, h2, rfl⟩)

theorem lang_chr (c : Char) (w : Str) : (chr c).Lang w ↔ w = [c] := by
  simp only [chr, Lang, beq_iff_eq]
  constructor
  · rintro ⟨d, rfl, rfl⟩; rfl
  · rintro rfl; exact ⟨c, rfl, rfl⟩

theorem rep_cls {p : Char → Bool} {w : Str} : Rep (Lang (.cls p)) w ↔ ∀ c ∈ w, p c = true := by
  constructor
  · intro h
    induction h with
    | nil => simp
    | cons hu _ _ ih =>
      obtain ⟨c, rfl, hc⟩ := hu
      intro d hd
      rcases List.mem_cons.mp hd with rfl | hd
      · exact hc
      · exact ih d hd
  · intro h
    induction w with
    | nil => exact .nil
    | cons c w ih =>
      exact .cons (u := [c]) ⟨c, rfl, h c (by simp)⟩ (by simp) (ih (fun d hd => h d (by simp [hd])))

theorem lang_plus_digit (w : Str) : (plus digit).Lang w ↔ isDigits w = true := by
  rw [isDigits_iff]
  constructor
  · rintro ⟨_, v, rfl, ⟨c, rfl, hc⟩, hv⟩
    have hv := rep_cls.mp hv
    refine ⟨by simp, ?_⟩
    intro d hd
    rcases List.mem_cons.mp hd with rfl | hd
    · exact hc
    · exact hv d hd
  · rintro ⟨hne, h⟩
    cases w with
    | nil => exact absurd rfl hne
    | cons c w => exact ⟨[c], w, rfl, ⟨c, rfl, h c (by simp)⟩, rep_cls.mpr (fun d hd => h d (by simp [hd]))⟩

end Re
end PyDice
