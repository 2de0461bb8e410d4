import Verif.Spec.Expr
import Verif.Lemmas.Dict
/-!
# Dictionaries with text keys
-/

namespace PyDice

theorem get_set {κ ν : Type} [BEq κ] [LawfulBEq κ] (d : List (κ × ν)) (k : κ) (v : ν) (k' : κ) [Decidable (k = k')] :
    dictGet? (dictSet d k v) k' = if k = k' then some v else dictGet? d k' := by
  induction d with
  | nil =>
    by_cases h : k = k'
    · simp [dictSet, dictGet?, h]
    · have : (k == k') = false := by simpa using h
      simp [dictSet, dictGet?, h, this]
  | cons p d ih =>
    obtain ⟨q, w⟩ := p
    unfold dictSet
    by_cases hq : q = k
    · subst hq
      by_cases h : q = k'
      · subst h; simp [dictGet?]
      · have : (q == k') = false := by simpa using h
        simp [dictGet?, h, this]
    · have hqk : (q == k) = false := by simpa using hq
      rw [hqk]
      simp only [Bool.false_eq_true, if_false, dictGet?]
      by_cases hq' : q = k'
      · have : ¬ k = k' := fun h => hq (hq'.trans h.symm)
        simp [hq', this]
      · have : (q == k') = false := by simpa using hq'
        rw [this]
        simpa using ih

theorem get_safeAdd {κ : Type} [BEq κ] [LawfulBEq κ] (d : List (κ × Nat)) (k : κ) (n : Nat) (k' : κ) [Decidable (k = k')] :
    dictGet? (safeAdd d k n) k' = if k = k' then some ((dictGet? d k).getD 0 + n) else dictGet? d k' := by
  induction d with
  | nil =>
    by_cases h : k = k'
    · simp [safeAdd, dictGet?, h]
    · have : (k == k') = false := by simpa using h
      simp [safeAdd, dictGet?, h, this]
  | cons p d ih =>
    obtain ⟨q, w⟩ := p
    unfold safeAdd
    by_cases hq : q = k
    · subst hq
      by_cases h : q = k'
      · subst h; simp [dictGet?]
      · have : (q == k') = false := by simpa using h
        simp [dictGet?, h, this]
    · have hqk : (q == k) = false := by simpa using hq
      rw [hqk]
      simp only [Bool.false_eq_true, if_false, dictGet?, hqk]
      by_cases hq' : q = k'
      · have : ¬ k = k' := fun h => hq (hq'.trans h.symm)
        simp [hq', this]
      · have : (q == k') = false := by simpa using hq'
        rw [this]
        simpa using ih

end PyDice
