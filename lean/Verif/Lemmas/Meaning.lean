import Verif.FloatDist
import Verif.Parser
import Mathlib.Data.List.Forall2
/-!
# Lines with the same meaning make programs with the same results
-/

namespace PyDice
open PyRuntime

section
variable [R : PyRuntime]

/-- Two expressions whose methods are the same. -/
structure SameMeaning (e e' : Expr) : Prop where
  roll : e.roll = e'.roll
  extreme : ∀ isMax, e.extreme isMax = e'.extreme isMax
  dist : e.dist = e'.dist
  cost : e.cost = e'.cost

/-- Two lines that fail alike or parse to expressions with the same methods. -/
def SameLine (l l' : Str) : Prop := (∃ err, parse l = .error err ∧ parse l' = .error err) ∨
  ∃ e e', parse l = .ok e ∧ parse l' = .ok e' ∧ SameMeaning e e'

theorem sameLine_step {l l' : Str} {β : Type} (f : Expr → EvalM β) (h : SameLine l l') (hf : ∀ e e', SameMeaning e e' → f e = f e') :
    (EvalM.ofRes (parse l) >>= f) = (EvalM.ofRes (parse l') >>= f) := by
  rcases h with ⟨err, h1, h2⟩ | ⟨e, e', h1, h2, h3⟩
  · rw [h1, h2]
  · rw [h1, h2]
    exact hf e e' h3

theorem sameLine_methods (lines lines' : List Str) (h : List.Forall₂ SameLine lines lines') :
    interpRoll parse lines = interpRoll parse lines' ∧ (∀ isMax, interpExtreme parse isMax lines = interpExtreme parse isMax lines') ∧
    interpDists parse lines = interpDists parse lines' ∧ interpDictForms parse lines = interpDictForms parse lines' ∧
    interpAverages parse lines = interpAverages parse lines' ∧ interpHistogramDist parse lines = interpHistogramDist parse lines' ∧
    interpCost parse lines = interpCost parse lines' ∧ interpDictFormsF parse lines = interpDictFormsF parse lines' ∧
    interpAveragesF parse lines = interpAveragesF parse lines' := by
  have hnil : lines = [] ↔ lines' = [] := by cases h <;> simp
  have hdist : distLines parse lines = distLines parse lines' := by
    clear hnil
    induction h with
    | nil => rfl
    | cons h1 _ ih =>
      rename_i l l' ls ls' _
      unfold distLines
      rw [ih]
      have : distLine parse l = distLine parse l' := sameLine_step _ h1 fun e e' h => by rw [h.dist]
      rw [this]
  have hroll : rollLines parse lines = rollLines parse lines' := by
    clear hnil hdist
    induction h with
    | nil => rfl
    | cons h1 _ ih =>
      rename_i l l' ls ls' _
      unfold rollLines
      rw [ih]
      have : rollLine parse l = rollLine parse l' := by
        unfold rollLine
        rcases h1 with ⟨err, h1, h2⟩ | ⟨e, e', h1, h2, h3⟩
        · rw [h1, h2]
        · rw [h1, h2]
          funext s
          show (e.roll >>= _) s = (e'.roll >>= _) s
          rw [h3.roll]
      rw [this]
  have hext : ∀ isMax, extremeLines parse isMax lines = extremeLines parse isMax lines' := by
    intro isMax
    clear hnil hdist hroll
    induction h with
    | nil => rfl
    | cons h1 _ ih =>
      rename_i l l' ls ls' _
      unfold extremeLines
      rw [ih]
      have : extremeLine parse isMax l = extremeLine parse isMax l' := sameLine_step _ h1 fun e e' h => by rw [h.extreme]
      rw [this]
  have hlast : ∀ d, lastDist parse lines d = lastDist parse lines' d := by
    clear hnil hdist hroll hext
    induction h with
    | nil => intro d; rfl
    | cons h1 _ ih =>
      intro d
      unfold lastDist
      simp only [ih]
      exact sameLine_step _ h1 fun e e' h => by rw [h.dist]
  have hcost : ∀ c, costLines parse lines c = costLines parse lines' c := by
    clear hnil hdist hroll hext hlast
    induction h with
    | nil => intro d; rfl
    | cons h1 _ ih =>
      intro d
      unfold costLines
      simp only [ih]
      exact sameLine_step _ h1 fun e e' h => by rw [h.cost]
  have hd : interpDists parse lines = interpDists parse lines' := by unfold interpDists; simp only [hdist, hnil]
  refine ⟨?_, ?_, hd, ?_, ?_, hlast _, hcost _, ?_, ?_⟩
  · unfold interpRoll constantsReturned; simp only [hroll, hnil]
  · intro isMax; unfold interpExtreme constantsReturned; simp only [hext, hnil]
  · unfold interpDictForms; rw [hd]
  · unfold interpAverages; rw [hd]
  · unfold interpDictFormsF; rw [hd]
  · unfold interpAveragesF; rw [hd]

end

end PyDice
