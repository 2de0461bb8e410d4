import Verif.Lemmas.Script
import Verif.Props.C38
/-!
# C49: digits of any script
-/

namespace PyDice
open LexSpec ParseSpec PyRuntime

/-- C49: a number is the same in every script. -/
theorem C49_numbers (s t : Str) (h : SameText s t) : pyInt s = pyInt t := by
  rw [← pyInt_plain, (sameText_iff s t).mp h, pyInt_plain]

/-- C49: texts that differ in the script of their digits only are cut into tokens of the same types at the same places, or lexing
    fails at the same place. -/
theorem C49_tokens (s t : Str) (h : SameText s t) :
    (∃ ts us, lexText s = .tokens ts ∧ lexText t = .tokens us ∧
      List.Forall₂ (fun a b : Token => a.type = b.type ∧ a.idx = b.idx ∧ SameText a.text b.text) ts us) ∨
    (∃ i, lexText s = .lexingError i ∧ lexText t = .lexingError i) := by
  have he : (lexText s).plain = (lexText t).plain := by rw [← lexText_plain, (sameText_iff s t).mp h, lexText_plain]
  cases h1 : lexText s with
  | diverges => exact absurd h1 (lexText_terminates s)
  | lexingError i =>
    cases h2 : lexText t with
    | diverges => exact absurd h2 (lexText_terminates t)
    | lexingError j => rw [h1, h2] at he; cases he; exact .inr ⟨i, rfl, rfl⟩
    | tokens us => rw [h1, h2] at he; cases he
  | tokens ts =>
    cases h2 : lexText t with
    | diverges => exact absurd h2 (lexText_terminates t)
    | lexingError j => rw [h1, h2] at he; cases he
    | tokens us =>
      rw [h1, h2] at he
      refine .inl ⟨ts, us, rfl, rfl, ?_⟩
      replace he : ts.map Token.plain = us.map Token.plain := LexResult.tokens.inj he
      clear h1 h2
      induction ts generalizing us with
      | nil =>
        cases us with
        | nil => exact .nil
        | cons u us => cases he
      | cons a ts ih =>
        cases us with
        | nil => cases he
        | cons u us =>
          rw [List.map_cons, List.map_cons, List.cons.injEq] at he
          obtain ⟨h1, h2, h3⟩ := Token.mk.inj he.1
          exact .cons ⟨h1, h3, (sameText_iff _ _).mpr h2⟩ (ih us he.2)

section
variable [R : PyRuntime]

/-- C49: for programs whose lines differ in the script of their digits only, every method of the interpreter is the same: same
    results, same draws, same exceptions, same state afterwards. -/
theorem C49_methods (lines lines' : List Str) (h : List.Forall₂ SameText lines lines') :
    interpRoll parse lines = interpRoll parse lines' ∧ (∀ isMax, interpExtreme parse isMax lines = interpExtreme parse isMax lines') ∧
    interpDists parse lines = interpDists parse lines' ∧ interpDictForms parse lines = interpDictForms parse lines' ∧
    interpAverages parse lines = interpAverages parse lines' ∧ interpHistogramDist parse lines = interpHistogramDist parse lines' ∧
    interpCost parse lines = interpCost parse lines' ∧ interpDictFormsF parse lines = interpDictFormsF parse lines' ∧
    interpAveragesF parse lines = interpAveragesF parse lines' := by
  refine sameLine_methods lines lines' (h.imp fun l l' h => ?_)
  have hp : (parse l).map Expr.plain = (parse l').map Expr.plain := by rw [← parse_plain, (sameText_iff l l').mp h, parse_plain]
  have spelt : ∀ {l : Str} {e : Expr}, parse l = .ok e → Spelt e := by
    intro l e h
    obtain ⟨ts, h1, h2, _⟩ := (C38_text l e).mp h
    exact derives_spelt h2 (lexed_wellSpelt h1)
  cases h1 : parse l with
  | error e =>
    rw [h1] at hp
    cases h2 : parse l' with
    | error e' => rw [h2] at hp; cases hp; exact .inl ⟨e, h1, h2⟩
    | ok e' => rw [h2] at hp; cases hp
  | ok e =>
    rw [h1] at hp
    cases h2 : parse l' with
    | error e' => rw [h2] at hp; cases hp
    | ok e' =>
      rw [h2] at hp
      have h3 : e.plain = e'.plain := Except.ok.inj hp
      have m := meaning_plain (spelt h1)
      have m' := meaning_plain (spelt h2)
      rw [h3] at m
      exact .inr ⟨e, e', h1, h2, m.roll.symm.trans m'.roll, fun i => (m.extreme i).symm.trans (m'.extreme i),
        m.dist.symm.trans m'.dist, m.cost.symm.trans m'.cost⟩

end

/-! ### Examples -/

/-- Arabic-Indic, full-width and Devanagari digits. -/
example : List.Forall₂ SameText ["VAR a = 3d[1-4, -2*10]".toList, "a + 12".toList] ["VAR a = ٣d[１-४, -2*१٠]".toList, "a + １٢".toList] := by
  have : ∀ s t : Str, (s.length = t.length ∧ ∀ p ∈ s.zip t, p.1 = p.2 ∨ ∃ k < 10, (∃ z ∈ 48 :: uniZeros, p.1.toNat = z + k) ∧
      ∃ z ∈ 48 :: uniZeros, p.2.toNat = z + k) → SameText s t := fun s t h => List.forall₂_iff_zip.mpr ⟨h.1, fun {a b} hab =>
    (h.2 (a, b) hab).imp id fun ⟨k, hk, h1, h2⟩ => ⟨k, ⟨hk, h1⟩, hk, h2⟩⟩
  exact .cons (this _ _ (by decide +kernel)) (.cons (this _ _ (by decide +kernel)) .nil)

/-- They parse, and not to the same tree. -/
example : (∃ e, parse "a + 12".toList = .ok e) ∧ (∃ e, parse "a + １٢".toList = .ok e) ∧
    decide (parse "a + 12".toList = parse "a + １٢".toList) = false := ⟨⟨_, rfl⟩, ⟨_, rfl⟩, by decide +kernel⟩

/-- Blanks beyond ASCII separate, and letters beyond ASCII join words: `x` does not end before the accented letter. -/
example : (parse "2d6\u00a0+\u20031".toList).isOk = true ∧ lexText "xé".toList = .lexingError 0 ∧ lexText "x.".toList = .lexingError 1 := by
  decide +kernel

/-- A superscript is no digit. -/
example : isDigit '²' = false ∧ parse "2d6²".toList = .error .value := by decide +kernel

end PyDice
