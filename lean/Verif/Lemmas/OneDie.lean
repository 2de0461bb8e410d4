import Verif.Lemmas.LawExact
import Verif.Lemmas.RollExact
import Verif.Spec.OneDie
/-!
# Dice terms without dice
-/

namespace PyDice
open PyRuntime

theorem Expr.Built.made : ∀ {e : Expr}, e.Built → e.Made := by
  intro e
  induction e with
  | paren e ih => exact ih
  | not e ih => exact ih
  | abs e ih => exact ih
  | dropKeep t => exact id
  | dice t => exact fun _ => trivial
  | constInt text => exact id
  | constBin text => exact id
  | add a b iha ihb => exact fun h => ⟨iha h.1, ihb h.2⟩
  | sub a b iha ihb => exact fun h => ⟨iha h.1, ihb h.2⟩
  | mul a b iha ihb => exact fun h => ⟨iha h.1, ihb h.2⟩
  | div a b iha ihb => exact fun h => ⟨iha h.1, ihb h.2⟩
  | bin op a b iha ihb => exact fun h => ⟨iha h.1, ihb h.2⟩
  | minmax k a b iha ihb => exact fun h => ⟨iha h.1, ihb h.2⟩
  | assign x e ih => exact ih
  | getVar n => exact id

theorem oneDie_noAssign : ∀ {e : Expr}, e.NoAssign → e.oneDie.NoAssign := by
  intro e
  induction e with
  | paren e ih => exact ih
  | not e ih => exact ih
  | abs e ih => exact ih
  | dropKeep t => intro _; simp only [Expr.oneDie]; (repeat' split) <;> trivial
  | dice t => intro _; simp only [Expr.oneDie]; split <;> trivial
  | constInt text => exact id
  | constBin text => exact id
  | add a b iha ihb => exact fun h => ⟨iha h.1, ihb h.2⟩
  | sub a b iha ihb => exact fun h => ⟨iha h.1, ihb h.2⟩
  | mul a b iha ihb => exact fun h => ⟨iha h.1, ihb h.2⟩
  | div a b iha ihb => exact fun h => ⟨iha h.1, ihb h.2⟩
  | bin op a b iha ihb => exact fun h => ⟨iha h.1, ihb h.2⟩
  | minmax k a b iha ihb => exact fun h => ⟨iha h.1, ihb h.2⟩
  | assign x e ih => exact id
  | getVar n => exact id

theorem oneDie_reads (e : Expr) : e.oneDie.reads = e.reads := by
  induction e with
  | dropKeep t => simp only [Expr.oneDie]; (repeat' split) <;> rfl
  | dice t => simp only [Expr.oneDie]; split <;> rfl
  | constInt text => rfl
  | constBin text => rfl
  | getVar n => rfl
  | _ => simp_all [Expr.oneDie, Expr.reads]

theorem oneDie_faces : ∀ {e : Expr}, e.Made → e.Faced → e.oneDie.Faces := by
  intro e
  induction e with
  | paren e ih => exact ih
  | not e ih => exact ih
  | abs e ih => exact ih
  | dropKeep t =>
    intro h1 h2
    simp only [Expr.oneDie]
    by_cases h0 : t.number = 0
    · rw [if_pos h0]
      split
      · exact ⟨le_refl 1, h2⟩
      · trivial
    · rw [if_neg h0]; exact ⟨h1, by omega, h2⟩
  | dice t =>
    intro h1 h2
    simp only [Expr.oneDie]
    by_cases h0 : t.number = 0
    · rw [if_pos h0]; exact ⟨le_refl 1, h2⟩
    · rw [if_neg h0]; exact ⟨by omega, h2⟩
  | constInt text => exact fun _ => id
  | constBin text => exact fun _ => id
  | add a b iha ihb => exact fun h h' => ⟨iha h.1 h'.1, ihb h.2 h'.2⟩
  | sub a b iha ihb => exact fun h h' => ⟨iha h.1 h'.1, ihb h.2 h'.2⟩
  | mul a b iha ihb => exact fun h h' => ⟨iha h.1 h'.1, ihb h.2 h'.2⟩
  | div a b iha ihb => exact fun h h' => ⟨iha h.1 h'.1, ihb h.2 h'.2⟩
  | bin op a b iha ihb => exact fun h h' => ⟨iha h.1 h'.1, ihb h.2 h'.2⟩
  | minmax k a b iha ihb => exact fun h h' => ⟨iha h.1 h'.1, ihb h.2 h'.2⟩
  | assign x e ih => exact ih
  | getVar n => exact fun _ => id

theorem Expr.Plain.oneDie {e : Expr} (h : e.Plain) : e.oneDie.Straight :=
  ⟨oneDie_noAssign h.noAssign, by rw [oneDie_reads]; exact h.reads, oneDie_faces h.made h.faced⟩

theorem oneDie_straight {p : Program} (h : ∀ l ∈ p, l.1 ≠ stdoutName ∧ l.2.Plain) : Straight p.oneDie := by
  intro l hl
  unfold Program.oneDie at hl
  obtain ⟨l', h1, rfl⟩ := List.mem_map.mp hl
  exact ⟨(h l' h1).1, (h l' h1).2.oneDie⟩

section
variable [R : PyRuntime]

/-- The distribution of a term with no dice is that of one die. -/
theorem oneDie_dist : ∀ {e : Expr}, e.Made → e.oneDie.dist = e.dist := by
  intro e
  induction e with
  | paren e ih => exact ih
  | not e ih => intro h; simp only [Expr.oneDie, Expr.dist, ih h]
  | abs e ih => intro h; simp only [Expr.oneDie, Expr.dist, ih h]
  | dropKeep t =>
    rintro ⟨form, hform⟩
    obtain ⟨_, hp, hz, _⟩ := mkDropKeep_spec hform
    simp only [Expr.oneDie]
    by_cases h0 : t.number = 0
    · rw [if_pos h0]
      cases hk : t.keep with
      | true =>
        obtain ⟨f, hf⟩ := hp (Or.inl ⟨hk, by omega⟩)
        simp only [if_true, Expr.dist, DropKeepTerm.dist, hf]
        unfold DiceTerm.dist
        simp [h0]
      | false =>
        have hf := hz (Or.inr ⟨hk, by omega⟩)
        simp only [Bool.false_eq_true, if_false, Expr.dist, DropKeepTerm.dist, hf]
        rfl
    · rw [if_neg h0]
  | dice t =>
    intro _
    simp only [Expr.oneDie]
    by_cases h0 : t.number = 0
    · rw [if_pos h0]
      simp only [Expr.dist]
      unfold DiceTerm.dist
      simp [h0]
    · rw [if_neg h0]
  | constInt text => intro _; rfl
  | constBin text => intro _; rfl
  | add a b iha ihb => intro h; simp only [Expr.oneDie, Expr.dist, iha h.1, ihb h.2]
  | sub a b iha ihb => intro h; simp only [Expr.oneDie, Expr.dist, iha h.1, ihb h.2]
  | mul a b iha ihb => intro h; simp only [Expr.oneDie, Expr.dist, iha h.1, ihb h.2]
  | div a b iha ihb => intro h; simp only [Expr.oneDie, Expr.dist, iha h.1, ihb h.2]
  | bin op a b iha ihb => intro h; simp only [Expr.oneDie, Expr.dist, iha h.1, ihb h.2]
  | minmax k a b iha ihb => intro h; simp only [Expr.oneDie, Expr.dist, iha h.1, ihb h.2]
  | assign x e ih => intro h; simp only [Expr.oneDie, Expr.dist, ih h]
  | getVar n => intro _; rfl

theorem oneDie_interp (parse : Str → Res Expr) (lines : List Str) (hm : ∀ l ∈ lines, ∀ e, parse l = .ok e → e.Made) :
    interpDists parse lines = interpDists (fun l => (parse l).map Expr.oneDie) lines := by
  have hline : ∀ l ∈ lines, distLine parse l = distLine (fun l => (parse l).map Expr.oneDie) l := by
    intro l hl
    unfold distLine
    show (EvalM.ofRes (parse l) >>= _ : EvalM Unit) = (EvalM.ofRes ((parse l).map Expr.oneDie) >>= _)
    cases h : parse l with
    | error err => rfl
    | ok e =>
      have hd := oneDie_dist (hm l hl e h)
      show (e.dist >>= _ : EvalM Unit) = (e.oneDie.dist >>= _)
      rw [hd]
  have hlines : ∀ ls : List Str, (∀ l ∈ ls, l ∈ lines) → distLines parse ls = distLines (fun l => (parse l).map Expr.oneDie) ls := by
    intro ls
    induction ls with
    | nil => intro _; rfl
    | cons l ls ih =>
      intro h
      simp only [distLines]
      rw [hline l (h l (by simp)), ih (fun l hl => h l (by simp [hl]))]
  unfold interpDists
  rw [hlines lines (fun _ h => h)]

end

end PyDice
