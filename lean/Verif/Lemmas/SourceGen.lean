import Verif.Spec.SourceGen
import Verif.Lemmas.KernelRfl
/-!
# The texts that make the lexer and the parser: a step
-/
namespace PyDice.Source

theorem making_foldl {α : Type} (calls : List GenCall) (r : α) :
    (fun before => .ok (r, calls.foldl (fun l c => l ++ [c]) before)) = making calls r := by
  funext before
  have : ∀ (l : List GenCall) (b : List GenCall), l.foldl (fun l c => l ++ [c]) b = b ++ l := by
    intro l
    induction l with
    | nil => simp
    | cons c t ih => intro b; rw [List.foldl_cons, ih]; simp
  simp only [making, this]

end PyDice.Source
