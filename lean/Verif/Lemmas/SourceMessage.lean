import Verif.Source.Message
import Verif.Lemmas.KernelRfl
/-!
# Messages of exceptions: how they are put together
-/
namespace PyDice

theorem message_assoc (a b c d e : Str) : a ++ (b ++ (c ++ (d ++ e))) = a ++ b ++ c ++ d ++ e := by simp

theorem message_nil (a b c d : Str) : a ++ b ++ c ++ d = a ++ (b ++ (c ++ (d ++ []))) := by simp

end PyDice
