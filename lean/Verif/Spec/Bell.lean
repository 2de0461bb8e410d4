import Verif.Expr
/-!
# Specification vocabulary: sums and differences of dice whose faces are consecutive numbers
-/

namespace PyDice

/-- Sums and differences of integers and dice, each of whose dice shows every number from `lo` to `hi` in one way, together with twice
    the middle between the lowest and the highest result. -/
inductive Centred : Expr → Int → Prop
  | dice (t : DiceTerm) (lo hi : Int) (h : lo ≤ hi) (hn : 1 ≤ t.number) (ht : t.table = (pyRange lo (hi + 1)).map fun v => (v, 1)) :
      Centred (.dice t) (t.number * (lo + hi))
  | const (s : Str) (k : Int) (h : pyInt s = .ok k) : Centred (.constInt s) (2 * k)
  | add {a b : Expr} {m n : Int} (ha : Centred a m) (hb : Centred b n) : Centred (.add a b) (m + n)
  | sub {a b : Expr} {m n : Int} (ha : Centred a m) (hb : Centred b n) : Centred (.sub a b) (m - n)

end PyDice
