import Verif.Spec.Interp
import Verif.Spec.Dist
import Verif.Spec.Dice
/-!
# What programs mean: results of expressions given the values of variables (specification)

Nothing here refers to distributions or constraints.
-/

namespace PyDice

/-- Values of variables; `none`: no value. -/
def Env := Str → Option Int

/-- No variable has a value. -/
def Env.empty : Env := fun _ => none

/-- The variable gets the value (or loses it). -/
def Env.set (env : Env) (x : Str) (v : Option Int) : Env := fun n => if n = x then v else env n

/-- The value of an operator; `none` for a division by zero.  Exactly the values above zero are true. -/
def opValue : BinOp → Int → Int → Option Int
  | .add, x, y => some (x + y)
  | .sub, x, y => some (x - y)
  | .mul, x, y => some (x * y)
  | .floordiv, x, y => if y = 0 then none else some ⌊(x : ℚ) / (y : ℚ)⌋
  | .eq, x, y => some (if x = y then 1 else 0)
  | .ne, x, y => some (if x = y then 0 else 1)
  | .lt, x, y => some (if x < y then 1 else 0)
  | .le, x, y => some (if x ≤ y then 1 else 0)
  | .gt, x, y => some (if y < x then 1 else 0)
  | .ge, x, y => some (if y ≤ x then 1 else 0)
  | .and, x, y => some (if 0 < x ∧ 0 < y then 1 else 0)
  | .or, x, y => some (if 0 < x ∨ 0 < y then 1 else 0)
  | .max, x, y => some (max x y)
  | .min, x, y => some (min x y)

/-- How many of the dice of a keep or drop term count. -/
def DropKeepTerm.counted (t : DropKeepTerm) : Nat := if t.keep then t.count else t.number - t.count

/-- The result of a keep or drop term for given dice: the highest ones kept, or the highest ones dropped. -/
def DropKeepTerm.result (t : DropKeepTerm) (dice : List Int) : Int :=
  if t.keep then sumHighest t.count dice else sumLowest (t.number - t.count) dice

/-- All pairs of results, combined; a failure (`none`) stays one. -/
def combineWays (f : Int → Int → Option Int) (as bs : List (Option Int)) : List (Option Int) :=
  as.flatMap fun x => bs.map fun y => x.bind fun a => y.bind fun b => f a b

/-- The equally likely results of an expression, for given values of the variables: one for every way its dice can fall.  `none` is a
    failure (division by zero or a variable without value). -/
def ways : Expr → Env → List (Option Int)
  | .paren e, env => ways e env
  | .not e, env => (ways e env).map (Option.map fun x => if 0 < x then 0 else 1)
  | .dropKeep t, _ =>
    if t.counted = 0 then [some 0] else (tuples (facesOf t.table) t.number).map fun dice => some (t.result dice)
  | .dice t, _ => (tuples (facesOf t.table) t.number).map fun dice => some dice.sum
  | .constInt text, _ => [(pyInt text).toOption]
  | .constBin text, _ => [some (if text = ['T', 'r', 'u', 'e'] then 1 else 0)]
  | .add a b, env => combineWays (opValue .add) (ways a env) (ways b env)
  | .sub a b, env => combineWays (opValue .sub) (ways a env) (ways b env)
  | .mul a b, env => combineWays (opValue .mul) (ways a env) (ways b env)
  | .div a b, env => combineWays (opValue .floordiv) (ways a env) (ways b env)
  | .bin op a b, env => combineWays (opValue op.toBinOp) (ways a env) (ways b env)
  | .minmax isMax a b, env => combineWays (opValue (if isMax then .max else .min)) (ways a env) (ways b env)
  | .abs e, env => (ways e env).map (Option.map fun x => |x|)
  | .assign _ e, env => ways e env
  | .getVar name, env => [env name]

/-- The values an expression can take when every face written down counts as possible (also one of weight zero). -/
def vals : Expr → Env → List Int
  | .paren e, env => vals e env
  | .not e, env => (vals e env).map fun x => if 0 < x then 0 else 1
  | .dropKeep t, _ =>
    if t.counted = 0 then [0] else (tuples (t.table.map Prod.fst) t.number).map t.result
  | .dice t, _ => (tuples (t.table.map Prod.fst) t.number).map List.sum
  | .constInt text, _ => (pyInt text).toOption.toList
  | .constBin text, _ => [if text = ['T', 'r', 'u', 'e'] then 1 else 0]
  | .add a b, env => (vals a env).flatMap fun x => (vals b env).filterMap fun y => opValue .add x y
  | .sub a b, env => (vals a env).flatMap fun x => (vals b env).filterMap fun y => opValue .sub x y
  | .mul a b, env => (vals a env).flatMap fun x => (vals b env).filterMap fun y => opValue .mul x y
  | .div a b, env => (vals a env).flatMap fun x => (vals b env).filterMap fun y => opValue .floordiv x y
  | .bin op a b, env => (vals a env).flatMap fun x => (vals b env).filterMap fun y => opValue op.toBinOp x y
  | .minmax isMax a b, env =>
    (vals a env).flatMap fun x => (vals b env).filterMap fun y => opValue (if isMax then .max else .min) x y
  | .abs e, env => (vals e env).map fun x => |x|
  | .assign _ e, env => vals e env
  | .getVar name, env => (env name).toList

/-- A straight-line program: `VAR x = e` for every entry, in order. -/
abbrev Program := List (Str × Expr)

/-- The values of the variables after the program, once for every way all its dice can fall: every line is rolled once, and later
    lines use the value. -/
def envWays : Program → Env → List Env
  | [], env => [env]
  | (x, e) :: p, env => (ways e env).flatMap fun v => envWays p (env.set x v)

/-- The equally likely results of an expression after a program. -/
def progWays (p : Program) (e : Expr) : List (Option Int) := (envWays p Env.empty).flatMap fun env => ways e env

/-- The values the variables can have after the program, every face written down counting as possible. -/
def runs : Program → Env → List Env
  | [], env => [env]
  | (x, e) :: p, env => (vals e env).flatMap fun v => runs p (env.set x (some v))

/-- Every dice term is what the constructor makes of some text, has at least one die and at least one face. -/
def Expr.Faces : Expr → Prop
  | .paren e => e.Faces
  | .not e => e.Faces
  | .dropKeep t => (∃ form, mkDropKeep form = .ok t) ∧ 1 ≤ t.number ∧ t.table ≠ []
  | .dice t => 1 ≤ t.number ∧ t.table ≠ []
  | .constInt _ => True
  | .constBin _ => True
  | .add a b => a.Faces ∧ b.Faces
  | .sub a b => a.Faces ∧ b.Faces
  | .mul a b => a.Faces ∧ b.Faces
  | .div a b => a.Faces ∧ b.Faces
  | .bin _ a b => a.Faces ∧ b.Faces
  | .minmax _ a b => a.Faces ∧ b.Faces
  | .abs e => e.Faces
  | .assign _ e => e.Faces
  | .getVar _ => True

/-- Every face of every die has positive weight. -/
def Expr.Weighted : Expr → Prop
  | .paren e => e.Weighted
  | .not e => e.Weighted
  | .dropKeep t => ∀ p ∈ t.table, 0 < p.2
  | .dice t => ∀ p ∈ t.table, 0 < p.2
  | .constInt _ => True
  | .constBin _ => True
  | .add a b => a.Weighted ∧ b.Weighted
  | .sub a b => a.Weighted ∧ b.Weighted
  | .mul a b => a.Weighted ∧ b.Weighted
  | .div a b => a.Weighted ∧ b.Weighted
  | .bin _ a b => a.Weighted ∧ b.Weighted
  | .minmax _ a b => a.Weighted ∧ b.Weighted
  | .abs e => e.Weighted
  | .assign _ e => e.Weighted
  | .getVar _ => True

/-- An expression without assignments that does not read the interpreter's own name `stdout`. -/
structure Expr.Straight (e : Expr) : Prop where
  noAssign : e.NoAssign
  reads : stdoutName ∉ e.reads
  faces : e.Faces

/-- A program of such expressions that does not assign to `stdout`. -/
def Straight (p : Program) : Prop := ∀ l ∈ p, l.1 ≠ stdoutName ∧ l.2.Straight

/-- Every dice term is what the constructor makes of some text, has at least one die, and some face has positive weight. -/
def Expr.Loaded : Expr → Prop
  | .paren e => e.Loaded
  | .not e => e.Loaded
  | .dropKeep t => (∃ form, mkDropKeep form = .ok t) ∧ 1 ≤ t.number ∧ 0 < (t.table.map Prod.snd).sum
  | .dice t => 1 ≤ t.number ∧ 0 < (t.table.map Prod.snd).sum
  | .constInt _ => True
  | .constBin _ => True
  | .add a b => a.Loaded ∧ b.Loaded
  | .sub a b => a.Loaded ∧ b.Loaded
  | .mul a b => a.Loaded ∧ b.Loaded
  | .div a b => a.Loaded ∧ b.Loaded
  | .bin _ a b => a.Loaded ∧ b.Loaded
  | .minmax _ a b => a.Loaded ∧ b.Loaded
  | .abs e => e.Loaded
  | .assign _ e => e.Loaded
  | .getVar _ => True

/-- The logical operators are only applied where a roll and the distribution have the same idea of truth: `AND` to 0 and 1, `OR` and
    `!` to values that are not negative. -/
def Truthful (env : Env) : Expr → Prop
  | .paren e => Truthful env e
  | .not e => (∀ v, some v ∈ ways e env → 0 ≤ v) ∧ Truthful env e
  | .dropKeep _ => True
  | .dice _ => True
  | .constInt _ => True
  | .constBin _ => True
  | .add a b => Truthful env a ∧ Truthful env b
  | .sub a b => Truthful env a ∧ Truthful env b
  | .mul a b => Truthful env a ∧ Truthful env b
  | .div a b => Truthful env a ∧ Truthful env b
  | .bin op a b => (op = .and → ∀ v, some v ∈ ways a env ∨ some v ∈ ways b env → v = 0 ∨ v = 1) ∧
      (op = .or → ∀ v, some v ∈ ways a env ∨ some v ∈ ways b env → 0 ≤ v) ∧ Truthful env a ∧ Truthful env b
  | .minmax _ a b => Truthful env a ∧ Truthful env b
  | .abs e => Truthful env e
  | .assign _ e => Truthful env e
  | .getVar _ => True

/-- The same for every line of a program, whatever the earlier lines give. -/
def TruthfulProgram (p : Program) : Prop :=
  ∀ before x e after, p = before ++ (x, e) :: after → ∀ env ∈ envWays before Env.empty, Truthful env e

/-- Nothing can go wrong in the expression after the program: constants are numbers, variables have been assigned, and no divisor can
    be zero. -/
def Defined (p : Program) : Expr → Prop
  | .paren e => Defined p e
  | .not e => Defined p e
  | .dropKeep _ => True
  | .dice _ => True
  | .constInt text => ∃ v, pyInt text = .ok v
  | .constBin _ => True
  | .add a b => Defined p a ∧ Defined p b
  | .sub a b => Defined p a ∧ Defined p b
  | .mul a b => Defined p a ∧ Defined p b
  | .div a b => Defined p a ∧ Defined p b ∧ ∀ env ∈ runs p Env.empty, 0 ∉ vals b env
  | .bin _ a b => Defined p a ∧ Defined p b
  | .minmax _ a b => Defined p a ∧ Defined p b
  | .abs e => Defined p e
  | .assign _ e => Defined p e
  | .getVar n => n ∈ p.map Prod.fst

/-- How often each line's value is used by something that reads the given variables (latest line first): directly or through later
    lines. -/
def usesRev : Program → List Str → List Nat
  | [], _ => []
  | (x, e) :: p, reads =>
    reads.count x :: usesRev p (reads.filter (· ≠ x) ++ (List.replicate (reads.count x) e.reads).flatten)

/-- How often each line's value is used by the expression after the program, in the order of the lines. -/
def uses (p : Program) (e : Expr) : List Nat := (usesRev p.reverse e.reads).reverse

/-- All values the line can take are equally likely. -/
def FlatLine (before : Program) (e : Expr) : Prop := ∃ c : Nat, ∀ env ∈ runs before Env.empty, ∀ v ∈ vals e env, (ways e env).count (some v) = c

/-- Every line is used at most once by the expression, or all its values are equally likely. -/
def Gentle (p : Program) (e : Expr) : Prop :=
  ∀ before x d after, p = before ++ (x, d) :: after → (uses p e)[before.length]? = some 0 ∨ (uses p e)[before.length]? = some 1 ∨
    FlatLine before d

/-- The runs of the program with distinct values, each with a weight: the product over the lines of the number of ways to the line's
    value, raised to the exponent given for the line. -/
def powRuns : Program → List Nat → Env → List (Env × Nat)
  | (x, e) :: p, u :: us, env => (vals e env).dedup.flatMap fun v =>
      (powRuns p us (env.set x (some v))).map fun r => (r.1, (ways e env).count (some v) ^ u * r.2)
  | _, _, env => [(env, 1)]

/-- How many ways the dice of the lines that the expression does not use can fall. -/
def unusedWays (p : Program) (e : Expr) : Nat :=
  ((p.zip (uses p e)).map fun l => if l.2 = 0 then (ways l.1.2 Env.empty).length else 1).prod

/-- No line is used by both expressions. -/
def NoShared (p : Program) (a b : Expr) : Prop := ∀ i, i < p.length → (uses p a)[i]? = some 0 ∨ (uses p b)[i]? = some 0

/-- Where the maximum of a `MIN` (`isMax`), or the minimum of a `MAX`, is asked for, the operands share no line.  (Below other
    operators the distribution is used, so nothing is needed.) -/
def Apart (isMax : Bool) (p : Program) : Expr → Prop
  | .paren e => Apart isMax p e
  | .minmax k a b => (k = isMax ∨ NoShared p a b) ∧ Apart isMax p a ∧ Apart isMax p b
  | _ => True

/-- The same for every line of a program. -/
def ApartProgram (isMax : Bool) (p : Program) : Prop := ∀ before x e after, p = before ++ (x, e) :: after → Apart isMax before e

section
variable [R : PyRuntime]

/-- The state was reached from a new one by the program: its lines were executed in order in distribution, max or min mode, and in
    between anything may have happened that keeps the stored distributions other than `stdout` and does not lower the counters
    (rolls, costs, other expressions). -/
inductive Session : Program → State → Prop where
  | new : Session [] State.new
  | dist {p : Program} {s s' : State} {x : Str} {e : Expr} {d : Dist} (h : Session p s)
      (hd : (Expr.assign x e).dist s = (.ok d, s')) : Session (p ++ [(x, e)]) s'
  | extreme {p : Program} {s s' : State} {x : Str} {e : Expr} {isMax : Bool} {v : Int} (h : Session p s)
      (hv : (Expr.assign x e).extreme isMax s = (.ok v, s')) : Session (p ++ [(x, e)]) s'
  | other {p : Program} {s s' : State} (h : Session p s)
      (hv : ∀ n, n ≠ stdoutName → dictGet? s'.var n = dictGet? s.var n)
      (ht : ∀ n, (dictGet? s.timesSet n).getD 0 ≤ (dictGet? s'.timesSet n).getD 0) : Session p s'

/-- The state was reached from a new one by running the program in max (min) mode; in between anything may have happened that keeps
    the stored distributions and constants other than `stdout` and does not lower the counters. -/
inductive ExtremeSession (isMax : Bool) : Program → State → Prop where
  | new : ExtremeSession isMax [] State.new
  | step {p : Program} {s s' : State} {x : Str} {e : Expr} {v : Int} (h : ExtremeSession isMax p s)
      (hv : (Expr.assign x e).extreme isMax s = (.ok v, s')) : ExtremeSession isMax (p ++ [(x, e)]) s'
  | other {p : Program} {s s' : State} (h : ExtremeSession isMax p s)
      (hv : ∀ n, n ≠ stdoutName → dictGet? s'.var n = dictGet? s.var n)
      (hc : ∀ n, n ≠ stdoutName → dictGet? s'.constants n = dictGet? s.constants n)
      (ht : ∀ n, (dictGet? s.timesSet n).getD 0 ≤ (dictGet? s'.timesSet n).getD 0) : ExtremeSession isMax p s'

/-- What a roll of the interpreter reports for the last line, if it succeeds. -/
def stdoutOf (r : Res (List (Str × Int)) × State) : Option Int := r.1.toOption.bind fun dict => dictGet? dict stdoutName

/-- `x` is at most `v` (`isMax`), or at least `v`. -/
def Within (isMax : Bool) (x v : Int) : Prop := if isMax then x ≤ v else v ≤ x

end

end PyDice
