import Verif.Spec.Program
/-!
# What rolling any program means (specification)

Expressions may assign inside, read `stdout`, and give a variable a new value; every die is rolled once and a value once assigned is
the value read.
-/

namespace PyDice

/-- First one part, then the other with the variables as the first one leaves them. -/
def thenWays (f : Int → Int → Option Int) (first : List (Option Int × Env)) (second : Env → List (Option Int × Env)) :
    List (Option Int × Env) :=
  first.flatMap fun o => (second o.2).map fun o' => (o.1.bind fun a => o'.1.bind fun b => f a b, o'.2)

/-- The equally likely outcomes of an expression: its value (`none`: a failure) and the variables afterwards.  Operands are taken from
    left to right, but the divisor before the dividend. -/
def outs : Expr → Env → List (Option Int × Env)
  | .paren e, env => outs e env
  | .not e, env => (outs e env).map fun o => (o.1.map fun x => if 0 < x then 0 else 1, o.2)
  | .dropKeep t, env => (ways (.dropKeep t) env).map fun v => (v, env)
  | .dice t, env => (ways (.dice t) env).map fun v => (v, env)
  | .constInt text, env => [((pyInt text).toOption, env)]
  | .constBin text, env => [(some (if text = ['T', 'r', 'u', 'e'] then 1 else 0), env)]
  | .add a b, env => thenWays (opValue .add) (outs a env) (outs b)
  | .sub a b, env => thenWays (opValue .sub) (outs a env) (outs b)
  | .mul a b, env => thenWays (opValue .mul) (outs a env) (outs b)
  | .div a b, env => thenWays (fun y x => opValue .floordiv x y) (outs b env) (outs a)
  | .bin op a b, env => thenWays (opValue op.toBinOp) (outs a env) (outs b)
  | .minmax isMax a b, env => thenWays (opValue (if isMax then .max else .min)) (outs a env) (outs b)
  | .abs e, env => (outs e env).map fun o => (o.1.map fun x => |x|, o.2)
  | .assign x e, env => (outs e env).map fun o => (o.1, o.2.set x o.1)
  | .getVar name, env => [(env name, env)]

/-- The logical operators are only applied where the code and the README have the same idea of truth: `AND` to 0 and 1, `OR` and `!`
    to values that are not negative. -/
def SoundAt : Expr → Env → Prop
  | .paren e, env => SoundAt e env
  | .not e, env => SoundAt e env ∧ ∀ o ∈ outs e env, ∀ v, o.1 = some v → 0 ≤ v
  | .dropKeep _, _ => True
  | .dice _, _ => True
  | .constInt _, _ => True
  | .constBin _, _ => True
  | .add a b, env => SoundAt a env ∧ ∀ o ∈ outs a env, SoundAt b o.2
  | .sub a b, env => SoundAt a env ∧ ∀ o ∈ outs a env, SoundAt b o.2
  | .mul a b, env => SoundAt a env ∧ ∀ o ∈ outs a env, SoundAt b o.2
  | .div a b, env => SoundAt b env ∧ ∀ o ∈ outs b env, SoundAt a o.2
  | .bin op a b, env => SoundAt a env ∧ ∀ o ∈ outs a env, SoundAt b o.2 ∧ ∀ o' ∈ outs b o.2, ∀ x y, o.1 = some x → o'.1 = some y →
      (op = .and → (x = 0 ∨ x = 1) ∧ (y = 0 ∨ y = 1)) ∧ (op = .or → 0 ≤ x ∧ 0 ≤ y)
  | .minmax _ a b, env => SoundAt a env ∧ ∀ o ∈ outs a env, SoundAt b o.2
  | .abs e, env => SoundAt e env
  | .assign _ e, env => SoundAt e env
  | .getVar _, _ => True

/-- The equally likely outcomes of a program: the variables afterwards, among them `stdout`, the value of the last line; `none` if a
    line fails. -/
def lineOuts : List Expr → Env → List (Option Env)
  | [], env => [some env]
  | e :: es, env => (outs e env).flatMap fun o => (lineOuts es (o.2.set stdoutName o.1)).map fun r => o.1.bind fun _ => r

/-- The logical operators of all lines are used soundly. -/
def SoundLines : List Expr → Env → Prop
  | [], _ => True
  | e :: es, env => SoundAt e env ∧ ∀ o ∈ outs e env, SoundLines es (o.2.set stdoutName o.1)

end PyDice
