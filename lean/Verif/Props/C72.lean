import Verif.Lemmas.Float
import Verif.Lemmas.Source
/-!
# C72: the expression classes' texts compute what the model says

For every expression class, the bodies of its constructor, its production function and its methods, as written in the source, do what the model's
functions `build`, `Expr.roll`, `Expr.extreme`, `Expr.cost`, `Expr.dist`, `Expr.contained` and `Expr.str` say.  Where an expression has parts, the
methods of the parts are the model's: the theorems are the equations by which the methods are defined on each other.
(The dice classes follow in `C73.lean`.)
-/
namespace PyDice
open PyRuntime Source

section
variable [R : PyRuntime] (fl : ℚ → Res ℚ) (rd : ℚ → ℚ) (fu : Nat)

set_option linter.unusedSimpArgs false
set_option maxHeartbeats 1000000
set_option linter.unusedVariables false
local notation "W" => world fl rd fu

/-- `expression/parentheses_enclosed_expression.py`. -/
theorem C72_ParenthesisEnclosedExpression (e : Expr) (s t : Token) :
    Builds W Text.ParenthesisEnclosedExpression.__init__ [.obj (.expr e)] (.expr (Expr.paren e)) ["_expression"] ∧
    Produces W Text.ParenthesisEnclosedExpression.production 1 [.tok s, .expr e, .tok t] ∧
    Gives W Text.ParenthesisEnclosedExpression.roll [.obj (.expr (Expr.paren e))] (.int <$> (Expr.paren e).roll) ∧
    Gives W Text.ParenthesisEnclosedExpression.max [.obj (.expr (Expr.paren e))] (.int <$> liftE ((Expr.paren e).extreme true)) ∧
    Gives W Text.ParenthesisEnclosedExpression.min [.obj (.expr (Expr.paren e))] (.int <$> liftE ((Expr.paren e).extreme false)) ∧
    Gives W Text.ParenthesisEnclosedExpression.estimated_cost [.obj (.expr (Expr.paren e))] (.int <$> liftE (Expr.paren e).cost) ∧
    Gives W Text.ParenthesisEnclosedExpression.get_probability_distribution [.obj (.expr (Expr.paren e))] (dV <$> liftE (Expr.paren e).dist) ∧
    GivesNames W Text.ParenthesisEnclosedExpression.get_contained_variables [.obj (.expr (Expr.paren e))] (Expr.paren e).contained ∧
    Gives W Text.ParenthesisEnclosedExpression.__str__ [.obj (.expr (Expr.paren e))] (pure (.str (Expr.paren e).str)) := by
  refine ⟨?_, ?_, ?_, ?_, ?_, ?_, ?_, ?_, ?_⟩
  · simp [src, Builds, mapVals, Text.ParenthesisEnclosedExpression.__init__]
  · simp [src, Produces, symV, build, indexL, Text.ParenthesisEnclosedExpression.production, liftR_map]
  · simp [src, Gives, Text.ParenthesisEnclosedExpression.roll, Expr.roll, minmaxOp, pyAbs, pyMax, pyMin]
  · simp [src, Gives, Text.ParenthesisEnclosedExpression.max, Expr.extreme, viaDist, liftE_bind, minmaxOp, pyMax, pyMin]
  · simp [src, Gives, Text.ParenthesisEnclosedExpression.min, Expr.extreme, viaDist, liftE_bind, minmaxOp, pyMax, pyMin]
  · simp [src, Gives, Text.ParenthesisEnclosedExpression.estimated_cost, Expr.cost, liftE_bind, notCost, liftR_bind, liftR_map]
  · simp [src, Gives, Text.ParenthesisEnclosedExpression.get_probability_distribution, Expr.dist, liftE_bind, constDist, liftR_bind]
  · simp [src, GivesNames, Text.ParenthesisEnclosedExpression.get_contained_variables, Expr.contained, asNames, namesOf]
  · simp [src, Gives, Text.ParenthesisEnclosedExpression.__str__, Expr.str, minmaxText]

/-- `expression/not_expression.py`. -/
theorem C72_NotExpression (e : Expr) (s : Token) :
    Builds W Text.NotExpression.__init__ [.obj (.expr e)] (.expr (Expr.not e)) ["_expression"] ∧
    Produces W Text.NotExpression.production 2 [.tok s, .expr e] ∧
    Gives W Text.NotExpression.roll [.obj (.expr (Expr.not e))] (.int <$> (Expr.not e).roll) ∧
    Gives W Text.NotExpression.max [.obj (.expr (Expr.not e))] (.int <$> liftE ((Expr.not e).extreme true)) ∧
    Gives W Text.NotExpression.min [.obj (.expr (Expr.not e))] (.int <$> liftE ((Expr.not e).extreme false)) ∧
    Gives (world toFloat toDouble fu) Text.NotExpression.estimated_cost [.obj (.expr (Expr.not e))] (.int <$> liftE (Expr.not e).cost) ∧
    Gives W Text.NotExpression.get_probability_distribution [.obj (.expr (Expr.not e))] (dV <$> liftE (Expr.not e).dist) ∧
    GivesNames W Text.NotExpression.get_contained_variables [.obj (.expr (Expr.not e))] (Expr.not e).contained ∧
    Gives W Text.NotExpression.__str__ [.obj (.expr (Expr.not e))] (pure (.str (Expr.not e).str)) := by
  refine ⟨?_, ?_, ?_, ?_, ?_, ?_, ?_, ?_, ?_⟩
  · simp [src, Builds, mapVals, Text.NotExpression.__init__]
  · simp [src, Produces, symV, build, indexL, Text.NotExpression.production, liftR_map]
  · simp [src, Gives, Text.NotExpression.roll, Expr.roll, minmaxOp, pyAbs, pyMax, pyMin]
    simp only [ite_pure', ite_int, bind_pure_comp]
  · simp [src, Gives, Text.NotExpression.max, Expr.extreme, viaDist, liftE_bind, minmaxOp, pyMax, pyMin]
  · simp [src, Gives, Text.NotExpression.min, Expr.extreme, viaDist, liftE_bind, minmaxOp, pyMax, pyMin]
  · have h : ∀ q, toFloat (toDouble q) = toFloat q := fun q => by unfold toFloat; rw [toDouble_exact (toDouble_isDouble q)]
    simp [src, Gives, Text.NotExpression.estimated_cost, Expr.cost, liftE_bind, notCost, liftR_bind, liftR_map, h]
  · simp [src, Gives, Text.NotExpression.get_probability_distribution, Expr.dist, liftE_bind, constDist, liftR_bind]
  · simp [src, GivesNames, Text.NotExpression.get_contained_variables, Expr.contained, asNames, namesOf]
  · simp [src, Gives, Text.NotExpression.__str__, Expr.str, minmaxText]

/-- `expression/abs_expression.py`. -/
theorem C72_AbsExpression (e : Expr) (s t u : Token) :
    Builds W Text.AbsExpression.__init__ [.obj (.expr e)] (.expr (Expr.abs e)) ["_expression"] ∧
    Produces W Text.AbsExpression.production 13 [.tok s, .tok t, .expr e, .tok u] ∧
    Gives W Text.AbsExpression.roll [.obj (.expr (Expr.abs e))] (.int <$> (Expr.abs e).roll) ∧
    Gives W Text.AbsExpression.max [.obj (.expr (Expr.abs e))] (.int <$> liftE ((Expr.abs e).extreme true)) ∧
    Gives W Text.AbsExpression.min [.obj (.expr (Expr.abs e))] (.int <$> liftE ((Expr.abs e).extreme false)) ∧
    Gives W Text.AbsExpression.estimated_cost [.obj (.expr (Expr.abs e))] (.int <$> liftE (Expr.abs e).cost) ∧
    Gives W Text.AbsExpression.get_probability_distribution [.obj (.expr (Expr.abs e))] (dV <$> liftE (Expr.abs e).dist) ∧
    GivesNames W Text.AbsExpression.get_contained_variables [.obj (.expr (Expr.abs e))] (Expr.abs e).contained ∧
    Gives W Text.AbsExpression.__str__ [.obj (.expr (Expr.abs e))] (pure (.str (Expr.abs e).str)) := by
  refine ⟨?_, ?_, ?_, ?_, ?_, ?_, ?_, ?_, ?_⟩
  · simp [src, Builds, mapVals, Text.AbsExpression.__init__]
  · simp [src, Produces, symV, build, indexL, Text.AbsExpression.production, liftR_map]
  · simp [src, Gives, Text.AbsExpression.roll, Expr.roll, minmaxOp, pyAbs, pyMax, pyMin]
  · simp [src, Gives, Text.AbsExpression.max, Expr.extreme, viaDist, liftE_bind, minmaxOp, pyMax, pyMin]
  · simp [src, Gives, Text.AbsExpression.min, Expr.extreme, viaDist, liftE_bind, minmaxOp, pyMax, pyMin]
  · simp [src, Gives, Text.AbsExpression.estimated_cost, Expr.cost, liftE_bind, notCost, liftR_bind, liftR_map]
  · simp [src, Gives, Text.AbsExpression.get_probability_distribution, Expr.dist, liftE_bind, constDist, liftR_bind]
  · simp [src, GivesNames, Text.AbsExpression.get_contained_variables, Expr.contained, asNames, namesOf]
  · simp [src, Gives, Text.AbsExpression.__str__, Expr.str, minmaxText]

/-- `expression/add_expression.py`. -/
theorem C72_AddExpression (a : Expr) (b : Expr) (s : Token) :
    Builds W Text.AddExpression.__init__ [.obj (.expr a), .obj (.expr b)] (.expr (Expr.add a b)) ["_expression_one", "_expression_two"] ∧
    Produces W Text.AddExpression.production 7 [.expr a, .tok s, .expr b] ∧
    Gives W Text.AddExpression.roll [.obj (.expr (Expr.add a b))] (.int <$> (Expr.add a b).roll) ∧
    Gives W Text.AddExpression.max [.obj (.expr (Expr.add a b))] (.int <$> liftE ((Expr.add a b).extreme true)) ∧
    Gives W Text.AddExpression.min [.obj (.expr (Expr.add a b))] (.int <$> liftE ((Expr.add a b).extreme false)) ∧
    Gives W Text.AddExpression.estimated_cost [.obj (.expr (Expr.add a b))] (.int <$> liftE (Expr.add a b).cost) ∧
    Gives W Text.AddExpression.get_probability_distribution [.obj (.expr (Expr.add a b))] (dV <$> liftE (Expr.add a b).dist) ∧
    GivesNames W Text.AddExpression.get_contained_variables [.obj (.expr (Expr.add a b))] (Expr.add a b).contained ∧
    Gives W Text.AddExpression.__str__ [.obj (.expr (Expr.add a b))] (pure (.str (Expr.add a b).str)) := by
  refine ⟨?_, ?_, ?_, ?_, ?_, ?_, ?_, ?_, ?_⟩
  · simp [src, Builds, mapVals, Text.AddExpression.__init__]
  · simp [src, Produces, symV, build, indexL, Text.AddExpression.production, liftR_map]
  · simp [src, Gives, Text.AddExpression.roll, Expr.roll, minmaxOp, pyAbs, pyMax, pyMin]
  · simp [src, Gives, Text.AddExpression.max, Expr.extreme, viaDist, liftE_bind, minmaxOp, pyMax, pyMin]
  · simp [src, Gives, Text.AddExpression.min, Expr.extreme, viaDist, liftE_bind, minmaxOp, pyMax, pyMin]
  · simp [src, Gives, Text.AddExpression.estimated_cost, Expr.cost, liftE_bind, notCost, liftR_bind, liftR_map]
  · simp [src, Gives, Text.AddExpression.get_probability_distribution, Expr.dist, liftE_bind, constDist, liftR_bind]
  · simp [src, GivesNames, Text.AddExpression.get_contained_variables, Expr.contained, asNames, namesOf]
  · simp [src, Gives, Text.AddExpression.__str__, Expr.str, minmaxText]

/-- `expression/subtract_expression.py`. -/
theorem C72_SubtractExpression (a : Expr) (b : Expr) (s : Token) :
    Builds W Text.SubtractExpression.__init__ [.obj (.expr a), .obj (.expr b)] (.expr (Expr.sub a b)) ["_expression_one", "_expression_two"] ∧
    Produces W Text.SubtractExpression.production 8 [.expr a, .tok s, .expr b] ∧
    Gives W Text.SubtractExpression.roll [.obj (.expr (Expr.sub a b))] (.int <$> (Expr.sub a b).roll) ∧
    Gives W Text.SubtractExpression.max [.obj (.expr (Expr.sub a b))] (.int <$> liftE ((Expr.sub a b).extreme true)) ∧
    Gives W Text.SubtractExpression.min [.obj (.expr (Expr.sub a b))] (.int <$> liftE ((Expr.sub a b).extreme false)) ∧
    Gives W Text.SubtractExpression.estimated_cost [.obj (.expr (Expr.sub a b))] (.int <$> liftE (Expr.sub a b).cost) ∧
    Gives W Text.SubtractExpression.get_probability_distribution [.obj (.expr (Expr.sub a b))] (dV <$> liftE (Expr.sub a b).dist) ∧
    GivesNames W Text.SubtractExpression.get_contained_variables [.obj (.expr (Expr.sub a b))] (Expr.sub a b).contained ∧
    Gives W Text.SubtractExpression.__str__ [.obj (.expr (Expr.sub a b))] (pure (.str (Expr.sub a b).str)) := by
  refine ⟨?_, ?_, ?_, ?_, ?_, ?_, ?_, ?_, ?_⟩
  · simp [src, Builds, mapVals, Text.SubtractExpression.__init__]
  · simp [src, Produces, symV, build, indexL, Text.SubtractExpression.production, liftR_map]
  · simp [src, Gives, Text.SubtractExpression.roll, Expr.roll, minmaxOp, pyAbs, pyMax, pyMin]
  · simp [src, Gives, Text.SubtractExpression.max, Expr.extreme, viaDist, liftE_bind, minmaxOp, pyMax, pyMin]
  · simp [src, Gives, Text.SubtractExpression.min, Expr.extreme, viaDist, liftE_bind, minmaxOp, pyMax, pyMin]
  · simp [src, Gives, Text.SubtractExpression.estimated_cost, Expr.cost, liftE_bind, notCost, liftR_bind, liftR_map]
  · simp [src, Gives, Text.SubtractExpression.get_probability_distribution, Expr.dist, liftE_bind, constDist, liftR_bind]
  · simp [src, GivesNames, Text.SubtractExpression.get_contained_variables, Expr.contained, asNames, namesOf]
  · simp [src, Gives, Text.SubtractExpression.__str__, Expr.str, minmaxText]

/-- `expression/multiply_expression.py`. -/
theorem C72_MultiplyExpression (a : Expr) (b : Expr) (s : Token) :
    Builds W Text.MultiplyExpression.__init__ [.obj (.expr a), .obj (.expr b)] (.expr (Expr.mul a b)) ["_expression_one", "_expression_two"] ∧
    Produces W Text.MultiplyExpression.production 9 [.expr a, .tok s, .expr b] ∧
    Gives W Text.MultiplyExpression.roll [.obj (.expr (Expr.mul a b))] (.int <$> (Expr.mul a b).roll) ∧
    Gives W Text.MultiplyExpression.max [.obj (.expr (Expr.mul a b))] (.int <$> liftE ((Expr.mul a b).extreme true)) ∧
    Gives W Text.MultiplyExpression.min [.obj (.expr (Expr.mul a b))] (.int <$> liftE ((Expr.mul a b).extreme false)) ∧
    Gives W Text.MultiplyExpression.estimated_cost [.obj (.expr (Expr.mul a b))] (.int <$> liftE (Expr.mul a b).cost) ∧
    Gives W Text.MultiplyExpression.get_probability_distribution [.obj (.expr (Expr.mul a b))] (dV <$> liftE (Expr.mul a b).dist) ∧
    GivesNames W Text.MultiplyExpression.get_contained_variables [.obj (.expr (Expr.mul a b))] (Expr.mul a b).contained ∧
    Gives W Text.MultiplyExpression.__str__ [.obj (.expr (Expr.mul a b))] (pure (.str (Expr.mul a b).str)) := by
  refine ⟨?_, ?_, ?_, ?_, ?_, ?_, ?_, ?_, ?_⟩
  · simp [src, Builds, mapVals, Text.MultiplyExpression.__init__]
  · simp [src, Produces, symV, build, indexL, Text.MultiplyExpression.production, liftR_map]
  · simp [src, Gives, Text.MultiplyExpression.roll, Expr.roll, minmaxOp, pyAbs, pyMax, pyMin]
  · simp [src, Gives, Text.MultiplyExpression.max, Expr.extreme, viaDist, liftE_bind, minmaxOp, pyMax, pyMin]
  · simp [src, Gives, Text.MultiplyExpression.min, Expr.extreme, viaDist, liftE_bind, minmaxOp, pyMax, pyMin]
  · simp [src, Gives, Text.MultiplyExpression.estimated_cost, Expr.cost, liftE_bind, notCost, liftR_bind, liftR_map]
  · simp [src, Gives, Text.MultiplyExpression.get_probability_distribution, Expr.dist, liftE_bind, constDist, liftR_bind]
  · simp [src, GivesNames, Text.MultiplyExpression.get_contained_variables, Expr.contained, asNames, namesOf]
  · simp [src, Gives, Text.MultiplyExpression.__str__, Expr.str, minmaxText]

/-- `expression/integer_division_expression.py`. -/
theorem C72_IntegerDivisionExpression (a : Expr) (b : Expr) (s : Token) :
    Builds W Text.IntegerDivisionExpression.__init__ [.obj (.expr a), .obj (.expr b)] (.expr (Expr.div a b)) ["_expression_one", "_expression_two"] ∧
    Produces W Text.IntegerDivisionExpression.production 10 [.expr a, .tok s, .expr b] ∧
    Gives W Text.IntegerDivisionExpression.roll [.obj (.expr (Expr.div a b))] (.int <$> (Expr.div a b).roll) ∧
    Gives W Text.IntegerDivisionExpression.max [.obj (.expr (Expr.div a b))] (.int <$> liftE ((Expr.div a b).extreme true)) ∧
    Gives W Text.IntegerDivisionExpression.min [.obj (.expr (Expr.div a b))] (.int <$> liftE ((Expr.div a b).extreme false)) ∧
    Gives W Text.IntegerDivisionExpression.estimated_cost [.obj (.expr (Expr.div a b))] (.int <$> liftE (Expr.div a b).cost) ∧
    Gives W Text.IntegerDivisionExpression.get_probability_distribution [.obj (.expr (Expr.div a b))] (dV <$> liftE (Expr.div a b).dist) ∧
    GivesNames W Text.IntegerDivisionExpression.get_contained_variables [.obj (.expr (Expr.div a b))] (Expr.div a b).contained ∧
    Gives W Text.IntegerDivisionExpression.__str__ [.obj (.expr (Expr.div a b))] (pure (.str (Expr.div a b).str)) := by
  refine ⟨?_, ?_, ?_, ?_, ?_, ?_, ?_, ?_, ?_⟩
  · simp [src, Builds, mapVals, Text.IntegerDivisionExpression.__init__]
  · simp [src, Produces, symV, build, indexL, Text.IntegerDivisionExpression.production, liftR_map]
  · simp [src, Gives, Text.IntegerDivisionExpression.roll, Expr.roll, minmaxOp, pyAbs, pyMax, pyMin]
    refine bind_congr fun x => ?_
    split <;> simp_all [src]
  · simp [src, Gives, Text.IntegerDivisionExpression.max, Expr.extreme, viaDist, liftE_bind, minmaxOp, pyMax, pyMin]
  · simp [src, Gives, Text.IntegerDivisionExpression.min, Expr.extreme, viaDist, liftE_bind, minmaxOp, pyMax, pyMin]
  · simp [src, Gives, Text.IntegerDivisionExpression.estimated_cost, Expr.cost, liftE_bind, notCost, liftR_bind, liftR_map]
  · simp [src, Gives, Text.IntegerDivisionExpression.get_probability_distribution, Expr.dist, liftE_bind, constDist, liftR_bind]
  · simp [src, GivesNames, Text.IntegerDivisionExpression.get_contained_variables, Expr.contained, asNames, namesOf]
  · simp [src, Gives, Text.IntegerDivisionExpression.__str__, Expr.str, minmaxText]

/-- `expression/binary_operator_expression.py`. -/
theorem C72_BinaryOperatorExpression (o : CmpOp) (a : Expr) (b : Expr) (s : Token) :
    Builds W Text.BinaryOperatorExpression.__init__ [.str o.text, .obj (.expr a), .obj (.expr b)] (.expr (Expr.bin o a b)) ["_operator", "_expression_one", "_expression_two"] ∧
    Produces W Text.BinaryOperatorExpression.production 11 [.expr a, .tok s, .expr b] ∧
    Gives W Text.BinaryOperatorExpression.roll [.obj (.expr (Expr.bin o a b))] (.int <$> (Expr.bin o a b).roll) ∧
    Gives W Text.BinaryOperatorExpression.max [.obj (.expr (Expr.bin o a b))] (.int <$> liftE ((Expr.bin o a b).extreme true)) ∧
    Gives W Text.BinaryOperatorExpression.min [.obj (.expr (Expr.bin o a b))] (.int <$> liftE ((Expr.bin o a b).extreme false)) ∧
    Gives W Text.BinaryOperatorExpression.estimated_cost [.obj (.expr (Expr.bin o a b))] (.int <$> liftE (Expr.bin o a b).cost) ∧
    Gives W Text.BinaryOperatorExpression.get_probability_distribution [.obj (.expr (Expr.bin o a b))] (dV <$> liftE (Expr.bin o a b).dist) ∧
    GivesNames W Text.BinaryOperatorExpression.get_contained_variables [.obj (.expr (Expr.bin o a b))] (Expr.bin o a b).contained ∧
    Gives W Text.BinaryOperatorExpression.__str__ [.obj (.expr (Expr.bin o a b))] (pure (.str (Expr.bin o a b).str)) := by
  refine ⟨?_, ?_, ?_, ?_, ?_, ?_, ?_, ?_, ?_⟩
  · cases o <;> simp [src, Builds, mapVals, Text.BinaryOperatorExpression.__init__, minmaxText, CmpOp.text]
  · simp [src, Produces, symV, build, indexL, Text.BinaryOperatorExpression.production, liftR_map]
    cases cmpOf s.text <;> simp [src]
  · cases o <;> simp [src, Gives, Text.BinaryOperatorExpression.roll, Expr.roll, minmaxOp, pyAbs, pyMax, pyMin, operatorMap, minmaxMap, minmaxText, CmpOp.text, CmpOp.onInts, CmpOp.toBinOp, funcBin, eqStatic, bitOp] <;>
     simp only [ite_pure', ite_int, bind_pure_comp]
  · simp [src, Gives, Text.BinaryOperatorExpression.max, Expr.extreme, viaDist, liftE_bind, minmaxOp, pyMax, pyMin, operatorMap, minmaxMap, minmaxText, CmpOp.text, CmpOp.onInts, CmpOp.toBinOp, funcBin, eqStatic, bitOp]
  · simp [src, Gives, Text.BinaryOperatorExpression.min, Expr.extreme, viaDist, liftE_bind, minmaxOp, pyMax, pyMin, operatorMap, minmaxMap, minmaxText, CmpOp.text, CmpOp.onInts, CmpOp.toBinOp, funcBin, eqStatic, bitOp]
  · simp [src, Gives, Text.BinaryOperatorExpression.estimated_cost, Expr.cost, liftE_bind, notCost, liftR_bind, liftR_map, operatorMap, minmaxMap, minmaxText, CmpOp.text, CmpOp.onInts, CmpOp.toBinOp, funcBin, eqStatic, bitOp]
  · cases o <;> simp [src, Gives, Text.BinaryOperatorExpression.get_probability_distribution, Expr.dist, liftE_bind, constDist, liftR_bind, operatorMap, minmaxMap, minmaxText, CmpOp.text, CmpOp.onInts, CmpOp.toBinOp, funcBin, eqStatic, bitOp]
  · simp [src, GivesNames, Text.BinaryOperatorExpression.get_contained_variables, Expr.contained, operatorMap, minmaxMap, minmaxText, CmpOp.text, CmpOp.onInts, CmpOp.toBinOp, funcBin, eqStatic, bitOp, asNames, namesOf]
  · simp [src, Gives, Text.BinaryOperatorExpression.__str__, Expr.str, minmaxText, operatorMap, minmaxMap, minmaxText, CmpOp.text, CmpOp.onInts, CmpOp.toBinOp, funcBin, eqStatic, bitOp]

/-- `expression/minmax_expression.py`. -/
theorem C72_MinMaxExpression (k : Bool) (a : Expr) (b : Expr) (s t u v : Token) :
    Builds W Text.MinMaxExpression.__init__ [.str (minmaxText k), .obj (.expr a), .obj (.expr b)] (.expr (Expr.minmax k a b)) ["_min_max", "_expression_one", "_expression_two"] ∧
    Produces W Text.MinMaxExpression.production 12 [.tok s, .tok t, .expr a, .tok u, .expr b, .tok v] ∧
    Gives W Text.MinMaxExpression.roll [.obj (.expr (Expr.minmax k a b))] (.int <$> (Expr.minmax k a b).roll) ∧
    Gives W Text.MinMaxExpression.max [.obj (.expr (Expr.minmax k a b))] (.int <$> liftE ((Expr.minmax k a b).extreme true)) ∧
    Gives W Text.MinMaxExpression.min [.obj (.expr (Expr.minmax k a b))] (.int <$> liftE ((Expr.minmax k a b).extreme false)) ∧
    Gives W Text.MinMaxExpression.estimated_cost [.obj (.expr (Expr.minmax k a b))] (.int <$> liftE (Expr.minmax k a b).cost) ∧
    Gives W Text.MinMaxExpression.get_probability_distribution [.obj (.expr (Expr.minmax k a b))] (dV <$> liftE (Expr.minmax k a b).dist) ∧
    GivesNames W Text.MinMaxExpression.get_contained_variables [.obj (.expr (Expr.minmax k a b))] (Expr.minmax k a b).contained ∧
    Gives W Text.MinMaxExpression.__str__ [.obj (.expr (Expr.minmax k a b))] (pure (.str (Expr.minmax k a b).str)) := by
  refine ⟨?_, ?_, ?_, ?_, ?_, ?_, ?_, ?_, ?_⟩
  · cases k <;> simp [src, Builds, mapVals, Text.MinMaxExpression.__init__, minmaxText, CmpOp.text]
  · simp [src, Produces, symV, build, indexL, Text.MinMaxExpression.production, liftR_map]
    cases minmaxOf s.text <;> simp [src]
  · cases k <;> simp [src, Gives, Text.MinMaxExpression.roll, Expr.roll, minmaxOp, pyAbs, pyMax, pyMin, operatorMap, minmaxMap, minmaxText, CmpOp.text, CmpOp.onInts, CmpOp.toBinOp, funcBin, eqStatic, bitOp]
  · cases k <;> simp [src, Gives, Text.MinMaxExpression.max, Expr.extreme, viaDist, liftE_bind, minmaxOp, pyMax, pyMin, operatorMap, minmaxMap, minmaxText, CmpOp.text, CmpOp.onInts, CmpOp.toBinOp, funcBin, eqStatic, bitOp]
  · cases k <;> simp [src, Gives, Text.MinMaxExpression.min, Expr.extreme, viaDist, liftE_bind, minmaxOp, pyMax, pyMin, operatorMap, minmaxMap, minmaxText, CmpOp.text, CmpOp.onInts, CmpOp.toBinOp, funcBin, eqStatic, bitOp]
  · simp [src, Gives, Text.MinMaxExpression.estimated_cost, Expr.cost, liftE_bind, notCost, liftR_bind, liftR_map, operatorMap, minmaxMap, minmaxText, CmpOp.text, CmpOp.onInts, CmpOp.toBinOp, funcBin, eqStatic, bitOp]
  · cases k <;> simp [src, Gives, Text.MinMaxExpression.get_probability_distribution, Expr.dist, liftE_bind, constDist, liftR_bind, operatorMap, minmaxMap, minmaxText, CmpOp.text, CmpOp.onInts, CmpOp.toBinOp, funcBin, eqStatic, bitOp]
  · simp [src, GivesNames, Text.MinMaxExpression.get_contained_variables, Expr.contained, operatorMap, minmaxMap, minmaxText, CmpOp.text, CmpOp.onInts, CmpOp.toBinOp, funcBin, eqStatic, bitOp, asNames, namesOf]
  · cases k <;> simp [src, Gives, Text.MinMaxExpression.__str__, Expr.str, minmaxText, operatorMap, minmaxMap, minmaxText, CmpOp.text, CmpOp.onInts, CmpOp.toBinOp, funcBin, eqStatic, bitOp]

/-- `expression/constant_integer_expression.py`. -/
theorem C72_ConstantIntegerExpression (n : Str) (s : Token) :
    Builds W Text.ConstantIntegerExpression.__init__ [.str n, .obj (.svc "ProbabilityDistributionFactory")] (.expr (Expr.constInt n)) ["_number", "_probability_distribution_factory"] ∧
    Produces W Text.ConstantIntegerExpression.production 5 [.tok s] ∧
    Gives W Text.ConstantIntegerExpression.roll [.obj (.expr (Expr.constInt n))] (.int <$> (Expr.constInt n).roll) ∧
    Gives W Text.ConstantIntegerExpression.max [.obj (.expr (Expr.constInt n))] (.int <$> liftE ((Expr.constInt n).extreme true)) ∧
    Gives W Text.ConstantIntegerExpression.min [.obj (.expr (Expr.constInt n))] (.int <$> liftE ((Expr.constInt n).extreme false)) ∧
    Gives W Text.ConstantIntegerExpression.estimated_cost [.obj (.expr (Expr.constInt n))] (.int <$> liftE (Expr.constInt n).cost) ∧
    Gives W Text.ConstantIntegerExpression.get_probability_distribution [.obj (.expr (Expr.constInt n))] (dV <$> liftE (Expr.constInt n).dist) ∧
    GivesNames W Text.ConstantIntegerExpression.get_contained_variables [.obj (.expr (Expr.constInt n))] (Expr.constInt n).contained ∧
    Gives W Text.ConstantIntegerExpression.__str__ [.obj (.expr (Expr.constInt n))] (pure (.str (Expr.constInt n).str)) := by
  refine ⟨?_, ?_, ?_, ?_, ?_, ?_, ?_, ?_, ?_⟩
  · simp [src, Builds, mapVals, Text.ConstantIntegerExpression.__init__]
  · simp [src, Produces, symV, build, indexL, Text.ConstantIntegerExpression.production, liftR_map]
  · simp [src, Gives, Text.ConstantIntegerExpression.roll, Expr.roll, minmaxOp, pyAbs, pyMax, pyMin]
  · simp [src, Gives, Text.ConstantIntegerExpression.max, Expr.extreme, viaDist, liftE_bind, minmaxOp, pyMax, pyMin]
  · simp [src, Gives, Text.ConstantIntegerExpression.min, Expr.extreme, viaDist, liftE_bind, minmaxOp, pyMax, pyMin]
  · simp [src, Gives, Text.ConstantIntegerExpression.estimated_cost, Expr.cost, liftE_bind, notCost, liftR_bind, liftR_map]
  · simp [src, Gives, Text.ConstantIntegerExpression.get_probability_distribution, Expr.dist, liftE_bind, constDist, liftR_bind]
  · simp [src, GivesNames, Text.ConstantIntegerExpression.get_contained_variables, Expr.contained, asNames, namesOf]
  · simp [src, Gives, Text.ConstantIntegerExpression.__str__, Expr.str, minmaxText]

/-- `expression/constant_binary_expression.py`. -/
theorem C72_ConstantBinaryExpression (n : Str) (s : Token) :
    Builds W Text.ConstantBinaryExpression.__init__ [.str n, .obj (.svc "ProbabilityDistributionFactory")] (.expr (Expr.constBin n)) ["_binary_string", "_probability_distribution_factory"] ∧
    Produces W Text.ConstantBinaryExpression.production 6 [.tok s] ∧
    Gives W Text.ConstantBinaryExpression.roll [.obj (.expr (Expr.constBin n))] (.int <$> (Expr.constBin n).roll) ∧
    Gives W Text.ConstantBinaryExpression.max [.obj (.expr (Expr.constBin n))] (.int <$> liftE ((Expr.constBin n).extreme true)) ∧
    Gives W Text.ConstantBinaryExpression.min [.obj (.expr (Expr.constBin n))] (.int <$> liftE ((Expr.constBin n).extreme false)) ∧
    Gives W Text.ConstantBinaryExpression.estimated_cost [.obj (.expr (Expr.constBin n))] (.int <$> liftE (Expr.constBin n).cost) ∧
    Gives W Text.ConstantBinaryExpression.get_probability_distribution [.obj (.expr (Expr.constBin n))] (dV <$> liftE (Expr.constBin n).dist) ∧
    GivesNames W Text.ConstantBinaryExpression.get_contained_variables [.obj (.expr (Expr.constBin n))] (Expr.constBin n).contained ∧
    Gives W Text.ConstantBinaryExpression.__str__ [.obj (.expr (Expr.constBin n))] (pure (.str (Expr.constBin n).str)) ∧
    Gives W Text.ConstantBinaryExpression._get_value [.obj (.expr (Expr.constBin n))] (pure (.int (binValue n))) := by
  refine ⟨?_, ?_, ?_, ?_, ?_, ?_, ?_, ?_, ?_, ?_⟩
  · simp [src, Builds, mapVals, Text.ConstantBinaryExpression.__init__]
  · simp [src, Produces, symV, build, indexL, Text.ConstantBinaryExpression.production, liftR_map]
  · simp [src, Gives, Text.ConstantBinaryExpression.roll, Expr.roll, minmaxOp, pyAbs, pyMax, pyMin]
  · simp [src, Gives, Text.ConstantBinaryExpression.max, Expr.extreme, viaDist, liftE_bind, minmaxOp, pyMax, pyMin]
  · simp [src, Gives, Text.ConstantBinaryExpression.min, Expr.extreme, viaDist, liftE_bind, minmaxOp, pyMax, pyMin]
  · simp [src, Gives, Text.ConstantBinaryExpression.estimated_cost, Expr.cost, liftE_bind, notCost, liftR_bind, liftR_map]
  · simp [src, Gives, Text.ConstantBinaryExpression.get_probability_distribution, Expr.dist, liftE_bind, constDist, liftR_bind]
  · simp [src, GivesNames, Text.ConstantBinaryExpression.get_contained_variables, Expr.contained, asNames, namesOf]
  · simp [src, Gives, Text.ConstantBinaryExpression.__str__, Expr.str, minmaxText]
  · simp [src, Gives, Text.ConstantBinaryExpression._get_value, binValue]
    simp only [ite_pure', ite_int]

/-- `expression/var_assignment_expression.py`. -/
theorem C72_VarAssignmentExpression (n : Str) (e : Expr) (s t u : Token) :
    Builds W Text.VarAssignmentExpression.__init__ [.obj .state, .str n, .obj (.expr e)] (.expr (Expr.assign n e)) ["_state", "_name", "_expression"] ∧
    Produces W Text.VarAssignmentExpression.production 14 [.tok s, .tok t, .tok u, .expr e] ∧
    Gives W Text.VarAssignmentExpression.roll [.obj (.expr (Expr.assign n e))] (.int <$> (Expr.assign n e).roll) ∧
    Gives W Text.VarAssignmentExpression.max [.obj (.expr (Expr.assign n e))] (.int <$> liftE ((Expr.assign n e).extreme true)) ∧
    Gives W Text.VarAssignmentExpression.min [.obj (.expr (Expr.assign n e))] (.int <$> liftE ((Expr.assign n e).extreme false)) ∧
    Gives W Text.VarAssignmentExpression.estimated_cost [.obj (.expr (Expr.assign n e))] (.int <$> liftE (Expr.assign n e).cost) ∧
    Gives W Text.VarAssignmentExpression.get_probability_distribution [.obj (.expr (Expr.assign n e))] (dV <$> liftE (Expr.assign n e).dist) ∧
    GivesNames W Text.VarAssignmentExpression.get_contained_variables [.obj (.expr (Expr.assign n e))] (Expr.assign n e).contained ∧
    Gives W Text.VarAssignmentExpression.__str__ [.obj (.expr (Expr.assign n e))] (pure (.str (Expr.assign n e).str)) := by
  refine ⟨?_, ?_, ?_, ?_, ?_, ?_, ?_, ?_, ?_⟩
  · simp [src, Builds, mapVals, Text.VarAssignmentExpression.__init__]
  · simp [src, Produces, symV, build, indexL, Text.VarAssignmentExpression.production, liftR_map]
  · simp [src, Gives, Text.VarAssignmentExpression.roll, Expr.roll, minmaxOp, pyAbs, pyMax, pyMin]
  · simp [src, Gives, Text.VarAssignmentExpression.max, Expr.extreme, viaDist, liftE_bind, minmaxOp, pyMax, pyMin]
  · simp [src, Gives, Text.VarAssignmentExpression.min, Expr.extreme, viaDist, liftE_bind, minmaxOp, pyMax, pyMin]
  · simp [src, Gives, Text.VarAssignmentExpression.estimated_cost, Expr.cost, liftE_bind, notCost, liftR_bind, liftR_map]
  · simp [src, Gives, Text.VarAssignmentExpression.get_probability_distribution, Expr.dist, liftE_bind, constDist, liftR_bind]
  · simp [src, GivesNames, Text.VarAssignmentExpression.get_contained_variables, Expr.contained, asNames, namesOf]
  · simp [src, Gives, Text.VarAssignmentExpression.__str__, Expr.str, minmaxText]

/-- `expression/get_var_expression.py`. -/
theorem C72_GetVarExpression (n : Str) (s : Token) :
    Builds W Text.GetVarExpression.__init__ [.obj .state, .str n] (.expr (Expr.getVar n)) ["_state", "_name"] ∧
    Produces W Text.GetVarExpression.production 15 [.tok s] ∧
    Gives W Text.GetVarExpression.roll [.obj (.expr (Expr.getVar n))] (.int <$> (Expr.getVar n).roll) ∧
    Gives W Text.GetVarExpression.max [.obj (.expr (Expr.getVar n))] (.int <$> liftE ((Expr.getVar n).extreme true)) ∧
    Gives W Text.GetVarExpression.min [.obj (.expr (Expr.getVar n))] (.int <$> liftE ((Expr.getVar n).extreme false)) ∧
    Gives W Text.GetVarExpression.estimated_cost [.obj (.expr (Expr.getVar n))] (.int <$> liftE (Expr.getVar n).cost) ∧
    Gives W Text.GetVarExpression.get_probability_distribution [.obj (.expr (Expr.getVar n))] (dV <$> liftE (Expr.getVar n).dist) ∧
    GivesNames W Text.GetVarExpression.get_contained_variables [.obj (.expr (Expr.getVar n))] (Expr.getVar n).contained ∧
    Gives W Text.GetVarExpression.__str__ [.obj (.expr (Expr.getVar n))] (pure (.str (Expr.getVar n).str)) := by
  refine ⟨?_, ?_, ?_, ?_, ?_, ?_, ?_, ?_, ?_⟩
  · simp [src, Builds, mapVals, Text.GetVarExpression.__init__]
  · simp [src, Produces, symV, build, indexL, Text.GetVarExpression.production, liftR_map]
  · simp [src, Gives, Text.GetVarExpression.roll, Expr.roll, minmaxOp, pyAbs, pyMax, pyMin]
  · simp [src, Gives, Text.GetVarExpression.max, Expr.extreme, viaDist, liftE_bind, minmaxOp, pyMax, pyMin]
  · simp [src, Gives, Text.GetVarExpression.min, Expr.extreme, viaDist, liftE_bind, minmaxOp, pyMax, pyMin]
  · simp [src, Gives, Text.GetVarExpression.estimated_cost, Expr.cost, liftE_bind, notCost, liftR_bind, liftR_map]
  · simp [src, Gives, Text.GetVarExpression.get_probability_distribution, Expr.dist, liftE_bind, constDist, liftR_bind]
  · simp [src, GivesNames, Text.GetVarExpression.get_contained_variables, Expr.contained, asNames, namesOf]
  · simp [src, Gives, Text.GetVarExpression.__str__, Expr.str, minmaxText]

/-- `OPERATOR_MAP` of `binary_operator_expression.py:27-36` and `minmax_expression.py:14`, and the two static methods
    `binary_operator_expression.py:13-24` on what they are called with: two ints or two distributions. -/
theorem C72_operator_maps (x y : Int) (a b : Dist) :
    evalE W [] Text.BinaryOperatorExpression.OPERATOR_MAP [] = pure (.dict operatorMap, []) ∧
    evalE W [] Text.MinMaxExpression.OPERATOR_MAP [] = pure (.dict minmaxMap, []) ∧
    Gives W Text.BinaryOperatorExpression.__equal__ [.int x, .int y] (pure (.bool (decide (x = y)))) ∧
    Gives W Text.BinaryOperatorExpression.__not_equal__ [.int x, .int y] (pure (.bool (decide (x ≠ y)))) ∧
    Gives W Text.BinaryOperatorExpression.__equal__ [dV a, dV b] (dV <$> liftR (Dist.binop .eq a b)) ∧
    Gives W Text.BinaryOperatorExpression.__not_equal__ [dV a, dV b] (dV <$> liftR (Dist.binop .ne a b)) := by
  refine ⟨?_, ?_, ?_, ?_, ?_, ?_⟩
  · simp [src, Text.BinaryOperatorExpression.OPERATOR_MAP, operatorMap]
  · simp [src, Text.MinMaxExpression.OPERATOR_MAP, minmaxMap]
  · simp [src, Gives, Text.BinaryOperatorExpression.__equal__]
  · simp [src, Gives, Text.BinaryOperatorExpression.__not_equal__]
  · simp [src, Gives, Text.BinaryOperatorExpression.__equal__]
  · simp [src, Gives, Text.BinaryOperatorExpression.__not_equal__]

end

/-! ### A concrete case: the text of `AddExpression.max` on `2d6 + 1` gives 13, and that of `roll` on `1 // 0` raises -/

section
attribute [local instance] listRuntime

example : PyFun.run (world .ok id 0) Text.AddExpression.max [.obj (.expr (.add (.constInt ['1', '2']) (.constInt ['1'])))] State.new =
    .pure (.ok (.int 13), State.new) := by
  rw [(C72_AddExpression .ok id 0 (.constInt ['1', '2']) (.constInt ['1']) ⟨.add, [], 0⟩).2.2.2.1]
  rfl

example : PyFun.run (world .ok id 0) Text.IntegerDivisionExpression.roll [.obj (.expr (.div (.constInt ['1']) (.constInt ['0'])))] State.new =
    .pure (.error .zeroDivision, State.new) := by
  rw [(C72_IntegerDivisionExpression .ok id 0 (.constInt ['1']) (.constInt ['0']) ⟨.add, [], 0⟩).2.2.1]
  rfl

end
end PyDice
