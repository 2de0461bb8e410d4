import Verif.Spec.Source
/-!
# Constructors that use other methods of the object under construction
-/
namespace PyDice.Source
open PyRuntime

section
variable [R : PyRuntime] (W : World Obj RollM)

/-- The constructor `f`, run on the arguments (after `self`) with the methods `helpers` of the class at hand, raises if `r` does; if `r` is an object
    of the model it sets the fields named, in this order, to what that object has under these names, and nothing else. -/
def BuildsBy (f : PyFun) (helpers : List (String × PyFun)) (args : List V) (r : Res Obj) (names : List String) : Prop :=
  f.runIn W (helpers.map fun p => ("self." ++ p.1, p.2.asMethod W [])) (.none :: args) [] =
    liftR r >>= fun o => do
      let vs ← mapVals (attrObj o) names
      pure (.none, (names.map ("self." ++ ·)).zip vs)

end
end PyDice.Source
