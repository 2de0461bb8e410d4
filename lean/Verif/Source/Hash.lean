import Verif.Source.Semantics
import Verif.Source.Text
import Verif.Repr
/-!
# The world of the methods that hash and print

`hs` and `hi` are Python's hashes of strings and of ints.  `hash(x)` of an object is what its class's `__hash__` returns, except that −1 becomes −2
(`fixHash`); the model's `codeHash`/`csHash` are these numbers.
-/
namespace PyDice.Source
open PyRuntime

section
variable [R : PyRuntime]

/-- The objects of this world. -/
inductive HObj where
  | con (c : Constraint)
  | cset (s : CSet)
  /-- the `set` inside a constraint set -/
  | raw (s : CSet)
  | outcome (o : Outcome)
  | dist (d : Dist)
  /-- the `_result_map` of a distribution -/
  | table (d : Dist)
  | merger

instance : BEq HObj := ⟨fun _ _ => false⟩

variable (hs : Str → Hash) (hi : Int → Hash)

/-- `str` of an object. -/
def hashStr : HObj → Res Str
  | .con c => .ok c.text
  | .cset s => .ok (csText s)
  | .raw s => .ok (reprSet ((iter s).map Constraint.text))
  | .outcome o => .ok o.text
  | .dist d => .ok d.text
  | .table d => .ok (reprDict (d.resultMap.map entryText))
  | .merger => .ok "ConstraintMerger".toList

/-- Attributes. -/
def hashAttr (o : HObj) (a : String) : Res (Val HObj) :=
  match o, a with
  | .cset s, "_constraints_set" => .ok (.obj (.raw s))
  | .outcome o, "value" => .ok (.int o.value)
  | .outcome o, "constraint_set" => .ok (.obj (.cset o.cs))
  | .dist d, "_result_map" => .ok (.obj (.table d))
  | _, _ => .error .type

/-- Functions: `hash`, and `operator.xor` of numbers of 64 bits. -/
def hashFunc (path : List String) (args : List (Val HObj)) : Res (Val HObj) :=
  match path, args with
  | ["hash"], [.str s] => .ok (.int (hs s).toInt)
  | ["hash"], [.int i] => .ok (.int (hi i).toInt)
  | ["hash"], [.obj (.con c)] => .ok (.int (c.codeHash hs).toInt)
  | ["hash"], [.obj (.cset s)] => .ok (.int (csHash hs s).toInt)
  | ["operator", "xor"], [.int a, .int b] => .ok (.int (BitVec.ofInt 64 a ^^^ BitVec.ofInt 64 b).toInt)
  | _, _ => .error .type

/-- The world of the methods that hash and print. -/
def hashWorld : World HObj Res where
  raise e := .error e
  attr := hashAttr
  setAttr _ _ _ := .error .type
  method o f args := match f, args with
    | "__str__", [] => do return (.str (← hashStr o), none)
    | _, _ => .error .type
  func := hashFunc hs hi
  bin _ _ _ := .error .type
  cmp _ _ _ := .error .type
  getItem _ _ := .error .type
  setItem _ _ _ := .error .type
  contains _ _ := .error .type
  iter
    | .raw s => .ok ((iter s).map fun c => .obj (.con c))
    | _ => .error .type
  truth _ := .ok true
  str := hashStr
  strFl _ := .error .type
  mkSet _ := .error .type
  isInst _ _ := false
  callLam _ _ _ := .error .type
  toFl q := .ok q
  rnd q := q
  fuel := 0
  throw _ := .error .type
  attempt _ _ := .error .type

/-- The `__hash__` whose text is `f` gives, for the object `o`, the hash `h`: it returns a number of 64 bits of which `hash` makes `h`. -/
def Hashes (f : PyFun) (o : HObj) (h : Hash) : Prop :=
  ∃ raw : Hash, PyFun.run (hashWorld hs hi) f [.obj o] = .ok (.int raw.toInt) ∧ fixHash raw = h

/-- The method whose text is `f` prints the object `o` as `s`. -/
def Prints (f : PyFun) (o : HObj) (s : Str) : Prop := PyFun.run (hashWorld hs hi) f [.obj o] = .ok (.str s)

end
end PyDice.Source
