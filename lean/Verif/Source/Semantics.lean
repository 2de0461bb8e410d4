import Verif.Source.Syntax
import Verif.Text
import Verif.Dist
/-!
# What the syntax of `Verif/Source/Syntax.lean` means

An evaluator for the fragment of Python used by the project.  It knows ints, floats, text, lists, tuples and dicts; objects and their methods,
classes and library functions are given by a `World`.  Exceptions, state and randomness are those of the monad `m`.

Simplifications, all checked by reading the project's functions:
* lists, tuples and dicts are values: a method or assignment that changes one in place writes the changed value back to the variable, field or
  attribute it was reached through (`storeP`).  Only one name at a time refers to such a value in the functions concerned; objects whose changes
  must be seen elsewhere (the interpreter's state) are references kept by the world.
* a nested function sees the variables of its surrounding function; what it does to a list or dict passed as an argument is copied back.
* `range`, `zip`, dict views and generator expressions are lists.
* the arguments of an exception are not evaluated in `raise Class(…)`; `raise x` raises the object `x`.
* a `try` block whose exception is caught has no effect on variables; the variable of the handler keeps its value afterwards.
* there are no infinite floats: a float operation other than the conversion and division of ints rounds without bound, and `math.floor` raises
  `OverflowError` where Python's would have got an infinite float.
* `and`/`or`/`not` give truth values.
-/

namespace PyDice.Source

/-- Python values; `Ω` are the objects. -/
inductive Val (Ω : Type) where
  | none
  | bool (b : Bool)
  | int (i : Int)
  | flt (q : ℚ)
  | str (s : Str)
  | list (l : List (Val Ω))
  | tuple (l : List (Val Ω))
  | dict (l : List (Val Ω × Val Ω))
  | obj (o : Ω)
  /-- a dotted global name: a builtin, a class, a module's function -/
  | glob (path : List String)
  | lam (params : List String) (body : PyE)
  /-- a keyword argument on its way into a call, or under the name `*` a starred one -/
  | kwv (k : String) (v : Val Ω)
  /-- a local variable not yet assigned -/
  | unbound

section values
variable {Ω : Type}

/-- `==` of values that occur as keys or in comparisons; lists, tuples and dicts differ from everything else. -/
def Val.eqv [BEq Ω] : Val Ω → Val Ω → Bool
  | .none, .none => true
  | .bool a, .bool b => a == b
  | .int a, .int b => decide (a = b)
  | .str a, .str b => decide (a = b)
  | .obj a, .obj b => a == b
  | _, _ => false

instance [BEq Ω] : BEq (Val Ω) := ⟨Val.eqv⟩

/-- Variables; `self.a` is kept under the name `"self.a"` while an object is being built. -/
abbrev Env (Ω : Type) := List (String × Val Ω)

/-- The value of a variable. -/
def Env.get? : Env Ω → String → Option (Val Ω)
  | [], _ => Option.none
  | (y, v) :: t, x => if y = x then some v else Env.get? t x

/-- Assignment to a variable. -/
def Env.set : Env Ω → String → Val Ω → Env Ω
  | [], x, v => [(x, v)]
  | (y, w) :: t, x, v => if y = x then (y, v) :: t else (y, w) :: Env.set t x v

/-- What a nested function does: the result, the final values of its parameters, the surrounding variables. -/
abbrev Fun (Ω : Type) (m : Type → Type) := List (Val Ω) → Env Ω → m (Val Ω × List (Val Ω) × Env Ω)

/-- The nested functions in scope. -/
abbrev Funs (Ω : Type) (m : Type → Type) := List (String × Fun Ω m)

/-- Look up a nested function. -/
def Funs.get? {m : Type → Type} : Funs Ω m → String → Option (Fun Ω m)
  | [], _ => Option.none
  | (y, v) :: t, x => if y = x then some v else Funs.get? t x

/-- How a block ends: by running off its end or by `return`. -/
inductive Flow (Ω : Type) where
  | next
  | ret (v : Val Ω)

/-- Everything the evaluator does not know itself. -/
structure World (Ω : Type) (m : Type → Type) where
  raise : {α : Type} → Err → m α
  attr : Ω → String → m (Val Ω)
  setAttr : Ω → String → Val Ω → m Ω
  /-- a method call; the second component is the object after the call, if it is a value that was changed -/
  method : Ω → String → List (Val Ω) → m (Val Ω × Option Ω)
  func : List String → List (Val Ω) → m (Val Ω)
  bin : BOp → Val Ω → Val Ω → m (Val Ω)
  cmp : COp → Val Ω → Val Ω → m (Val Ω)
  getItem : Ω → Val Ω → m (Val Ω)
  setItem : Ω → Val Ω → Val Ω → m Unit
  contains : Ω → Val Ω → m Bool
  iter : Ω → m (List (Val Ω))
  truth : Ω → m Bool
  str : Ω → m Str
  /-- how a float is printed -/
  strFl : ℚ → m Str
  mkSet : List (Val Ω) → m (Val Ω)
  isInst : Ω → String → Bool
  callLam : List String → PyE → List (Val Ω) → m (Val Ω)
  /-- an int or a quotient of ints as a float -/
  toFl : ℚ → Res ℚ
  /-- the result of an operation on floats -/
  rnd : ℚ → ℚ
  /-- bound on the passes of a `while` loop -/
  fuel : Nat
  /-- `raise` of an exception object -/
  throw : {α : Type} → Val Ω → m α
  /-- run the body of a `try` that catches exceptions of a class: what the body gives, or the exception caught -/
  attempt : {α : Type} → List String → m α → m (α ⊕ Val Ω)

end values

section
variable {Ω : Type} [BEq Ω] {m : Type → Type} [Monad m] (W : World Ω m)

/-- The exception class of a `raise`. -/
def errOf : String → Err
  | "ValueError" => .value
  | "TypeError" => .type
  | "KeyError" => .key
  | "IndexError" => .index
  | "ZeroDivisionError" => .zeroDivision
  | _ => .type

/-- A computation that only may raise. -/
def World.lift {α : Type} : Res α → m α
  | .ok a => pure a
  | .error e => W.raise e

/-- A number on its way into a float operation: an int is converted. -/
def toNum : Val Ω → m ℚ
  | .int i => W.lift (W.toFl i)
  | .flt q => pure q
  | _ => W.raise .type

/-- `a + b`, `a - b`, `a * b`, `a // b`, `a / b`. -/
def binOp (op : BOp) (a b : Val Ω) : m (Val Ω) :=
  match op, a, b with
  | .add, .int x, .int y => pure (.int (x + y))
  | .sub, .int x, .int y => pure (.int (x - y))
  | .mul, .int x, .int y => pure (.int (x * y))
  | .floordiv, .int x, .int y => if y = 0 then W.raise .zeroDivision else pure (.int (x.fdiv y))
  | .div, .int x, .int y => if y = 0 then W.raise .zeroDivision else do return .flt (← W.lift (W.toFl ((x : ℚ) / (y : ℚ))))
  | .add, .str x, .str y => pure (.str (x ++ y))
  | .mul, .str x, .int y => pure (.str (List.replicate y.toNat x).flatten)
  | _, .obj _, _ => W.bin op a b
  | _, _, .obj _ => W.bin op a b
  | .add, x, y => do let p ← toNum W x; let q ← toNum W y; return .flt (W.rnd (p + q))
  | .sub, x, y => do let p ← toNum W x; let q ← toNum W y; return .flt (W.rnd (p - q))
  | .mul, x, y => do let p ← toNum W x; let q ← toNum W y; return .flt (W.rnd (p * q))
  | .div, x, y => do
    let p ← toNum W x; let q ← toNum W y
    if q = 0 then W.raise .zeroDivision else return .flt (W.rnd (p / q))
  | .floordiv, _, _ => W.raise .type

/-- The elements a `for` loop sees. -/
def iterV : Val Ω → m (List (Val Ω))
  | .list l => pure l
  | .tuple l => pure l
  | .dict l => pure (l.map Prod.fst)
  | .str s => pure (s.map fun c => .str [c])
  | .obj o => W.iter o
  | _ => W.raise .type

/-- Comparisons, `in`, `is`. -/
def cmpOp (op : COp) (a b : Val Ω) : m (Val Ω) :=
  match op, a, b with
  | .eq, .int x, .int y => pure (.bool (decide (x = y)))
  | .ne, .int x, .int y => pure (.bool (decide (x ≠ y)))
  | .lt, .int x, .int y => pure (.bool (decide (x < y)))
  | .le, .int x, .int y => pure (.bool (decide (x ≤ y)))
  | .gt, .int x, .int y => pure (.bool (decide (x > y)))
  | .ge, .int x, .int y => pure (.bool (decide (x ≥ y)))
  | .is, x, .none => pure (.bool (match x with | .none => true | _ => false))
  | .isNot, x, .none => pure (.bool (match x with | .none => false | _ => true))
  | .isIn, x, .dict d => pure (.bool (dictGet? d x).isSome)
  | .notIn, x, .dict d => pure (.bool (!(dictGet? d x).isSome))
  | .isIn, .str [c], .str s => pure (.bool (s.contains c))
  | .isIn, x, .obj o => do return .bool (← W.contains o x)
  | .notIn, x, .obj o => do return .bool (!(← W.contains o x))
  | op, .obj o, y => W.cmp op (.obj o) y
  | .eq, x, y => pure (.bool (x == y))
  | .ne, x, y => pure (.bool (!(x == y)))
  | _, _, _ => W.raise .type

/-- Whether a value counts as true. -/
def truthV : Val Ω → m Bool
  | .none => pure false
  | .bool b => pure b
  | .int i => pure (decide (i ≠ 0))
  | .flt q => pure (decide (q ≠ 0))
  | .str s => pure (!s.isEmpty)
  | .list l => pure (!l.isEmpty)
  | .tuple l => pure (!l.isEmpty)
  | .dict l => pure (!l.isEmpty)
  | .obj o => W.truth o
  | _ => pure true

/-- `str(v)`; also what an f-string shows. -/
def strV : Val Ω → m Str
  | .str s => pure s
  | .int i => pure (intStr i)
  | .obj o => W.str o
  | .flt q => W.strFl q
  | _ => W.raise .type

/-- A list of ints. -/
def intsOf : List (Val Ω) → m (List Int)
  | [] => pure []
  | .int i :: t => do return i :: (← intsOf t)
  | _ :: _ => W.raise .type

/-- Position of an index or slice bound in a sequence of length `n`: counted from the end when negative. -/
def sliceBound (n : Nat) (i : Int) : Nat := if i < 0 then (n + i).toNat else min i.toNat n

/-- `l[lo:hi]`. -/
def sliceL {α : Type} (l : List α) (lo hi : Option Int) : List α :=
  let a := match lo with | some i => sliceBound l.length i | Option.none => 0
  let b := match hi with | some i => sliceBound l.length i | Option.none => l.length
  (l.take b).drop a

/-- `l[i]`. -/
def indexL {α : Type} (l : List α) (i : Int) : Res α :=
  if i < 0 then
    if (l.length : Int) + i < 0 then .error .index
    else match l[((l.length : Int) + i).toNat]? with | some x => .ok x | Option.none => .error .index
  else match l[i.toNat]? with | some x => .ok x | Option.none => .error .index

/-- An optional slice bound. -/
def boundOf : Val Ω → m (Option Int)
  | .none => pure Option.none
  | .int i => pure (some i)
  | _ => W.raise .type

/-- `v[i]`. -/
def indexV (v i : Val Ω) : m (Val Ω) :=
  match v, i with
  | .list l, .int i => W.lift (indexL l i)
  | .tuple l, .int i => W.lift (indexL l i)
  | .dict d, k => match dictGet? d k with | some x => pure x | Option.none => W.raise .key
  | .obj o, k => W.getItem o k
  | _, _ => W.raise .type

/-- `v[lo:hi]`. -/
def sliceV (v lo hi : Val Ω) : m (Val Ω) := do
  let a ← boundOf W lo
  let b ← boundOf W hi
  match v with
  | .list l => return .list (sliceL l a b)
  | .str s => return .str (sliceL s a b)
  | _ => W.raise .type

/-- The function of module `operator` behind an operator. -/
def operatorFn (op : String) (a b : Val Ω) : m (Val Ω) :=
  match op with
  | "add" => binOp W .add a b
  | "sub" => binOp W .sub a b
  | "mul" => binOp W .mul a b
  | "floordiv" => binOp W .floordiv a b
  | "eq" => cmpOp W .eq a b
  | "ne" => cmpOp W .ne a b
  | "lt" => cmpOp W .lt a b
  | "le" => cmpOp W .le a b
  | "gt" => cmpOp W .gt a b
  | "ge" => cmpOp W .ge a b
  | "and_" => match a, b with
    | .bool x, .bool y => pure (.bool (x && y))
    | x, y => W.func ["operator", "and_"] [x, y]
  | "or_" => match a, b with
    | .bool x, .bool y => pure (.bool (x || y))
    | x, y => W.func ["operator", "or_"] [x, y]
  | op => W.func ["operator", op] [a, b]

/-- `isinstance(v, cls)`. -/
def isInst (v : Val Ω) (cls : String) : Bool :=
  match v with
  | .int _ => cls == "int"
  | .bool _ => cls == "int" || cls == "bool"
  | .obj o => W.isInst o cls
  | _ => false

/-- `zip` of two sequences. -/
def zipV (a b : List (Val Ω)) : List (Val Ω) := List.zipWith (fun x y => .tuple [x, y]) a b

/-- The number a value is. -/
def numOf : Val Ω → Option ℚ
  | .int i => some i
  | .flt q => some q
  | _ => Option.none

/-- A list of pairs of an int and a number. -/
def pairsOfV : List (Val Ω) → Option (List (Int × ℚ × Val Ω))
  | [] => some []
  | .tuple [.int i, y] :: t => do
    let q ← numOf y
    let l ← pairsOfV t
    return (i, q, y) :: l
  | _ :: _ => Option.none

/-- Tuples are ordered by their first components, then by their second ones. -/
def pairLe (a b : Int × ℚ × Val Ω) : Bool := decide (a.1 < b.1 ∨ (a.1 = b.1 ∧ a.2.1 ≤ b.2.1))

/-- `sorted` of a list of pairs or of ints. -/
def sortedV (l : List (Val Ω)) : m (Val Ω) :=
  match pairsOfV l with
  | some ps => pure (.list ((ps.mergeSort pairLe).map fun p => .tuple [.int p.1, p.2.2]))
  | Option.none => do return .list (((← intsOf W l).mergeSort (fun a b => decide (a ≤ b))).map .int)

/-- Whether a value is a float. -/
def isFlt : Val Ω → Bool
  | .flt _ => true
  | _ => false

/-- The first of the largest of some numbers; `x` is the value of the number `q`. -/
def maxNum : List (Val Ω) → ℚ → Val Ω → Option (Val Ω)
  | [], _, x => some x
  | y :: t, q, x => match numOf y with
    | some p => if q < p then maxNum t p y else maxNum t q x
    | Option.none => Option.none

/-- `max` of a list of numbers. -/
def maxV (l : List (Val Ω)) : m (Val Ω) :=
  if l.any isFlt then match l with
    | [] => W.raise .value
    | x :: t => match (numOf x).bind fun q => maxNum t q x with
      | some y => pure y
      | Option.none => W.raise .type
  else do return .int (← W.lift (listMax (← intsOf W l)))

/-- `zip` of any number of sequences: as many tuples as the shortest has elements. -/
def zipRows : List (List (Val Ω)) → List (Val Ω)
  | [] => []
  | r :: rs => (List.range ((r :: rs).foldl (fun n s => min n s.length) r.length)).map fun i =>
      .tuple ((r :: rs).map fun s => s.getD i .none)

/-- `mapM` over the elements of a list, in order. -/
def mapVals {α β : Type} (f : α → m β) : List α → m (List β)
  | [] => pure []
  | x :: t => do let y ← f x; let ys ← mapVals f t; return y :: ys

/-- Calls of builtins; everything else is the world's. -/
def callGlob (path : List String) (args : List (Val Ω)) : m (Val Ω) :=
  match path, args with
  | ["len"], [v] => do return .int ((← iterV W v).length : Int)
  | ["list"], [v] => do return .list (← iterV W v)
  | ["sorted"], [v] => do sortedV W (← iterV W v)
  | ["range"], [.int n] => pure (.list ((pyRange 0 n).map .int))
  | ["range"], [.int a, .int b] => pure (.list ((pyRange a b).map .int))
  | ["max"], [v] => do maxV W (← iterV W v)
  | ["min"], [v] => do return .int (← W.lift (listMin (← intsOf W (← iterV W v))))
  | ["max"], [.int x, .int y] => pure (.int (if y > x then y else x))
  | ["min"], [.int x, .int y] => pure (.int (if y < x then y else x))
  | ["sum"], [v] => do return .int (← intsOf W (← iterV W v)).sum
  | ["str"], [v] => do return .str (← strV W v)
  | ["int"], [.str s] => do return .int (← W.lift (pyInt s))
  | ["int"], [.int i] => pure (.int i)
  | ["abs"], [.int i] => pure (.int (if i < 0 then -i else i))
  | ["isinstance"], [v, .glob [cls]] => pure (.bool (isInst W v cls))
  | ["operator", op], [a, b] => operatorFn W op a b
  | ["copy", "copy"], [.dict d] => pure (.dict d)
  | ["math", "floor"], [.flt q] => do return .int (← W.lift (W.toFl q)).floor
  | ["zip"], [.list a, .list b] => pure (.list (zipV a b))
  | ["zip"], [.kwv "*" (.list rows)] => do return .list (zipRows (← mapVals (iterV W) rows))
  | p, args => W.func p args

/-- Calling a function value. -/
def callV (f : Val Ω) (args : List (Val Ω)) : m (Val Ω) :=
  match f with
  | .glob p => callGlob W p args
  | .lam ps body => W.callLam ps body args
  | .obj o => do return (← W.method o "__call__" args).1
  | _ => W.raise .type

/-- Text from a list of texts. -/
def textsOf : List (Val Ω) → m (List Str)
  | [] => pure []
  | .str s :: t => do return s :: (← textsOf t)
  | _ :: _ => W.raise .type

/-- `v.f(args)`: the result, and the changed receiver if there is one. -/
def callMethod (v : Val Ω) (f : String) (args : List (Val Ω)) : m (Val Ω × Option (Val Ω)) :=
  match v, f, args with
  | .dict d, "items", [] => pure (.list (d.map fun p => .tuple [p.1, p.2]), Option.none)
  | .dict d, "keys", [] => pure (.list (d.map Prod.fst), Option.none)
  | .dict d, "values", [] => pure (.list (d.map Prod.snd), Option.none)
  | .list l, "append", [x] => pure (.none, some (.list (l ++ [x])))
  | .list l, "extend", [x] => do return (.none, some (.list (l ++ (← iterV W x))))
  | .list l, "pop", [] => match l.getLast? with
    | some x => pure (x, some (.list l.dropLast))
    | Option.none => W.raise .index
  | .list l, "sort", [] => do
    return (.none, some (.list (((← intsOf W l).mergeSort (fun a b => decide (a ≤ b))).map .int)))
  | .list l, "sort", [.kwv "key" f] => do
    let keys ← intsOf W (← mapVals (fun x => callV W f [x]) l)
    return (.none, some (.list (((keys.zip l).mergeSort (fun a b => decide (a.1 ≤ b.1))).map Prod.snd)))
  | .str s, "split", [.str [c]] => pure (.list ((splitOn (· == c) s).map .str), Option.none)
  | .str [c], "join", [x] => do return (.str (joinWith c (← textsOf W (← iterV W x))), Option.none)
  | .obj o, f, args => do
    let (r, o') ← W.method o f args
    return (r, o'.map .obj)
  | .glob p, f, args => do return (← callGlob W (p ++ [f]) args, Option.none)
  | _, _, _ => W.raise .type

/-- `v.a`. -/
def attrV (v : Val Ω) (a : String) : m (Val Ω) :=
  match v, a with
  | .glob [c], "__name__" => pure (.str c.toList)
  | .glob p, a => pure (.glob (p ++ [a]))
  | .obj o, a => W.attr o a
  | _, _ => W.raise .type

/-- A variable, or the global of that name. -/
def nameV (env : Env Ω) (x : String) : Val Ω := (env.get? x).getD (.glob [x])

/-- `self.a`: a field set so far, or an attribute of the object. -/
def selfV (env : Env Ω) (a : String) : m (Val Ω) :=
  match env.get? ("self." ++ a) with
  | some v => pure v
  | Option.none => attrV W (nameV env "self") a

/-- The value of a variable, a field or a chain of attributes. -/
def readP : PyE → Env Ω → m (Val Ω)
  | .name x, env => pure (nameV env x)
  | .self a, env => selfV W env a
  | .attr e a, env => do attrV W (← readP e env) a
  | _, _ => W.raise .type

/-- Write back a changed value; a receiver that is no variable, field or attribute was a temporary object. -/
def storeP : PyE → Val Ω → Env Ω → m (Env Ω)
  | .name x, v, env => pure (env.set x v)
  | .self a, v, env => pure (env.set ("self." ++ a) v)
  | .attr e a, v, env => do
    match ← readP W e env with
    | .obj o => do let o' ← W.setAttr o a v; storeP e (.obj o') env
    | _ => W.raise .type
  | _, _, env => pure env

/-- The variables a target (a name or a tuple of names) binds, put in front. -/
def pushNames : PyE → List (Val Ω) → Env Ω → m (Env Ω)
  | .nil, [], env => pure env
  | .cons (.name x) es, v :: vs, env => do return (x, v) :: (← pushNames es vs env)
  | _, _, _ => W.raise .value

/-- The variables of a comprehension live in a scope of their own. -/
def pushTarget (target : PyE) (v : Val Ω) (env : Env Ω) : m (Env Ω) :=
  match target with
  | .name x => pure ((x, v) :: env)
  | .tuple es => do pushNames W es (← iterV W v) env
  | _ => W.raise .type

/-- How many variables a target binds. -/
def targetSize : PyE → Nat
  | .tuple es => targetSize es
  | .cons _ es => targetSize es + 1
  | .nil => 0
  | _ => 1

/-- Assign the elements of a sequence to the names of a tuple. -/
def setNames : PyE → List (Val Ω) → Env Ω → m (Env Ω)
  | .nil, [], env => pure env
  | .cons (.name x) es, v :: vs, env => setNames es vs (env.set x v)
  | _, _, _ => W.raise .value

/-- The loop variables of a `for` are ordinary variables. -/
def setTarget (target : PyE) (v : Val Ω) (env : Env Ω) : m (Env Ω) :=
  match target with
  | .name x => pure (env.set x v)
  | .tuple es => do setNames W es (← iterV W v) env
  | _ => W.raise .type

/-- Copy back what a nested function did to arguments that are variables. -/
def copyOut : PyE → List (Val Ω) → Env Ω → Env Ω
  | .cons (.name x) es, v :: vs, env => copyOut es vs (if (env.get? x).isSome then env.set x v else env)
  | .cons _ es, _ :: vs, env => copyOut es vs env
  | _, _, env => env

/-- The elements of an evaluated chain. -/
def itemsOf : Val Ω → List (Val Ω)
  | .list l => l
  | v => [v]

/-- `d[k] = v` for each pair of a dict display. -/
def dictOf : List (Val Ω) → List (Val Ω × Val Ω) → List (Val Ω × Val Ω)
  | k :: v :: t, acc => dictOf t (dictSet acc k v)
  | _, acc => acc

/-- The texts of the parts of an f-string, joined. -/
def joinParts : List (Val Ω) → m Str
  | [] => pure []
  | v :: t => do let a ← strV W v; let b ← joinParts t; return a ++ b

/-- Loop over elements, threading the variables. -/
def loopE {β : Type} (f : Val Ω → Env Ω → m (β × Env Ω)) : List (Val Ω) → Env Ω → m (List β × Env Ω)
  | [], env => pure ([], env)
  | v :: t, env => do
    let (y, env) ← f v env
    let (ys, env) ← loopE f t env
    return (y :: ys, env)

/-- Evaluation of expressions. -/
def evalE (Φ : Funs Ω m) : PyE → Env Ω → m (Val Ω × Env Ω)
  | .none, env => pure (.none, env)
  | .true, env => pure (.bool Bool.true, env)
  | .false, env => pure (.bool Bool.false, env)
  | .int i, env => pure (.int i, env)
  | .flt n d, env => pure (.flt (W.rnd ((n : ℚ) / (d : ℚ))), env)
  | .str s, env => pure (.str s, env)
  | .name x, env => pure (nameV env x, env)
  | .self a, env => do return (← selfV W env a, env)
  | .attr e a, env => do let (v, env) ← evalE Φ e env; return (← attrV W v a, env)
  | .nil, env => pure (.list [], env)
  | .cons e es, env => do
    let (v, env) ← evalE Φ e env
    let (vs, env) ← evalE Φ es env
    return (.list (v :: itemsOf vs), env)
  | .kw k e, env => do let (v, env) ← evalE Φ e env; return (.kwv k v, env)
  | .star e, env => do let (v, env) ← evalE Φ e env; return (.kwv "*" (.list (← iterV W v)), env)
  | .callName f args, env => do
    let (vs, env) ← evalE Φ args env
    match env.get? f with
    | some g => return (← callV W g (itemsOf vs), env)
    | Option.none => match Φ.get? f with
      | some g => do
        let (r, finals, env) ← g (itemsOf vs) env
        return (r, copyOut args finals env)
      | Option.none => return (← callGlob W [f] (itemsOf vs), env)
  | .callSelf f args, env => do
    let (vs, env) ← evalE Φ args env
    match Φ.get? ("self." ++ f) with
    | some g => do
      let (r, finals, env) ← g (itemsOf vs) env
      return (r, copyOut args finals env)
    | Option.none => do
      let (r, self') ← callMethod W (nameV env "self") f (itemsOf vs)
      match self' with
      | some v => return (r, env.set "self" v)
      | Option.none => return (r, env)
  | .callAttr e f args, env => do
    let (v, env) ← evalE Φ e env
    let (vs, env) ← evalE Φ args env
    let (r, v') ← callMethod W v f (itemsOf vs)
    match v' with
    | some w => return (r, ← storeP W e w env)
    | Option.none => return (r, env)
  | .callE e args, env => do
    let (g, env) ← evalE Φ e env
    let (vs, env) ← evalE Φ args env
    return (← callV W g (itemsOf vs), env)
  | .not e, env => do let (v, env) ← evalE Φ e env; return (.bool (!(← truthV W v)), env)
  | .neg e, env => do
    let (v, env) ← evalE Φ e env
    match v with
    | .int i => return (.int (-i), env)
    | _ => W.raise .type
  | .bin op a b, env => do
    let (x, env) ← evalE Φ a env
    let (y, env) ← evalE Φ b env
    return (← binOp W op x y, env)
  | .cmp op a b, env => do
    let (x, env) ← evalE Φ a env
    let (y, env) ← evalE Φ b env
    return (← cmpOp W op x y, env)
  | .and a b, env => do
    let (x, env) ← evalE Φ a env
    if ← truthV W x then do let (y, env) ← evalE Φ b env; return (.bool (← truthV W y), env)
    else return (.bool Bool.false, env)
  | .or a b, env => do
    let (x, env) ← evalE Φ a env
    if ← truthV W x then return (.bool Bool.true, env)
    else do let (y, env) ← evalE Φ b env; return (.bool (← truthV W y), env)
  | .ite c t e, env => do
    let (x, env) ← evalE Φ c env
    if ← truthV W x then evalE Φ t env else evalE Φ e env
  | .list es, env => do let (vs, env) ← evalE Φ es env; return (.list (itemsOf vs), env)
  | .tuple es, env => do let (vs, env) ← evalE Φ es env; return (.tuple (itemsOf vs), env)
  | .set es, env => do let (vs, env) ← evalE Φ es env; return (← W.mkSet (itemsOf vs), env)
  | .dict es, env => do let (vs, env) ← evalE Φ es env; return (.dict (dictOf (itemsOf vs) []), env)
  | .index e i, env => do
    let (v, env) ← evalE Φ e env
    let (k, env) ← evalE Φ i env
    return (← indexV W v k, env)
  | .slice e lo hi, env => do
    let (v, env) ← evalE Φ e env
    let (a, env) ← evalE Φ lo env
    let (b, env) ← evalE Φ hi env
    return (← sliceV W v a b, env)
  | .listComp elt target iter, env => do
    let (v, env) ← evalE Φ iter env
    let l ← iterV W v
    let (ys, env) ← loopE (fun x env => do
      let inner ← pushTarget W target x env
      let (y, inner) ← evalE Φ elt inner
      return (y, inner.drop (targetSize target))) l env
    return (.list ys, env)
  | .dictComp k v target iter, env => do
    let (c, env) ← evalE Φ iter env
    let l ← iterV W c
    let (ys, env) ← loopE (fun x env => do
      let inner ← pushTarget W target x env
      let (a, inner) ← evalE Φ k inner
      let (b, inner) ← evalE Φ v inner
      return ((a, b), inner.drop (targetSize target))) l env
    return (.dict (ys.foldl (fun d p => dictSet d p.1 p.2) []), env)
  | .fstr parts, env => do
    let (vs, env) ← evalE Φ parts env
    return (.str (← joinParts W (itemsOf vs)), env)
  | .lam ps body, env => pure (.lam ps body, env)

/-- Assignment to a target. -/
def assignTo (Φ : Funs Ω m) (target : PyE) (v : Val Ω) (env : Env Ω) : m (Env Ω) :=
  match target with
  | .index r i => do
    let (c, env) ← evalE W Φ r env
    let (k, env) ← evalE W Φ i env
    match c with
    | .dict d => storeP W r (.dict (dictSet d k v)) env
    | .obj o => do W.setItem o k v; return env
    | _ => W.raise .type
  | .tuple es => do setNames W es (← iterV W v) env
  | t => storeP W t v env

/-- Add a name unless it is there already. -/
def addName (x : String) (l : List String) : List String := if x ∈ l then l else l ++ [x]

/-- The names of a target. -/
def targetNames : PyE → List String → List String
  | .name x, l => addName x l
  | .tuple es, l => targetNames es l
  | .cons e es, l => targetNames es (targetNames e l)
  | _, l => l

/-- The variables of a function: the ones given and those its body assigns to (nested functions have their own). -/
def assigned : PyS → List String → List String
  | .seq s rest, l => assigned rest (assigned s l)
  | .defn _ _ _ rest, l => assigned rest l
  | .assign t _, l => targetNames t l
  | .aug _ t _, l => targetNames t l
  | .ifs _ t e, l => assigned e (assigned t l)
  | .for_ t _ b, l => assigned b (targetNames t l)
  | .while_ _ b, l => assigned b l
  | .tryx b _ x h, l => assigned h (addName x (assigned b l))
  | _, l => l

/-- Parameters with their arguments, then the other variables, not yet assigned. -/
def frame (params : List String) (args : List (Val Ω)) (body : PyS) : Env Ω :=
  params.zip args ++ ((assigned body params).drop params.length).map fun x => (x, .unbound)

/-- A `for` loop. -/
def loopS (target : PyE) (body : Env Ω → m (Flow Ω × Env Ω)) : List (Val Ω) → Env Ω → m (Flow Ω × Env Ω)
  | [], env => pure (.next, env)
  | v :: t, env => do
    let env ← setTarget W target v env
    let (fl, env) ← body env
    match fl with
    | .next => loopS target body t env
    | .ret r => return (.ret r, env)

/-- A `while` loop with a bound on its passes. -/
def whileS (cond : Env Ω → m (Val Ω × Env Ω)) (body : Env Ω → m (Flow Ω × Env Ω)) : Nat → Env Ω → m (Flow Ω × Env Ω)
  | 0, env => do
    let (c, env) ← cond env
    if ← truthV W c then W.raise .diverges else return (.next, env)
  | n + 1, env => do
    let (c, env) ← cond env
    if ← truthV W c then do
      let (fl, env) ← body env
      match fl with
      | .next => whileS cond body n env
      | .ret r => return (.ret r, env)
    else return (.next, env)

/-- A nested function, given how its body runs: parameters and local variables are put in front of the surrounding variables and taken away
    afterwards. -/
def mkFun (params : List String) (code : PyS) (body : Env Ω → m (Flow Ω × Env Ω)) : Fun Ω m := fun args env => do
  if args.length ≠ params.length then W.raise .type
  else do
    let inner := frame params args code ++ env
    let (fl, inner) ← body inner
    let r := match fl with | .next => Val.none | .ret v => v
    return (r, (inner.take params.length).map Prod.snd, inner.drop (assigned code params).length)

/-- The class of the exception a `raise` names. -/
def raised : PyE → Err
  | .callName f _ => errOf f
  | .name f => errOf f
  | _ => .type

/-- Execution of statements. -/
def exec (Φ : Funs Ω m) : PyS → Env Ω → m (Flow Ω × Env Ω)
  | .done, env => pure (.next, env)
  | .seq s rest, env => do
    let (fl, env) ← exec Φ s env
    match fl with
    | .next => exec Φ rest env
    | .ret v => return (.ret v, env)
  | .defn f params body rest, env =>
    exec ((f, mkFun W params body (fun e => exec Φ body e)) :: Φ) rest env
  | .expr e, env => do let (_, env) ← evalE W Φ e env; return (.next, env)
  | .assign target e, env => do
    let (v, env) ← evalE W Φ e env
    return (.next, ← assignTo W Φ target v env)
  | .aug op target e, env => do
    let (old, env) ← evalE W Φ target env
    let (v, env) ← evalE W Φ e env
    let new ← binOp W op old v
    return (.next, ← assignTo W Φ target new env)
  | .ret e, env => do let (v, env) ← evalE W Φ e env; return (.ret v, env)
  | .raise e, _ => W.raise (raised e)
  | .ifs c t e, env => do
    let (v, env) ← evalE W Φ c env
    if ← truthV W v then exec Φ t env else exec Φ e env
  | .for_ target iter body, env => do
    let (v, env) ← evalE W Φ iter env
    let l ← iterV W v
    loopS W target (fun e => exec Φ body e) l env
  | .while_ c body, env => whileS W (fun e => evalE W Φ c e) (fun e => exec Φ body e) W.fuel env
  | .tryx body cls x handler, env => do
    match ← W.attempt cls (exec Φ body env) with
    | .inl r => return r
    | .inr exc => exec Φ handler (env.set x exc)
  | .throw e, env => do let (v, _) ← evalE W Φ e env; W.throw v

/-- A `for` statement over given elements. -/
def forLoop (Φ : Funs Ω m) (target : PyE) (body : PyS) : List (Val Ω) → Env Ω → m (Flow Ω × Env Ω) :=
  loopS W target fun e => exec W Φ body e

/-- A `while` statement. -/
def whileLoop (Φ : Funs Ω m) (c : PyE) (body : PyS) : Nat → Env Ω → m (Flow Ω × Env Ω) :=
  whileS W (fun e => evalE W Φ c e) (fun e => exec W Φ body e)

/-- A nested function. -/
def defnFun (Φ : Funs Ω m) (params : List String) (body : PyS) : Fun Ω m := mkFun W params body fun e => exec W Φ body e

/-- The elements of a list comprehension over given elements. -/
def compLoop (Φ : Funs Ω m) (elt target : PyE) : List (Val Ω) → Env Ω → m (List (Val Ω) × Env Ω) :=
  loopE fun x env => do
    let inner ← pushTarget W target x env
    let (y, inner) ← evalE W Φ elt inner
    return (y, inner.drop (targetSize target))

/-- The pairs of a dict comprehension over given elements. -/
def dictLoop (Φ : Funs Ω m) (k v target : PyE) : List (Val Ω) → Env Ω → m (List (Val Ω × Val Ω) × Env Ω) :=
  loopE fun x env => do
    let inner ← pushTarget W target x env
    let (a, inner) ← evalE W Φ k inner
    let (b, inner) ← evalE W Φ v inner
    return ((a, b), inner.drop (targetSize target))

/-- Constants, for default values. -/
def constV : PyE → Val Ω
  | .true => .bool Bool.true
  | .false => .bool Bool.false
  | .int i => .int i
  | .str s => .str s
  | _ => .none

/-- The keyword argument named `k`. -/
def findKw (k : String) : List (Val Ω) → Option (Val Ω)
  | [] => Option.none
  | .kwv k' v :: t => if k' = k then some v else findKw k t
  | _ :: t => findKw k t

/-- Whether an argument is not given by keyword. -/
def isPos : Val Ω → Bool
  | .kwv _ _ => false
  | _ => true

/-- Match arguments with parameters: positions first, then keywords, then default values. -/
def bindArgs (defaults : List (String × PyE)) : List String → List (Val Ω) → Option (List (Val Ω))
  | [], [] => some []
  | [], v :: _ => if isPos v then Option.none else some []
  | p :: ps, [] => match defaults.find? (fun d => d.1 == p) with
    | some d => (constV d.2 :: ·) <$> bindArgs defaults ps []
    | Option.none => Option.none
  | p :: ps, v :: rest =>
    if isPos v then (v :: ·) <$> bindArgs defaults ps rest
    else match findKw p (v :: rest) with
      | some w => (w :: ·) <$> bindArgs defaults ps (v :: rest)
      | Option.none => match defaults.find? (fun d => d.1 == p) with
        | some d => (constV d.2 :: ·) <$> bindArgs defaults ps (v :: rest)
        | Option.none => Option.none

/-- Run a function on arguments; `Φ` holds further methods of the same object that work on its fields. -/
def PyFun.runIn (f : PyFun) (Φ : Funs Ω m) (args : List (Val Ω)) (fields : Env Ω) : m (Val Ω × Env Ω) :=
  match bindArgs f.defaults f.params args with
  | Option.none => W.raise .type
  | some vs => do
    let (fl, env) ← exec W Φ f.body (frame f.params vs f.body ++ fields)
    return (match fl with | .next => .none | .ret v => v, env.drop (assigned f.body f.params).length)

/-- Run a function on arguments. -/
def PyFun.run (f : PyFun) (args : List (Val Ω)) : m (Val Ω) := Prod.fst <$> f.runIn W [] args []

/-- A method that works on the fields of the object under construction, for use while another one runs. -/
def PyFun.asMethod (f : PyFun) (Φ : Funs Ω m) : Fun Ω m := fun args env => do
  let (r, finals, env) ← mkFun W f.params f.body (fun e => exec W Φ f.body e) (.unbound :: args) env
  return (r, finals.tail, env)

/-- Give lambdas a meaning: their bodies are evaluated in the world itself. -/
def World.tie (W : World Ω m) : World Ω m :=
  { W with callLam := fun ps body args => if args.length ≠ ps.length then W.raise .type
      else Prod.fst <$> evalE W [] body (ps.zip args) }

end

end PyDice.Source
