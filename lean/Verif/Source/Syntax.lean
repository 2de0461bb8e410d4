import Verif.Py
/-!
# The part of Python's syntax that the project's functions use

`tools/source.py` writes the bodies of the functions in `/repo/python_dice/src` as terms of these types (`Verif/Source/Text.lean`).  Sequences of
expressions (arguments, elements, parts of an f-string) are `nil`/`cons` chains, a `dict` display is the chain of its keys and values in turn.
-/

namespace PyDice.Source

/-- `+ - * // /`. -/
inductive BOp where
  | add | sub | mul | floordiv | div
  deriving DecidableEq, Repr

/-- Comparisons, membership and identity. -/
inductive COp where
  | eq | ne | lt | le | gt | ge | isIn | notIn | is | isNot
  deriving DecidableEq, Repr

/-- Expressions. -/
inductive PyE where
  | none | true | false
  | int (i : Int)
  | flt (num : Int) (den : Nat)
  | str (s : Str)
  | name (x : String)
  /-- `self.a` -/
  | self (a : String)
  | attr (e : PyE) (a : String)
  | nil
  | cons (e es : PyE)
  /-- `k=e` in a call -/
  | kw (k : String) (e : PyE)
  /-- `*e` in a call -/
  | star (e : PyE)
  /-- `f(args)` -/
  | callName (f : String) (args : PyE)
  /-- `self.f(args)` -/
  | callSelf (f : String) (args : PyE)
  /-- `e.f(args)` -/
  | callAttr (e : PyE) (f : String) (args : PyE)
  /-- any other call -/
  | callE (e args : PyE)
  | not (e : PyE)
  | neg (e : PyE)
  | bin (op : BOp) (a b : PyE)
  | cmp (op : COp) (a b : PyE)
  | and (a b : PyE)
  | or (a b : PyE)
  /-- `t if c else e` -/
  | ite (c t e : PyE)
  | list (es : PyE)
  | tuple (es : PyE)
  | set (es : PyE)
  | dict (es : PyE)
  | index (e i : PyE)
  /-- `e[lo:hi]`; a missing bound is `None`, as in Python -/
  | slice (e lo hi : PyE)
  /-- `[elt for target in iter]`, also generator expressions -/
  | listComp (elt target iter : PyE)
  | dictComp (k v target iter : PyE)
  | fstr (parts : PyE)
  | lam (params : List String) (body : PyE)

/-- Statements; a block is a `seq`/`defn` chain ended by `done`. -/
inductive PyS where
  | done
  | seq (s rest : PyS)
  /-- a nested `def` and what follows it -/
  | defn (f : String) (params : List String) (body rest : PyS)
  | expr (e : PyE)
  | assign (target e : PyE)
  | aug (op : BOp) (target e : PyE)
  | ret (e : PyE)
  | raise (e : PyE)
  | ifs (c : PyE) (t e : PyS)
  | for_ (target iter : PyE) (body : PyS)
  | while_ (c : PyE) (body : PyS)
  /-- `try: body except cls as x: handler` -/
  | tryx (body : PyS) (cls : List String) (x : String) (handler : PyS)
  /-- `raise e` where `e` is an exception object -/
  | throw (e : PyE)

/-- A function: parameter names, default values, body. -/
structure PyFun where
  params : List String
  defaults : List (String × PyE)
  body : PyS

end PyDice.Source
