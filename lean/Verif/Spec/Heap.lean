import Verif.Heap
/-!
# What it means that nobody sees objects change
-/

namespace PyDice
open PyRuntime

section
variable [R : PyRuntime]

/-- What a caller who holds the distribution object sees at this moment. -/
def Heap.dist (h : Heap) (d : DistRef) : Dist := ⟨(h.dict d.map).map fun p => (h.outcome p.1, p.2), d.count⟩

/-- Every object of the earlier heap is still there with the content it had. -/
structure Heap.Le (h h' : Heap) : Prop where
  sets : ∀ a < h.sets.length, h'.sets[a]? = h.sets[a]?
  csets : ∀ a < h.csets.length, h'.csets[a]? = h.csets[a]?
  dicts : ∀ a < h.dicts.length, h'.dicts[a]? = h.dicts[a]?

/-- No address dangles. -/
structure Heap.Ok (h : Heap) : Prop where
  csets : ∀ a ∈ h.csets, a < h.sets.length
  dicts : ∀ d ∈ h.dicts, ∀ p ∈ d, p.1.cs < h.csets.length

/-- The state as the other model files have it: with every object replaced by its content. -/
def HState.state (s : HState) : State := ⟨s.var.map fun p => (p.1, s.heap.dist p.2), s.constants, s.timesSet⟩

/-- No address dangles. -/
structure HState.Ok (s : HState) : Prop where
  heap : s.heap.Ok
  var : ∀ p ∈ s.var, p.2.map < s.heap.dicts.length

/-- A new interpreter. -/
def HState.new : HState := ⟨⟨[], [], []⟩, [], [], []⟩

/-- The distribution objects a method returns in a dict. -/
def refsOf : Res (List (Str × DistRef)) → List DistRef
  | .ok l => l.map Prod.snd
  | .error _ => []

/-- The distribution object a method returns. -/
def refOf : Res DistRef → List DistRef
  | .ok d => [d]
  | .error _ => []

/-- One call of a method of the interpreter, for a given parser: the state before, the state after, and the distribution objects that
    are returned.  Rolling and costing do nothing to distributions: they may change the constants and counters in any way. -/
inductive HCall (parse : Str → Res Expr) : HState → List DistRef → HState → Prop where
  | dists (s : HState) (lines : List Str) (r s') (h : interpDistsH parse lines s = (r, s')) :
      HCall parse s (refsOf r) s'
  | extreme (s : HState) (isMax : Bool) (lines : List Str) (r s') (h : extremeLinesH parse isMax lines s = (r, s')) : HCall parse s [] s'
  | histogram (s : HState) (lines : List Str) (r s') (h : interpHistogramDistH parse lines s = (r, s')) :
      HCall parse s (refOf r) s'
  | rollOrCost (s : HState) (constants : List (Str × Int)) (timesSet : List (Str × Nat)) :
      HCall parse s [] { s with constants := constants, timesSet := timesSet }
  | operator (s : HState) (op : BinOp) (a b : DistRef) (ha : a.map < s.heap.dicts.length) (hb : b.map < s.heap.dicts.length) (r h')
      (h : DistRef.binop op a b s.heap = (r, h')) :
      HCall parse s (refOf r) { s with heap := h' }
  | negation (s : HState) (a : DistRef) (ha : a.map < s.heap.dicts.length) (r h') (h : a.notOp s.heap = (r, h')) :
      HCall parse s (refOf r) { s with heap := h' }
  | absolute (s : HState) (a : DistRef) (ha : a.map < s.heap.dicts.length) (r h') (h : a.absOp s.heap = (r, h')) :
      HCall parse s (refOf r) { s with heap := h' }

/-- A session: calls one after the other, with all distribution objects that were returned on the way. -/
inductive HSession (parse : Str → Res Expr) : HState → List DistRef → HState → Prop where
  | nil (s : HState) : HSession parse s [] s
  | call {s s' s'' : HState} {ds es : List DistRef} (c : HCall parse s ds s') (rest : HSession parse s' es s'') :
      HSession parse s (ds ++ es) s''

end

end PyDice
