import Verif.FloatDist
/-!
# What a session shows, and the renaming of variables

A session is a list of calls of the interpreter's methods on one interpreter; it shows the answers.  A distribution shows its values
with their counts and the total; every figure and every drawing of it is made of these (`C51_seen`).  The printed form
(`str(distribution)`) is not covered: it lists sets of constraints in their order.
-/

namespace PyDice

/-- The same expression with every variable `x` called `σ x`. -/
def Expr.rename (σ : Str → Str) : Expr → Expr
  | .paren e => .paren (e.rename σ)
  | .not e => .not (e.rename σ)
  | .dropKeep t => .dropKeep t
  | .dice t => .dice t
  | .constInt text => .constInt text
  | .constBin text => .constBin text
  | .add a b => .add (a.rename σ) (b.rename σ)
  | .sub a b => .sub (a.rename σ) (b.rename σ)
  | .mul a b => .mul (a.rename σ) (b.rename σ)
  | .div a b => .div (a.rename σ) (b.rename σ)
  | .bin op a b => .bin op (a.rename σ) (b.rename σ)
  | .minmax k a b => .minmax k (a.rename σ) (b.rename σ)
  | .abs e => .abs (e.rename σ)
  | .assign x e => .assign (σ x) (e.rename σ)
  | .getVar x => .getVar (σ x)

/-- What a distribution shows: the values with their counts, and the total. -/
abbrev Seen := List (Int × Nat) × Nat

/-- A call of a method of the interpreter. -/
inductive Call where
  | roll (lines : List Str)
  | extreme (isMax : Bool) (lines : List Str)
  | dists (lines : List Str)
  | dictForms (lines : List Str)
  | averages (lines : List Str)
  | histogram (lines : List Str)
  | cost (lines : List Str)

/-- The lines handed over. -/
def Call.lines : Call → List Str
  | .roll l | .extreme _ l | .dists l | .dictForms l | .averages l | .histogram l | .cost l => l

/-- The same call with other lines. -/
def Call.mapLines (τ : Str → Str) : Call → Call
  | .roll l => .roll (l.map τ)
  | .extreme k l => .extreme k (l.map τ)
  | .dists l => .dists (l.map τ)
  | .dictForms l => .dictForms (l.map τ)
  | .averages l => .averages (l.map τ)
  | .histogram l => .histogram (l.map τ)
  | .cost l => .cost (l.map τ)

/-- What a call returns or raises. -/
inductive Answer where
  | ints (r : Res (List (Str × Int)))
  | dists (r : Res (List (Str × Seen)))
  | dictForms (r : Res (List (Str × List (Int × ℚ))))
  | averages (r : Res (List (Str × ℚ)))
  | drawn (r : Res Seen)
  | cost (r : Res Int)

/-- The keys of a dict renamed. -/
def renameKeys {α : Type} (σ : Str → Str) (d : List (Str × α)) : List (Str × α) := d.map fun p => (σ p.1, p.2)

/-- The answer with the variables renamed. -/
def Answer.rename (σ : Str → Str) : Answer → Answer
  | .ints r => .ints (r.map (renameKeys σ))
  | .dists r => .dists (r.map (renameKeys σ))
  | .dictForms r => .dictForms (r.map (renameKeys σ))
  | .averages r => .averages (r.map (renameKeys σ))
  | .drawn r => .drawn r
  | .cost r => .cost r

/-- Something done to the result of a random computation. -/
def Rand.map {α β : Type} (f : α → β) (r : Rand α) : Rand β := Rand.bind r fun a => .pure (f a)

section
variable [R : PyRuntime]

/-- What a distribution shows. -/
def Dist.seen (d : Dist) : Seen := (d.getResultMap, d.outcomeCount)

/-- The call, the answer made of the method's result. -/
def runCall (parse : Str → Res Expr) (c : Call) (s : State) : Rand (Answer × State) :=
  match c with
  | .roll l => Rand.bind (interpRoll parse l s) fun x => .pure (.ints x.1, x.2)
  | .extreme k l => .pure (.ints (interpExtreme parse k l s).1, (interpExtreme parse k l s).2)
  | .dists l => .pure (.dists ((interpDists parse l s).1.map (List.map fun p => (p.1, p.2.seen))), (interpDists parse l s).2)
  | .dictForms l => .pure (.dictForms (interpDictFormsF parse l s).1, (interpDictFormsF parse l s).2)
  | .averages l => .pure (.averages (interpAveragesF parse l s).1, (interpAveragesF parse l s).2)
  | .histogram l => .pure (.drawn ((interpHistogramDist parse l s).1.map Dist.seen), (interpHistogramDist parse l s).2)
  | .cost l => .pure (.cost (interpCost parse l s).1, (interpCost parse l s).2)

/-- The answers of the calls, one after the other, whether they raise or not. -/
def sessionFrom (parse : Str → Res Expr) : List Call → State → Rand (List Answer)
  | [], _ => .pure []
  | c :: cs, s => Rand.bind (runCall parse c s) fun x => Rand.bind (sessionFrom parse cs x.2) fun as => .pure (x.1 :: as)

/-- A session on a new interpreter. -/
def session (parse : Str → Res Expr) (calls : List Call) : Rand (List Answer) := sessionFrom parse calls State.new

end

end PyDice
