import Verif.Lemmas.Abstract
import Verif.Lemmas.Reach
import Verif.Spec.Twin
/-!
# The interpreter on distributions without set orders

Every method of the model is mirrored by one on `ADist`, which knows nothing of the runtime.
-/

namespace PyDice
open PyRuntime

/-- A state without set orders. -/
structure AState where
  var : List (Str × ADist)
  constants : List (Str × Int)
  timesSet : List (Str × Nat)

/-- How often a name has been set. -/
def AState.times (s : AState) (n : Str) : Nat := (dictGet? s.timesSet n).getD 0

/-- A deterministic method. -/
def AEvalM (α : Type) := AState → Res α × AState

/-- Sequencing. -/
def AEvalM.bind {α β : Type} (m : AEvalM α) (f : α → AEvalM β) : AEvalM β := fun s =>
  match m s with
  | (.ok a, s') => f a s'
  | (.error e, s') => (.error e, s')

instance : Monad AEvalM where
  pure a := fun s => (.ok a, s)
  bind := AEvalM.bind

/-- No state needed. -/
def AEvalM.ofRes {α : Type} (r : Res α) : AEvalM α := fun s => (r, s)
/-- `set_constant`. -/
def AEvalM.setConstant (x : Str) (v : Int) : AEvalM Unit := fun s =>
  (.ok (), { s with constants := dictSet s.constants x v, timesSet := bump s.timesSet x })
/-- `set_var`. -/
def AEvalM.setVar (x : Str) (d : ADist) : AEvalM Unit := fun s =>
  (.ok (), { s with var := dictSet s.var x (aTag (versionName x (s.times x + 1)) d), timesSet := bump s.timesSet x })
/-- `get_var`. -/
def AEvalM.getVar (x : Str) : AEvalM ADist := fun s =>
  ((match dictGet? s.var x with
    | some v => .ok v
    | none => .error .key), s)
/-- `get_constant`. -/
def AEvalM.getConstant (x : Str) : AEvalM Int := fun s =>
  ((match dictGet? s.constants x with
    | some v => .ok v
    | none => .error .key), s)
/-- The interpreter's store of an int. -/
def AEvalM.outInt (v : Int) : AEvalM Unit := fun s => (.ok (), { s with constants := dictSet s.constants stdoutName v })
/-- The interpreter's store of a distribution. -/
def AEvalM.outDist (d : ADist) : AEvalM Unit := fun s => (.ok (), { s with var := dictSet s.var stdoutName d })

/-- Adding dice. -/
noncomputable def aAddDice (single : ADist) : Nat → ADist → Res ADist
  | 0, d => .ok d
  | n + 1, d => do aAddDice single n (← aBinop .add d single)

/-- Dice. -/
noncomputable def aDice (t : DiceTerm) : Res ADist :=
  aAddDice (aInt t.table) (t.number - 1) (aInt (aResult (aInt t.table)))

/-- Dice of which some are kept. -/
noncomputable def aDropKeep (t : DropKeepTerm) : Res ADist :=
  match t.simplified with
  | .dice d => aDice d
  | .zero => .ok (aInt [(0, 1)])
  | .none => (dropKeepMap t).map aInt

/-- Two operands. -/
noncomputable def aTwo (op : BinOp) (a b : AEvalM ADist) : AEvalM ADist := do
  let x ← a; let y ← b; AEvalM.ofRes (aBinop op x y)

/-- Distributions. -/
noncomputable def Expr.adist : Expr → AEvalM ADist
  | .paren e => e.adist
  | .not e => do return aMap notVal (← e.adist)
  | .dropKeep t => AEvalM.ofRes (aDropKeep t)
  | .dice t => AEvalM.ofRes (aDice t)
  | .constInt text => AEvalM.ofRes ((pyInt text).map fun v => aInt [(v, 1)])
  | .constBin text => AEvalM.ofRes (.ok (aInt [(binValue text, 1)]))
  | .add a b => aTwo .add a.adist b.adist
  | .sub a b => aTwo .sub a.adist b.adist
  | .mul a b => aTwo .mul a.adist b.adist
  | .div a b => aTwo .floordiv a.adist b.adist
  | .bin op a b => aTwo op.toBinOp a.adist b.adist
  | .minmax k a b => aTwo (if k then .max else .min) a.adist b.adist
  | .abs e => do return aMap absVal (← e.adist)
  | .assign x e => do
    let d ← e.adist
    AEvalM.setVar x d
    return d
  | .getVar x => AEvalM.getVar x

/-- The largest or least value. -/
def aExtremeOf (isMax : Bool) (d : ADist) : Res Int := if isMax then listMax ((aResult d).map Prod.fst) else listMin ((aResult d).map Prod.fst)

/-- Extremes read off a distribution. -/
noncomputable def aViaDist (isMax : Bool) (m : AEvalM ADist) : AEvalM Int := do
  let d ← m
  AEvalM.ofRes (aExtremeOf isMax d)

/-- The division's extremes. -/
noncomputable def aDivExtreme (isMax : Bool) (b q : AEvalM ADist) : AEvalM Int := do
  let d ← b
  if (dictGet? (aResult d) 0).isSome then AEvalM.ofRes (.error .zeroDivision) else aViaDist isMax q

/-- Extremes. -/
noncomputable def Expr.aextreme (isMax : Bool) : Expr → AEvalM Int
  | .paren e => e.aextreme isMax
  | .not e => aViaDist isMax (Expr.adist (.not e))
  | .dropKeep t => AEvalM.ofRes (t.extreme isMax)
  | .dice t => AEvalM.ofRes (t.extreme isMax)
  | .constInt text => AEvalM.ofRes (pyInt text)
  | .constBin text => AEvalM.ofRes (.ok (binValue text))
  | .add a b => aViaDist isMax (Expr.adist (.add a b))
  | .sub a b => aViaDist isMax (Expr.adist (.sub a b))
  | .mul a b => aViaDist isMax (Expr.adist (.mul a b))
  | .div a b => aDivExtreme isMax b.adist (Expr.adist (.div a b))
  | .bin op a b => aViaDist isMax (Expr.adist (.bin op a b))
  | .minmax k a b => do
    let x ← a.aextreme isMax
    let y ← b.aextreme isMax
    return minmaxOp k x y
  | .abs e => aViaDist isMax (Expr.adist (.abs e))
  | .assign x e => do
    let v ← e.aextreme isMax
    AEvalM.setConstant x v
    let d ← e.adist
    AEvalM.setVar x d
    return v
  | .getVar x => AEvalM.getConstant x

/-- Two costs. -/
def aPlus (a b : AEvalM Int) : AEvalM Int := do let x ← a; let y ← b; return x + y

/-- Costs. -/
noncomputable def Expr.acost : Expr → AEvalM Int
  | .paren e => e.acost
  | .not e => do let c ← e.acost; AEvalM.ofRes (notCost c)
  | .dropKeep t => pure t.cost
  | .dice t => pure t.cost
  | .constInt _ => pure 2
  | .constBin _ => pure 2
  | .add a b => aPlus a.acost b.acost
  | .sub a b => aPlus a.acost b.acost
  | .mul a b => aPlus a.acost b.acost
  | .div a b => aPlus a.acost b.acost
  | .bin _ a b => aPlus a.acost b.acost
  | .minmax _ a b => aPlus a.acost b.acost
  | .abs e => e.acost
  | .assign x e => do
    let c ← e.acost
    AEvalM.setConstant x c
    return 2 + c
  | .getVar x => AEvalM.getConstant x

section
variable [R : PyRuntime]

/-- A state without its set orders. -/
def absS (s : State) : AState := ⟨s.var.map fun p => (p.1, absD p.2), s.constants, s.timesSet⟩

/-- The mirror's step does what the model's does at `s`. -/
def MirAt {α β : Type} (f : α → β) (Q : State → α → Prop) (m : EvalM α) (a : AEvalM β) (s : State) : Prop :=
  TidyState (m s).2 ∧ Later s (m s).2 ∧ (∀ x, (m s).1 = .ok x → Q (m s).2 x) ∧ a (absS s) = ((m s).1.map f, absS (m s).2)

/-- At every tidy state. -/
def Mir {α β : Type} (f : α → β) (Q : State → α → Prop) (m : EvalM α) (a : AEvalM β) : Prop := ∀ s, TidyState s → MirAt f Q m a s

omit R in
theorem abind {α β : Type} (m : AEvalM α) (f : α → AEvalM β) (s : AState) : (m >>= f) s =
    match m s with
    | (.ok a, s') => f a s'
    | (.error e, s') => (.error e, s') := rfl

theorem mirAt_bind {α β γ δ : Type} {f : α → β} {g : γ → δ} {Q : State → α → Prop} {Q' : State → γ → Prop} {m : EvalM α} {a : AEvalM β}
    {k : α → EvalM γ} {k' : β → AEvalM δ} {s : State} (h : MirAt f Q m a s)
    (hk : ∀ x t, TidyState t → Later s t → Q t x → MirAt g Q' (k x) (k' (f x)) t) : MirAt g Q' (m >>= k) (a >>= k') s := by
  obtain ⟨h1, h2, h3, h4⟩ := h
  unfold MirAt
  rw [abind, h4, evalBind]
  rcases hr : m s with ⟨r, s'⟩
  rw [hr] at h1 h2 h3
  cases r with
  | error e => exact ⟨h1, h2, (by intro a ha; cases ha), rfl⟩
  | ok x =>
    obtain ⟨h5, h6, h7, h8⟩ := hk x s' h1 h2 (h3 x rfl)
    exact ⟨h5, h2.trans h6, h7, h8⟩

theorem mirAt_ofRes {α β : Type} {f : α → β} {Q : State → α → Prop} {r : Res α} {r' : Res β} {s : State} (hs : TidyState s)
    (hQ : ∀ x, r = .ok x → Q s x) (hr : r.map f = r') : MirAt f Q (EvalM.ofRes r) (AEvalM.ofRes r') s :=
  ⟨hs, later_refl s, hQ, by rw [← hr]; rfl⟩

theorem mirAt_pure {α β : Type} {f : α → β} {Q : State → α → Prop} {x : α} {y : β} {s : State} (hs : TidyState s)
    (hQ : Q s x) (hr : f x = y) : MirAt f Q (pure x) (pure y) s := by
  refine ⟨hs, later_refl s, ?_, by rw [← hr]; rfl⟩
  intro z hz
  cases hz
  exact hQ

theorem mirAt_setConstant {s : State} (hs : TidyState s) (x : Str) (v : Int) :
    MirAt id Any (EvalM.setConstant x v) (AEvalM.setConstant x v) s :=
  ⟨tidyState_setConstant hs x v, later_setConstant s x v, fun _ _ => trivial, rfl⟩

omit R in
theorem dictSet_mapD {α β : Type} (f : α → β) (x : Str) (v : α) : ∀ d : List (Str × α),
    (dictSet d x v).map (fun p => (p.1, f p.2)) = dictSet (d.map fun p => (p.1, f p.2)) x (f v) := by
  intro d
  induction d with
  | nil => rfl
  | cons p d ih =>
    unfold dictSet
    by_cases h : (p.1 == x) = true <;> simp [h, ih]

omit R in
theorem dictGet_mapD {α β : Type} (f : α → β) (x : Str) : ∀ d : List (Str × α),
    dictGet? (d.map fun p => (p.1, f p.2)) x = (dictGet? d x).map f := by
  intro d
  induction d with
  | nil => rfl
  | cons p d ih =>
    simp only [List.map_cons, dictGet?]
    by_cases h : (p.1 == x) = true <;> simp [h, ih]

theorem mirAt_setVar {s : State} (hs : TidyState s) (x : Str) {d : Dist} (hd : TidyIn s d) :
    MirAt id Any (EvalM.setVar x d) (AEvalM.setVar x (absD d)) s := by
  refine ⟨tidyState_setVar hs x hd, later_setVar s x d, fun _ _ => trivial, ?_⟩
  obtain ⟨A, h1, h2⟩ := hd
  have hf : ¬ A (versionName x (s.times x + 1)) := fun hA => fresh_version s x (h2 _ hA)
  unfold EvalM.setVar AEvalM.setVar
  rw [setVar_eq]
  simp only [absS, dictSet_mapD absD, abs_tagged h1 hf]
  rfl

theorem mirAt_getVar {s : State} (hs : TidyState s) (x : Str) :
    MirAt absD TidyIn (EvalM.read fun s => s.getVar x) (AEvalM.getVar x) s := by
  refine ⟨hs, later_refl s, ?_, ?_⟩
  · intro d hd
    simp only [EvalM.read, State.getVar] at hd
    split at hd
    · rename_i v hv; cases hd; exact hs x _ hv
    · cases hd
  · unfold AEvalM.getVar EvalM.read State.getVar
    simp only [absS, dictGet_mapD absD]
    cases dictGet? s.var x <;> rfl

theorem mirAt_getConstant {s : State} (hs : TidyState s) (x : Str) :
    MirAt id Any (EvalM.read fun s => s.getConstant x) (AEvalM.getConstant x) s := by
  refine ⟨hs, later_refl s, fun _ _ => trivial, ?_⟩
  unfold AEvalM.getConstant EvalM.read State.getConstant
  simp only [absS]
  cases dictGet? s.constants x <;> rfl

theorem abs_addDice {A : Str → Prop} {single : Dist} (hs : Tidy A single) : ∀ (n : Nat) (B : Str → Prop) (d : Dist), Tidy B d →
    (addDice single n d).map absD = aAddDice (absD single) n (absD d) := by
  intro n
  induction n with
  | zero => intro _ d _; rfl
  | succ n ih =>
    intro B d hd
    unfold addDice aAddDice
    rw [← abs_binop .add hd hs]
    cases h : Dist.binop .add d single with
    | error e => rfl
    | ok d' => exact ih _ d' (tidy_binop hd hs h)

theorem abs_dice (t : DiceTerm) : t.dist.map absD = aDice t := by
  unfold DiceTerm.dist aDice
  obtain ⟨single, h1⟩ : ∃ d, mkDistInt t.table = .ok d := ⟨_, mkDistInt_eq _⟩
  obtain ⟨d, h2⟩ : ∃ d, mkDistInt single.getResultMap = .ok d := ⟨_, mkDistInt_eq _⟩
  have e1 := abs_mkDistInt h1
  have e2 := abs_mkDistInt h2
  rw [h1, ← e1, abs_result, ← e2]
  show Except.map absD (mkDistInt single.getResultMap >>= _) = _
  rw [h2]
  exact abs_addDice (tidy_mkDistInt h1) _ _ _ (tidy_mkDistInt h2)

theorem abs_int (m : List (Int × Nat)) : (mkDistInt m).map absD = .ok (aInt m) := by
  obtain ⟨d, h⟩ : ∃ d, mkDistInt m = .ok d := ⟨_, mkDistInt_eq _⟩
  rw [h, ← abs_mkDistInt h]
  rfl

theorem abs_dropKeep (t : DropKeepTerm) : t.dist.map absD = aDropKeep t := by
  unfold DropKeepTerm.dist aDropKeep
  cases t.simplified with
  | dice d => exact abs_dice _
  | zero => exact abs_int _
  | none => cases h : dropKeepMap t with
    | error e => rfl
    | ok m => exact abs_int m

theorem mir_two (op : BinOp) {a b : EvalM Dist} {a' b' : AEvalM ADist} (ha : Mir absD TidyIn a a') (hb : Mir absD TidyIn b b') :
    Mir absD TidyIn (do let x ← a; let y ← b; EvalM.ofRes (Dist.binop op x y)) (aTwo op a' b') := by
  intro s hs
  refine mirAt_bind (ha s hs) fun x t ht _ hx => mirAt_bind (hb t ht) fun y u hu hl hy => ?_
  have hx' := hl.tidyIn hx
  refine mirAt_ofRes hu (fun d hd => tidyIn_binop hx' hy hd) ?_
  obtain ⟨A, hA, _⟩ := hx
  obtain ⟨B, hB, _⟩ := hy
  exact abs_binop op hA hB

theorem mir_map (g : Int → Int) {a : EvalM Dist} {a' : AEvalM ADist} (ha : Mir absD TidyIn a a') :
    Mir absD TidyIn (do return (← a).mapValue g) (do return aMap g (← a')) := by
  intro s hs
  refine mirAt_bind (ha s hs) ?_
  rintro x t ht _ ⟨A, h1, h2⟩
  exact mirAt_pure ht ⟨A, tidy_mapValue _ h1, h2⟩ (abs_mapValue h1 g)

theorem mir_dist (e : Expr) : Mir absD TidyIn e.dist e.adist := by
  induction e with
  | paren e ih => exact ih
  | not e ih => exact mir_map notVal ih
  | abs e ih => exact mir_map absVal ih
  | dropKeep t => exact fun s hs => mirAt_ofRes hs (fun d h => tidyIn_dropKeep s h) (abs_dropKeep t)
  | dice t => exact fun s hs => mirAt_ofRes hs (fun d h => tidyIn_dice s h) (abs_dice t)
  | constInt t =>
    intro s hs
    refine mirAt_ofRes hs (fun d h => ?_) ?_
    · obtain ⟨v, _, h⟩ := bind_eq_ok.mp h
      exact tidyIn_int h
    · cases pyInt t with
      | error e => rfl
      | ok v => exact abs_int _
  | constBin t => exact fun s hs => mirAt_ofRes hs (fun d h => tidyIn_int h) (abs_int _)
  | add a b iha ihb => exact mir_two .add iha ihb
  | sub a b iha ihb => exact mir_two .sub iha ihb
  | mul a b iha ihb => exact mir_two .mul iha ihb
  | div a b iha ihb => exact mir_two .floordiv iha ihb
  | bin op a b iha ihb => exact mir_two op.toBinOp iha ihb
  | minmax k a b iha ihb => exact mir_two (if k then .max else .min) iha ihb
  | assign x e ih =>
    intro s hs
    refine mirAt_bind (ih s hs) fun d t ht _ hd => mirAt_bind (mirAt_setVar ht x hd) fun _ u hu hl _ => ?_
    exact mirAt_pure hu (hl.tidyIn hd) rfl
  | getVar x => exact fun s hs => mirAt_getVar hs x

theorem abs_extremeOf (isMax : Bool) (d : Dist) : aExtremeOf isMax (absD d) = if isMax then d.max else d.min := by
  unfold aExtremeOf Dist.max Dist.min
  rw [abs_result]

omit R in
theorem except_map_id {α : Type} (r : Res α) : r.map id = r := by cases r <;> rfl

theorem mir_viaDist (isMax : Bool) {a : EvalM Dist} {a' : AEvalM ADist} (ha : Mir absD TidyIn a a') :
    Mir id Any (viaDist isMax a) (aViaDist isMax a') := by
  intro s hs
  refine mirAt_bind (ha s hs) fun d t ht _ _ => mirAt_ofRes ht (fun _ _ => trivial) ?_
  rw [abs_extremeOf, except_map_id]

theorem mir_extreme (isMax : Bool) (e : Expr) : Mir id Any (e.extreme isMax) (e.aextreme isMax) := by
  induction e with
  | paren e ih => exact ih
  | not e ih => exact mir_viaDist isMax (mir_dist (.not e))
  | abs e ih => exact mir_viaDist isMax (mir_dist (.abs e))
  | dropKeep t => exact fun s hs => mirAt_ofRes hs (fun _ _ => trivial) (except_map_id _)
  | dice t => exact fun s hs => mirAt_ofRes hs (fun _ _ => trivial) (except_map_id _)
  | constInt t => exact fun s hs => mirAt_ofRes hs (fun _ _ => trivial) (except_map_id _)
  | constBin t => exact fun s hs => mirAt_ofRes hs (fun _ _ => trivial) (except_map_id _)
  | add a b _ _ => exact mir_viaDist isMax (mir_dist (.add a b))
  | sub a b _ _ => exact mir_viaDist isMax (mir_dist (.sub a b))
  | mul a b _ _ => exact mir_viaDist isMax (mir_dist (.mul a b))
  | bin op a b _ _ => exact mir_viaDist isMax (mir_dist (.bin op a b))
  | div a b _ _ =>
    intro s hs
    refine mirAt_bind (mir_dist b s hs) fun d t ht _ _ => ?_
    have : d.containsZero = (dictGet? (aResult (absD d)) 0).isSome := by
      rw [abs_result]
      unfold Dist.containsZero
      simp
    rw [← this]
    split
    · exact mirAt_ofRes ht (fun _ _ => trivial) rfl
    · exact mir_viaDist isMax (mir_dist (.div a b)) t ht
  | minmax k a b iha ihb =>
    intro s hs
    refine mirAt_bind (iha s hs) fun x t ht _ _ => mirAt_bind (ihb t ht) fun y u hu _ _ => mirAt_pure hu trivial rfl
  | assign x e ih =>
    intro s hs
    refine mirAt_bind (ih s hs) fun v t ht _ _ => mirAt_bind (mirAt_setConstant ht x v) fun _ u hu _ _ =>
      mirAt_bind (mir_dist e u hu) fun d w hw _ hd => mirAt_bind (mirAt_setVar hw x hd) fun _ z hz _ _ => mirAt_pure hz trivial rfl
  | getVar x => exact fun s hs => mirAt_getConstant hs x

theorem mir_plus {a b : EvalM Int} {a' b' : AEvalM Int} (ha : Mir id Any a a') (hb : Mir id Any b b') :
    Mir id Any (do let x ← a; let y ← b; return x + y) (aPlus a' b') := by
  intro s hs
  exact mirAt_bind (ha s hs) fun x t ht _ _ => mirAt_bind (hb t ht) fun y u hu _ _ => mirAt_pure hu trivial rfl

theorem mir_cost (e : Expr) : Mir id Any e.cost e.acost := by
  induction e with
  | paren e ih => exact ih
  | not e ih =>
    intro s hs
    exact mirAt_bind (ih s hs) fun c t ht _ _ => mirAt_ofRes ht (fun _ _ => trivial) (except_map_id _)
  | abs e ih => exact ih
  | dropKeep t => exact fun s hs => mirAt_pure hs trivial rfl
  | dice t => exact fun s hs => mirAt_pure hs trivial rfl
  | constInt t => exact fun s hs => mirAt_pure hs trivial rfl
  | constBin t => exact fun s hs => mirAt_pure hs trivial rfl
  | add a b iha ihb => exact mir_plus iha ihb
  | sub a b iha ihb => exact mir_plus iha ihb
  | mul a b iha ihb => exact mir_plus iha ihb
  | div a b iha ihb => exact mir_plus iha ihb
  | bin op a b iha ihb => exact mir_plus iha ihb
  | minmax k a b iha ihb => exact mir_plus iha ihb
  | assign x e ih =>
    intro s hs
    exact mirAt_bind (ih s hs) fun c t ht _ _ => mirAt_bind (mirAt_setConstant ht x c) fun _ u hu _ _ => mirAt_pure hu trivial rfl
  | getVar x => exact fun s hs => mirAt_getConstant hs x

/-! ### The interpreter -/

end

/-- A method that may draw. -/
def ARollM (α : Type) := AState → Rand (Res α × AState)

/-- Sequencing. -/
def ARollM.bind {α β : Type} (m : ARollM α) (f : α → ARollM β) : ARollM β := fun s =>
  Rand.bind (m s) fun
    | (.ok a, s') => f a s'
    | (.error e, s') => .pure (.error e, s')

instance : Monad ARollM where
  pure a := fun s => .pure (.ok a, s)
  bind := ARollM.bind

/-- A deterministic step. -/
def ARollM.ofEval {α : Type} (m : AEvalM α) : ARollM α := fun s => .pure (m s)
/-- A random step. -/
def ARollM.ofRand {α : Type} (r : Rand (Res α)) : ARollM α := fun s => Rand.bind r fun a => .pure (a, s)

/-- Two rolls. -/
def aBoth (g : Int → Int → Int) (a b : ARollM Int) : ARollM Int := do let x ← a; let y ← b; return g x y

/-- Rolls. -/
def Expr.aroll : Expr → ARollM Int
  | .paren e => e.aroll
  | .not e => do return (if (← e.aroll) ≠ 0 then 0 else 1)
  | .dropKeep t => ARollM.ofRand t.roll
  | .dice t => ARollM.ofRand t.roll
  | .constInt text => ARollM.ofEval (AEvalM.ofRes (pyInt text))
  | .constBin text => pure (binValue text)
  | .add a b => aBoth (fun x y => x + y) a.aroll b.aroll
  | .sub a b => aBoth (fun x y => x - y) a.aroll b.aroll
  | .mul a b => aBoth (fun x y => x * y) a.aroll b.aroll
  | .div a b => do
    let y ← b.aroll
    if y = 0 then ARollM.ofEval (AEvalM.ofRes (.error .zeroDivision))
    else do let x ← a.aroll; return x.fdiv y
  | .bin op a b => aBoth (fun x y => if op.onInts x y then 1 else 0) a.aroll b.aroll
  | .minmax k a b => aBoth (minmaxOp k) a.aroll b.aroll
  | .abs e => do return pyAbs (← e.aroll)
  | .assign x e => do
    let v ← e.aroll
    ARollM.ofEval (AEvalM.setConstant x v)
    return v
  | .getVar x => ARollM.ofEval (AEvalM.getConstant x)

section
variable (parse : Str → Res Expr)

/-- A line of `roll`. -/
def aRollLine (l : Str) : ARollM Unit := do
  let e ← ARollM.ofEval (AEvalM.ofRes (parse l))
  let v ← e.aroll
  ARollM.ofEval (AEvalM.outInt v)

/-- The loop of `roll`. -/
def aRollLines : List Str → ARollM Unit
  | [] => pure ()
  | l :: ls => do aRollLine parse l; aRollLines ls

/-- The constants. -/
def aConstants (lines : List Str) : AEvalM (List (Str × Int)) := fun s => (.ok (if lines = [] then [] else s.constants), s)

/-- `roll`. -/
def aInterpRoll (lines : List Str) : ARollM (List (Str × Int)) := do
  aRollLines parse lines
  ARollM.ofEval (aConstants lines)

/-- A line of `max` and `min`. -/
noncomputable def aExtremeLine (isMax : Bool) (l : Str) : AEvalM Unit := do
  let e ← AEvalM.ofRes (parse l)
  let v ← e.aextreme isMax
  AEvalM.outInt v

/-- The loop of `max` and `min`. -/
noncomputable def aExtremeLines (isMax : Bool) : List Str → AEvalM Unit
  | [] => pure ()
  | l :: ls => do aExtremeLine parse isMax l; aExtremeLines isMax ls

/-- `max` and `min`. -/
noncomputable def aInterpExtreme (isMax : Bool) (lines : List Str) : AEvalM (List (Str × Int)) := do
  aExtremeLines parse isMax lines
  aConstants lines

/-- A line of the distribution methods. -/
noncomputable def aDistLine (l : Str) : AEvalM Unit := do
  let e ← AEvalM.ofRes (parse l)
  let d ← e.adist
  AEvalM.outDist d

/-- The loop of the distribution methods. -/
noncomputable def aDistLines : List Str → AEvalM Unit
  | [] => pure ()
  | l :: ls => do aDistLine parse l; aDistLines ls

/-- The variables. -/
def aVars (lines : List Str) : AEvalM (List (Str × ADist)) := fun s => (.ok (if lines = [] then [] else s.var), s)

/-- What a distribution shows. -/
def aSeen (d : ADist) : Seen := (aResult d, d.total)

/-- `get_probability_distributions`, shown. -/
noncomputable def aInterpDists (lines : List Str) : AEvalM (List (Str × ADist)) := do
  aDistLines parse lines
  aVars lines

/-- The dict form of what is seen. -/
def dictFormOf (x : Seen) : Res (List (Int × ℚ)) :=
  x.1.mapM (fun p => if x.2 = 0 then .error .zeroDivision else do return (p.1, ← toFloat ((p.2 : ℚ) / (x.2 : ℚ))))

/-- The average of what is seen. -/
def averageOf (x : Seen) : Res ℚ :=
  let total := x.1.foldl (fun t p => t + p.1 * (p.2 : Int)) (0 : Int)
  if x.2 = 0 then .error .zeroDivision else toFloat ((total : ℚ) / (x.2 : ℚ))

/-- A figure of every distribution. -/
noncomputable def aInterpMap {α : Type} (f : Seen → Res α) (lines : List Str) : AEvalM (List (Str × α)) := do
  let d ← aInterpDists parse lines
  AEvalM.ofRes (mapValues (fun d => f (aSeen d)) d)

/-- The loop of the histogram methods. -/
noncomputable def aLastDist : List Str → ADist → AEvalM ADist
  | [], d => pure d
  | l :: ls, _ => do
    let e ← AEvalM.ofRes (parse l)
    let d ← e.adist
    aLastDist ls d

/-- The loop of `get_estimated_cost`. -/
noncomputable def aCostLines : List Str → Int → AEvalM Int
  | [], total => pure total
  | l :: ls, total => do
    let e ← AEvalM.ofRes (parse l)
    let c ← e.acost
    aCostLines ls (total + c)

/-- A call. -/
noncomputable def aRunCall (c : Call) (s : AState) : Rand (Answer × AState) :=
  match c with
  | .roll l => Rand.bind (aInterpRoll parse l s) fun x => .pure (.ints x.1, x.2)
  | .extreme k l => .pure (.ints (aInterpExtreme parse k l s).1, (aInterpExtreme parse k l s).2)
  | .dists l => .pure (.dists ((aInterpDists parse l s).1.map (List.map fun p => (p.1, aSeen p.2))), (aInterpDists parse l s).2)
  | .dictForms l => .pure (.dictForms (aInterpMap parse dictFormOf l s).1, (aInterpMap parse dictFormOf l s).2)
  | .averages l => .pure (.averages (aInterpMap parse averageOf l s).1, (aInterpMap parse averageOf l s).2)
  | .histogram l => .pure (.drawn ((aLastDist parse l (aMake []) s).1.map aSeen), (aLastDist parse l (aMake []) s).2)
  | .cost l => .pure (.cost (aCostLines parse l 0 s).1, (aCostLines parse l 0 s).2)

/-- A session. -/
noncomputable def aSession : List Call → AState → Rand (List Answer)
  | [], _ => .pure []
  | c :: cs, s => Rand.bind (aRunCall parse c s) fun x => Rand.bind (aSession cs x.2) fun as => .pure (x.1 :: as)

end

/-- Every leaf, drawable or not. -/
def Rand.All {α : Type} (P : α → Prop) : Rand α → Prop
  | .pure a => P a
  | .draw _ k => ∀ t, (k t).All P

theorem Rand.All.bind {α β : Type} {P : α → Prop} {Q : β → Prop} {r : Rand α} {f : α → Rand β} (h : r.All P)
    (hf : ∀ a, P a → (f a).All Q) : (Rand.bind r f).All Q := by
  induction r with
  | pure a => exact hf a h
  | draw n k ih => exact fun t => ih t (h t)

theorem Rand.All.imp {α : Type} {P Q : α → Prop} {r : Rand α} (h : r.All P) (hf : ∀ a, P a → Q a) : r.All Q := by
  induction r with
  | pure a => exact hf a h
  | draw n k ih => exact fun t => ih t (h t)

theorem Rand.all_true {α : Type} (r : Rand α) : r.All fun _ => True := by
  induction r with
  | pure a => trivial
  | draw n k ih => exact fun t => ih t

theorem Rand.bind_congr {α β : Type} {P : α → Prop} {r : Rand α} {f g : α → Rand β} (h : r.All P) (hf : ∀ a, P a → f a = g a) :
    Rand.bind r f = Rand.bind r g := by
  induction r with
  | pure a => exact hf a h
  | draw n k ih =>
    show Rand.draw n _ = Rand.draw n _
    congr 1
    funext t
    exact ih t (h t)

section
variable [R : PyRuntime]

/-- A roll's result without set orders. -/
def absX {α : Type} (x : Res α × State) : Res α × AState := (x.1, absS x.2)

/-- The mirror's roll does what the model's does. -/
def RMir {α : Type} (m : RollM α) (a : ARollM α) : Prop :=
  ∀ s, Rand.map absX (m s) = a (absS s) ∧ (m s).All fun x => OnlyConstants s x.2

theorem rmir_bind {α β : Type} {m : RollM α} {a : ARollM α} {k : α → RollM β} {k' : α → ARollM β} (h : RMir m a)
    (hk : ∀ x, RMir (k x) (k' x)) : RMir (m >>= k) (a >>= k') := by
  intro s
  constructor
  · rw [rollBind]
    show _ = Rand.bind (a (absS s)) _
    rw [← (h s).1]
    unfold Rand.map
    rw [Rand.bind_assoc, Rand.bind_assoc]
    refine Rand.bind_congr (Rand.all_true _) ?_
    rintro ⟨r, t⟩ -
    cases r with
    | error e => rfl
    | ok x => exact (hk x t).1
  · rw [rollBind]
    refine (h s).2.bind ?_
    rintro ⟨r, t⟩ ht
    cases r with
    | error e => exact ht
    | ok x => exact (hk x t).2.imp fun y hy => ht.trans hy

theorem rmir_pure {α : Type} (x : α) : RMir (pure x) (pure x) := fun s => ⟨rfl, onlyConstants_refl s⟩

theorem rmir_eval {α : Type} {m : EvalM α} {a : AEvalM α} (h : ∀ s, absX (m s) = a (absS s)) (h' : ∀ s, OnlyConstants s (m s).2) :
    RMir (RollM.ofEval m) (ARollM.ofEval a) := fun s => ⟨congrArg Rand.pure (h s), h' s⟩

theorem rmir_res {α : Type} (r : Res α) : RMir (RollM.ofEval (EvalM.ofRes r)) (ARollM.ofEval (AEvalM.ofRes r)) :=
  rmir_eval (fun _ => rfl) onlyConstants_refl

theorem rmir_rand {α : Type} (r : Rand (Res α)) : RMir (RollM.ofRand r) (ARollM.ofRand r) := by
  intro s
  constructor
  · unfold Rand.map RollM.ofRand ARollM.ofRand
    rw [Rand.bind_assoc]
    rfl
  · exact (Rand.all_true r).bind fun _ _ => onlyConstants_refl s

theorem rmir_both (g : Int → Int → Int) {a b : RollM Int} {a' b' : ARollM Int} (ha : RMir a a') (hb : RMir b b') :
    RMir (do let x ← a; let y ← b; return g x y) (aBoth g a' b') :=
  rmir_bind ha fun _ => rmir_bind hb fun _ => rmir_pure _

theorem rmir_roll (e : Expr) : RMir e.roll e.aroll := by
  induction e with
  | paren e ih => exact ih
  | not e ih => exact rmir_bind ih fun _ => rmir_pure _
  | abs e ih => exact rmir_bind ih fun _ => rmir_pure _
  | dropKeep t => exact rmir_rand _
  | dice t => exact rmir_rand _
  | constInt t => exact rmir_res _
  | constBin t => exact rmir_pure _
  | add a b iha ihb => exact rmir_both _ iha ihb
  | sub a b iha ihb => exact rmir_both _ iha ihb
  | mul a b iha ihb => exact rmir_both _ iha ihb
  | div a b iha ihb =>
    refine rmir_bind ihb fun y => ?_
    by_cases h : y = 0
    · simp only [h, if_true]; exact rmir_res _
    · simp only [h, if_false]; exact rmir_bind iha fun _ => rmir_pure _
  | bin op a b iha ihb => exact rmir_both _ iha ihb
  | minmax k a b iha ihb => exact rmir_both _ iha ihb
  | assign x e ih =>
    refine rmir_bind ih fun v => rmir_bind (rmir_eval (fun _ => rfl) fun s => ⟨rfl, later_setConstant s x v⟩) fun _ => rmir_pure _
  | getVar x =>
    refine rmir_eval (fun s => ?_) onlyConstants_refl
    unfold AEvalM.getConstant EvalM.read State.getConstant absX
    simp only [absS]
    cases dictGet? s.constants x <;> rfl

variable (parse : Str → Res Expr)

theorem rmir_rollLines : ∀ lines, RMir (rollLines parse lines) (aRollLines parse lines) := by
  intro lines
  induction lines with
  | nil => exact rmir_pure _
  | cons l ls ih =>
    have h : RMir (rollLine parse l) (aRollLine parse l) :=
      rmir_bind (rmir_res _) fun e => rmir_bind (rmir_roll e) fun v s => ⟨rfl, rfl, fun _ => le_refl _⟩
    exact rmir_bind h fun _ => ih

theorem rmir_interpRoll (lines : List Str) : RMir (interpRoll parse lines) (aInterpRoll parse lines) :=
  rmir_bind (rmir_rollLines parse lines) fun _ s => ⟨rfl, onlyConstants_refl s⟩

theorem mirAt_res {α : Type} {s : State} (hs : TidyState s) (r : Res α) : MirAt id Any (EvalM.ofRes r) (AEvalM.ofRes r) s :=
  mirAt_ofRes hs (fun _ _ => trivial) (except_map_id r)

theorem mir_constants (lines : List Str) :
    Mir id Any (fun s => (.ok (constantsReturned lines s), s)) (aConstants lines) := by
  intro s hs
  exact ⟨hs, later_refl s, fun _ _ => trivial, rfl⟩

theorem mir_outInt (v : Int) : Mir id Any (fun s => (.ok (), { s with constants := dictSet s.constants stdoutName v })) (AEvalM.outInt v) :=
  fun _ hs => ⟨hs, fun _ => le_refl _, fun _ _ => trivial, rfl⟩

theorem mirAt_outDist {s : State} (hs : TidyState s) {d : Dist} (hd : TidyIn s d) :
    MirAt id Any (fun s => (.ok (), { s with var := dictSet s.var stdoutName d })) (AEvalM.outDist (absD d)) s := by
  refine ⟨tidyState_setStdout hs stdoutName hd, fun _ => le_refl _, fun _ _ => trivial, ?_⟩
  unfold AEvalM.outDist
  simp only [absS, dictSet_mapD absD]
  rfl

theorem mir_extremeLines (isMax : Bool) : ∀ lines, Mir id Any (extremeLines parse isMax lines) (aExtremeLines parse isMax lines) := by
  intro lines
  induction lines with
  | nil => exact fun s hs => mirAt_pure hs trivial rfl
  | cons l ls ih =>
    intro s hs
    refine mirAt_bind (f := id) (Q := Any) (m := extremeLine parse isMax l) (a := aExtremeLine parse isMax l) ?_ fun _ t ht _ _ => ih t ht
    exact mirAt_bind (mirAt_res hs _) fun e t ht _ _ => mirAt_bind (mir_extreme isMax e t ht) fun v u hu _ _ => mir_outInt v u hu

theorem mir_interpExtreme (isMax : Bool) (lines : List Str) :
    Mir id Any (interpExtreme parse isMax lines) (aInterpExtreme parse isMax lines) :=
  fun s hs => mirAt_bind (mir_extremeLines parse isMax lines s hs) fun _ t ht _ _ => mir_constants lines t ht

theorem mir_distLines : ∀ lines, Mir id Any (distLines parse lines) (aDistLines parse lines) := by
  intro lines
  induction lines with
  | nil => exact fun s hs => mirAt_pure hs trivial rfl
  | cons l ls ih =>
    intro s hs
    refine mirAt_bind (f := id) (Q := Any) (m := distLine parse l) (a := aDistLine parse l) ?_ fun _ t ht _ _ => ih t ht
    exact mirAt_bind (mirAt_res hs _) fun e t ht _ _ => mirAt_bind (mir_dist e t ht) fun d u hu _ hd => mirAt_outDist hu hd

/-- All distributions of a dict. -/
def absVars (d : List (Str × Dist)) : List (Str × ADist) := d.map fun p => (p.1, absD p.2)

theorem mir_interpDists (lines : List Str) : Mir absVars Any (interpDists parse lines) (aInterpDists parse lines) := by
  intro s hs
  refine mirAt_bind (mir_distLines parse lines s hs) fun _ t ht _ _ => ⟨ht, later_refl t, fun _ _ => trivial, ?_⟩
  unfold aVars absVars
  by_cases h : lines = [] <;> simp [h, absS, Except.map]

theorem abs_seen (d : Dist) : aSeen (absD d) = d.seen := by
  unfold aSeen Dist.seen
  rw [abs_result]
  rfl

theorem mapValues_abs {α : Type} (f : Dist → Res α) (g : Seen → Res α) (h : ∀ d, f d = g d.seen) : ∀ d : List (Str × Dist),
    mapValues f d = mapValues (fun d => g (aSeen d)) (absVars d) := by
  intro d
  unfold mapValues absVars
  induction d with
  | nil => rfl
  | cons p d ih =>
    rw [List.map_cons, List.mapM_cons, List.mapM_cons, ih]
    simp only [abs_seen, h]

theorem mir_interpMap {α : Type} (f : Dist → Res α) (g : Seen → Res α) (h : ∀ d, f d = g d.seen) (lines : List Str) :
    Mir id Any (do let d ← interpDists parse lines; EvalM.ofRes (mapValues f d)) (aInterpMap parse g lines) := by
  intro s hs
  refine mirAt_bind (mir_interpDists parse lines s hs) fun d t ht _ _ => mirAt_ofRes ht (fun _ _ => trivial) ?_
  rw [except_map_id, mapValues_abs f g h]

theorem mir_lastDist : ∀ (lines : List Str) (d : Dist), Mir absD Any (lastDist parse lines d) (aLastDist parse lines (absD d)) := by
  intro lines
  induction lines with
  | nil => exact fun d s hs => mirAt_pure hs trivial rfl
  | cons l ls ih =>
    intro d s hs
    exact mirAt_bind (mirAt_res hs _) fun e t ht _ _ => mirAt_bind (mir_dist e t ht) fun d u hu _ _ => ih d u hu

theorem mir_costLines : ∀ (lines : List Str) (c : Int), Mir id Any (costLines parse lines c) (aCostLines parse lines c) := by
  intro lines
  induction lines with
  | nil => exact fun d s hs => mirAt_pure hs trivial rfl
  | cons l ls ih =>
    intro d s hs
    exact mirAt_bind (mirAt_res hs _) fun e t ht _ _ => mirAt_bind (mir_cost e t ht) fun c u hu _ _ => ih _ u hu

theorem dictForm_seen (d : Dist) : d.getDictFormF = dictFormOf d.seen := rfl
theorem average_seen (d : Dist) : d.averageF = averageOf d.seen := rfl

/-- A call's result without set orders. -/
def absC (x : Answer × State) : Answer × AState := (x.1, absS x.2)

theorem mir_runCall (c : Call) {s : State} (hs : TidyState s) :
    Rand.map absC (runCall parse c s) = aRunCall parse c (absS s) ∧ (runCall parse c s).All fun x => TidyState x.2 := by
  cases c with
  | roll l =>
    obtain ⟨h1, h2⟩ := rmir_interpRoll parse l s
    constructor
    · unfold runCall aRunCall Rand.map
      simp only
      rw [← h1, Rand.map, Rand.bind_assoc, Rand.bind_assoc]
      rfl
    · exact h2.bind fun x hx => hx.tidy hs
  | extreme k l =>
    obtain ⟨h1, _, _, h2⟩ := mir_interpExtreme parse k l s hs
    refine ⟨?_, h1⟩
    unfold runCall aRunCall
    simp only [h2, except_map_id]
    rfl
  | dists l =>
    obtain ⟨h1, _, _, h2⟩ := mir_interpDists parse l s hs
    refine ⟨?_, h1⟩
    unfold runCall aRunCall
    simp only [h2]
    unfold Rand.map Rand.bind absC absVars
    cases (interpDists parse l s).1 with
    | error e => rfl
    | ok d => simp [Except.map, abs_seen]
  | dictForms l =>
    obtain ⟨h1, _, _, h2⟩ := mir_interpMap parse _ _ dictForm_seen l s hs
    refine ⟨?_, h1⟩
    unfold runCall aRunCall
    simp only [h2, except_map_id]
    rfl
  | averages l =>
    obtain ⟨h1, _, _, h2⟩ := mir_interpMap parse _ _ average_seen l s hs
    refine ⟨?_, h1⟩
    unfold runCall aRunCall
    simp only [h2, except_map_id]
    rfl
  | histogram l =>
    obtain ⟨h1, _, _, h2⟩ := mir_lastDist parse l (mkDist []) s hs
    refine ⟨?_, h1⟩
    have e : absD (mkDist []) = aMake [] := rfl
    rw [e] at h2
    unfold runCall aRunCall
    simp only [h2]
    unfold Rand.map Rand.bind absC interpHistogramDist
    cases (lastDist parse l (mkDist []) s).1 with
    | error e => rfl
    | ok d => simp [Except.map, abs_seen]
  | cost l =>
    obtain ⟨h1, _, _, h2⟩ := mir_costLines parse l 0 s hs
    refine ⟨?_, h1⟩
    unfold runCall aRunCall
    simp only [h2, except_map_id]
    rfl

/-- A session shows what its mirror shows. -/
theorem mir_session : ∀ (calls : List Call) {s : State}, TidyState s → sessionFrom parse calls s = aSession parse calls (absS s) := by
  intro calls
  induction calls with
  | nil => intro s _; rfl
  | cons c cs ih =>
    intro s hs
    obtain ⟨h1, h2⟩ := mir_runCall parse c hs
    unfold sessionFrom aSession
    rw [← h1, Rand.map, Rand.bind_assoc]
    refine Rand.bind_congr h2 fun x hx => ?_
    show _ = Rand.bind (aSession parse cs (absS x.2)) _
    rw [← ih hx]
    rfl

theorem session_eq (calls : List Call) : session parse calls = aSession parse calls ⟨[], [], []⟩ := mir_session parse calls tidyState_new

end

end PyDice
