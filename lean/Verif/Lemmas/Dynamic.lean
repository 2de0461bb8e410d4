import Verif.Spec.Dynamic
import Verif.Lemmas.Dist
import Verif.Lemmas.Repr
/-!
# Lemmas about operands of any type
-/

namespace PyDice
open PyRuntime

/-- A change of keys that keeps equality commutes with `safe_add`. -/
theorem safeAdd_map {κ κ' : Type} [BEq κ] [BEq κ'] (f : κ → κ') (hf : ∀ a b, (f a == f b) = (a == b)) (k : κ) (n : Nat) :
    ∀ d : List (κ × Nat), (safeAdd d k n).map (fun p => (f p.1, p.2)) = safeAdd (d.map fun p => (f p.1, p.2)) (f k) n
  | [] => rfl
  | (k', m) :: t => by
    simp only [safeAdd, List.map_cons, hf]
    by_cases h : k' == k
    · simp only [h, if_true, List.map_cons]
    · simp only [h, Bool.false_eq_true, if_false, List.map_cons, safeAdd_map f hf k n t]

theorem foldl_safeAdd_map {κ κ' α : Type} [BEq κ] [BEq κ'] (f : κ → κ') (hf : ∀ a b, (f a == f b) = (a == b)) (key : α → κ)
    (cnt : α → Nat) : ∀ (l : List α) (d : List (κ × Nat)),
    (l.foldl (fun d a => safeAdd d (key a) (cnt a)) d).map (fun p => (f p.1, p.2)) =
      l.foldl (fun d a => safeAdd d (f (key a)) (cnt a)) (d.map fun p => (f p.1, p.2))
  | [], _ => rfl
  | a :: l, d => by
    simp only [List.foldl_cons]
    rw [foldl_safeAdd_map f hf key cnt l, safeAdd_map f hf]

section
variable [R : PyRuntime]

theorem asP_beq (a b : Outcome) : (a.asP == b.asP) = (a == b) := rfl
theorem outcomeP_plain_beq (a b : OutcomeP) : (a.plain == b.plain) = (a == b) := rfl
theorem plain_asP (o : Outcome) : o.asP.plain = o := rfl

omit R in
theorem unbool_eq (x : PyNum) : x.unbool = .int x.toInt := by
  cases x with
  | int n => rfl
  | bool b => cases b <;> rfl

omit R in
theorem applyP_eq (op : BinOp) (x y : PyNum) :
    (op.applyP x y).map PyNum.unbool = match op.apply x.toInt y.toInt with
      | .ok v => .ok (.int v)
      | .error e => .error (.other e) := by
  cases op <;> try rfl
  · simp only [BinOp.applyP, BinOp.apply]
    split <;> rfl
  · by_cases h : y.toInt > x.toInt <;> simp [BinOp.applyP, BinOp.apply, h, Except.map, unbool_eq]
  · by_cases h : y.toInt < x.toInt <;> simp [BinOp.applyP, BinOp.apply, h, Except.map, unbool_eq]

/-- Between outcomes the code does what the typed model says. -/
theorem combineP_eq (op : BinOp) (a b : OutcomeP) :
    a.combine op (.outcome b) = typedOutcome (Outcome.combine op a.plain b.plain) := by
  have h := applyP_eq op a.value b.value
  simp only [OutcomeP.combine, Outcome.combine, OutcomeP.plain]
  revert h
  cases h1 : op.applyP a.value b.value with
  | error e =>
    cases h2 : op.apply a.value.toInt b.value.toInt with
    | error e' =>
      intro h
      simp only [Except.map] at h
      injection h with h
      subst h
      rfl
    | ok v => intro h; exact absurd h (by simp [Except.map])
  | ok n =>
    cases h2 : op.apply a.value.toInt b.value.toInt with
    | error e' => intro h; exact absurd h (by simp [Except.map])
    | ok v =>
      intro h
      simp only [Except.map] at h
      injection h with h
      cases h3 : combineSets a.cs b.cs with
      | error e => rfl
      | ok cs =>
        show mkOutcomeP (.num n.unbool) cs = _
        rw [h]
        rfl

theorem possibleP (o : Outcome) : o.asP.isPossible = o.isPossible := rfl

/-- The entries of the typed model as those of the code. -/
def typedEntries (r : Res (List (Outcome × Nat))) : Except Exc (List (OutcomeP × Nat)) := match r with
  | .ok m => .ok (m.map fun p => (p.1.asP, p.2))
  | .error e => .error (.other e)

theorem combineLoopP_eq (op : BinOp) : ∀ (ps : List ((OutcomeP × Nat) × (OutcomeP × Nat))) (acc : List (Outcome × Nat)),
    combineLoopP op ps (acc.map fun p => (p.1.asP, p.2)) =
      typedEntries (combineLoop op (ps.map fun x => ((x.1.1.plain, x.1.2), (x.2.1.plain, x.2.2))) acc)
  | [], _ => rfl
  | (p, q) :: rest, acc => by
    simp only [combineLoopP, combineLoop, List.map_cons, combineP_eq]
    cases h : Outcome.combine op p.1.plain q.1.plain with
    | error e => rfl
    | ok o =>
      show (if o.asP.isPossible then combineLoopP op rest (safeAdd _ o.asP (p.2 * q.2)) else _) = _
      rw [possibleP]
      by_cases hp : o.isPossible = true
      · rw [if_pos hp, ← safeAdd_map Outcome.asP asP_beq, combineLoopP_eq op rest]
        show _ = typedEntries (if o.isPossible then _ else _)
        rw [if_pos hp]
      · rw [if_neg hp, combineLoopP_eq op rest]
        show _ = typedEntries (if o.isPossible then _ else _)
        rw [if_neg hp]

omit R in
theorem count_map {κ κ' : Type} (f : κ → κ') : ∀ (l : List (κ × Nat)) (c : Nat),
    (l.map fun p => (f p.1, p.2)).foldl (fun c p => c + p.2) c = l.foldl (fun c p => c + p.2) c
  | [], _ => rfl
  | p :: l, c => by simp only [List.map_cons, List.foldl_cons]; exact count_map f l _

/-- A dictionary of outcomes. -/
theorem mkDistP_outcomes (m : List (OutcomeP × Nat)) : mkDistP (m.map fun p => (PyObj.outcome p.1, p.2)) =
    .ok ⟨m.foldl (fun d p => safeAdd d p.1 p.2) [], (m.foldl (fun d p => safeAdd d p.1 p.2) []).foldl (fun c p => c + p.2) 0⟩ := by
  unfold mkDistP
  have : ∀ d : List (OutcomeP × Nat), (m.map fun p => (PyObj.outcome p.1, p.2)).foldlM (m := Except Exc)
      keyStep d = .ok (m.foldl (fun d p => safeAdd d p.1 p.2) d) := by
    induction m with
    | nil => intro d; rfl
    | cons p m ih => intro d; exact ih _
  rw [this]
  rfl

theorem mkDistP_asP (m : List (Outcome × Nat)) :
    mkDistP ((m.map fun p => (p.1.asP, p.2)).map fun p => (PyObj.outcome p.1, p.2)) = .ok (mkDist m).asP := by
  rw [mkDistP_outcomes]
  have h : (m.map fun p => (p.1.asP, p.2)).foldl (fun d p => safeAdd d p.1 p.2) [] =
      (m.foldl (fun d p => safeAdd d p.1 p.2) []).map fun p => (p.1.asP, p.2) := by
    rw [foldl_safeAdd_map Outcome.asP asP_beq Prod.fst Prod.snd m [], List.foldl_map]
    rfl
  rw [h, count_map]
  rfl

omit R in
theorem pairsOf_mapP {α β α' β' : Type} (f : α → α') (g : β → β') (a : List α) (b : List β) :
    (pairsOf a b).map (fun x => (f x.1, g x.2)) = pairsOf (a.map f) (b.map g) := by
  simp only [pairsOf, List.map_flatMap, List.flatMap_map, List.map_map]
  rfl

/-- Between distributions the code does what the typed model says. -/
theorem binopP_eq (op : BinOp) (i : Nat) (a b : DistP) : a.binop op (.dist i b) = typedDist (Dist.binop op a.plain b.plain) := by
  simp only [DistP.binop, Dist.binop, Dist.getConstraintResultMap]
  have h := combineLoopP_eq op (pairsOf a.resultMap b.resultMap) []
  have hp : (pairsOf a.resultMap b.resultMap).map (fun x => ((x.1.1.plain, x.1.2), (x.2.1.plain, x.2.2))) =
      pairsOf a.plain.resultMap b.plain.resultMap :=
    pairsOf_mapP (fun p : OutcomeP × Nat => (p.1.plain, p.2)) (fun p : OutcomeP × Nat => (p.1.plain, p.2)) _ _
  rw [hp] at h
  have h' : combineLoopP op (pairsOf a.resultMap b.resultMap) [] = _ := h
  rw [h']
  cases combineLoop op (pairsOf a.plain.resultMap b.plain.resultMap) [] with
  | error e => rfl
  | ok m => exact mkDistP_asP m

theorem notOpP_eq (d : DistP) : d.notOp = .ok d.plain.notOp.asP := by
  unfold DistP.notOp Dist.notOp
  rw [← mkDistP_asP]
  congr 2
  have : (d.plain.resultMap.foldl (fun m p => safeAdd m p.1.notOp p.2) []).map (fun p => (p.1.asP, p.2)) =
      d.plain.resultMap.foldl (fun m p => safeAdd m p.1.notOp.asP p.2) [] :=
    foldl_safeAdd_map Outcome.asP asP_beq (fun p : Outcome × Nat => p.1.notOp) Prod.snd _ []
  rw [this, DistP.plain, List.foldl_map]
  rfl

theorem absOpP_eq (d : DistP) : d.absOp = .ok d.plain.absOp.asP := by
  unfold DistP.absOp Dist.absOp
  rw [← mkDistP_asP]
  congr 2
  have : (d.plain.resultMap.foldl (fun m p => safeAdd m p.1.absOp p.2) []).map (fun p => (p.1.asP, p.2)) =
      d.plain.resultMap.foldl (fun m p => safeAdd m p.1.absOp.asP p.2) [] :=
    foldl_safeAdd_map Outcome.asP asP_beq (fun p : Outcome × Nat => p.1.absOp) Prod.snd _ []
  rw [this, DistP.plain, List.foldl_map]
  rfl

/-- The constructor keeps the numbers and the outcomes, and nothing else. -/
theorem mkDistP_eq (m : List (PyObj × Nat)) : ∃ d, mkDistP m = .ok d ∧ d.plain = mkDist (keysOf nullCS m) := by
  have key : ∀ (m : List (PyObj × Nat)) (acc : List (OutcomeP × Nat)), ∃ r, m.foldlM (m := Except Exc)
      keyStep acc = .ok r ∧
      r.map (fun p => (p.1.plain, p.2)) = (keysOf nullCS m).foldl (fun d p => safeAdd d p.1 p.2) (acc.map fun p => (p.1.plain, p.2)) := by
    intro m
    induction m with
    | nil => intro acc; exact ⟨acc, rfl, rfl⟩
    | cons p m ih =>
      intro acc
      obtain ⟨x, k⟩ := p
      cases x with
      | num n =>
        obtain ⟨r, h1, h2⟩ := ih (safeAdd acc ⟨n, nullCS⟩ k)
        refine ⟨r, ?_, ?_⟩
        · rw [← h1, List.foldlM_cons]
          simp only [keyStep, createConstraintSet_eq]
          rfl
        · rw [h2, safeAdd_map OutcomeP.plain outcomeP_plain_beq]
          rfl
      | outcome o =>
        obtain ⟨r, h1, h2⟩ := ih (safeAdd acc o k)
        refine ⟨r, h1, ?_⟩
        rw [h2, safeAdd_map OutcomeP.plain outcomeP_plain_beq]
        rfl
      | constraint _ => exact ih acc
      | cset _ => exact ih acc
      | dist _ _ => exact ih acc
      | other _ _ => exact ih acc
  obtain ⟨r, h1, h2⟩ := key m []
  refine ⟨⟨r, r.foldl (fun c p => c + p.2) 0⟩, ?_, ?_⟩
  · unfold mkDistP
    rw [h1]
    rfl
  · simp only [DistP.plain, mkDist]
    rw [h2, ← count_map OutcomeP.plain r, h2]
    rfl

omit R in
theorem funName_injective {a b : BinOp} (h : a.funName = b.funName) : a = b := by
  revert h
  cases a <;> cases b <;> first | (intro _; rfl) | (intro h; exact absurd h (by decide))

omit R in
theorem methodName_injective {a b : BinOp} (h : a.methodName = b.methodName) : a = b := by
  revert h
  cases a <;> cases b <;> first | (intro _; rfl) | (intro h; exact absurd h (by decide))

theorem keysOf_total (free : CSet) : ∀ m : List (PyObj × Nat), (∀ p ∈ m, p.1.IsKey = true) →
    ((keysOf free m).map Prod.snd) = m.map Prod.snd
  | [], _ => rfl
  | (x, k) :: rest, h => by
    have hx := h (x, k) (by simp)
    have ih := keysOf_total free rest fun p hp => h p (by simp [hp])
    cases x with
    | num n => simp only [keysOf, List.map_cons, ih]
    | outcome o => simp only [keysOf, List.map_cons, ih]
    | _ => cases hx

omit R in
theorem foldl_total {κ : Type} : ∀ (l : List (κ × Nat)) (c : Nat), l.foldl (fun c p => c + p.2) c = c + (l.map Prod.snd).sum
  | [], _ => rfl
  | p :: l, c => by simp only [List.foldl_cons, List.map_cons, List.sum_cons, foldl_total l]; omega

omit R in
theorem safeAdd_total {κ : Type} [BEq κ] (k : κ) (n : Nat) : ∀ d : List (κ × Nat),
    ((safeAdd d k n).map Prod.snd).sum = (d.map Prod.snd).sum + n
  | [] => by simp [safeAdd]
  | (k', m) :: t => by
    simp only [safeAdd]
    split
    · simp only [List.map_cons, List.sum_cons]; omega
    · simp only [List.map_cons, List.sum_cons, safeAdd_total k n t]; omega

omit R in
theorem foldl_safeAdd_total {κ : Type} [BEq κ] : ∀ (l d : List (κ × Nat)),
    ((l.foldl (fun d p => safeAdd d p.1 p.2) d).map Prod.snd).sum = (d.map Prod.snd).sum + (l.map Prod.snd).sum
  | [], _ => by simp
  | p :: l, d => by
    rw [List.foldl_cons, foldl_safeAdd_total l, safeAdd_total, List.map_cons, List.sum_cons]
    omega

end

end PyDice
