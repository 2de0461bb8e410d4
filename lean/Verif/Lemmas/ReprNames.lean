import Verif.Lemmas.Repr
import Verif.Lemmas.Dicts
import Verif.Lemmas.Print
import Verif.Props.C38
import Mathlib.Data.Fintype.EquivFin
/-!
# Names in constraints of typed sessions contain no comma
-/

namespace PyDice
open PyRuntime

section
variable [R : PyRuntime]

/-! ### Merging makes up no names -/

theorem merge_noComma {c d m : Constraint} (hc : c.NoComma) (hd : d.NoComma) (h : c.merge d = .ok m) : m.NoComma := by
  cases c with
  | null => cases h; exact hd
  | impossible => cases h; trivial
  | varValue n vs =>
    cases d with
    | null => simp [Constraint.merge] at h
    | impossible => simp [Constraint.merge] at h
    | varValue k ws =>
      simp only [Constraint.merge] at h
      split at h
      · cases h
      · split at h
        · cases h; trivial
        · cases h; exact hc

theorem mergeLoop_noComma : ∀ (fuel : Nat) (stack : List Constraint) (clean r : CSet), (∀ c ∈ stack, c.NoComma) →
    (∀ c ∈ iter clean, c.NoComma) → mergeLoop fuel stack clean = .ok r → ∀ c ∈ iter r, c.NoComma := by
  intro fuel
  induction fuel with
  | zero =>
    intro stack clean r h1 h2 h
    cases stack with
    | nil => cases h; exact h2
    | cons _ _ => cases h
  | succ fuel ih =>
    intro stack clean r h1 h2 h
    cases stack with
    | nil => cases h; exact h2
    | cons cur rest =>
      have hrest : ∀ c ∈ rest, c.NoComma := fun c hc => h1 c (by simp [hc])
      rcases mergeOne_spec cur clean with ⟨he, _⟩ | ⟨c, hc, m, he, hm, _⟩
      · simp only [mergeLoop, he] at h
        refine ih _ _ _ (by simpa using hrest) ?_ h
        intro x hx
        rcases (mem_insert _ _ _).mp hx with hx | rfl
        · exact h2 x hx
        · exact h1 _ (by simp)
      · simp only [mergeLoop, he] at h
        refine ih _ _ _ ?_ ?_ h
        · intro x hx
          simp only [List.reverse_singleton, List.singleton_append, List.mem_cons] at hx
          rcases hx with rfl | hx
          · rcases hm with hm | hm
            · exact merge_noComma (h2 c hc) (h1 cur (by simp)) hm
            · exact merge_noComma (h1 cur (by simp)) (h2 c hc) hm
          · exact hrest x hx
        · intro x hx
          exact h2 x ((mem_copy _ _).mp ((mem_erase _ _ _).mp hx).1)

theorem addConstraint_noComma {s r : CSet} {c : Constraint} (hs : ∀ c ∈ iter s, c.NoComma) (hc : c.NoComma)
    (h : addConstraint s c = .ok r) : ∀ c ∈ iter r, c.NoComma := by
  refine mergeLoop_noComma _ _ _ _ ?_ ?_ h
  · intro x hx
    simp only [List.reverse_singleton, List.mem_singleton] at hx
    exact hx ▸ hc
  · intro x hx
    exact hs x ((mem_copy _ _).mp hx)

theorem addAll_noComma : ∀ (cs : List Constraint) (s r : CSet), (∀ c ∈ iter s, c.NoComma) → (∀ c ∈ cs, c.NoComma) →
    addAll s cs = .ok r → ∀ c ∈ iter r, c.NoComma
  | [], s, r, hs, _, h => by cases h; exact hs
  | c :: cs, s, r, hs, hcs, h => by
    unfold addAll at h
    cases ha : addConstraint s c with
    | error e => rw [ha] at h; cases h
    | ok t =>
      rw [ha] at h
      exact addAll_noComma cs t r (addConstraint_noComma hs (hcs c (by simp)) ha) (fun x hx => hcs x (by simp [hx])) h

theorem combineSets_noComma {s t r : CSet} (hs : ∀ c ∈ iter s, c.NoComma) (ht : ∀ c ∈ iter t, c.NoComma)
    (h : combineSets s t = .ok r) : ∀ c ∈ iter r, c.NoComma := by
  unfold combineSets mkConstraintSet at h
  split at h
  · cases h
  · refine addAll_noComma _ _ _ (by rw [iter_empty]; simp) ?_ h
    intro c hc
    rcases (mem_union _ _ _).mp hc with hc | hc
    · exact hs c hc
    · exact ht c ((mem_copy _ _).mp hc)

theorem combine_noComma (op : BinOp) {o o' r : Outcome} (ho : o.NoComma) (ho' : o'.NoComma) (h : Outcome.combine op o o' = .ok r) :
    r.NoComma := by
  unfold Outcome.combine at h
  cases hv : op.apply o.value o'.value with
  | error e => rw [hv] at h; cases h
  | ok v =>
    cases hc : combineSets o.cs o'.cs with
    | error e => rw [hv, hc] at h; cases h
    | ok cs =>
      rw [hv, hc] at h
      cases h
      exact combineSets_noComma ho ho' hc

theorem tagOutcome_noComma {x : Str} (hx : ',' ∉ x) {o r : Outcome} (ho : o.NoComma) (h : tagOutcome x o = .ok r) : r.NoComma := by
  obtain ⟨cs, h1, h2, _⟩ := tagOutcome_ok x o
  rw [h1] at h
  cases h
  refine addConstraint_noComma (c := .varValue x [o.value]) ?_ hx h2
  intro c hc
  obtain ⟨d, hd, rfl⟩ := (mem_deepcopy _ _).mp hc
  have := ho d hd
  cases d <;> exact this

/-! ### Fixed names -/

theorem tidy_noComma {A : Str → Prop} {d : Dist} (h : Tidy A d) (hA : ∀ m, A m → ',' ∉ m) : ∀ p ∈ d.resultMap, p.1.NoComma := by
  intro p hp c hc
  cases c with
  | null => trivial
  | impossible => trivial
  | varValue n vs =>
    by_cases hn : A n
    · exact hA n hn
    · exfalso
      obtain ⟨ρ, hρ⟩ := h.pins p hp
      -- a value larger than all in the set is allowed as well
      obtain ⟨v, hv⟩ : ∃ v : Int, v ∉ vs := Infinite.exists_notMem_finset vs.toFinset |>.imp fun v hv => by simpa using hv
      have hs := (hρ (fun m => if m = n then v else ρ m)).mpr (fun m hm => by
        have : m ≠ n := fun e => hn (e ▸ hm)
        simp [this])
      have := hs _ hc
      simp only [Constraint.Sat, if_true] at this
      exact hv this

/-- No name that was set contains a comma. -/
def NoCommaState (s : State) : Prop := ∀ n, s.times n ≠ 0 → ',' ∉ n

omit R in
theorem versionName_noComma {n : Str} (h : ',' ∉ n) (k : Nat) : ',' ∉ versionName n k := by
  unfold versionName
  rw [List.mem_append, List.mem_cons]
  rintro (h' | h' | h')
  · exact h h'
  · revert h'; decide
  · have := natStr_digits k _ h'
    revert this; decide

theorem used_noComma {s : State} (hs : NoCommaState s) {m : Str} (h : s.Used m) : ',' ∉ m := by
  obtain ⟨n, k, rfl, h1, h2⟩ := h
  exact versionName_noComma (hs n (by omega)) k

theorem tidyIn_noComma {s : State} (hs : NoCommaState s) {d : Dist} (h : TidyIn s d) : ∀ p ∈ d.resultMap, p.1.NoComma := by
  obtain ⟨A, h1, h2⟩ := h
  exact tidy_noComma h1 fun m hm => used_noComma hs (h2 m hm)

/-- The invariant as a relation between states. -/
def KeepsNames (s t : State) : Prop := NoCommaState s → NoCommaState t

theorem pre_names : Pre KeepsNames := ⟨fun _ h => h, fun h1 h2 h => h2 (h1 h)⟩

theorem names_setVar {x : Str} (hx : ',' ∉ x) (d : Dist) : Rel KeepsNames (EvalM.setVar x d) := by
  intro s hs n hn
  have : (s.setVar x d).2.times n ≠ 0 := hn
  rw [times_setVar] at this
  by_cases e : x = n
  · exact e ▸ hx
  · rw [if_neg e] at this
    exact hs n this

theorem names_setConstant {x : Str} (hx : ',' ∉ x) (v : Int) : Rel KeepsNames (EvalM.setConstant x v) := by
  intro s hs n hn
  have : (s.setConstant x v).times n ≠ 0 := hn
  rw [times_setConstant] at this
  by_cases e : x = n
  · exact e ▸ hx
  · rw [if_neg e] at this
    exact hs n this

theorem names_putVar (s : State) (x : Str) (d : Dist) : KeepsNames s { s with var := dictSet s.var x d } := fun h => h
theorem names_putConstant (s : State) (x : Str) (v : Int) : KeepsNames s { s with constants := dictSet s.constants x v } := fun h => h

/-! ### Texts -/

omit R in
theorem spelt_assigned : ∀ e : Expr, Spelt e → ∀ x ∈ e.assigned, ',' ∉ x := by
  intro e
  have two : ∀ a b : Expr, (Spelt a → ∀ x ∈ a.assigned, ',' ∉ x) → (Spelt b → ∀ x ∈ b.assigned, ',' ∉ x) → Spelt a ∧ Spelt b →
      ∀ x ∈ a.assigned ++ b.assigned, ',' ∉ x := by
    intro a b ha hb h x hx
    rcases List.mem_append.mp hx with hx | hx
    · exact ha h.1 x hx
    · exact hb h.2 x hx
  induction e with
  | paren e ih => exact ih
  | not e ih => exact ih
  | abs e ih => exact ih
  | dropKeep d => intro _ x hx; cases hx
  | dice d => intro _ x hx; cases hx
  | constInt t => intro _ x hx; cases hx
  | constBin t => intro _ x hx; cases hx
  | getVar n => intro _ x hx; cases hx
  | add a b ha hb => exact two a b ha hb
  | sub a b ha hb => exact two a b ha hb
  | mul a b ha hb => exact two a b ha hb
  | div a b ha hb => exact two a b ha hb
  | bin _ a b ha hb => exact two a b ha hb
  | minmax _ a b ha hb => exact two a b ha hb
  | assign n e ih =>
    intro h x hx
    simp only [Expr.assigned, List.mem_cons] at hx
    have hn : ',' ∉ n := by
      intro hc
      have := h.1.2 _ hc
      unfold LexSpec.NameLetter at this
      revert this; decide
    rcases hx with hx | hx <;> first | exact hx ▸ hn | exact ih h.2 x hx

omit R in
theorem parsed_assigned {text : Str} {e : Expr} (h : parse text = .ok e) : ∀ x ∈ e.assigned, ',' ∉ x := by
  obtain ⟨ts, hl, hd, _⟩ := (C38_text text e).mp h
  exact spelt_assigned e (derives_spelt hd (lexed_wellSpelt hl))

/-- An expression whose assigned names have no comma keeps the invariant. -/
theorem names_dist {e : Expr} (he : ∀ x ∈ e.assigned, ',' ∉ x) : Rel KeepsNames e.dist :=
  rel_dist pre_names e fun x hx d => names_setVar (he x hx) d
theorem names_extreme (isMax : Bool) {e : Expr} (he : ∀ x ∈ e.assigned, ',' ∉ x) : Rel KeepsNames (e.extreme isMax) :=
  rel_extreme pre_names isMax e (fun x hx d => names_setVar (he x hx) d) (fun x hx v => names_setConstant (he x hx) v)
theorem names_cost {e : Expr} (he : ∀ x ∈ e.assigned, ',' ∉ x) : Rel KeepsNames e.cost :=
  rel_cost pre_names e fun x hx v => names_setConstant (he x hx) v
theorem names_roll {e : Expr} (he : ∀ x ∈ e.assigned, ',' ∉ x) : RRel KeepsNames e.roll :=
  rrel_roll pre_names e fun x hx v => names_setConstant (he x hx) v

/-- The parsed expression is the one parsed. -/
theorem rel_parse {α : Type} {P : State → State → Prop} (hP : Pre P) (r : Res Expr) {f : Expr → EvalM α}
    (hf : ∀ e, r = .ok e → Rel P (f e)) : Rel P (EvalM.ofRes r >>= f) := by
  intro s
  cases r with
  | error er => exact hP.refl s
  | ok e => exact hf e rfl s

theorem rrel_parse {α : Type} {P : State → State → Prop} (hP : Pre P) (r : Res Expr) {f : Expr → RollM α}
    (hf : ∀ e, r = .ok e → RRel P (f e)) : RRel P (RollM.ofEval (EvalM.ofRes r) >>= f) := by
  cases r with
  | error er =>
    intro s x hx
    obtain rfl : x = (.error er, s) := Rand.possible_pure.mp hx
    exact hP.refl s
  | ok e => exact fun s => hf e rfl s

theorem names_distLines : ∀ lines : List Str, Rel KeepsNames (distLines parse lines)
  | [] => rel_pure pre_names _
  | _ :: ls => rel_bind pre_names (rel_parse pre_names _ (fun _ he => rel_bind pre_names (names_dist (parsed_assigned he))
      (fun d s => names_putVar s _ d))) (fun _ => names_distLines ls)

theorem names_interpDists (lines : List Str) : Rel KeepsNames (interpDists parse lines) :=
  rel_bind pre_names (names_distLines lines) (fun _ s => pre_names.refl s)

theorem names_extremeLines (isMax : Bool) : ∀ lines : List Str, Rel KeepsNames (extremeLines parse isMax lines)
  | [] => rel_pure pre_names _
  | _ :: ls => rel_bind pre_names (rel_parse pre_names _ (fun _ he => rel_bind pre_names (names_extreme isMax (parsed_assigned he))
      (fun v s => names_putConstant s _ v))) (fun _ => names_extremeLines isMax ls)

theorem names_lastDist : ∀ (lines : List Str) (d : Dist), Rel KeepsNames (lastDist parse lines d)
  | [], _ => rel_pure pre_names _
  | _ :: ls, _ => rel_parse pre_names _ (fun _ he => rel_bind pre_names (names_dist (parsed_assigned he)) (fun d => names_lastDist ls d))

theorem names_costLines : ∀ (lines : List Str) (c : Int), Rel KeepsNames (costLines parse lines c)
  | [], _ => rel_pure pre_names _
  | _ :: ls, _ => rel_parse pre_names _ (fun _ he => rel_bind pre_names (names_cost (parsed_assigned he)) (fun _ => names_costLines ls _))

theorem names_rollLines : ∀ lines : List Str, RRel KeepsNames (rollLines parse lines)
  | [] => rrel_pure pre_names _
  | _ :: ls => rrel_bind pre_names (rrel_parse pre_names _ (fun _ he => rrel_bind pre_names (names_roll (parsed_assigned he))
      (fun v s x hx => by
        obtain rfl := Rand.possible_pure.mp hx
        exact names_putConstant s _ v))) (fun _ => names_rollLines ls)

theorem names_runCall (c : Call) {s : State} {x : Answer × State} (hx : Rand.Possible x (runCall parse c s)) : KeepsNames s x.2 := by
  cases c with
  | roll l =>
    rw [runCall, Rand.possible_bind] at hx
    obtain ⟨y, hy, hx⟩ := hx
    obtain rfl := Rand.possible_pure.mp hx
    exact rrel_bind pre_names (names_rollLines l) (fun _ s x hx => by
      obtain rfl := Rand.possible_pure.mp hx
      exact pre_names.refl s) s y hy
  | extreme k l =>
    obtain rfl := Rand.possible_pure.mp hx
    exact rel_bind pre_names (names_extremeLines k l) (fun _ s => pre_names.refl s) s
  | dists l => obtain rfl := Rand.possible_pure.mp hx; exact names_interpDists l s
  | dictForms l =>
    obtain rfl := Rand.possible_pure.mp hx
    exact rel_bind pre_names (names_interpDists l) (fun _ => rel_ofRes pre_names _) s
  | averages l =>
    obtain rfl := Rand.possible_pure.mp hx
    exact rel_bind pre_names (names_interpDists l) (fun _ => rel_ofRes pre_names _) s
  | histogram l => obtain rfl := Rand.possible_pure.mp hx; exact names_lastDist l _ s
  | cost l => obtain rfl := Rand.possible_pure.mp hx; exact names_costLines l _ s

theorem tidy_runCall (pr : Str → Res Expr) (c : Call) {s : State} (hs : TidyState s) {x : Answer × State}
    (hx : Rand.Possible x (runCall pr c s)) : TidyState x.2 := by
  cases c with
  | roll l =>
    rw [runCall, Rand.possible_bind] at hx
    obtain ⟨y, hy, hx⟩ := hx
    obtain rfl := Rand.possible_pure.mp hx
    exact (rkeeps_interpRoll pr l _ _ hy).tidy hs
  | extreme k l => obtain rfl := Rand.possible_pure.mp hx; exact (keeps_interpExtreme pr k l s hs).1
  | dists l => obtain rfl := Rand.possible_pure.mp hx; exact (keeps_interpDists pr l s hs).1
  | dictForms l =>
    obtain rfl := Rand.possible_pure.mp hx
    exact (keeps_bind_any (keeps_interpDists pr l) (fun _ => keeps_res _) _ hs).1
  | averages l =>
    obtain rfl := Rand.possible_pure.mp hx
    exact (keeps_bind_any (keeps_interpDists pr l) (fun _ => keeps_res _) _ hs).1
  | histogram l => obtain rfl := Rand.possible_pure.mp hx; exact (keeps_lastDist pr l _ _ hs).1
  | cost l => obtain rfl := Rand.possible_pure.mp hx; exact (keeps_costLines pr l _ _ hs).1

theorem typed_tidy {pr : Str → Res Expr} {s : State} (h : Typed pr s) : TidyState s := by
  induction h with
  | new => exact tidyState_new
  | call c _ hx ih => exact tidy_runCall pr c ih hx

theorem typed_names {s : State} (h : Typed parse s) : NoCommaState s := by
  induction h with
  | new => intro n hn; exact absurd rfl hn
  | call c _ hx ih => exact names_runCall c hx ih

theorem typed_noComma {s : State} (h : Typed parse s) {e : Expr} (he : ∀ x ∈ e.assigned, ',' ∉ x) {d : Dist} {s' : State}
    (hd : e.dist s = (.ok d, s')) : ∀ p ∈ d.resultMap, p.1.NoComma := by
  have hk := keeps_dist e s (typed_tidy h)
  have hn := names_dist he s (typed_names h)
  rw [hd] at hk hn
  exact tidyIn_noComma hn (hk.2.2 d rfl)

/-- The session is typed. -/
theorem typed_dists (lines : List Str) : Typed parse (interpDists parse lines State.new).2 :=
  Typed.call (.dists lines) (x := (.dists ((interpDists parse lines State.new).1.map (List.map fun p => (p.1, p.2.seen))),
    (interpDists parse lines State.new).2)) .new (Rand.possible_pure.mpr rfl)

end

end PyDice
