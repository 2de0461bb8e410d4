import Verif.Lemmas.Frame
import Verif.Lemmas.Reach
/-!
# What holds of every reachable state because every update keeps it

In particular the keys of the state's dicts are distinct.
-/

namespace PyDice
open PyRuntime

section
variable [R : PyRuntime]

/-- Every way in which the code updates the state is related by `P`. -/
structure Updates (P : State → State → Prop) : Prop where
  pre : Pre P
  setVar : ∀ x d, Rel P (EvalM.setVar x d)
  setConstant : ∀ x v, Rel P (EvalM.setConstant x v)
  putVar : ∀ (s : State) x d, P s { s with var := dictSet s.var x d }
  putConstant : ∀ (s : State) x v, P s { s with constants := dictSet s.constants x v }

variable {P : State → State → Prop} (h : Updates P) (parse : Str → Res Expr)
include h

theorem Updates.dist (e : Expr) : Rel P e.dist := rel_dist h.pre e (fun x _ d => h.setVar x d)
theorem Updates.extreme (isMax : Bool) (e : Expr) : Rel P (e.extreme isMax) :=
  rel_extreme h.pre isMax e (fun x _ d => h.setVar x d) (fun x _ v => h.setConstant x v)
theorem Updates.cost (e : Expr) : Rel P e.cost := rel_cost h.pre e (fun x _ v => h.setConstant x v)
theorem Updates.roll (e : Expr) : RRel P e.roll := rrel_roll h.pre e (fun x _ v => h.setConstant x v)

theorem Updates.distLines : ∀ lines : List Str, Rel P (distLines parse lines)
  | [] => rel_pure h.pre _
  | _ :: ls => rel_bind h.pre (rel_bind h.pre (rel_ofRes h.pre _) (fun e => rel_bind h.pre (h.dist e) (fun d s => h.putVar s _ d)))
      (fun _ => Updates.distLines ls)

theorem Updates.dists (lines : List Str) : Rel P (interpDists parse lines) :=
  rel_bind h.pre (h.distLines parse lines) (fun _ s => h.pre.refl s)

theorem Updates.extremeLines (isMax : Bool) : ∀ lines : List Str, Rel P (extremeLines parse isMax lines)
  | [] => rel_pure h.pre _
  | _ :: ls => rel_bind h.pre (rel_bind h.pre (rel_ofRes h.pre _) (fun e => rel_bind h.pre (h.extreme isMax e) (fun v s => h.putConstant s _ v)))
      (fun _ => Updates.extremeLines isMax ls)

theorem Updates.lastDist : ∀ (lines : List Str) (d : Dist), Rel P (lastDist parse lines d)
  | [], _ => rel_pure h.pre _
  | _ :: ls, _ => rel_bind h.pre (rel_ofRes h.pre _) (fun e => rel_bind h.pre (h.dist e) (fun d => Updates.lastDist ls d))

theorem Updates.costLines : ∀ (lines : List Str) (c : Int), Rel P (costLines parse lines c)
  | [], _ => rel_pure h.pre _
  | _ :: ls, _ => rel_bind h.pre (rel_ofRes h.pre _) (fun e => rel_bind h.pre (h.cost e) (fun _ => Updates.costLines ls _))

theorem Updates.rollLines : ∀ lines : List Str, RRel P (rollLines parse lines)
  | [] => rrel_pure h.pre _
  | _ :: ls => rrel_bind h.pre (rrel_bind h.pre (rrel_eval (rel_ofRes h.pre _)) (fun e => rrel_bind h.pre (h.roll e) (fun v s x hx => by
      obtain rfl := Rand.possible_pure.mp hx
      exact h.putConstant s _ v))) (fun _ => Updates.rollLines ls)

theorem Updates.interpRoll (lines : List Str) : RRel P (interpRoll parse lines) :=
  rrel_bind h.pre (h.rollLines parse lines) (fun _ s x hx => by
    obtain rfl := Rand.possible_pure.mp hx
    exact h.pre.refl s)

theorem Updates.reachable {s : State} (hs : Reachable parse s) : P State.new s := by
  induction hs with
  | new => exact h.pre.refl _
  | roll lines _ hx ih => exact h.pre.trans ih (h.interpRoll parse lines _ _ hx)
  | extreme isMax lines _ ih =>
    exact h.pre.trans ih (rel_bind h.pre (h.extremeLines parse isMax lines) (fun _ s => h.pre.refl s) _)
  | dists lines _ ih => exact h.pre.trans ih (h.dists parse lines _)
  | dictForms lines _ ih => exact h.pre.trans ih (rel_bind h.pre (h.dists parse lines) (fun _ => rel_ofRes h.pre _) _)
  | averages lines _ ih => exact h.pre.trans ih (rel_bind h.pre (h.dists parse lines) (fun _ => rel_ofRes h.pre _) _)
  | histogram lines _ ih => exact h.pre.trans ih (h.lastDist parse lines _ _)
  | cost lines _ ih => exact h.pre.trans ih (h.costLines parse lines _ _)
  | exprRoll e _ hx ih => exact h.pre.trans ih (h.roll e _ _ hx)
  | exprExtreme isMax e _ ih => exact h.pre.trans ih (h.extreme isMax e _)
  | exprDist e _ ih => exact h.pre.trans ih (h.dist e _)
  | exprCost e _ ih => exact h.pre.trans ih (h.cost e _)

omit h

/-- The keys of the state's dicts are distinct. -/
def CleanKeys (s : State) : Prop := (s.var.map Prod.fst).Nodup ∧ (s.constants.map Prod.fst).Nodup

omit R in
theorem dictSet_keys {ν : Type} (d : List (Str × ν)) (k : Str) (x : ν) :
    (dictSet d k x).map Prod.fst = if k ∈ d.map Prod.fst then d.map Prod.fst else d.map Prod.fst ++ [k] := by
  induction d with
  | nil => simp [dictSet]
  | cons p d ih =>
    obtain ⟨k', y⟩ := p
    simp only [dictSet, beq_iff_eq]
    by_cases hk : k' = k
    · simp [hk]
    · simp only [if_neg hk, List.map_cons, ih, List.mem_cons]
      by_cases hm : k ∈ d.map Prod.fst
      · simp [hm]
      · have : ¬ (k = k' ∨ k ∈ d.map Prod.fst) := by
          rintro (e | e)
          · exact hk e.symm
          · exact hm e
        rw [if_neg hm, if_neg this]; rfl

omit R in
theorem nodup_dictSet {ν : Type} {d : List (Str × ν)} (hd : (d.map Prod.fst).Nodup) (k : Str) (x : ν) :
    ((dictSet d k x).map Prod.fst).Nodup := by
  rw [dictSet_keys]
  split
  · exact hd
  · next hk => rw [List.nodup_append]; exact ⟨hd, by simp, by rintro a ha b hb rfl; simp at hb; subst hb; exact hk ha⟩

omit R in
theorem get_of_mem {ν : Type} {d : List (Str × ν)} (hd : (d.map Prod.fst).Nodup) {p : Str × ν} (hp : p ∈ d) :
    dictGet? d p.1 = some p.2 := by
  induction d with
  | nil => cases hp
  | cons q d ih =>
    rw [List.map_cons, List.nodup_cons] at hd
    simp only [dictGet?, beq_iff_eq]
    rcases List.mem_cons.mp hp with rfl | hp
    · simp
    · have : ¬ q.1 = p.1 := fun e => hd.1 (e ▸ List.mem_map.mpr ⟨p, hp, rfl⟩)
      rw [if_neg this]; exact ih hd.2 hp

theorem updates_clean : Updates (fun s t => CleanKeys s → CleanKeys t) where
  pre := ⟨fun _ h => h, fun h1 h2 h => h2 (h1 h)⟩
  setVar := by
    intro x d s h
    show CleanKeys (s.setVar x d).2
    rw [setVar_eq]
    exact ⟨nodup_dictSet h.1 _ _, h.2⟩
  setConstant := fun x v s h => ⟨h.1, nodup_dictSet h.2 _ _⟩
  putVar := fun s x d h => ⟨nodup_dictSet h.1 _ _, h.2⟩
  putConstant := fun s x v h => ⟨h.1, nodup_dictSet h.2 _ _⟩

theorem clean_reachable {s : State} (hs : Reachable parse s) : CleanKeys s :=
  updates_clean.reachable parse hs ⟨List.nodup_nil, List.nodup_nil⟩

/-- Every distribution the distribution methods hand out was made by the constructor. -/
theorem interpDists_constructed (lines : List Str) {s s' : State} {m : List (Str × Dist)} (hs : Reachable parse s)
    (hd : interpDists parse lines s = (.ok m, s')) : ∀ p ∈ m, p.2.Constructed := by
  intro p hp
  have hr : Reachable parse s' := by have := Reachable.dists lines hs; rwa [hd] at this
  obtain ⟨_, s1, _, h2⟩ := evalBind_eq_ok.mp hd
  obtain ⟨h3, rfl⟩ := Prod.mk.inj h2
  cases h3
  split at hp
  · cases hp
  · obtain ⟨A, ht, _⟩ := tidy_reachable parse hr p.1 p.2 (get_of_mem (clean_reachable parse hr).1 hp)
    exact ht.constructed

end

end PyDice
