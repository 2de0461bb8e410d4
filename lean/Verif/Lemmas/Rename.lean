import Verif.Lemmas.AbsInterp
import Mathlib.Data.Set.Function
/-!
# Renaming variables commutes with everything
-/

namespace PyDice
open PyRuntime

/-- The name under which a version of a variable is known after the renaming. -/
noncomputable def renTag (σ : Str → Str) (t : Str) : Str :=
  open Classical in if h : ∃ p : Str × Nat, t = versionName p.1 p.2 then versionName (σ h.choose.1) h.choose.2 else t

theorem renTag_version (σ : Str → Str) (x : Str) (k : Nat) : renTag σ (versionName x k) = versionName (σ x) k := by
  have h : ∃ p : Str × Nat, versionName x k = versionName p.1 p.2 := ⟨(x, k), rfl⟩
  unfold renTag
  rw [dif_pos h]
  obtain ⟨h1, h2⟩ := versionName_injective h.choose_spec
  rw [← h1, ← h2]

theorem renTag_other (σ : Str → Str) {t : Str} (h : ¬ ∃ p : Str × Nat, t = versionName p.1 p.2) : renTag σ t = t := by
  unfold renTag
  rw [dif_neg h]

theorem renTag_injective {σ : Str → Str} (hσ : Function.Injective σ) : Function.Injective (renTag σ) := by
  intro t u h
  by_cases ht : ∃ p : Str × Nat, t = versionName p.1 p.2
  · obtain ⟨p, rfl⟩ := ht
    rw [renTag_version] at h
    by_cases hu : ∃ p : Str × Nat, u = versionName p.1 p.2
    · obtain ⟨q, rfl⟩ := hu
      rw [renTag_version] at h
      obtain ⟨h1, h2⟩ := versionName_injective h
      rw [hσ h1, h2]
    · rw [renTag_other σ hu] at h
      exact absurd ⟨(σ p.1, p.2), h.symm⟩ hu
  · rw [renTag_other σ ht] at h
    by_cases hu : ∃ p : Str × Nat, u = versionName p.1 p.2
    · obtain ⟨q, rfl⟩ := hu
      rw [renTag_version] at h
      exact absurd ⟨(σ q.1, q.2), h⟩ ht
    · rwa [renTag_other σ hu] at h

/-- The assignments of the renamed variables. -/
def pull (σ : Str → Str) (S : Set (Str → Int)) : Set (Str → Int) := (fun ω : Str → Int => ω ∘ renTag σ) ⁻¹' S

section
variable {σ : Str → Str} (hσ : Function.Injective σ)

include hσ in
theorem pull_injective : Function.Injective (pull σ) :=
  Set.preimage_injective.mpr (renTag_injective hσ).surjective_comp_right

theorem pull_inter (S T : Set (Str → Int)) : pull σ (S ∩ T) = pull σ S ∩ pull σ T := rfl
theorem pull_univ : pull σ Set.univ = Set.univ := rfl
theorem pull_empty : pull σ ∅ = ∅ := rfl
theorem pull_tag (t : Str) (v : Int) : pull σ {ω | ω t = v} = {ω | ω (renTag σ t) = v} := rfl

include hσ in
theorem pull_eq_empty (S : Set (Str → Int)) : pull σ S = ∅ ↔ S = ∅ := by
  constructor
  · intro h; exact pull_injective hσ h
  · rintro rfl; rfl

variable (σ)

/-- An outcome after renaming. -/
def renO (o : AOut) : AOut := (o.1, pull σ o.2)
/-- An item after renaming. -/
def renP (p : AOut × Nat) : AOut × Nat := (renO σ p.1, p.2)
/-- A distribution after renaming. -/
def renD (d : ADist) : ADist := ⟨d.items.map (renP σ), d.total⟩

variable {σ}

include hσ in
theorem renO_injective : Function.Injective (renO σ) := by
  intro o o' h
  obtain ⟨h1, h2⟩ := Prod.mk.inj h
  exact Prod.ext h1 (pull_injective hσ h2)

include hσ in
theorem ren_aAdd (k : AOut) (n : Nat) : ∀ m : AMap, (aAdd m k n).map (renP σ) = aAdd (m.map (renP σ)) (renO σ k) n := by
  intro m
  induction m with
  | nil => rfl
  | cons p m ih =>
    unfold aAdd at ih ⊢
    unfold safeAdd
    rw [List.map_cons]
    by_cases h : p.1 = k
    · subst h
      simp [renP]
    · have h' : ¬ renO σ p.1 = renO σ k := fun e => h (renO_injective hσ e)
      simp only [beq_iff_eq, h, if_false, List.map_cons, ih, renP, h']

include hσ in
theorem ren_foldl {α : Type} (f : α → AOut) (c : α → Nat) : ∀ (l : List α) (acc : AMap),
    (l.foldl (fun a x => aAdd a (f x) (c x)) acc).map (renP σ) =
    l.foldl (fun a x => aAdd a (renO σ (f x)) (c x)) (acc.map (renP σ)) := by
  intro l
  induction l with
  | nil => intro acc; rfl
  | cons x l ih =>
    intro acc
    rw [List.foldl_cons, List.foldl_cons, ih, ren_aAdd hσ]

theorem ren_total (m : AMap) : aTotal (m.map (renP σ)) = aTotal m := by
  unfold aTotal
  rw [List.foldl_map]
  rfl

include hσ in
theorem ren_aMake (m : AMap) : renD σ (aMake m) = aMake (m.map (renP σ)) := by
  have h : (aSum m).map (renP σ) = aSum (m.map (renP σ)) := by
    unfold aSum
    rw [ren_foldl hσ, List.foldl_map]
    rfl
  unfold renD aMake
  rw [← h, ren_total]

include hσ in
theorem ren_aInt (m : List (Int × Nat)) : renD σ (aInt m) = aInt m := by
  unfold aInt
  rw [ren_aMake hσ, List.map_map]
  rfl

include hσ in
theorem ren_aMap (g : Int → Int) (d : ADist) : renD σ (aMap g d) = aMap g (renD σ d) := by
  unfold aMap
  rw [ren_aMake hσ, ren_foldl hσ]
  congr 1
  unfold renD
  rw [List.foldl_map]
  rfl

include hσ in
theorem ren_aLoop (op : BinOp) : ∀ (ps : List ((AOut × Nat) × (AOut × Nat))) (acc : AMap),
    (aLoop op ps acc).map (List.map (renP σ)) = aLoop op (ps.map fun x => (renP σ x.1, renP σ x.2)) (acc.map (renP σ)) := by
  intro ps
  induction ps with
  | nil => intro acc; rfl
  | cons x ps ih =>
    obtain ⟨p, q⟩ := x
    intro acc
    rw [List.map_cons, aLoop, aLoop]
    simp only [renP, renO]
    cases op.apply p.1.1 q.1.1 with
    | error e => rfl
    | ok v =>
      simp only [bind, Except.bind]
      rw [ih]
      by_cases h : p.1.2 ∩ q.1.2 = ∅
      · have h' : pull σ p.1.2 ∩ pull σ q.1.2 = ∅ := (pull_eq_empty hσ _).mpr h
        simp only [h, h', if_true]
        rfl
      · have h' : ¬ pull σ p.1.2 ∩ pull σ q.1.2 = ∅ := fun e => h ((pull_eq_empty hσ _).mp e)
        simp only [h, h', if_false, ren_aAdd hσ]
        rfl

include hσ in
theorem ren_aBinop (op : BinOp) (a b : ADist) : (aBinop op a b).map (renD σ) = aBinop op (renD σ a) (renD σ b) := by
  unfold aBinop
  have h := ren_aLoop hσ op (pairsOf a.items b.items) []
  rw [pairsOf_map2 (renP σ) (renP σ)] at h
  show _ = (aLoop op (pairsOf (a.items.map (renP σ)) (b.items.map (renP σ))) [] >>= _)
  have h' : aLoop op (pairsOf (a.items.map (renP σ)) (b.items.map (renP σ))) [] = _ := h.symm
  rw [h']
  cases aLoop op (pairsOf a.items b.items) [] with
  | error e => rfl
  | ok m => exact congrArg Except.ok (ren_aMake hσ m)

theorem ren_aTag (t : Str) (d : ADist) : renD σ (aTag t d) = aTag (renTag σ t) (renD σ d) := by
  have h : (aTagMap t d.items).map (renP σ) = aTagMap (renTag σ t) (d.items.map (renP σ)) := by
    unfold aTagMap
    rw [List.map_map, List.map_map]
    rfl
  unfold renD aTag
  simp only
  rw [← h, ren_total]

theorem ren_aResult (d : ADist) : aResult (renD σ d) = aResult d := by
  unfold aResult renD
  rw [List.foldl_map]
  rfl

theorem ren_aSeen (d : ADist) : aSeen (renD σ d) = aSeen d := by
  unfold aSeen
  rw [ren_aResult]
  rfl

include hσ in
theorem ren_aAddDice (single : ADist) : ∀ (n : Nat) (d : ADist), (aAddDice single n d).map (renD σ) = aAddDice (renD σ single) n (renD σ d) := by
  intro n
  induction n with
  | zero => intro d; rfl
  | succ n ih =>
    intro d
    unfold aAddDice
    rw [← ren_aBinop hσ]
    cases aBinop .add d single with
    | error e => rfl
    | ok d' => exact ih d'

include hσ in
theorem ren_aDice (t : DiceTerm) : (aDice t).map (renD σ) = aDice t := by
  unfold aDice
  rw [ren_aAddDice hσ, ren_aInt hσ, ren_aInt hσ]

include hσ in
theorem ren_aDropKeep (t : DropKeepTerm) : (aDropKeep t).map (renD σ) = aDropKeep t := by
  unfold aDropKeep
  cases t.simplified with
  | dice d => exact ren_aDice hσ d
  | zero => exact congrArg Except.ok (ren_aInt hσ _)
  | none => cases dropKeepMap t with
    | error e => rfl
    | ok m => exact congrArg Except.ok (ren_aInt hσ _)

/-! ### Dicts -/

include hσ in
theorem get_renameKeys {α : Type} (x : Str) : ∀ d : List (Str × α), dictGet? (renameKeys σ d) (σ x) = dictGet? d x := by
  intro d
  induction d with
  | nil => rfl
  | cons p d ih =>
    unfold renameKeys at ih ⊢
    simp only [List.map_cons, dictGet?, beq_iff_eq, hσ.eq_iff, ih]

include hσ in
theorem set_renameKeys {α : Type} (x : Str) (v : α) : ∀ d : List (Str × α), dictSet (renameKeys σ d) (σ x) v = renameKeys σ (dictSet d x v) := by
  intro d
  induction d with
  | nil => rfl
  | cons p d ih =>
    unfold renameKeys at ih ⊢
    simp only [List.map_cons, dictSet, beq_iff_eq, hσ.eq_iff, ih]
    split <;> simp

include hσ in
theorem bump_renameKeys (x : Str) : ∀ d : List (Str × Nat), bump (renameKeys σ d) (σ x) = renameKeys σ (bump d x) := by
  intro d
  unfold bump
  induction d with
  | nil => rfl
  | cons p d ih =>
    unfold renameKeys at ih ⊢
    simp only [List.map_cons, safeAdd, beq_iff_eq, hσ.eq_iff, ih]
    split <;> simp

theorem map_renameKeys {α β : Type} (f : α → β) (d : List (Str × α)) :
    (renameKeys σ d).map (fun p => (p.1, f p.2)) = renameKeys σ (d.map fun p => (p.1, f p.2)) := by
  unfold renameKeys
  rw [List.map_map, List.map_map]
  rfl

variable (σ)

/-- The variables of a state after renaming. -/
def renV (d : List (Str × ADist)) : List (Str × ADist) := renameKeys σ (d.map fun p => (p.1, renD σ p.2))

/-- A state after renaming. -/
def renS (s : AState) : AState := ⟨renV σ s.var, renameKeys σ s.constants, renameKeys σ s.timesSet⟩

/-- The second computation is the first after renaming. -/
def RenEqv {α β : Type} (f : α → β) (m : AEvalM α) (m' : AEvalM β) : Prop := ∀ s, m' (renS σ s) = ((m s).1.map f, renS σ (m s).2)

variable {σ}

theorem eqv_bind {α β γ δ : Type} {f : α → β} {g : γ → δ} {m : AEvalM α} {m' : AEvalM β} {k : α → AEvalM γ} {k' : β → AEvalM δ}
    (h : RenEqv σ f m m') (hk : ∀ x, RenEqv σ g (k x) (k' (f x))) : RenEqv σ g (m >>= k) (m' >>= k') := by
  intro s
  rw [abind, abind, h s]
  rcases m s with ⟨r, t⟩
  cases r with
  | error e => rfl
  | ok x => exact hk x t

theorem eqv_ofRes {α β : Type} {f : α → β} {r : Res α} {r' : Res β} (h : r.map f = r') : RenEqv σ f (AEvalM.ofRes r) (AEvalM.ofRes r') := by
  intro s
  rw [← h]
  rfl

theorem eqv_res {α : Type} (r : Res α) : RenEqv σ id (AEvalM.ofRes r) (AEvalM.ofRes r) := eqv_ofRes (except_map_id r)

theorem eqv_pure {α β : Type} {f : α → β} {x : α} {y : β} (h : f x = y) : RenEqv σ f (pure x) (pure y) := by
  intro s
  rw [← h]
  rfl

include hσ

theorem eqv_setConstant (x : Str) (v : Int) : RenEqv σ id (AEvalM.setConstant x v) (AEvalM.setConstant (σ x) v) := by
  intro s
  unfold AEvalM.setConstant renS
  simp only [set_renameKeys hσ, bump_renameKeys hσ]
  rfl

theorem eqv_setVar (x : Str) (d : ADist) : RenEqv σ id (AEvalM.setVar x d) (AEvalM.setVar (σ x) (renD σ d)) := by
  intro s
  unfold AEvalM.setVar renS renV AState.times
  simp only [set_renameKeys hσ, bump_renameKeys hσ, get_renameKeys hσ, dictSet_mapD (renD σ), ren_aTag, renTag_version]
  rfl

theorem eqv_getVar (x : Str) : RenEqv σ (renD σ) (AEvalM.getVar x) (AEvalM.getVar (σ x)) := by
  intro s
  unfold AEvalM.getVar renS renV
  simp only [get_renameKeys hσ, dictGet_mapD (renD σ)]
  cases dictGet? s.var x <;> rfl

theorem eqv_getConstant (x : Str) : RenEqv σ id (AEvalM.getConstant x) (AEvalM.getConstant (σ x)) := by
  intro s
  unfold AEvalM.getConstant renS
  simp only [get_renameKeys hσ]
  cases dictGet? s.constants x <;> rfl

theorem eqv_outInt (hs : σ stdoutName = stdoutName) (v : Int) : RenEqv σ id (AEvalM.outInt v) (AEvalM.outInt v) := by
  intro s
  have := set_renameKeys hσ stdoutName v s.constants
  rw [hs] at this
  unfold AEvalM.outInt renS
  simp only [this]
  rfl

theorem eqv_outDist (hs : σ stdoutName = stdoutName) (d : ADist) : RenEqv σ id (AEvalM.outDist d) (AEvalM.outDist (renD σ d)) := by
  intro s
  have := set_renameKeys hσ stdoutName (renD σ d) (s.var.map fun p => (p.1, renD σ p.2))
  rw [hs, ← dictSet_mapD (renD σ)] at this
  unfold AEvalM.outDist renS renV
  simp only [this]
  rfl

theorem eqv_two (op : BinOp) {a b a' b' : AEvalM ADist} (ha : RenEqv σ (renD σ) a a') (hb : RenEqv σ (renD σ) b b') :
    RenEqv σ (renD σ) (aTwo op a b) (aTwo op a' b') :=
  eqv_bind ha fun x => eqv_bind hb fun y => eqv_ofRes (ren_aBinop hσ op x y)

theorem eqv_dist (e : Expr) : RenEqv σ (renD σ) e.adist (e.rename σ).adist := by
  induction e with
  | paren e ih => exact ih
  | not e ih => exact eqv_bind ih fun d => eqv_pure (ren_aMap hσ _ d)
  | abs e ih => exact eqv_bind ih fun d => eqv_pure (ren_aMap hσ _ d)
  | dropKeep t => exact eqv_ofRes (ren_aDropKeep hσ t)
  | dice t => exact eqv_ofRes (ren_aDice hσ t)
  | constInt t =>
    refine eqv_ofRes ?_
    cases pyInt t with
    | error e => rfl
    | ok v => exact congrArg Except.ok (ren_aInt hσ _)
  | constBin t => exact eqv_ofRes (congrArg Except.ok (ren_aInt hσ _))
  | add a b iha ihb => exact eqv_two hσ .add iha ihb
  | sub a b iha ihb => exact eqv_two hσ .sub iha ihb
  | mul a b iha ihb => exact eqv_two hσ .mul iha ihb
  | div a b iha ihb => exact eqv_two hσ .floordiv iha ihb
  | bin op a b iha ihb => exact eqv_two hσ op.toBinOp iha ihb
  | minmax k a b iha ihb => exact eqv_two hσ (if k then .max else .min) iha ihb
  | assign x e ih => exact eqv_bind ih fun d => eqv_bind (eqv_setVar hσ x d) fun _ => eqv_pure rfl
  | getVar x => exact eqv_getVar hσ x

omit hσ in
theorem eqv_viaDist (isMax : Bool) {a a' : AEvalM ADist} (ha : RenEqv σ (renD σ) a a') :
    RenEqv σ id (aViaDist isMax a) (aViaDist isMax a') := by
  refine eqv_bind ha fun d => eqv_ofRes ?_
  unfold aExtremeOf
  rw [ren_aResult, except_map_id]

theorem eqv_extreme (isMax : Bool) (e : Expr) : RenEqv σ id (e.aextreme isMax) ((e.rename σ).aextreme isMax) := by
  induction e with
  | paren e ih => exact ih
  | not e ih => exact eqv_viaDist isMax (eqv_dist hσ (.not e))
  | abs e ih => exact eqv_viaDist isMax (eqv_dist hσ (.abs e))
  | dropKeep t => exact eqv_res _
  | dice t => exact eqv_res _
  | constInt t => exact eqv_res _
  | constBin t => exact eqv_res _
  | add a b _ _ => exact eqv_viaDist isMax (eqv_dist hσ (.add a b))
  | sub a b _ _ => exact eqv_viaDist isMax (eqv_dist hσ (.sub a b))
  | mul a b _ _ => exact eqv_viaDist isMax (eqv_dist hσ (.mul a b))
  | bin op a b _ _ => exact eqv_viaDist isMax (eqv_dist hσ (.bin op a b))
  | div a b _ _ =>
    refine eqv_bind (eqv_dist hσ b) fun d => ?_
    rw [ren_aResult]
    split
    · exact eqv_res _
    · exact eqv_viaDist isMax (eqv_dist hσ (.div a b))
  | minmax k a b iha ihb => exact eqv_bind iha fun x => eqv_bind ihb fun y => eqv_pure rfl
  | assign x e ih =>
    exact eqv_bind ih fun v => eqv_bind (eqv_setConstant hσ x v) fun _ => eqv_bind (eqv_dist hσ e) fun d =>
      eqv_bind (eqv_setVar hσ x d) fun _ => eqv_pure rfl
  | getVar x => exact eqv_getConstant hσ x

omit hσ in
theorem eqv_plus {a b a' b' : AEvalM Int} (ha : RenEqv σ id a a') (hb : RenEqv σ id b b') : RenEqv σ id (aPlus a b) (aPlus a' b') :=
  eqv_bind ha fun _ => eqv_bind hb fun _ => eqv_pure rfl

theorem eqv_cost (e : Expr) : RenEqv σ id e.acost (e.rename σ).acost := by
  induction e with
  | paren e ih => exact ih
  | not e ih => exact eqv_bind ih fun c => eqv_res _
  | abs e ih => exact ih
  | dropKeep t => exact eqv_pure rfl
  | dice t => exact eqv_pure rfl
  | constInt t => exact eqv_pure rfl
  | constBin t => exact eqv_pure rfl
  | add a b iha ihb => exact eqv_plus iha ihb
  | sub a b iha ihb => exact eqv_plus iha ihb
  | mul a b iha ihb => exact eqv_plus iha ihb
  | div a b iha ihb => exact eqv_plus iha ihb
  | bin op a b iha ihb => exact eqv_plus iha ihb
  | minmax k a b iha ihb => exact eqv_plus iha ihb
  | assign x e ih => exact eqv_bind ih fun c => eqv_bind (eqv_setConstant hσ x c) fun _ => eqv_pure rfl
  | getVar x => exact eqv_getConstant hσ x

variable (σ) in
/-- The second random computation is the first after renaming. -/
def RenREqv {α β : Type} (f : α → β) (m : ARollM α) (m' : ARollM β) : Prop :=
  ∀ s, m' (renS σ s) = Rand.map (fun x => (x.1.map f, renS σ x.2)) (m s)

omit hσ in
theorem reqv_bind {α β γ δ : Type} {f : α → β} {g : γ → δ} {m : ARollM α} {m' : ARollM β} {k : α → ARollM γ} {k' : β → ARollM δ}
    (h : RenREqv σ f m m') (hk : ∀ x, RenREqv σ g (k x) (k' (f x))) : RenREqv σ g (m >>= k) (m' >>= k') := by
  intro s
  show Rand.bind (m' (renS σ s)) _ = Rand.bind (Rand.bind (m s) _) _
  rw [h s, Rand.map, Rand.bind_assoc, Rand.bind_assoc]
  refine Rand.bind_congr (Rand.all_true _) ?_
  rintro ⟨r, t⟩ -
  cases r with
  | error e => rfl
  | ok x => exact hk x t

omit hσ in
theorem reqv_eval {α β : Type} {f : α → β} {m : AEvalM α} {m' : AEvalM β} (h : RenEqv σ f m m') :
    RenREqv σ f (ARollM.ofEval m) (ARollM.ofEval m') := fun s => congrArg Rand.pure (h s)

omit hσ in
theorem reqv_pure {α : Type} (x : α) : RenREqv σ id (pure x) (pure x) := fun _ => rfl

omit hσ in
theorem reqv_rand {α : Type} (r : Rand (Res α)) : RenREqv σ id (ARollM.ofRand r) (ARollM.ofRand r) := by
  intro s
  unfold ARollM.ofRand Rand.map
  rw [Rand.bind_assoc]
  refine Rand.bind_congr (Rand.all_true _) fun x _ => ?_
  show _ = Rand.pure (x.map id, _)
  rw [except_map_id]

omit hσ in
theorem reqv_both (g : Int → Int → Int) {a b a' b' : ARollM Int} (ha : RenREqv σ id a a') (hb : RenREqv σ id b b') :
    RenREqv σ id (aBoth g a b) (aBoth g a' b') := reqv_bind ha fun _ => reqv_bind hb fun _ => reqv_pure _

theorem reqv_roll (e : Expr) : RenREqv σ id e.aroll (e.rename σ).aroll := by
  induction e with
  | paren e ih => exact ih
  | not e ih => exact reqv_bind ih fun _ => reqv_pure _
  | abs e ih => exact reqv_bind ih fun _ => reqv_pure _
  | dropKeep t => exact reqv_rand _
  | dice t => exact reqv_rand _
  | constInt t => exact reqv_eval (eqv_res _)
  | constBin t => exact reqv_pure _
  | add a b iha ihb => exact reqv_both _ iha ihb
  | sub a b iha ihb => exact reqv_both _ iha ihb
  | mul a b iha ihb => exact reqv_both _ iha ihb
  | div a b iha ihb =>
    refine reqv_bind ihb fun y => ?_
    by_cases h : y = 0
    · simp only [h, id_eq, if_true]; exact reqv_eval (eqv_res _)
    · simp only [h, id_eq, if_false]; exact reqv_bind iha fun _ => reqv_pure _
  | bin op a b iha ihb => exact reqv_both _ iha ihb
  | minmax k a b iha ihb => exact reqv_both _ iha ihb
  | assign x e ih => exact reqv_bind ih fun v => reqv_bind (reqv_eval (eqv_setConstant hσ x v)) fun _ => reqv_pure _
  | getVar x => exact reqv_eval (eqv_getConstant hσ x)

/-! ### The interpreter -/

variable {parse : Str → Res Expr} {τ : Str → Str} (hs : σ stdoutName = stdoutName)

include hs

omit hσ hs in
/-- The lines mean the same but for the names. -/
theorem eqv_parse {l : Str} (h : parse (τ l) = (parse l).map (Expr.rename σ)) :
    RenEqv σ (Expr.rename σ) (AEvalM.ofRes (parse l)) (AEvalM.ofRes (parse (τ l))) := eqv_ofRes h.symm

theorem reqv_rollLines : ∀ lines : List Str, (∀ l ∈ lines, parse (τ l) = (parse l).map (Expr.rename σ)) →
    RenREqv σ id (aRollLines parse lines) (aRollLines parse (lines.map τ)) := by
  intro lines
  induction lines with
  | nil => intro _; exact reqv_pure _
  | cons l ls ih =>
    intro h
    have h1 : RenREqv σ id (aRollLine parse l) (aRollLine parse (τ l)) :=
      reqv_bind (reqv_eval (eqv_parse (h l (by simp)))) fun e => reqv_bind (reqv_roll hσ e) fun v => reqv_eval (eqv_outInt hσ hs v)
    exact reqv_bind h1 fun _ => ih fun l hl => h l (by simp [hl])

omit hσ hs in
theorem eqv_constants (lines : List Str) : RenEqv σ (renameKeys σ) (aConstants lines) (aConstants (lines.map τ)) := by
  intro s
  unfold aConstants
  cases lines <;> rfl

omit hσ hs in
theorem eqv_vars (lines : List Str) : RenEqv σ (renV σ) (aVars lines) (aVars (lines.map τ)) := by
  intro s
  unfold aVars
  cases lines <;> rfl

theorem eqv_extremeLines (isMax : Bool) : ∀ lines : List Str, (∀ l ∈ lines, parse (τ l) = (parse l).map (Expr.rename σ)) →
    RenEqv σ id (aExtremeLines parse isMax lines) (aExtremeLines parse isMax (lines.map τ)) := by
  intro lines
  induction lines with
  | nil => intro _; exact eqv_pure rfl
  | cons l ls ih =>
    intro h
    have h1 : RenEqv σ id (aExtremeLine parse isMax l) (aExtremeLine parse isMax (τ l)) :=
      eqv_bind (eqv_parse (h l (by simp))) fun e => eqv_bind (eqv_extreme hσ isMax e) fun v => eqv_outInt hσ hs v
    exact eqv_bind h1 fun _ => ih fun l hl => h l (by simp [hl])

theorem eqv_distLines : ∀ lines : List Str, (∀ l ∈ lines, parse (τ l) = (parse l).map (Expr.rename σ)) →
    RenEqv σ id (aDistLines parse lines) (aDistLines parse (lines.map τ)) := by
  intro lines
  induction lines with
  | nil => intro _; exact eqv_pure rfl
  | cons l ls ih =>
    intro h
    have h1 : RenEqv σ id (aDistLine parse l) (aDistLine parse (τ l)) :=
      eqv_bind (eqv_parse (h l (by simp))) fun e => eqv_bind (eqv_dist hσ e) fun d => eqv_outDist hσ hs d
    exact eqv_bind h1 fun _ => ih fun l hl => h l (by simp [hl])

theorem eqv_interpDists (lines : List Str) (h : ∀ l ∈ lines, parse (τ l) = (parse l).map (Expr.rename σ)) :
    RenEqv σ (renV σ) (aInterpDists parse lines) (aInterpDists parse (lines.map τ)) :=
  eqv_bind (eqv_distLines hσ hs lines h) fun _ => eqv_vars lines

omit hσ hs in
theorem mapValues_ren {α : Type} (g : Seen → Res α) : ∀ d : List (Str × ADist),
    (mapValues (fun d => g (aSeen d)) d).map (renameKeys σ) = mapValues (fun d => g (aSeen d)) (renV σ d) := by
  intro d
  unfold mapValues renV renameKeys
  induction d with
  | nil => rfl
  | cons p d ih =>
    rw [List.map_cons, List.map_cons, List.mapM_cons, List.mapM_cons, ← ih]
    simp only [ren_aSeen]
    cases g (aSeen p.2) with
    | error e => rfl
    | ok v =>
      show Except.map _ ((List.mapM _ d) >>= _) = _
      cases List.mapM (fun p : Str × ADist => (do return (p.1, ← g (aSeen p.2)) : Res (Str × α))) d <;> rfl

theorem eqv_interpMap {α : Type} (g : Seen → Res α) (lines : List Str) (h : ∀ l ∈ lines, parse (τ l) = (parse l).map (Expr.rename σ)) :
    RenEqv σ (renameKeys σ) (aInterpMap parse g lines) (aInterpMap parse g (lines.map τ)) :=
  eqv_bind (eqv_interpDists hσ hs lines h) fun d => eqv_ofRes (mapValues_ren g d)

theorem eqv_lastDist : ∀ lines : List Str, (∀ l ∈ lines, parse (τ l) = (parse l).map (Expr.rename σ)) → ∀ d : ADist,
    RenEqv σ (renD σ) (aLastDist parse lines d) (aLastDist parse (lines.map τ) (renD σ d)) := by
  intro lines
  induction lines with
  | nil => intro _ d; exact eqv_pure rfl
  | cons l ls ih =>
    intro h d
    exact eqv_bind (eqv_parse (h l (by simp))) fun e => eqv_bind (eqv_dist hσ e) fun d => ih (fun l hl => h l (by simp [hl])) d

theorem eqv_costLines : ∀ lines : List Str, (∀ l ∈ lines, parse (τ l) = (parse l).map (Expr.rename σ)) → ∀ c : Int,
    RenEqv σ id (aCostLines parse lines c) (aCostLines parse (lines.map τ) c) := by
  intro lines
  induction lines with
  | nil => intro _ d; exact eqv_pure rfl
  | cons l ls ih =>
    intro h d
    exact eqv_bind (eqv_parse (h l (by simp))) fun e => eqv_bind (eqv_cost hσ e) fun d => ih (fun l hl => h l (by simp [hl])) _

theorem ren_runCall (c : Call) (h : ∀ l ∈ c.lines, parse (τ l) = (parse l).map (Expr.rename σ)) (s : AState) :
    aRunCall parse (c.mapLines τ) (renS σ s) = Rand.map (fun x => (x.1.rename σ, renS σ x.2)) (aRunCall parse c s) := by
  cases c with
  | roll l =>
    have e : RenREqv σ (renameKeys σ) (aInterpRoll parse l) (aInterpRoll parse (l.map τ)) :=
      reqv_bind (reqv_rollLines hσ hs l h) fun _ => reqv_eval (eqv_constants l)
    unfold Call.mapLines aRunCall
    simp only
    rw [e s, Rand.map, Rand.map, Rand.bind_assoc, Rand.bind_assoc]
    rfl
  | extreme k l =>
    have e : RenEqv σ (renameKeys σ) (aInterpExtreme parse k l) (aInterpExtreme parse k (l.map τ)) :=
      eqv_bind (eqv_extremeLines hσ hs k l h) fun _ => eqv_constants l
    unfold Call.mapLines aRunCall
    simp only [e s]
    rfl
  | dists l =>
    have e := eqv_interpDists hσ hs l h
    unfold Call.mapLines aRunCall
    simp only [e s]
    unfold Rand.map Rand.bind Answer.rename
    cases (aInterpDists parse l s).1 with
    | error e => rfl
    | ok d => simp [Except.map, renV, renameKeys, ren_aSeen]
  | dictForms l =>
    have e := eqv_interpMap hσ hs dictFormOf l h
    unfold Call.mapLines aRunCall
    simp only [e s]
    rfl
  | averages l =>
    have e := eqv_interpMap hσ hs averageOf l h
    unfold Call.mapLines aRunCall
    simp only [e s]
    rfl
  | histogram l =>
    have e := eqv_lastDist hσ hs l h (aMake [])
    have e0 : renD σ (aMake []) = aMake [] := rfl
    rw [e0] at e
    unfold Call.mapLines aRunCall
    simp only [e s]
    unfold Rand.map Rand.bind Answer.rename
    cases (aLastDist parse l (aMake []) s).1 with
    | error e => rfl
    | ok d => simp [Except.map, ren_aSeen]
  | cost l =>
    have e := eqv_costLines hσ hs l h 0
    unfold Call.mapLines aRunCall
    simp only [e s, except_map_id]
    rfl

theorem ren_session : ∀ (calls : List Call), (∀ c ∈ calls, ∀ l ∈ c.lines, parse (τ l) = (parse l).map (Expr.rename σ)) → ∀ s : AState,
    aSession parse (calls.map (Call.mapLines τ)) (renS σ s) = Rand.map (List.map (Answer.rename σ)) (aSession parse calls s) := by
  intro calls
  induction calls with
  | nil => intro _ s; rfl
  | cons c cs ih =>
    intro h s
    rw [List.map_cons]
    unfold aSession
    rw [ren_runCall hσ hs c (h c (by simp)), Rand.map, Rand.map, Rand.bind_assoc, Rand.bind_assoc]
    refine Rand.bind_congr (Rand.all_true _) fun x _ => ?_
    show Rand.bind (aSession parse _ (renS σ x.2)) _ = _
    rw [ih (fun c hc => h c (by simp [hc])), Rand.map, Rand.bind_assoc, Rand.bind_assoc]
    rfl

end

end PyDice
