import Verif.Spec.Heap
import Verif.Lemmas.Constraint
import Verif.Lemmas.State
/-!
# The heap model computes what the value model computes
-/

namespace PyDice
open PyRuntime

/-- The first `n` entries stay, and the list does not get shorter. -/
def Prefix {α : Type} (n : Nat) (l l' : List α) : Prop := l.length ≤ l'.length ∧ ∀ a < n, l'[a]? = l[a]?

theorem Prefix.refl {α : Type} (n : Nat) (l : List α) : Prefix n l l := ⟨le_rfl, fun _ _ => rfl⟩
theorem Prefix.trans {α : Type} {n m : Nat} {l l' l'' : List α} (h : Prefix n l l') (h' : Prefix m l' l'') (hnm : n ≤ m) : Prefix n l l'' :=
  ⟨h.1.trans h'.1, fun a ha => (h'.2 a (by omega)).trans (h.2 a ha)⟩
theorem Prefix.mono {α : Type} {n m : Nat} {l l' : List α} (h : Prefix m l l') (hnm : n ≤ m) : Prefix n l l' :=
  ⟨h.1, fun a ha => h.2 a (by omega)⟩
theorem pre_append {α : Type} (l t : List α) : Prefix l.length l (l ++ t) :=
  ⟨by simp, fun a ha => by rw [List.getElem?_append_left ha]⟩
theorem pre_set {α : Type} {n a : Nat} (l : List α) (x : α) (h : n ≤ a) : Prefix n l (l.set a x) :=
  ⟨by simp, fun b hb => by rw [List.getElem?_set_ne (by omega)]⟩
theorem Prefix.getD {α : Type} {n a : Nat} {l l' : List α} (h : Prefix n l l') (ha : a < n) (x : α) : l'.getD a x = l.getD a x := by
  rw [List.getD_eq_getElem?_getD, List.getD_eq_getElem?_getD, h.2 a ha]
theorem getD_mem {α : Type} {l : List α} {a : Nat} (h : a < l.length) (x : α) : l.getD a x ∈ l := by
  rw [List.getD_eq_getElem?_getD, List.getElem?_eq_getElem h]
  exact List.getElem_mem h

section
variable [R : PyRuntime]

theorem Heap.Le.pre {h h' : Heap} (hl : h.Le h') :
    Prefix h.sets.length h.sets h'.sets ∧ Prefix h.csets.length h.csets h'.csets ∧ Prefix h.dicts.length h.dicts h'.dicts := by
  have aux : ∀ {α : Type} (l l' : List α), (∀ a < l.length, l'[a]? = l[a]?) → Prefix l.length l l' := by
    intro α l l' hl
    refine ⟨?_, hl⟩
    by_contra hn
    rw [not_le] at hn
    have := hl l'.length hn
    rw [List.getElem?_eq_none (le_refl _), List.getElem?_eq_getElem hn] at this
    cases this
  exact ⟨aux _ _ hl.sets, aux _ _ hl.csets, aux _ _ hl.dicts⟩

theorem Heap.Le.refl (h : Heap) : h.Le h := ⟨fun _ _ => rfl, fun _ _ => rfl, fun _ _ => rfl⟩
theorem Heap.Le.trans {h h' h'' : Heap} (a : h.Le h') (b : h'.Le h'') : h.Le h'' := by
  obtain ⟨a1, a2, a3⟩ := a.pre
  obtain ⟨b1, b2, b3⟩ := b.pre
  exact ⟨(a1.trans b1 a1.1).2, (a2.trans b2 a2.1).2, (a3.trans b3 a3.1).2⟩

/-- Everything but the dict objects from `k` on is kept. -/
structure Heap.LeD (k : Nat) (h h' : Heap) : Prop where
  sets : Prefix h.sets.length h.sets h'.sets
  csets : Prefix h.csets.length h.csets h'.csets
  dicts : Prefix k h.dicts h'.dicts

theorem Heap.LeD.refl (k : Nat) (h : Heap) : Heap.LeD k h h := ⟨Prefix.refl _ _, Prefix.refl _ _, Prefix.refl _ _⟩
theorem Heap.LeD.trans {k : Nat} {h h' h'' : Heap} (a : Heap.LeD k h h') (b : Heap.LeD k h' h'') : Heap.LeD k h h'' :=
  ⟨a.sets.trans b.sets a.sets.1, a.csets.trans b.csets a.csets.1, a.dicts.trans b.dicts le_rfl⟩
theorem Heap.Le.leD {h h' : Heap} (a : h.Le h') {k : Nat} (hk : k ≤ h.dicts.length) : Heap.LeD k h h' :=
  ⟨a.pre.1, a.pre.2.1, a.pre.2.2.mono hk⟩
theorem Heap.LeD.le {h h' : Heap} (a : Heap.LeD h.dicts.length h h') : h.Le h' := ⟨a.sets.2, a.csets.2, a.dicts.2⟩

/-- The objects an outcome refers to keep their content. -/
theorem Heap.LeD.constraints {k : Nat} {h h' : Heap} (a : Heap.LeD k h h') (ok : h.Ok) {c : Nat} (hc : c < h.csets.length) :
    h'.constraints c = h.constraints c := by
  unfold Heap.constraints Heap.set
  rw [a.csets.getD hc, a.sets.getD (ok.csets _ (getD_mem hc _))]
theorem Heap.LeD.outcome {k : Nat} {h h' : Heap} (a : Heap.LeD k h h') (ok : h.Ok) {o : OutRef} (hc : o.cs < h.csets.length) :
    h'.outcome o = h.outcome o := by
  unfold Heap.outcome
  rw [a.constraints ok hc]
theorem Heap.Le.set {h h' : Heap} (a : h.Le h') {c : Nat} (hc : c < h.sets.length) : h'.set c = h.set c := a.pre.1.getD hc _
theorem Heap.Le.constraints {h h' : Heap} (a : h.Le h') (ok : h.Ok) {c : Nat} (hc : c < h.csets.length) :
    h'.constraints c = h.constraints c := (a.leD le_rfl).constraints ok hc
theorem Heap.Le.dist {h h' : Heap} (a : h.Le h') (ok : h.Ok) {d : DistRef} (hd : d.map < h.dicts.length) : h'.dist d = h.dist d := by
  unfold Heap.dist Heap.dict
  rw [a.pre.2.2.getD hd]
  congr 1
  refine List.map_congr_left fun p hp => ?_
  rw [(a.leD le_rfl).outcome ok (ok.dicts _ (getD_mem hd _) p hp)]

/-- A heap method computes what a function on values computes. -/
def Sim {α β : Type} (K : Heap → Heap → Prop) (h : Heap) (m : HeapM α) (r : Res β) (Rel : Heap → α → β → Prop) : Prop :=
  K h (m h).2 ∧ (m h).2.Ok ∧ (match (m h).1, r with | .ok a, .ok b => Rel (m h).2 a b | .error e, .error e' => e = e' | _, _ => False)

theorem Sim.bind {α β γ δ : Type} {K : Heap → Heap → Prop} (trans : ∀ a b c, K a b → K b c → K a c) {h : Heap} {m : HeapM α}
    {r : Res β} {Rel : Heap → α → β → Prop} {f : α → HeapM γ} {g : β → Res δ} {Rel' : Heap → γ → δ → Prop} (hm : Sim K h m r Rel)
    (hf : ∀ h' a b, K h h' → h'.Ok → Rel h' a b → Sim K h' (f a) (g b) Rel') : Sim K h (m >>= f) (r >>= g) Rel' := by
  obtain ⟨h1, h2, h3⟩ := hm
  show Sim K h (HeapM.bind m f) (Except.bind r g) Rel'
  revert h1 h2 h3
  unfold Sim HeapM.bind
  rcases hmh : m h with ⟨x, h'⟩
  cases x <;> cases r <;> simp only [false_implies, implies_true]
  · intro h1 h2 h3
    exact ⟨h1, h2, h3⟩
  · intro h1 h2 h3
    obtain ⟨k1, k2, k3⟩ := hf _ _ _ h1 h2 h3
    exact ⟨trans _ _ _ h1 k1, k2, k3⟩

theorem Sim.read {α β γ : Type} {K : Heap → Heap → Prop} {h : Heap} {g : Heap → γ} {f : γ → HeapM α} {r : Res β}
    {Rel : Heap → α → β → Prop} (hs : Sim K h (f (g h)) r Rel) : Sim K h (HeapM.read g >>= f) r Rel := hs

theorem sim_ofRes {α : Type} {K : Heap → Heap → Prop} {h : Heap} {r : Res α} {Rel : Heap → α → α → Prop} (hK : K h h) (ok : h.Ok)
    (hR : ∀ a, Rel h a a) : Sim K h (HeapM.ofRes r) r Rel := by
  refine ⟨hK, ok, ?_⟩
  cases r with
  | error e => exact rfl
  | ok a => exact hR a

/-- The last steps of a method that only look after its objects. -/
theorem Sim.andThen {α β γ : Type} {K : Heap → Heap → Prop} (trans : ∀ a b c, K a b → K b c → K a c) {h : Heap} {m : HeapM α}
    {r : Res β} {Rel : Heap → α → β → Prop} {f : α → HeapM γ} {Rel' : Heap → γ → β → Prop} (hm : Sim K h m r Rel)
    (hf : ∀ h' a b, K h h' → h'.Ok → Rel h' a b → Sim K h' (f a) (.ok b) Rel') : Sim K h (m >>= f) r Rel' := by
  have := Sim.bind trans hm (g := .ok) hf
  cases r <;> exact this

theorem Sim.imp {α β : Type} {K K' : Heap → Heap → Prop} {h : Heap} {m : HeapM α} {r : Res β} {Rel Rel' : Heap → α → β → Prop}
    (hm : Sim K h m r Rel) (hK : ∀ h', K h h' → K' h h') (hR : ∀ h' a b, K h h' → h'.Ok → Rel h' a b → Rel' h' a b) : Sim K' h m r Rel' := by
  obtain ⟨h1, h2, h3⟩ := hm
  refine ⟨hK _ h1, h2, ?_⟩
  revert h3
  cases hx : (m h).1 <;> cases r <;> simp only [imp_self]
  exact hR _ _ _ h1 h2

/-! ### Merging -/

/-- A set object among the new ones is what a function on values returned. -/
def IsSet (n : Nat) (h : Heap) (a : Nat) (s : CSet) : Prop := n ≤ a ∧ a < h.sets.length ∧ h.set a = s

/-- Only set objects from `n` on are changed. -/
structure Heap.LeS (n : Nat) (h h' : Heap) : Prop where
  sets : Prefix n h.sets h'.sets
  csets : h'.csets = h.csets
  dicts : h'.dicts = h.dicts

theorem Heap.LeS.refl (n : Nat) (h : Heap) : Heap.LeS n h h := ⟨Prefix.refl _ _, rfl, rfl⟩
theorem Heap.LeS.trans {n : Nat} {h h' h'' : Heap} (a : Heap.LeS n h h') (b : Heap.LeS n h' h'') : Heap.LeS n h h'' :=
  ⟨a.sets.trans b.sets le_rfl, b.csets.trans a.csets, b.dicts.trans a.dicts⟩
theorem Heap.LeS.ok {n : Nat} {h h' : Heap} (a : Heap.LeS n h h') (ok : h.Ok) : h'.Ok := by
  constructor
  · intro x hx
    rw [a.csets] at hx
    exact (ok.csets x hx).trans_le a.sets.1
  · intro d hd p hp
    rw [a.dicts] at hd
    rw [a.csets]
    exact ok.dicts d hd p hp
theorem Heap.LeS.le {h h' : Heap} (a : Heap.LeS h.sets.length h h') : h.Le h' :=
  ⟨a.sets.2, by rw [a.csets]; simp, by rw [a.dicts]; simp⟩

omit R in
theorem set_getD {α : Type} (l : List α) (a : Nat) (x y : α) (h : a < l.length) : (l.set a x).getD a y = x := by
  rw [List.getD_eq_getElem?_getD, List.getElem?_set_self (by simpa using h)]; rfl
omit R in
theorem append_getD {α : Type} (l : List α) (x y : α) : (l ++ [x]).getD l.length y = x := by
  rw [List.getD_eq_getElem?_getD, List.getElem?_concat_length]; rfl
omit R in
theorem append_getD_lt {α : Type} (l : List α) (x y : α) {a : Nat} (h : a < l.length) : (l ++ [x]).getD a y = l.getD a y :=
  (pre_append l [x]).getD h y

theorem iter_insert_empty (c : Constraint) : iter (insert (PyRuntime.empty) c) = [c] := by
  have hm : ∀ x, x ∈ iter (insert (PyRuntime.empty) c) ↔ x = c := by
    intro x
    rw [mem_insert, iter_empty]
    simp
  have hn := iter_nodup (insert (PyRuntime.empty) c)
  generalize iter (insert (PyRuntime.empty) c) = l at hm hn
  match l, hm, hn with
  | [], hm, _ => simpa using (hm c).mpr rfl
  | [x], hm, _ => rw [(hm x).mp (by simp)]
  | x :: y :: t, hm, hn =>
    have hx := (hm x).mp (by simp)
    have hy := (hm y).mp (by simp)
    rw [hx, hy] at hn
    simp at hn

theorem iter_copy_insert_empty (c : Constraint) : iter (copy (insert (PyRuntime.empty) c)) = [c] := by
  have hm : ∀ x, x ∈ iter (copy (insert (PyRuntime.empty) c)) ↔ x = c := by
    intro x
    rw [mem_copy, mem_insert, iter_empty]
    simp
  have hn := iter_nodup (copy (insert (PyRuntime.empty) c))
  generalize iter (copy (insert (PyRuntime.empty) c)) = l at hm hn
  match l, hm, hn with
  | [], hm, _ => simpa using (hm c).mpr rfl
  | [x], hm, _ => rw [(hm x).mp (by simp)]
  | x :: y :: t, hm, hn =>
    have hx := (hm x).mp (by simp)
    have hy := (hm y).mp (by simp)
    rw [hx, hy] at hn
    simp at hn

/-- What one step of merging leaves: the changed constraints and the unchanged set. -/
def IsPair (n : Nat) (h : Heap) (p : Nat × Nat) (q : List Constraint × CSet) : Prop := iter (h.set p.1) = q.1 ∧ IsSet n h p.2 q.2

omit R in
theorem set_last {α : Type} (l : List α) (x y : α) : (l ++ [x]).set l.length y = l ++ [y] := by
  rw [List.set_append_right _ _ le_rfl]; simp
omit R in
theorem set_before {α : Type} (l : List α) (x y z : α) : (l ++ [x] ++ [z]).set l.length y = l ++ [y] ++ [z] := by
  rw [List.append_assoc, List.set_append_right _ _ le_rfl]; simp

theorem scanned {n : Nat} {h : Heap} (ok : h.Ok) (hn : n ≤ h.sets.length) (s s' : CSet) :
    let h' : Heap := { h with sets := h.sets ++ [s] ++ [s'] }
    Heap.LeS n h h' ∧ h'.Ok ∧ h'.set h.sets.length = s ∧ h'.set (h.sets.length + 1) = s' ∧ h.sets.length + 1 < h'.sets.length := by
  intro h'
  have hl : Heap.LeS n h h' := ⟨by show Prefix n h.sets (h.sets ++ [s] ++ [s']); rw [List.append_assoc]; exact (pre_append _ _).mono hn, rfl, rfl⟩
  refine ⟨hl, hl.ok ok, ?_, ?_, ?_⟩
  · show (h.sets ++ [s] ++ [s']).getD _ _ = s
    rw [append_getD_lt _ _ _ (by simp), append_getD]
  · show (h.sets ++ [s] ++ [s']).getD _ _ = s'
    have := append_getD (h.sets ++ [s]) s' (PyRuntime.empty)
    rwa [List.length_append, List.length_singleton] at this
  · show _ < (h.sets ++ [s] ++ [s']).length
    simp

theorem mergeScanH_sim (new : Constraint) {n a : Nat} {h : Heap} (ok : h.Ok) (hn : n ≤ h.sets.length) (l : List Constraint) :
    Sim (Heap.LeS n) h (mergeScanH new a l) (mergeScan new (h.set a) l) (fun h' x y => match x, y with
      | some p, some q => IsPair n h' p ([q.1], q.2)
      | none, none => h' = h
      | _, _ => False) := by
  induction l with
  | nil => exact ⟨Heap.LeS.refl _ _, ok, rfl⟩
  | cons c rest ih =>
    have hlen : ∀ s : CSet, (h.sets ++ [s]).length = h.sets.length + 1 := fun s => by simp
    by_cases h1 : c.canMerge new
    · cases hr : c.merge new with
      | error e =>
        have e1 : mergeScanH new a (c :: rest) h = (.error e, { h with sets := h.sets ++ [erase (copy (h.set a)) c] }) := by
          rw [mergeScanH, if_pos h1]
          simp only [bind, HeapM.bind, HeapM.read, newSet, changeSet, HeapM.ofRes, hr, Heap.set, append_getD, set_last]
        have e2 : mergeScan new (h.set a) (c :: rest) = .error e := by rw [mergeScan, if_pos h1, hr]; rfl
        have hl : Heap.LeS n h { h with sets := h.sets ++ [erase (copy (h.set a)) c] } := ⟨(pre_append _ _).mono hn, rfl, rfl⟩
        unfold Sim
        rw [e1, e2]
        exact ⟨hl, hl.ok ok, rfl⟩
      | ok m =>
        have e1 : mergeScanH new a (c :: rest) h = (.ok (some (h.sets.length + 1, h.sets.length)),
            { h with sets := h.sets ++ [erase (copy (h.set a)) c] ++ [insert empty m] }) := by
          rw [mergeScanH, if_pos h1]
          simp only [bind, HeapM.bind, HeapM.read, newSet, changeSet, HeapM.ofRes, hr, Heap.set, append_getD, set_last, hlen, pure]
        have e2 : mergeScan new (h.set a) (c :: rest) = .ok (some (m, erase (copy (h.set a)) c)) := by rw [mergeScan, if_pos h1, hr]; rfl
        obtain ⟨k1, k2, k3, k4, k5⟩ := scanned ok hn (erase (copy (h.set a)) c) (insert empty m)
        unfold Sim
        rw [e1, e2]
        exact ⟨k1, k2, by dsimp only at k4 ⊢; rw [k4]; exact iter_insert_empty m, hn, Nat.lt_of_succ_lt k5, k3⟩
    · by_cases h2 : new.canMerge c
      · cases hr : new.merge c with
        | error e =>
          have e1 : mergeScanH new a (c :: rest) h = (.error e, { h with sets := h.sets ++ [copy (h.set a)] }) := by
            rw [mergeScanH, if_neg h1, if_pos h2]
            simp only [bind, HeapM.bind, HeapM.read, newSet, HeapM.ofRes, hr]
          have e2 : mergeScan new (h.set a) (c :: rest) = .error e := by rw [mergeScan, if_neg h1, if_pos h2, hr]; rfl
          have hl : Heap.LeS n h { h with sets := h.sets ++ [copy (h.set a)] } := ⟨(pre_append _ _).mono hn, rfl, rfl⟩
          unfold Sim
          rw [e1, e2]
          exact ⟨hl, hl.ok ok, rfl⟩
        | ok m =>
          have e1 : mergeScanH new a (c :: rest) h = (.ok (some (h.sets.length + 1, h.sets.length)),
              { h with sets := h.sets ++ [erase (copy (h.set a)) c] ++ [insert empty m] }) := by
            rw [mergeScanH, if_neg h1, if_pos h2]
            have hx : ∀ s s' y : CSet, (h.sets ++ [s] ++ [s']).getD h.sets.length y = s := fun s s' y => by
              rw [append_getD_lt _ _ _ (by simp), append_getD]
            simp only [bind, HeapM.bind, HeapM.read, newSet, changeSet, HeapM.ofRes, hr, Heap.set, hx, set_before, hlen, pure]
          have e2 : mergeScan new (h.set a) (c :: rest) = .ok (some (m, erase (copy (h.set a)) c)) := by
            rw [mergeScan, if_neg h1, if_pos h2, hr]; rfl
          obtain ⟨k1, k2, k3, k4, k5⟩ := scanned ok hn (erase (copy (h.set a)) c) (insert empty m)
          unfold Sim
          rw [e1, e2]
          exact ⟨k1, k2, by dsimp only at k4 ⊢; rw [k4]; exact iter_insert_empty m, hn, Nat.lt_of_succ_lt k5, k3⟩
      · rw [mergeScanH, if_neg h1, if_neg h2, mergeScan, if_neg h1, if_neg h2]
        exact ih

theorem mergeOneH_sim (new : Constraint) {n a : Nat} {h : Heap} (ok : h.Ok) (hn : n ≤ a) (ha : a < h.sets.length) :
    Sim (Heap.LeS n) h (mergeOneH new a) (mergeOne new (h.set a)) (IsPair n) := by
  have hs := mergeScanH_sim new (a := a) ok (by omega : n ≤ h.sets.length) (iter (h.set a))
  unfold mergeOneH mergeOne
  refine Sim.read ?_
  refine Sim.bind (K := Heap.LeS n) (fun _ _ _ => Heap.LeS.trans) hs ?_
  intro h' x y hl ok' hxy
  match x, y, hxy with
  | some p, some q, hp => exact ⟨Heap.LeS.refl _ _, ok', hp⟩
  | none, none, hp =>
    dsimp only at hp
    subst hp
    have hl : Heap.LeS n h' { h' with sets := h'.sets.set a (insert (h'.set a) new) ++ [empty] } :=
      ⟨(pre_set (n := n) _ _ hn).trans ((pre_append _ _).mono (by simp; omega)) le_rfl, rfl, rfl⟩
    refine ⟨hl, hl.ok ok', ?_, hn, ?_, ?_⟩
    · show iter (List.getD (_ ++ [_]) _ _) = []
      rw [append_getD, iter_empty]
    · show a < (h'.sets.set a (insert (h'.set a) new) ++ [empty]).length
      simp; omega
    · show (h'.sets.set a (insert (h'.set a) new) ++ [empty]).getD a _ = _
      rw [append_getD_lt _ _ _ (by simpa using ha), set_getD _ _ _ _ ha]

theorem mergeLoopH_sim {n : Nat} (fuel : Nat) : ∀ (stack : List Constraint) {a : Nat} {h : Heap}, h.Ok → n ≤ a → a < h.sets.length →
    Sim (Heap.LeS n) h (mergeLoopH fuel stack a) (mergeLoop fuel stack (h.set a)) (IsSet n) := by
  induction fuel with
  | zero =>
    intro stack a h ok hn ha
    cases stack with
    | nil => exact ⟨Heap.LeS.refl _ _, ok, hn, ha, rfl⟩
    | cons c rest => exact ⟨Heap.LeS.refl _ _, ok, rfl⟩
  | succ fuel ih =>
    intro stack a h ok hn ha
    cases stack with
    | nil => exact ⟨Heap.LeS.refl _ _, ok, hn, ha, rfl⟩
    | cons c rest =>
      rw [mergeLoopH, mergeLoop]
      refine Sim.bind (K := Heap.LeS n) (fun _ _ _ => Heap.LeS.trans) (mergeOneH_sim c ok hn ha) ?_
      rintro h' p ⟨l, s⟩ hl ok' ⟨h1, h2, h3, h4⟩
      dsimp only at h1 h4 ⊢
      have := ih (l.reverse ++ rest) ok' h2 h3
      rw [h4] at this
      refine Sim.read ?_
      rw [h1]
      exact this

theorem sim_of_eq {α β : Type} {K : Heap → Heap → Prop} {h h' : Heap} {m m' : HeapM α} {r : Res β} {Rel : Heap → α → β → Prop}
    (he : m h = m' h') (hK : ∀ h'', K h' h'' → K h h'') (hs : Sim K h' m' r Rel) : Sim K h m r Rel := by
  unfold Sim at *
  rw [he]
  exact ⟨hK _ hs.1, hs.2⟩

/-- `merge_new_constraints` makes a new set and leaves its argument alone. -/
theorem mergeNewConstraintsH_sim (c : Constraint) {a : Nat} {h : Heap} (ok : h.Ok) (ha : a < h.sets.length) :
    Sim (Heap.LeS h.sets.length) h (mergeNewConstraintsH a c) (mergeNewConstraints (h.set a) c) (IsSet h.sets.length) := by
  have hlen : ∀ (l : List CSet) (s : CSet), (l ++ [s]).length = l.length + 1 := fun l s => by simp
  set h' : Heap := { h with sets := h.sets ++ [insert empty c] ++ [copy (insert empty c)] ++ [copy (h.set a)] } with hh'
  have e1 : mergeNewConstraintsH a c h = mergeLoopH (mergeFuel [c] (copy (h.set a))) [c] (h.sets.length + 1 + 1) h' := by
    have hx : (h.sets ++ [insert empty c] ++ [copy (insert empty c)]).getD a empty = h.set a := by
      rw [append_getD_lt _ _ _ (by simp; omega), append_getD_lt _ _ _ ha]; rfl
    have hy : (h.sets ++ [insert empty c] ++ [copy (insert empty c)] ++ [copy (h.set a)]).getD (h.sets.length + 1) empty =
        copy (insert empty c) := by
      rw [append_getD_lt _ _ _ (by simp)]
      have := append_getD (h.sets ++ [insert empty c]) (copy (insert empty c)) empty
      rwa [hlen] at this
    have hz : (h.sets ++ [insert empty c] ++ [copy (insert empty c)] ++ [copy (h.set a)]).getD (h.sets.length + 1 + 1) empty =
        copy (h.set a) := by
      have := append_getD (h.sets ++ [insert empty c] ++ [copy (insert empty c)]) (copy (h.set a)) empty
      rwa [hlen, hlen] at this
    unfold mergeNewConstraintsH mergeNewAllH
    simp only [bind, HeapM.bind, HeapM.read, newSet, Heap.set, append_getD, hlen] at hx hy hz ⊢
    rw [hx, hy, hz, iter_copy_insert_empty]
    rfl
  have hl : Heap.LeS h.sets.length h h' := ⟨by
    show Prefix _ h.sets (h.sets ++ [insert empty c] ++ [copy (insert empty c)] ++ [copy (h.set a)])
    rw [List.append_assoc, List.append_assoc]; exact pre_append _ _, rfl, rfl⟩
  refine sim_of_eq e1 (fun _ => hl.trans) ?_
  have hz : h'.set (h.sets.length + 1 + 1) = copy (h.set a) := by
    have := append_getD (h.sets ++ [insert empty c] ++ [copy (insert empty c)]) (copy (h.set a)) empty
    rwa [hlen, hlen] at this
  have := mergeLoopH_sim (n := h.sets.length) (mergeFuel [c] (copy (h.set a))) [c] (hl.ok ok) (a := h.sets.length + 1 + 1) (by omega)
    (by rw [hh']; simp)
  rw [hz] at this
  exact this

/-! ### `ConstraintSet` -/

/-- Only `ConstraintSet` objects from `m` on are changed. -/
structure Heap.LeC (m : Nat) (h h' : Heap) : Prop where
  sets : Prefix h.sets.length h.sets h'.sets
  csets : Prefix m h.csets h'.csets
  dicts : h'.dicts = h.dicts

theorem Heap.LeC.refl (m : Nat) (h : Heap) : Heap.LeC m h h := ⟨Prefix.refl _ _, Prefix.refl _ _, rfl⟩
theorem Heap.LeC.trans {m : Nat} {h h' h'' : Heap} (a : Heap.LeC m h h') (b : Heap.LeC m h' h'') : Heap.LeC m h h'' :=
  ⟨a.sets.trans b.sets a.sets.1, a.csets.trans b.csets le_rfl, b.dicts.trans a.dicts⟩
theorem Heap.LeC.le {h h' : Heap} (a : Heap.LeC h.csets.length h h') : h.Le h' :=
  ⟨a.sets.2, a.csets.2, by rw [a.dicts]; simp⟩
theorem Heap.LeS.leC {h h' : Heap} (a : Heap.LeS h.sets.length h h') (m : Nat) : Heap.LeC m h h' :=
  ⟨a.sets, by rw [a.csets]; exact Prefix.refl _ _, a.dicts⟩

/-- A `ConstraintSet` object holds what a function on values returned. -/
def IsCS (h : Heap) (a : Nat) (s : CSet) : Prop := a < h.csets.length ∧ h.constraints a = s

theorem addConstraintH_sim (c : Constraint) {m self : Nat} {h : Heap} (ok : h.Ok) (hm : m ≤ self) (hs : self < h.csets.length) :
    Sim (Heap.LeC m) h (addConstraintH self c) (addConstraint (h.constraints self) c) (fun h' _ s => IsCS h' self s) := by
  have ha : h.csets.getD self 0 < h.sets.length := ok.csets _ (getD_mem hs _)
  unfold addConstraintH addConstraint
  refine Sim.read ?_
  refine Sim.andThen (K := Heap.LeC m) (fun _ _ _ => Heap.LeC.trans) (Rel := fun h' a s => h'.csets = h.csets ∧ IsSet h.sets.length h' a s)
    ((mergeNewConstraintsH_sim c ok ha).imp (fun h' k => k.leC m) (fun h' a s k _ hs => ⟨k.csets, hs⟩)) ?_
  rintro h' a s hl ok' ⟨h1, h3, h4, h5⟩
  refine ⟨⟨Prefix.refl _ _, pre_set _ _ hm, rfl⟩, ⟨?_, ?_⟩, ?_, ?_⟩
  · intro x hx
    show x < h'.sets.length
    rcases List.mem_or_eq_of_mem_set hx with hx | hx
    · exact ok'.csets x hx
    · exact hx ▸ h4
  · intro d hd p hp
    show _ < (h'.csets.set self a).length
    rw [List.length_set]
    exact ok'.dicts d hd p hp
  · show _ < (h'.csets.set self a).length
    rw [List.length_set, h1]
    exact hs
  · show h'.set ((h'.csets.set self a).getD self 0) = s
    rw [set_getD _ _ _ _ (by rw [h1]; exact hs)]
    exact h5

theorem addAllH_sim {m self : Nat} (hm : m ≤ self) (cs : List Constraint) : ∀ {h : Heap}, h.Ok → self < h.csets.length →
    Sim (Heap.LeC m) h (addAllH self cs) (addAll (h.constraints self) cs) (fun h' _ s => IsCS h' self s) := by
  induction cs with
  | nil => exact fun ok hs => ⟨Heap.LeC.refl _ _, ok, hs, rfl⟩
  | cons c rest ih =>
    intro h ok hs
    rw [addAllH, addAll]
    refine Sim.bind (K := Heap.LeC m) (fun _ _ _ => Heap.LeC.trans) (addConstraintH_sim c ok hm hs) ?_
    rintro h' - s hl ok' ⟨h1, h2⟩
    have := ih ok' h1
    rw [h2] at this
    exact this

/-- A new set and a new `ConstraintSet` that refers to it. -/
theorem grown {h : Heap} (ok : h.Ok) (s : CSet) :
    let h' : Heap := { h with sets := h.sets ++ [s], csets := h.csets ++ [h.sets.length] }
    Heap.LeC h.csets.length h h' ∧ h'.Ok ∧ IsCS h' h.csets.length s := by
  intro h'
  refine ⟨⟨pre_append _ _, pre_append _ _, rfl⟩, ⟨?_, ?_⟩, ?_, ?_⟩
  · intro x hx
    show x < (h.sets ++ [s]).length
    rcases List.mem_append.mp hx with hx | hx
    · have := ok.csets x hx
      simp; omega
    · simp at hx
      simp; omega
  · intro d hd p hp
    show _ < (h.csets ++ [h.sets.length]).length
    have := ok.dicts d hd p hp
    simp; omega
  · show _ < (h.csets ++ [h.sets.length]).length
    simp
  · show (h.sets ++ [s]).getD ((h.csets ++ [h.sets.length]).getD h.csets.length 0) _ = s
    rw [append_getD, append_getD]

theorem Heap.LeC.leD {h h' : Heap} (a : Heap.LeC h.csets.length h h') (k : Nat) : Heap.LeD k h h' :=
  ⟨a.sets, a.csets, by rw [a.dicts]; exact Prefix.refl _ _⟩

theorem mkConstraintSetH_sim {arg : Nat} {h : Heap} (ok : h.Ok) (ha : arg < h.sets.length) :
    Sim (Heap.LeC h.csets.length) h (mkConstraintSetH arg) (mkConstraintSet (iter (h.set arg))) IsCS := by
  obtain ⟨h1, h2, h3, h4⟩ := grown ok empty
  set h' : Heap := { h with sets := h.sets ++ [empty], csets := h.csets ++ [h.sets.length] } with hh'
  have e : mkConstraintSetH arg h = (if (iter (h.set arg)).length = 0 then HeapM.ofRes (.error .value)
      else do addAllH h.csets.length (iter (h.set arg)); return h.csets.length) h' := by
    have hx : (h.sets ++ [empty]).getD arg empty = h.set arg := append_getD_lt _ _ _ ha
    unfold mkConstraintSetH
    show (HeapM.bind (newSet empty) fun a => HeapM.bind (newCSet a) fun self => HeapM.bind (HeapM.read fun h => iter (h.set arg)) fun cs => _) h = _
    simp only [HeapM.bind, newSet, newCSet, HeapM.read, Heap.set, hx]
    rfl
  refine sim_of_eq e (fun _ => h1.trans) ?_
  unfold mkConstraintSet
  split
  · exact ⟨Heap.LeC.refl _ _, h2, rfl⟩
  · have := addAllH_sim (m := h.csets.length) le_rfl (iter (h.set arg)) h2 h3
    rw [h4] at this
    exact Sim.andThen (K := Heap.LeC h.csets.length) (fun _ _ _ => Heap.LeC.trans) this
      fun h'' _ s _ ok'' hs => ⟨Heap.LeC.refl _ _, ok'', hs⟩

/-- `combine_sets` changes neither of its operands. -/
theorem combineSetsH_sim {a b : Nat} {h : Heap} (ok : h.Ok) (ha : a < h.csets.length) :
    Sim (Heap.LeC h.csets.length) h (combineSetsH a b) (combineSets (h.constraints a) (h.constraints b)) IsCS := by
  have ha' : h.csets.getD a 0 < h.sets.length := ok.csets _ (getD_mem ha _)
  have hlen : ∀ (l : List CSet) (s : CSet), (l ++ [s]).length = l.length + 1 := fun l s => by simp
  obtain ⟨k1, k2, k3, k4, k5⟩ := scanned ok le_rfl (copy (h.constraints b)) (union (h.constraints a) (copy (h.constraints b)))
  set h' : Heap := { h with sets := h.sets ++ [copy (h.constraints b)] ++ [union (h.constraints a) (copy (h.constraints b))] }
  have e : combineSetsH a b h = mkConstraintSetH (h.sets.length + 1) h' := by
    have hx : (h.sets ++ [copy (h.constraints b)]).getD (h.csets.getD a 0) empty = h.constraints a := append_getD_lt _ _ _ ha'
    unfold combineSetsH
    show (HeapM.bind (HeapM.read (·.constraints b)) fun x => HeapM.bind (newSet (copy x)) fun copied =>
      HeapM.bind (HeapM.read (·.constraints a)) fun y => HeapM.bind (HeapM.read (·.set copied)) fun z =>
      HeapM.bind (newSet (union y z)) fun joined => mkConstraintSetH joined) h = _
    simp only [HeapM.bind, newSet, HeapM.read, append_getD, hlen, Heap.set, Heap.constraints] at hx ⊢
    rw [hx]
    rfl
  refine sim_of_eq e (fun _ => (k1.leC _).trans) ?_
  have := mkConstraintSetH_sim k2 k5
  rw [k4] at this
  exact this

theorem createConstraintSetH_sim {h : Heap} (ok : h.Ok) :
    Sim (Heap.LeC h.csets.length) h createConstraintSetH createConstraintSet IsCS := by
  have hl : Heap.LeS h.sets.length h { h with sets := h.sets ++ [PyRuntime.insert PyRuntime.empty Constraint.null] } := ⟨pre_append _ _, rfl, rfl⟩
  refine sim_of_eq (m' := mkConstraintSetH h.sets.length) (h' := { h with sets := h.sets ++ [PyRuntime.insert PyRuntime.empty Constraint.null] }) rfl
    (fun _ => (hl.leC _).trans) ?_
  have := mkConstraintSetH_sim (hl.ok ok) (arg := h.sets.length) (by show _ < (h.sets ++ [_]).length; simp)
  rw [show Heap.set { h with sets := h.sets ++ [PyRuntime.insert PyRuntime.empty Constraint.null] } h.sets.length = PyRuntime.insert PyRuntime.empty Constraint.null from append_getD _ _ _,
    iter_insert_empty] at this
  exact this

/-! ### Outcomes and dicts -/

/-- An outcome object is what a function on values returned. -/
def IsOut (h : Heap) (o : OutRef) (x : Outcome) : Prop := o.cs < h.csets.length ∧ h.outcome o = x

theorem combine_sim (op : BinOp) {a b : OutRef} {h : Heap} (ok : h.Ok) (ha : a.cs < h.csets.length) :
    Sim (Heap.LeC h.csets.length) h (OutRef.combine op a b) (Outcome.combine op (h.outcome a) (h.outcome b)) IsOut := by
  unfold OutRef.combine Outcome.combine
  refine Sim.bind (K := Heap.LeC h.csets.length) (fun _ _ _ => Heap.LeC.trans)
    (m := HeapM.ofRes (op.apply a.value b.value)) (Rel := fun h' x y => h' = h ∧ x = y) ?_ ?_
  · exact sim_ofRes (Heap.LeC.refl _ _) ok fun _ => ⟨rfl, rfl⟩
  · rintro h' v _ - - ⟨rfl, rfl⟩
    exact Sim.bind (K := Heap.LeC h'.csets.length) (fun _ _ _ => Heap.LeC.trans) (combineSetsH_sim ok ha)
      fun h'' cs s _ ok'' hs => ⟨Heap.LeC.refl _ _, ok'', hs.1, congrArg (Outcome.mk v) hs.2⟩

theorem createEmptyH_sim (v : Int) {h : Heap} (ok : h.Ok) : Sim (Heap.LeC h.csets.length) h (createEmptyH v) (createEmpty v) IsOut := by
  unfold createEmptyH createEmpty
  exact Sim.bind (K := Heap.LeC h.csets.length) (fun _ _ _ => Heap.LeC.trans) (createConstraintSetH_sim ok)
    fun h' cs s _ ok' hs => ⟨Heap.LeC.refl _ _, ok', hs.1, congrArg (Outcome.mk v) hs.2⟩

/-- The content of a dict with the outcomes it holds. -/
def Heap.entries (h : Heap) (d : List (OutRef × Nat)) : List (Outcome × Nat) := d.map fun p => (h.outcome p.1, p.2)

/-- No key dangles. -/
def Heap.Valid (h : Heap) (d : List (OutRef × Nat)) : Prop := ∀ p ∈ d, p.1.cs < h.csets.length

theorem Heap.Ok.valid {h : Heap} (ok : h.Ok) (a : Nat) : h.Valid (h.dict a) := by
  unfold Heap.dict
  by_cases ha : a < h.dicts.length
  · exact ok.dicts _ (getD_mem ha _)
  · rw [List.getD_eq_getElem?_getD, List.getElem?_eq_none (by omega)]
    intro p hp
    simp at hp

theorem Heap.LeD.valid {k : Nat} {h h' : Heap} (a : Heap.LeD k h h') {d : List (OutRef × Nat)} (hd : h.Valid d) : h'.Valid d :=
  fun p hp => (hd p hp).trans_le a.csets.1

theorem Heap.LeD.entries {k : Nat} {h h' : Heap} (a : Heap.LeD k h h') (ok : h.Ok) {d : List (OutRef × Nat)} (hd : h.Valid d) :
    h'.entries d = h.entries d :=
  List.map_congr_left fun p hp => by rw [a.outcome ok (hd p hp)]

theorem entries_safeAdd (h : Heap) (d : List (OutRef × Nat)) (k : OutRef) (n : Nat) :
    h.entries (@safeAdd _ h.outEq d k n) = safeAdd (h.entries d) (h.outcome k) n := by
  induction d with
  | nil => rfl
  | cons p d ih =>
    obtain ⟨k', m⟩ := p
    show h.entries (if (h.outcome k' == h.outcome k) = true then _ else _) = if (h.outcome k' == h.outcome k) = true then _ else _
    split
    · rfl
    · show (h.outcome k', m) :: h.entries _ = _
      rw [ih]
      rfl

theorem entries_dictSet (h : Heap) (d : List (OutRef × Nat)) (k : OutRef) (n : Nat) :
    h.entries (@dictSet _ _ h.outEq d k n) = dictSet (h.entries d) (h.outcome k) n := by
  induction d with
  | nil => rfl
  | cons p d ih =>
    obtain ⟨k', m⟩ := p
    show h.entries (if (h.outcome k' == h.outcome k) = true then _ else _) = if (h.outcome k' == h.outcome k) = true then _ else _
    split
    · rfl
    · show (h.outcome k', m) :: h.entries _ = _
      rw [ih]
      rfl

theorem valid_safeAdd (h : Heap) {d : List (OutRef × Nat)} (hd : h.Valid d) {k : OutRef} (hk : k.cs < h.csets.length) (n : Nat) :
    h.Valid (@safeAdd _ h.outEq d k n) := by
  induction d with
  | nil =>
    intro p hp
    simp only [safeAdd, List.mem_singleton] at hp
    rw [hp]
    exact hk
  | cons p d ih =>
    obtain ⟨k', m⟩ := p
    have h1 := hd _ (List.mem_cons_self ..)
    have h2 : h.Valid d := fun q hq => hd q (List.mem_cons_of_mem _ hq)
    unfold safeAdd
    split
    · intro q hq
      rcases List.mem_cons.mp hq with rfl | hq
      · exact h1
      · exact h2 q hq
    · intro q hq
      rcases List.mem_cons.mp hq with rfl | hq
      · exact h1
      · exact ih h2 q hq

theorem valid_dictSet (h : Heap) {d : List (OutRef × Nat)} (hd : h.Valid d) {k : OutRef} (hk : k.cs < h.csets.length) (n : Nat) :
    h.Valid (@dictSet _ _ h.outEq d k n) := by
  induction d with
  | nil =>
    intro p hp
    simp only [dictSet, List.mem_singleton] at hp
    rw [hp]
    exact hk
  | cons p d ih =>
    obtain ⟨k', m⟩ := p
    have h1 := hd _ (List.mem_cons_self ..)
    have h2 : h.Valid d := fun q hq => hd q (List.mem_cons_of_mem _ hq)
    unfold dictSet
    split
    · intro q hq
      rcases List.mem_cons.mp hq with rfl | hq
      · exact h1
      · exact h2 q hq
    · intro q hq
      rcases List.mem_cons.mp hq with rfl | hq
      · exact h1
      · exact ih h2 q hq

/-- The dict object at `a` has this content. -/
def IsDict (a : Nat) (h : Heap) (l : List (Outcome × Nat)) : Prop := a < h.dicts.length ∧ h.entries (h.dict a) = l

theorem IsDict.leD {a : Nat} {h h' : Heap} {l : List (Outcome × Nat)} (hd : IsDict a h l) (ok : h.Ok) (hl : Heap.LeD (a + 1) h h') :
    IsDict a h' l := by
  refine ⟨hd.1.trans_le hl.dicts.1, ?_⟩
  have : h'.dict a = h.dict a := hl.dicts.getD (by omega) _
  rw [this, hl.entries ok (ok.valid a)]
  exact hd.2

theorem changeDict_step {a : Nat} {f : Heap → List (OutRef × Nat) → List (OutRef × Nat)} {h : Heap} {l : List (Outcome × Nat)} (ok : h.Ok)
    (ha : a < h.dicts.length) (hv : h.Valid (f h (h.dict a))) (he : h.entries (f h (h.dict a)) = l) :
    Sim (Heap.LeD a) h (changeDict a f) (.ok l) (fun h' _ l => IsDict a h' l) := by
  refine ⟨⟨Prefix.refl _ _, Prefix.refl _ _, pre_set _ _ le_rfl⟩, ⟨ok.csets, ?_⟩, ?_, ?_⟩
  · intro d hd p hp
    rcases List.mem_or_eq_of_mem_set hd with hd | hd
    · exact ok.dicts d hd p hp
    · exact hv p (hd ▸ hp)
  · show a < (h.dicts.set a _).length
    simpa using ha
  · show h.entries ((h.dicts.set a _).getD a []) = l
    rw [set_getD _ _ _ _ ha]
    exact he

theorem safeAddH_sim {a : Nat} {h : Heap} {l : List (Outcome × Nat)} (ok : h.Ok) (hd : IsDict a h l) {k : OutRef}
    (hk : k.cs < h.csets.length) (n : Nat) :
    Sim (Heap.LeD a) h (safeAddH a k n) (.ok (safeAdd l (h.outcome k) n)) (fun h' _ l => IsDict a h' l) :=
  changeDict_step ok hd.1 (valid_safeAdd h (ok.valid a) hk n) (by rw [entries_safeAdd, hd.2])

theorem dictSetH_sim {a : Nat} {h : Heap} {l : List (Outcome × Nat)} (ok : h.Ok) (hd : IsDict a h l) {k : OutRef}
    (hk : k.cs < h.csets.length) (n : Nat) :
    Sim (Heap.LeD a) h (dictSetH a k n) (.ok (dictSet l (h.outcome k) n)) (fun h' _ l => IsDict a h' l) :=
  changeDict_step ok hd.1 (valid_dictSet h (ok.valid a) hk n) (by rw [entries_dictSet, hd.2])

theorem addOutcomesH_sim {a : Nat} (ps : List (OutRef × Nat)) : ∀ {h : Heap} {l : List (Outcome × Nat)}, h.Ok → IsDict a h l → h.Valid ps →
    Sim (Heap.LeD a) h (addOutcomesH a ps) (.ok ((h.entries ps).foldl (fun d p => safeAdd d p.1 p.2) l)) (fun h' _ l => IsDict a h' l) := by
  induction ps with
  | nil => exact fun ok hd _ => ⟨Heap.LeD.refl _ _, ok, hd⟩
  | cons p ps ih =>
    intro h l ok hd hv
    have hv' : h.Valid ps := fun q hq => hv q (List.mem_cons_of_mem _ hq)
    rw [addOutcomesH]
    refine Sim.bind (K := Heap.LeD a) (fun _ _ _ => Heap.LeD.trans) (safeAddH_sim ok hd (hv _ (List.mem_cons_self ..)) p.2) (g := fun l' =>
      .ok ((h.entries ps).foldl (fun d p => safeAdd d p.1 p.2) l')) ?_
    intro h' _ l' hl ok' hd'
    rw [← hl.entries ok hv']
    exact ih ok' hd' (hl.valid hv')

/-- A distribution object is what a function on values returned. -/
def IsDist (h : Heap) (d : DistRef) (x : Dist) : Prop := d.map < h.dicts.length ∧ h.dist d = x

theorem countH_sim {a : Nat} {h : Heap} {l : List (Outcome × Nat)} (ok : h.Ok) (hd : IsDict a h l) :
    Sim (Heap.LeD a) h (countH a) (.ok ⟨l, l.foldl (fun c p => c + p.2) 0⟩) IsDist := by
  refine ⟨Heap.LeD.refl _ _, ok, hd.1, ?_⟩
  show Dist.mk (h.entries (h.dict a)) _ = _
  rw [hd.2]
  congr 1
  rw [← hd.2]
  unfold Heap.entries
  rw [List.foldl_map]

/-- A new empty dict. -/
theorem newDict_step {h : Heap} (ok : h.Ok) : let h' : Heap := { h with dicts := h.dicts ++ [[]] }
    Heap.LeD h.dicts.length h h' ∧ h'.Ok ∧ IsDict h.dicts.length h' [] := by
  intro h'
  refine ⟨⟨Prefix.refl _ _, Prefix.refl _ _, pre_append _ _⟩, ⟨ok.csets, ?_⟩, ?_, ?_⟩
  · intro d hd p hp
    rcases List.mem_append.mp hd with hd | hd
    · exact ok.dicts d hd p hp
    · simp at hd
      rw [hd] at hp
      simp at hp
  · show _ < (h.dicts ++ [[]]).length
    simp
  · show h.entries ((h.dicts ++ [[]]).getD h.dicts.length []) = []
    rw [append_getD]
    rfl

/-- Building up a dict and then a distribution with it. -/
theorem built {m : Nat → HeapM Unit} {r : Res (List (Outcome × Nat))} {h : Heap} (ok : h.Ok)
    (hm : ∀ h', Heap.LeD h.dicts.length h h' → h'.Ok → IsDict h.dicts.length h' [] →
      Sim (Heap.LeD h.dicts.length) h' (m h.dicts.length) r (fun h'' _ l => IsDict h.dicts.length h'' l))
    {f : Nat → HeapM DistRef} {g : List (Outcome × Nat) → Dist}
    (hf : ∀ h' l, Heap.LeD h.dicts.length h h' → h'.Ok → IsDict h.dicts.length h' l →
      Sim (Heap.LeD h.dicts.length) h' (f h.dicts.length) (.ok (g l)) IsDist) :
    Sim Heap.Le h (do let acc ← newDict; m acc; f acc) (do let l ← r; return g l) IsDist := by
  obtain ⟨h1, h2, h3⟩ := newDict_step ok
  have main : Sim (Heap.LeD h.dicts.length) h (do let acc ← newDict; m acc; f acc) (do let l ← r; return g l) IsDist := by
    refine sim_of_eq (h' := { h with dicts := h.dicts ++ [[]] }) (m' := do m h.dicts.length; f h.dicts.length) rfl (fun _ => h1.trans) ?_
    refine Sim.bind (K := Heap.LeD h.dicts.length) (fun _ _ _ => Heap.LeD.trans) (hm _ h1 h2 h3) ?_
    intro h' _ l hl ok' hd
    exact hf h' l (h1.trans hl) ok' hd
  exact main.imp (fun _ => Heap.LeD.le) (fun _ _ _ _ _ hr => hr)

theorem mkDistH_sim {arg : Nat} {h : Heap} (ok : h.Ok) (l : List (Outcome × Nat)) (hd : IsDict arg h l) :
    Sim Heap.Le h (mkDistH arg) (.ok (mkDist l)) IsDist := by
  have := built (m := fun a => do addOutcomesH a (← HeapM.read (·.dict arg))) (r := .ok (l.foldl (fun d p => safeAdd d p.1 p.2) []))
    (f := countH) (g := fun l => ⟨l, l.foldl (fun c p => c + p.2) 0⟩) ok ?_ ?_
  · exact this
  · intro h' hl ok' hd'
    refine Sim.read ?_
    have he : h'.dict arg = h.dict arg := hl.dicts.getD hd.1 _
    have := addOutcomesH_sim (a := h.dicts.length) (h'.dict arg) ok' hd' (ok'.valid arg)
    rw [he, hl.entries ok (ok.valid arg), hd.2] at this
    rw [he]
    exact this
  · intro h' l' _ ok' hd'
    exact countH_sim ok' hd'

/-! ### The operators -/

theorem combineLoopH_sim (op : BinOp) {a : Nat} (ps : List ((OutRef × Nat) × (OutRef × Nat))) : ∀ {h : Heap} {l : List (Outcome × Nat)},
    h.Ok → IsDict a h l → (∀ p ∈ ps, p.1.1.cs < h.csets.length ∧ p.2.1.cs < h.csets.length) →
    Sim (Heap.LeD a) h (combineLoopH op a ps)
      (combineLoop op (ps.map fun p => ((h.outcome p.1.1, p.1.2), (h.outcome p.2.1, p.2.2))) l) (fun h' _ l => IsDict a h' l) := by
  induction ps with
  | nil => exact fun ok hd _ => ⟨Heap.LeD.refl _ _, ok, hd⟩
  | cons p ps ih =>
    intro h l ok hd hv
    obtain ⟨p, q⟩ := p
    obtain ⟨hp, hq⟩ := hv _ (List.mem_cons_self ..)
    have hv' : ∀ p ∈ ps, p.1.1.cs < h.csets.length ∧ p.2.1.cs < h.csets.length := fun q hq => hv q (List.mem_cons_of_mem _ hq)
    have next : ∀ {h'}, Heap.LeD a h h' → (∀ p ∈ ps, p.1.1.cs < h'.csets.length ∧ p.2.1.cs < h'.csets.length) ∧
        (ps.map fun p => ((h.outcome p.1.1, p.1.2), (h.outcome p.2.1, p.2.2))) =
          ps.map fun p => ((h'.outcome p.1.1, p.1.2), (h'.outcome p.2.1, p.2.2)) := by
      intro h' hl
      refine ⟨fun p hp => ⟨(hv' p hp).1.trans_le hl.csets.1, (hv' p hp).2.trans_le hl.csets.1⟩, List.map_congr_left fun p hp => ?_⟩
      rw [hl.outcome ok (hv' p hp).1, hl.outcome ok (hv' p hp).2]
    rw [combineLoopH, List.map_cons, combineLoop]
    refine Sim.bind (K := Heap.LeD a) (fun _ _ _ => Heap.LeD.trans) (Rel := fun h' o x => IsOut h' o x ∧ IsDict a h' l)
      ((combine_sim op ok hp (b := q.1)).imp (fun _ hl => hl.leD _) fun h' o x hl _ hx => ⟨hx, hd.leD ok (hl.leD _)⟩) ?_
    rintro h' o x hl ok' ⟨⟨ho, rfl⟩, hd'⟩
    obtain ⟨hv1, hv2⟩ := next hl
    refine Sim.read ?_
    rw [hv2]
    split
    · refine Sim.bind (K := Heap.LeD a) (fun _ _ _ => Heap.LeD.trans) (safeAddH_sim ok' hd' ho (p.2 * q.2)) (g := fun l' => combineLoop op
        (ps.map fun p => ((h'.outcome p.1.1, p.1.2), (h'.outcome p.2.1, p.2.2))) l') ?_
      intro h'' _ l' hl' ok'' hd''
      obtain ⟨hv3, hv4⟩ := next (hl.trans hl')
      rw [hv2] at hv4
      rw [hv4]
      exact ih ok'' hd'' hv3
    · exact ih ok' hd' hv1

omit R in
theorem pairsOf_map {α β γ δ : Type} (f : α → γ) (g : β → δ) (a : List α) (b : List β) :
    pairsOf (a.map f) (b.map g) = (pairsOf a b).map fun p => (f p.1, g p.2) := by
  unfold pairsOf
  rw [List.flatMap_map, List.map_flatMap]
  refine List.flatMap_congr fun p _ => ?_
  rw [List.map_map, List.map_map]
  rfl

omit R in
theorem mem_pairsOf' {α β : Type} {a : List α} {b : List β} {p : α × β} (h : p ∈ pairsOf a b) : p.1 ∈ a ∧ p.2 ∈ b := by
  unfold pairsOf at h
  rw [List.mem_flatMap] at h
  obtain ⟨x, hx, h⟩ := h
  rw [List.mem_map] at h
  obtain ⟨y, hy, rfl⟩ := h
  exact ⟨hx, hy⟩

/-- The binary operators build a new distribution and leave everything else alone. -/
theorem binop_sim (op : BinOp) {a b : DistRef} {h : Heap} (ok : h.Ok) (ha : a.map < h.dicts.length) (hb : b.map < h.dicts.length) :
    Sim Heap.Le h (DistRef.binop op a b) (Dist.binop op (h.dist a) (h.dist b)) IsDist := by
  refine built (m := fun acc => do combineLoopH op acc (pairsOf (← HeapM.read (·.dict a.map)) (← HeapM.read (·.dict b.map))))
    (f := mkDistH) ok ?_ ?_
  · intro h' hl ok' hd'
    refine Sim.read (Sim.read ?_)
    have ea : h'.dict a.map = h.dict a.map := hl.dicts.getD ha _
    have eb : h'.dict b.map = h.dict b.map := hl.dicts.getD hb _
    have := combineLoopH_sim op (a := h.dicts.length) (pairsOf (h'.dict a.map) (h'.dict b.map)) ok' hd' fun p hp =>
      ⟨ok'.valid _ _ (mem_pairsOf' hp).1, ok'.valid _ _ (mem_pairsOf' hp).2⟩
    rw [← pairsOf_map (fun p : OutRef × Nat => (h'.outcome p.1, p.2)) (fun p : OutRef × Nat => (h'.outcome p.1, p.2))] at this
    have e1 : (h'.dict a.map).map (fun p => (h'.outcome p.1, p.2)) = (h.dist a).resultMap := by
      rw [ea]; exact hl.entries ok (ok.valid _)
    have e2 : (h'.dict b.map).map (fun p => (h'.outcome p.1, p.2)) = (h.dist b).getConstraintResultMap := by
      rw [eb]; exact hl.entries ok (ok.valid _)
    rw [e1, e2] at this
    exact this
  · intro h' l hl ok' hd'
    exact (mkDistH_sim ok' l hd').imp (fun _ hk => hk.leD (by have := hd'.1; omega)) (fun _ _ _ _ _ hr => hr)

theorem mapLoopH_sim (f : OutRef → OutRef) (g : Outcome → Outcome) (hcs : ∀ o, (f o).cs = o.cs)
    (hfg : ∀ (h : Heap) o, h.outcome (f o) = g (h.outcome o)) {a : Nat} (ps : List (OutRef × Nat)) :
    ∀ {h : Heap} {l : List (Outcome × Nat)}, h.Ok → IsDict a h l → h.Valid ps →
    Sim (Heap.LeD a) h (mapLoopH f a ps) (.ok ((h.entries ps).foldl (fun d p => safeAdd d (g p.1) p.2) l)) (fun h' _ l => IsDict a h' l) := by
  induction ps with
  | nil => exact fun ok hd _ => ⟨Heap.LeD.refl _ _, ok, hd⟩
  | cons p ps ih =>
    intro h l ok hd hv
    have hv' : h.Valid ps := fun q hq => hv q (List.mem_cons_of_mem _ hq)
    rw [mapLoopH]
    have hs := safeAddH_sim ok hd (k := f p.1) (by rw [hcs]; exact hv _ (List.mem_cons_self ..)) p.2
    rw [hfg] at hs
    refine Sim.bind (K := Heap.LeD a) (fun _ _ _ => Heap.LeD.trans) hs
      (g := fun l' => .ok ((h.entries ps).foldl (fun d p => safeAdd d (g p.1) p.2) l')) ?_
    intro h' _ l' hl ok' hd'
    rw [← hl.entries ok hv']
    exact ih ok' hd' (hl.valid hv')

theorem mapOp_sim (f : OutRef → OutRef) (g : Outcome → Outcome) (hcs : ∀ o, (f o).cs = o.cs)
    (hfg : ∀ (h : Heap) o, h.outcome (f o) = g (h.outcome o)) {d : DistRef} {h : Heap} (ok : h.Ok) (hd : d.map < h.dicts.length) :
    Sim Heap.Le h (do let acc ← newDict; mapLoopH f acc (← HeapM.read (·.dict d.map)); mkDistH acc)
      (.ok (mkDist ((h.dist d).resultMap.foldl (fun m p => safeAdd m (g p.1) p.2) []))) IsDist := by
  refine built (m := fun acc => do mapLoopH f acc (← HeapM.read (·.dict d.map))) (f := mkDistH) (g := mkDist)
    (r := .ok ((h.dist d).resultMap.foldl (fun m p => safeAdd m (g p.1) p.2) [])) ok ?_ ?_
  · intro h' hl ok' hd'
    refine Sim.read ?_
    have e : h'.dict d.map = h.dict d.map := hl.dicts.getD hd _
    have := mapLoopH_sim f g hcs hfg (a := h.dicts.length) (h'.dict d.map) ok' hd' (ok'.valid _)
    rw [show h'.entries (h'.dict d.map) = (h.dist d).resultMap by rw [e]; exact hl.entries ok (ok.valid _)] at this
    exact this
  · intro h' l hl ok' hd'
    exact (mkDistH_sim ok' l hd').imp (fun _ hk => hk.leD (by have := hd'.1; omega)) (fun _ _ _ _ _ hr => hr)

theorem notOp_sim {d : DistRef} {h : Heap} (ok : h.Ok) (hd : d.map < h.dicts.length) :
    Sim Heap.Le h d.notOp (.ok (h.dist d).notOp) IsDist := mapOp_sim OutRef.notOp Outcome.notOp (fun _ => rfl) (fun _ _ => rfl) ok hd
theorem absOp_sim {d : DistRef} {h : Heap} (ok : h.Ok) (hd : d.map < h.dicts.length) :
    Sim Heap.Le h d.absOp (.ok (h.dist d).absOp) IsDist := mapOp_sim OutRef.absOp Outcome.absOp (fun _ => rfl) (fun _ _ => rfl) ok hd

/-- The loop over int keys, one key at a time. -/
def addInts : List (Outcome × Nat) → List (Int × Nat) → Res (List (Outcome × Nat))
  | acc, [] => .ok acc
  | acc, p :: rest => do addInts (safeAdd acc (← createEmpty p.1) p.2) rest

theorem addInts_eq (m : List (Int × Nat)) : ∀ acc, addInts acc m =
    (do let os ← m.mapM (fun p => do return ((← createEmpty p.1), p.2)); return os.foldl (fun d p => safeAdd d p.1 p.2) acc : Res _) := by
  induction m with
  | nil => intro acc; rfl
  | cons p m ih =>
    intro acc
    rw [addInts, List.mapM_cons]
    cases hc : createEmpty p.1 with
    | error e => rfl
    | ok o =>
      show addInts (safeAdd acc o p.2) m = _
      rw [ih]
      show _ = Except.bind (Except.bind _ _) _
      cases List.mapM (m := Except Err) (fun p : Int × Nat => do return ((← createEmpty p.1), p.2)) m <;> rfl

theorem addIntsH_sim {a : Nat} (m : List (Int × Nat)) : ∀ {h : Heap} {l : List (Outcome × Nat)}, h.Ok → IsDict a h l →
    Sim (Heap.LeD a) h (addIntsH a m) (addInts l m) (fun h' _ l => IsDict a h' l) := by
  induction m with
  | nil => exact fun ok hd => ⟨Heap.LeD.refl _ _, ok, hd⟩
  | cons p m ih =>
    intro h l ok hd
    rw [addIntsH, addInts]
    refine Sim.bind (K := Heap.LeD a) (fun _ _ _ => Heap.LeD.trans) (Rel := fun h' o x => IsOut h' o x ∧ IsDict a h' l)
      ((createEmptyH_sim p.1 ok).imp (fun _ hl => hl.leD _) fun h' o x hl _ hx => ⟨hx, hd.leD ok (hl.leD _)⟩) ?_
    rintro h' o x hl ok' ⟨⟨ho, rfl⟩, hd'⟩
    exact Sim.bind (K := Heap.LeD a) (fun _ _ _ => Heap.LeD.trans) (safeAddH_sim ok' hd' ho p.2) (g := fun l' => addInts l' m)
      fun h'' _ l' _ ok'' hd'' => ih ok'' hd''

theorem mkDistIntH_sim (m : List (Int × Nat)) {h : Heap} (ok : h.Ok) : Sim Heap.Le h (mkDistIntH m) (mkDistInt m) IsDist := by
  have e : mkDistInt m = (do let l ← addInts [] m; return ⟨l, l.foldl (fun c p => c + p.2) 0⟩ : Res Dist) := by
    rw [addInts_eq]
    unfold mkDistInt
    show Except.bind _ _ = Except.bind (Except.bind _ _) _
    cases List.mapM (m := Except Err) (fun p : Int × Nat => do return ((← createEmpty p.1), p.2)) m <;> rfl
  rw [e]
  exact built (m := fun a => addIntsH a m) (f := countH) ok (fun h' _ ok' hd' => addIntsH_sim m ok' hd') (fun h' l _ ok' hd' => countH_sim ok' hd')

/-! ### `set_var` -/

theorem tagOutcomeH_sim (newName : Str) (o : OutRef) {h : Heap} (ok : h.Ok) :
    Sim (Heap.LeC h.csets.length) h (tagOutcomeH newName o) (tagOutcome newName (h.outcome o)) IsOut := by
  obtain ⟨g1, g2, g3, g4⟩ := grown ok (deepcopy (h.constraints o.cs))
  set h1 : Heap := { h with sets := h.sets ++ [deepcopy (h.constraints o.cs)], csets := h.csets ++ [h.sets.length] } with hh1
  have e : tagOutcomeH newName o h = (do
      addConstraintH h.csets.length (.varValue newName [o.value])
      return ⟨o.value, h.csets.length⟩ : HeapM OutRef) h1 := rfl
  refine sim_of_eq e (fun _ => g1.trans) ?_
  have hs := addConstraintH_sim (.varValue newName [o.value]) g2 (m := h.csets.length) le_rfl g3
  rw [g4] at hs
  exact Sim.bind (K := Heap.LeC h.csets.length) (fun _ _ _ => Heap.LeC.trans) hs
    fun h' _ s _ ok' hs => ⟨Heap.LeC.refl _ _, ok', hs.1, congrArg (Outcome.mk o.value) hs.2⟩

theorem tagLoopH_sim (newName : Str) {a : Nat} (ps : List (OutRef × Nat)) : ∀ {h : Heap} {l : List (Outcome × Nat)}, h.Ok → IsDict a h l →
    h.Valid ps → Sim (Heap.LeD a) h (tagLoopH newName a ps) (tagLoop newName (h.entries ps) l) (fun h' _ l => IsDict a h' l) := by
  induction ps with
  | nil => exact fun ok hd _ => ⟨Heap.LeD.refl _ _, ok, hd⟩
  | cons p ps ih =>
    intro h l ok hd hv
    obtain ⟨o, n⟩ := p
    have hv' : h.Valid ps := fun q hq => hv q (List.mem_cons_of_mem _ hq)
    rw [tagLoopH]
    show Sim _ _ _ (tagOutcome newName (h.outcome o) >>= fun o' => tagLoop newName (h.entries ps) (dictSet l o' n)) _
    refine Sim.bind (K := Heap.LeD a) (fun _ _ _ => Heap.LeD.trans) (Rel := fun h' o x => IsOut h' o x ∧ IsDict a h' l)
      ((tagOutcomeH_sim newName o ok).imp (fun _ hl => hl.leD _) fun h' o x hl _ hx => ⟨hx, hd.leD ok (hl.leD _)⟩) ?_
    rintro h' o' x hl ok' ⟨⟨ho, rfl⟩, hd'⟩
    refine Sim.bind (K := Heap.LeD a) (fun _ _ _ => Heap.LeD.trans) (dictSetH_sim ok' hd' ho n)
      (g := fun l' => tagLoop newName (h.entries ps) l') ?_
    intro h'' _ l' hl' ok'' hd''
    rw [← (hl.trans hl').entries ok hv']
    exact ih ok'' hd'' ((hl.trans hl').valid hv')

theorem tagDistH_sim (newName : Str) {d : DistRef} {h : Heap} (ok : h.Ok) (hd : d.map < h.dicts.length) :
    Sim Heap.Le h (tagDistH newName d) (do let m ← tagLoop newName (h.dist d).getConstraintResultMap []; return mkDist m) IsDist := by
  refine built (m := fun acc => do tagLoopH newName acc (← HeapM.read (·.dict d.map))) (f := mkDistH) ok ?_ ?_
  · intro h' hl ok' hd'
    refine Sim.read ?_
    have e : h'.dict d.map = h.dict d.map := hl.dicts.getD hd _
    have := tagLoopH_sim newName (a := h.dicts.length) (h'.dict d.map) ok' hd' (ok'.valid _)
    rw [show h'.entries (h'.dict d.map) = (h.dist d).getConstraintResultMap by rw [e]; exact hl.entries ok (ok.valid _)] at this
    exact this
  · intro h' l hl ok' hd'
    exact (mkDistH_sim ok' l hd').imp (fun _ hk => hk.leD (by have := hd'.1; omega)) (fun _ _ _ _ _ hr => hr)

/-! ### Dice -/

theorem getResultMap_sim {d : DistRef} {h : Heap} (ok : h.Ok) :
    Sim Heap.Le h d.getResultMap (.ok (h.dist d).getResultMap) (fun h' x y => h' = h ∧ x = y) := by
  refine ⟨Heap.Le.refl _, ok, rfl, ?_⟩
  show List.foldl _ _ _ = List.foldl _ _ ((h.dict d.map).map _)
  rw [List.foldl_map]
  rfl

theorem addDiceH_sim (n : Nat) : ∀ {single d : DistRef} {h : Heap}, h.Ok → single.map < h.dicts.length → d.map < h.dicts.length →
    Sim Heap.Le h (addDiceH single n d) (addDice (h.dist single) n (h.dist d)) IsDist := by
  induction n with
  | zero => exact fun ok _ hd => ⟨Heap.Le.refl _, ok, hd, rfl⟩
  | succ n ih =>
    intro single d h ok hs hd
    rw [addDiceH, addDice]
    refine Sim.bind (K := Heap.Le) (fun _ _ _ => Heap.Le.trans) (binop_sim .add ok hd hs) ?_
    rintro h' d' _ hl ok' ⟨h1, rfl⟩
    rw [← hl.dist ok hs]
    exact ih ok' (hs.trans_le hl.pre.2.2.1) h1

theorem diceH_sim (t : DiceTerm) {h : Heap} (ok : h.Ok) : Sim Heap.Le h t.distH t.dist IsDist := by
  unfold DiceTerm.distH DiceTerm.dist
  refine Sim.bind (K := Heap.Le) (fun _ _ _ => Heap.Le.trans) (mkDistIntH_sim t.table ok) ?_
  rintro h1 single _ hl1 ok1 ⟨hs, rfl⟩
  refine Sim.bind (K := Heap.Le) (fun _ _ _ => Heap.Le.trans) (getResultMap_sim ok1) (g := fun m => do
    let d ← mkDistInt m
    addDice (h1.dist single) (t.number - 1) d) ?_
  rintro h2 m _ - ok2 ⟨rfl, rfl⟩
  refine Sim.bind (K := Heap.Le) (fun _ _ _ => Heap.Le.trans) (mkDistIntH_sim m ok2) ?_
  rintro h3 d _ hl3 ok3 ⟨hd, rfl⟩
  rw [← hl3.dist ok2 hs]
  exact addDiceH_sim _ ok3 (hs.trans_le hl3.pre.2.2.1) hd

theorem dropKeepH_sim (t : DropKeepTerm) {h : Heap} (ok : h.Ok) : Sim Heap.Le h t.distH t.dist IsDist := by
  unfold DropKeepTerm.distH DropKeepTerm.dist
  cases t.simplified with
  | dice d => exact diceH_sim d ok
  | zero => exact mkDistIntH_sim _ ok
  | none =>
    refine Sim.bind (K := Heap.Le) (fun _ _ _ => Heap.Le.trans) (Rel := fun h' x y => h' = h ∧ x = y)
      (sim_ofRes (Heap.Le.refl _) ok fun _ => ⟨rfl, rfl⟩) ?_
    rintro h' m _ - - ⟨rfl, rfl⟩
    exact mkDistIntH_sim m ok

/-! ### Expressions and the interpreter -/

/-- A method on the heap state does what the method on values does. -/
def SimE {α β : Type} (s : HState) (m : HEvalM α) (f : EvalM β) (Rel : Heap → α → β → Prop) : Prop :=
  s.heap.Le (m s).2.heap ∧ (m s).2.Ok ∧ (m s).2.state = (f s.state).2 ∧
    (match (m s).1, (f s.state).1 with | .ok a, .ok b => Rel (m s).2.heap a b | .error e, .error e' => e = e' | _, _ => False)

theorem SimE.bind {α β γ δ : Type} {s : HState} {m : HEvalM α} {f : EvalM β} {Rel : Heap → α → β → Prop} {k : α → HEvalM γ} {g : β → EvalM δ}
    {Rel' : Heap → γ → δ → Prop} (hm : SimE s m f Rel) (hf : ∀ s' a b, s.heap.Le s'.heap → s'.Ok → Rel s'.heap a b → SimE s' (k a) (g b) Rel') :
    SimE s (m >>= k) (f >>= g) Rel' := by
  obtain ⟨h1, h2, h3, h4⟩ := hm
  show SimE s (HEvalM.bind m k) (EvalM.bind f g) Rel'
  revert h1 h2 h3 h4
  unfold SimE HEvalM.bind EvalM.bind
  rcases m s with ⟨x, s'⟩
  rcases f s.state with ⟨y, t⟩
  cases x <;> cases y <;> simp only [false_implies, implies_true]
  · intro h1 h2 h3 h4
    exact ⟨h1, h2, h3, h4⟩
  · intro h1 h2 h3 h4
    subst h3
    obtain ⟨k1, k2, k3, k4⟩ := hf _ _ _ h1 h2 h4
    exact ⟨h1.trans k1, k2, k3, k4⟩

theorem SimE.pure {α β : Type} {s : HState} (ok : s.Ok) {a : α} {b : β} {Rel : Heap → α → β → Prop} (h : Rel s.heap a b) :
    SimE s (Pure.pure a) (Pure.pure b) Rel := ⟨Heap.Le.refl _, ok, rfl, h⟩

theorem SimE.ofRes {α : Type} {s : HState} (ok : s.Ok) (r : Res α) : SimE s (HEvalM.ofRes r) (EvalM.ofRes r) (fun _ x y => x = y) := by
  refine ⟨Heap.Le.refl _, ok, rfl, ?_⟩
  cases r <;> exact rfl

theorem HState.Ok.grow {s : HState} (ok : s.Ok) {h : Heap} (hl : s.heap.Le h) (ok' : h.Ok) : HState.Ok { s with heap := h } :=
  ⟨ok', fun p hp => (ok.var p hp).trans_le hl.pre.2.2.1⟩

theorem HState.Ok.state {s : HState} (ok : s.Ok) {h : Heap} (hl : s.heap.Le h) : HState.state { s with heap := h } = s.state := by
  unfold HState.state
  congr 1
  exact List.map_congr_left fun p hp => by rw [hl.dist ok.heap (ok.var p hp)]

theorem SimE.ofHeap {α β : Type} {s : HState} (ok : s.Ok) {m : HeapM α} {r : Res β} {Rel : Heap → α → β → Prop} (hm : Sim Heap.Le s.heap m r Rel) :
    SimE s (HEvalM.ofHeap m) (EvalM.ofRes r) Rel := by
  obtain ⟨h1, h2, h3⟩ := hm
  exact ⟨h1, ok.grow h1 h2, ok.state h1, h3⟩

omit R in
theorem dictGet?_map {α β : Type} (f : α → β) (l : List (Str × α)) (k : Str) :
    dictGet? (l.map fun p => (p.1, f p.2)) k = (dictGet? l k).map f := by
  induction l with
  | nil => rfl
  | cons p l ih =>
    rw [List.map_cons, dictGet?, dictGet?]
    split
    · rfl
    · exact ih

omit R in
theorem dictSet_map {α β : Type} (f : α → β) (l : List (Str × α)) (k : Str) (v : α) :
    (dictSet l k v).map (fun p => (p.1, f p.2)) = dictSet (l.map fun p => (p.1, f p.2)) k (f v) := by
  induction l with
  | nil => rfl
  | cons p l ih =>
    rw [List.map_cons, dictSet, dictSet]
    split
    · rfl
    · rw [List.map_cons, ih]

omit R in
theorem dictGet?_mem {α : Type} {l : List (Str × α)} {k : Str} {v : α} (h : dictGet? l k = some v) : ∃ p ∈ l, p.2 = v := by
  induction l with
  | nil => cases h
  | cons p l ih =>
    rw [dictGet?] at h
    split at h
    · cases h
      exact ⟨p, List.mem_cons_self .., rfl⟩
    · obtain ⟨q, hq, he⟩ := ih h
      exact ⟨q, List.mem_cons_of_mem _ hq, he⟩

omit R in
theorem mem_dictSet {α : Type} {l : List (Str × α)} {k : Str} {v : α} {p : Str × α} (h : p ∈ dictSet l k v) : p.2 = v ∨ p ∈ l := by
  induction l with
  | nil =>
    simp only [dictSet, List.mem_singleton] at h
    exact .inl (by rw [h])
  | cons q l ih =>
    rw [dictSet] at h
    split at h
    · rcases List.mem_cons.mp h with h | h
      · exact .inl (by rw [h])
      · exact .inr (List.mem_cons_of_mem _ h)
    · rcases List.mem_cons.mp h with h | h
      · exact .inr (h ▸ List.mem_cons_self ..)
      · exact (ih h).imp id (List.mem_cons_of_mem _)

theorem getVar_simE {s : HState} (ok : s.Ok) (name : Str) :
    SimE s (HEvalM.getVar name) (EvalM.read fun s => s.getVar name) IsDist := by
  have hm := dictGet?_map s.heap.dist s.var name
  cases h : dictGet? s.var name with
  | none =>
    rw [h] at hm
    have e1 : HEvalM.getVar name s = (.error .key, s) := by simp only [HEvalM.getVar, h]
    have e2 : EvalM.read (fun s => s.getVar name) s.state = (.error .key, s.state) := by
      show (State.getVar _ _, _) = _
      rw [State.getVar, show dictGet? s.state.var name = none from hm]
    unfold SimE
    rw [e1, e2]
    exact ⟨Heap.Le.refl _, ok, rfl, rfl⟩
  | some d =>
    rw [h] at hm
    have e1 : HEvalM.getVar name s = (.ok d, s) := by simp only [HEvalM.getVar, h]
    have e2 : EvalM.read (fun s => s.getVar name) s.state = (.ok (s.heap.dist d), s.state) := by
      show (State.getVar _ _, _) = _
      rw [State.getVar, show dictGet? s.state.var name = some (s.heap.dist d) from hm]
    unfold SimE
    rw [e1, e2]
    obtain ⟨p, hp, rfl⟩ := dictGet?_mem h
    exact ⟨Heap.Le.refl _, ok, rfl, ok.var p hp, rfl⟩

theorem getConstant_simE {s : HState} (ok : s.Ok) (name : Str) :
    SimE s (HEvalM.getConstant name) (EvalM.read fun s => s.getConstant name) (fun _ x y => x = y) := by
  have e1 : HEvalM.getConstant name s = (s.state.getConstant name, s) := rfl
  have e2 : EvalM.read (fun s => s.getConstant name) s.state = (s.state.getConstant name, s.state) := rfl
  unfold SimE
  rw [e1, e2]
  refine ⟨Heap.Le.refl _, ok, rfl, ?_⟩
  cases s.state.getConstant name <;> exact rfl

theorem setConstant_simE {s : HState} (ok : s.Ok) (name : Str) (v : Int) :
    SimE s (HEvalM.setConstant name v) (EvalM.setConstant name v) (fun _ _ _ => True) :=
  ⟨Heap.Le.refl _, ⟨ok.heap, ok.var⟩, rfl, trivial⟩

theorem setVar_simE {s : HState} (ok : s.Ok) (name : Str) {d : DistRef} (hd : d.map < s.heap.dicts.length) :
    SimE s (HEvalM.setVar name d) (EvalM.setVar name (s.heap.dist d)) (fun _ _ _ => True) := by
  obtain ⟨h1, h2, h3⟩ := tagDistH_sim (versionName name ((dictGet? (bump s.timesSet name) name).getD 0)) ok.heap hd
  rcases hx : tagDistH (versionName name ((dictGet? (bump s.timesSet name) name).getD 0)) d s.heap with ⟨x, h⟩
  rw [hx] at h1 h2 h3
  have hvar : s.var.map (fun p => (p.1, h.dist p.2)) = s.state.var := congrArg State.var (ok.state h1)
  cases hy : tagLoop (versionName name ((dictGet? (bump s.timesSet name) name).getD 0)) (s.heap.dist d).getConstraintResultMap [] with
  | error e =>
    rw [hy] at h3
    cases x with
    | ok a => exact h3.elim
    | error e' =>
      have e1 : HEvalM.setVar name d s = (.error e', { s with timesSet := bump s.timesSet name, heap := h }) := by
        simp only [HEvalM.setVar, hx]
      have e2 : EvalM.setVar name (s.heap.dist d) s.state = (.error e, { s.state with timesSet := bump s.timesSet name }) := by
        show (match tagLoop (versionName name ((dictGet? (bump s.timesSet name) name).getD 0)) _ [] with
          | .error e => _ | .ok m => _ : Res Unit × State) = _
        rw [hy]
        rfl
      unfold SimE
      rw [e1, e2]
      refine ⟨h1, ⟨h2, fun p hp => (ok.var p hp).trans_le h1.pre.2.2.1⟩, ?_, h3⟩
      show State.mk _ _ _ = State.mk _ _ _
      rw [hvar]
      rfl
  | ok m =>
    rw [hy] at h3
    cases x with
    | error e => exact h3.elim
    | ok d' =>
      have e1 : HEvalM.setVar name d s = (.ok (), { s with timesSet := bump s.timesSet name, heap := h, var := dictSet s.var name d' }) := by
        simp only [HEvalM.setVar, hx]
      have e2 : EvalM.setVar name (s.heap.dist d) s.state =
          (.ok (), { s.state with timesSet := bump s.timesSet name, var := dictSet s.state.var name (mkDist m) }) := by
        show (match tagLoop (versionName name ((dictGet? (bump s.timesSet name) name).getD 0)) _ [] with
          | .error e => _ | .ok m => _ : Res Unit × State) = _
        rw [hy]
        rfl
      unfold SimE
      rw [e1, e2]
      obtain ⟨k1, k2⟩ : IsDist h d' (mkDist m) := h3
      refine ⟨h1, ⟨h2, fun p hp => ?_⟩, ?_, trivial⟩
      · rcases mem_dictSet hp with hp | hp
        · rw [hp]
          exact k1
        · exact (ok.var p hp).trans_le h1.pre.2.2.1
      · show State.mk ((dictSet s.var name d').map fun p => (p.1, h.dist p.2)) _ _ = State.mk _ _ _
        rw [dictSet_map h.dist, k2, hvar]
        rfl

theorem two_simE {s : HState} {m k : HEvalM DistRef} {f g : EvalM Dist} (op : BinOp) (hm : SimE s m f IsDist)
    (hk : ∀ s', s'.Ok → SimE s' k g IsDist) :
    SimE s (do let x ← m; let y ← k; HEvalM.ofHeap (DistRef.binop op x y)) (do let x ← f; let y ← g; EvalM.ofRes (Dist.binop op x y)) IsDist := by
  refine SimE.bind hm ?_
  rintro s1 x _ hl1 ok1 ⟨hx, rfl⟩
  refine SimE.bind (hk s1 ok1) ?_
  rintro s2 y _ hl2 ok2 ⟨hy, rfl⟩
  rw [← hl2.dist ok1.heap hx]
  exact SimE.ofHeap ok2 (binop_sim op ok2.heap (hx.trans_le hl2.pre.2.2.1) hy)

theorem distH_simE (e : Expr) : ∀ {s : HState}, s.Ok → SimE s e.distH e.dist IsDist := by
  induction e with
  | paren e ih => exact fun ok => ih ok
  | not e ih =>
    intro s ok
    refine SimE.bind (ih ok) (g := fun d => EvalM.ofRes (.ok d.notOp)) ?_
    rintro s' x _ - ok' ⟨hx, rfl⟩
    exact SimE.ofHeap ok' (notOp_sim ok'.heap hx)
  | dropKeep t => exact fun ok => SimE.ofHeap ok (dropKeepH_sim t ok.heap)
  | dice t => exact fun ok => SimE.ofHeap ok (diceH_sim t ok.heap)
  | constInt text =>
    intro s ok
    rw [Expr.distH, Expr.dist]
    cases h : pyInt text with
    | error e => exact ⟨Heap.Le.refl _, ok, rfl, rfl⟩
    | ok v => exact SimE.ofHeap ok (mkDistIntH_sim [(v, 1)] ok.heap)
  | constBin text => exact fun ok => SimE.ofHeap ok (mkDistIntH_sim _ ok.heap)
  | add a b iha ihb => exact fun ok => two_simE .add (iha ok) fun _ => ihb
  | sub a b iha ihb => exact fun ok => two_simE .sub (iha ok) fun _ => ihb
  | mul a b iha ihb => exact fun ok => two_simE .mul (iha ok) fun _ => ihb
  | div a b iha ihb => exact fun ok => two_simE .floordiv (iha ok) fun _ => ihb
  | bin op a b iha ihb => exact fun ok => two_simE op.toBinOp (iha ok) fun _ => ihb
  | minmax k a b iha ihb => exact fun ok => two_simE (if k then .max else .min) (iha ok) fun _ => ihb
  | abs e ih =>
    intro s ok
    refine SimE.bind (ih ok) (g := fun d => EvalM.ofRes (.ok d.absOp)) ?_
    rintro s' x _ - ok' ⟨hx, rfl⟩
    exact SimE.ofHeap ok' (absOp_sim ok'.heap hx)
  | assign name e ih =>
    intro s ok
    rw [Expr.distH, Expr.dist]
    refine SimE.bind (ih ok) ?_
    rintro s1 d _ hl ok1 ⟨hd, rfl⟩
    refine SimE.bind (setVar_simE ok1 name hd) ?_
    rintro s2 _ _ hl2 ok2 -
    exact SimE.pure ok2 ⟨hd.trans_le hl2.pre.2.2.1, hl2.dist ok1.heap hd⟩
  | getVar name => exact fun ok => getVar_simE ok name

theorem viaDist_simE (isMax : Bool) {s : HState} {m : HEvalM DistRef} {f : EvalM Dist} (hm : SimE s m f IsDist) :
    SimE s (viaDistH isMax m) (viaDist isMax f) (fun _ x y => x = y) := by
  refine SimE.bind hm ?_
  rintro s1 d _ hl ok ⟨hd, rfl⟩
  have e : (EvalM.ofRes (if isMax then (s1.heap.dist d).max else (s1.heap.dist d).min) : EvalM Int) =
      (EvalM.ofRes (.ok (s1.heap.dist d).getResultMap) : EvalM (List (Int × Nat))) >>= fun values =>
        EvalM.ofRes ((if isMax then listMax else listMin) (values.map Prod.fst)) := by
    cases isMax <;> rfl
  rw [e]
  refine SimE.bind (SimE.ofHeap ok (getResultMap_sim ok.heap)) ?_
  rintro s2 x _ - ok2 ⟨-, rfl⟩
  exact SimE.ofRes ok2 _

theorem extremeH_simE (isMax : Bool) (e : Expr) : ∀ {s : HState}, s.Ok → SimE s (e.extremeH isMax) (e.extreme isMax) (fun _ x y => x = y) := by
  induction e with
  | paren e ih => exact fun ok => ih ok
  | not e ih => exact fun ok => viaDist_simE isMax (distH_simE _ ok)
  | dropKeep t => exact fun ok => SimE.ofRes ok _
  | dice t => exact fun ok => SimE.ofRes ok _
  | constInt text => exact fun ok => SimE.ofRes ok _
  | constBin text => exact fun ok => SimE.ofRes ok _
  | add a b iha ihb => exact fun ok => viaDist_simE isMax (distH_simE _ ok)
  | sub a b iha ihb => exact fun ok => viaDist_simE isMax (distH_simE _ ok)
  | mul a b iha ihb => exact fun ok => viaDist_simE isMax (distH_simE _ ok)
  | div a b iha ihb =>
    intro s ok
    rw [Expr.extremeH, Expr.extreme]
    refine SimE.bind (distH_simE b ok) ?_
    rintro s1 d _ hl ok1 ⟨hd, rfl⟩
    have e : ((if (s1.heap.dist d).containsZero then EvalM.ofRes (.error .zeroDivision) else viaDist isMax (Expr.dist (.div a b))) : EvalM Int) =
        (EvalM.ofRes (.ok (s1.heap.dist d).getResultMap) : EvalM (List (Int × Nat))) >>= fun values =>
          if (dictGet? values 0).isSome && true then EvalM.ofRes (.error .zeroDivision) else viaDist isMax (Expr.dist (.div a b)) := rfl
    rw [e]
    refine SimE.bind (SimE.ofHeap ok1 (getResultMap_sim ok1.heap)) ?_
    rintro s2 x _ - ok2 ⟨-, rfl⟩
    split
    · exact SimE.ofRes ok2 _
    · exact viaDist_simE isMax (distH_simE _ ok2)
  | bin op a b iha ihb => exact fun ok => viaDist_simE isMax (distH_simE _ ok)
  | minmax k a b iha ihb =>
    intro s ok
    rw [Expr.extremeH, Expr.extreme]
    refine SimE.bind (iha ok) ?_
    rintro s1 x _ - ok1 rfl
    refine SimE.bind (ihb ok1) ?_
    rintro s2 y _ - ok2 rfl
    exact SimE.pure ok2 rfl
  | abs e ih => exact fun ok => viaDist_simE isMax (distH_simE _ ok)
  | assign name e ih =>
    intro s ok
    rw [Expr.extremeH, Expr.extreme]
    refine SimE.bind (ih ok) ?_
    rintro s1 v _ - ok1 rfl
    refine SimE.bind (setConstant_simE ok1 name v) ?_
    rintro s2 - - - ok2 -
    refine SimE.bind (distH_simE e ok2) ?_
    rintro s3 d _ - ok3 ⟨hd, rfl⟩
    refine SimE.bind (setVar_simE ok3 name hd) ?_
    rintro s4 - - - ok4 -
    exact SimE.pure ok4 rfl
  | getVar name => exact fun ok => getConstant_simE ok name

theorem distLineH_simE (parse : Str → Res Expr) (line : Str) {s : HState} (ok : s.Ok) :
    SimE s (distLineH parse line) (distLine parse line) (fun _ _ _ => True) := by
  unfold distLineH distLine
  refine SimE.bind (SimE.ofRes ok _) ?_
  rintro s1 e _ - ok1 rfl
  refine SimE.bind (distH_simE e ok1) ?_
  rintro s2 d _ - ok2 ⟨hd, rfl⟩
  refine ⟨Heap.Le.refl _, ⟨ok2.heap, fun p hp => ?_⟩, ?_, trivial⟩
  · rcases mem_dictSet hp with hp | hp
    · rw [hp]
      exact hd
    · exact ok2.var p hp
  · show State.mk _ _ _ = State.mk _ _ _
    congr 1
    exact dictSet_map _ _ _ _

theorem distLinesH_simE (parse : Str → Res Expr) (lines : List Str) : ∀ {s : HState}, s.Ok →
    SimE s (distLinesH parse lines) (distLines parse lines) (fun _ _ _ => True) := by
  induction lines with
  | nil => exact fun ok => SimE.pure ok trivial
  | cons l ls ih => exact fun ok => SimE.bind (distLineH_simE parse l ok) fun _ _ _ _ ok1 _ => ih ok1

/-- The dict of distributions a caller gets: names in order, each with an object that has the right content. -/
def IsDists (h : Heap) (l : List (Str × DistRef)) (l' : List (Str × Dist)) : Prop :=
  (∀ p ∈ l, p.2.map < h.dicts.length) ∧ l.map (fun p => (p.1, h.dist p.2)) = l'

theorem interpDistsH_simE (parse : Str → Res Expr) (lines : List Str) {s : HState} (ok : s.Ok) :
    SimE s (interpDistsH parse lines) (interpDists parse lines) IsDists := by
  unfold interpDistsH interpDists
  refine SimE.bind (distLinesH_simE parse lines ok) ?_
  rintro s1 - - - ok1 -
  refine ⟨Heap.Le.refl _, ok1, rfl, ?_⟩
  show IsDists s1.heap (if lines = [] then [] else s1.var) (if lines = [] then [] else s1.state.var)
  split
  · exact ⟨fun p hp => by simp at hp, rfl⟩
  · exact ⟨ok1.var, rfl⟩

theorem extremeLinesH_simE (parse : Str → Res Expr) (isMax : Bool) (lines : List Str) : ∀ {s : HState}, s.Ok →
    SimE s (extremeLinesH parse isMax lines) (extremeLines parse isMax lines) (fun _ _ _ => True) := by
  induction lines with
  | nil => exact fun ok => SimE.pure ok trivial
  | cons l ls ih =>
    intro s ok
    refine SimE.bind (Rel := fun _ _ _ => True) ?_ fun _ _ _ _ ok1 _ => ih ok1
    · unfold extremeLineH extremeLine
      refine SimE.bind (SimE.ofRes ok _) ?_
      rintro s1 e _ - ok1 rfl
      refine SimE.bind (extremeH_simE isMax e ok1) ?_
      rintro s2 v _ - ok2 rfl
      exact ⟨Heap.Le.refl _, ⟨ok2.heap, ok2.var⟩, rfl, trivial⟩

theorem lastDistH_simE (parse : Str → Res Expr) (lines : List Str) : ∀ {d : DistRef} {s : HState}, s.Ok → d.map < s.heap.dicts.length →
    SimE s (lastDistH parse lines d) (lastDist parse lines (s.heap.dist d)) IsDist := by
  induction lines with
  | nil => exact fun ok hd => SimE.pure ok ⟨hd, rfl⟩
  | cons l ls ih =>
    intro d s ok hd
    rw [lastDistH, lastDist]
    refine SimE.bind (SimE.ofRes ok _) ?_
    rintro s1 e _ - ok1 rfl
    refine SimE.bind (distH_simE e ok1) ?_
    rintro s2 d' _ - ok2 ⟨hd', rfl⟩
    exact ih ok2 hd'

theorem interpHistogramDistH_simE (parse : Str → Res Expr) (lines : List Str) {s : HState} (ok : s.Ok) :
    SimE s (interpHistogramDistH parse lines) (interpHistogramDist parse lines) IsDist := by
  have e : interpHistogramDist parse lines = (EvalM.ofRes (mkDistInt []) >>= fun d => lastDist parse lines d : EvalM Dist) := rfl
  unfold interpHistogramDistH
  rw [e]
  refine SimE.bind (SimE.ofHeap ok (mkDistIntH_sim [] ok.heap)) ?_
  rintro s1 d _ - ok1 ⟨hd, rfl⟩
  exact lastDistH_simE parse lines ok1 hd

/-- Reading the objects of a simulated method gives the result on values. -/
theorem read_of_rel {α β : Type} {h : Heap} {x : Res α} {y : Res β} {Rel : Heap → α → β → Prop} {f : α → β}
    (hr : match x, y with | .ok a, .ok b => Rel h a b | .error e, .error e' => e = e' | _, _ => False)
    (hf : ∀ a b, Rel h a b → f a = b) : x.map f = y := by
  cases x <;> cases y
  · exact congrArg _ hr
  · exact hr.elim
  · exact hr.elim
  · exact congrArg _ (hf _ _ hr)

omit R in
/-- A new interpreter is well-formed. -/
theorem HState.new_ok [PyRuntime] : HState.new.Ok := ⟨⟨fun _ h => (List.not_mem_nil h).elim, fun _ h => (List.not_mem_nil h).elim⟩,
  fun _ h => (List.not_mem_nil h).elim⟩

theorem call_ok {parse : Str → Res Expr} {s s' : HState} {ds : List DistRef} (c : HCall parse s ds s') (ok : s.Ok) :
    s'.Ok ∧ s.heap.Le s'.heap ∧ ∀ d ∈ ds, d.map < s'.heap.dicts.length := by
  cases c with
  | dists lines r s' h =>
    obtain ⟨h1, h2, -, h4⟩ := interpDistsH_simE parse lines ok
    rw [h] at h1 h2 h4
    refine ⟨h2, h1, ?_⟩
    cases r with
    | error e => exact fun _ hd => (List.not_mem_nil hd).elim
    | ok l =>
      cases hy : (interpDists parse lines s.state).1 with
      | error e => rw [hy] at h4; exact h4.elim
      | ok l' =>
        rw [hy] at h4
        intro d hd
        obtain ⟨p, hp, rfl⟩ := List.mem_map.mp hd
        exact h4.1 p hp
  | extreme isMax lines r s' h =>
    obtain ⟨h1, h2, -, -⟩ := extremeLinesH_simE parse isMax lines ok
    rw [h] at h1 h2
    exact ⟨h2, h1, fun _ hd => (List.not_mem_nil hd).elim⟩
  | histogram lines r s' h =>
    obtain ⟨h1, h2, -, h4⟩ := interpHistogramDistH_simE parse lines ok
    rw [h] at h1 h2 h4
    refine ⟨h2, h1, ?_⟩
    cases r with
    | error e => exact fun _ hd => (List.not_mem_nil hd).elim
    | ok d =>
      cases hy : (interpHistogramDist parse lines s.state).1 with
      | error e => rw [hy] at h4; exact h4.elim
      | ok l' =>
        rw [hy] at h4
        intro d' hd
        rw [List.mem_singleton.mp hd]
        exact h4.1
  | rollOrCost constants timesSet => exact ⟨⟨ok.heap, ok.var⟩, Heap.Le.refl _, fun _ hd => (List.not_mem_nil hd).elim⟩
  | operator op a b ha hb r h' h =>
    obtain ⟨h1, h2, h4⟩ := binop_sim op ok.heap ha hb
    rw [h] at h1 h2 h4
    refine ⟨ok.grow h1 h2, h1, ?_⟩
    cases r with
    | error e => exact fun _ hd => (List.not_mem_nil hd).elim
    | ok d =>
      cases hy : Dist.binop op (s.heap.dist a) (s.heap.dist b) with
      | error e => rw [hy] at h4; exact h4.elim
      | ok l' =>
        rw [hy] at h4
        intro d' hd
        rw [List.mem_singleton.mp hd]
        exact h4.1
  | negation a ha r h' h =>
    obtain ⟨h1, h2, h4⟩ := notOp_sim ok.heap ha
    rw [h] at h1 h2 h4
    refine ⟨ok.grow h1 h2, h1, ?_⟩
    cases r with
    | error e => exact fun _ hd => (List.not_mem_nil hd).elim
    | ok d => exact fun d' hd => by rw [List.mem_singleton.mp hd]; exact h4.1
  | absolute a ha r h' h =>
    obtain ⟨h1, h2, h4⟩ := absOp_sim ok.heap ha
    rw [h] at h1 h2 h4
    refine ⟨ok.grow h1 h2, h1, ?_⟩
    cases r with
    | error e => exact fun _ hd => (List.not_mem_nil hd).elim
    | ok d => exact fun d' hd => by rw [List.mem_singleton.mp hd]; exact h4.1

theorem session_ok {parse : Str → Res Expr} {s s' : HState} {ds : List DistRef} (c : HSession parse s ds s') (ok : s.Ok) :
    s'.Ok ∧ s.heap.Le s'.heap ∧ ∀ d ∈ ds, d.map < s'.heap.dicts.length := by
  induction c with
  | nil s => exact ⟨ok, Heap.Le.refl _, fun _ hd => (List.not_mem_nil hd).elim⟩
  | call c rest ih =>
    obtain ⟨h1, h2, h3⟩ := call_ok c ok
    obtain ⟨k1, k2, k3⟩ := ih h1
    refine ⟨k1, h2.trans k2, fun d hd => ?_⟩
    rcases List.mem_append.mp hd with hd | hd
    · exact (h3 d hd).trans_le k2.pre.2.2.1
    · exact k3 d hd

end

end PyDice
