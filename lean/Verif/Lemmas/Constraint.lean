import Verif.Spec.Constraint
import Mathlib.Data.List.Nodup
import Mathlib.Data.List.Perm.Basic
/-!
# Helper lemmas about constraint merging
-/

namespace PyDice
variable [R : PyRuntime]
open PyRuntime

omit R in
theorem canMerge_self (c : Constraint) : c.canMerge c = true := by
  cases c <;> simp [Constraint.canMerge]

/-- `merge` after a positive `can_merge` always succeeds and means conjunction. -/
theorem merge_spec (a b : Constraint) (h : a.canMerge b = true) :
    ∃ m, a.merge b = .ok m ∧ ∀ ω, m.Sat ω ↔ a.Sat ω ∧ b.Sat ω := by
  cases a with
  | null => exact ⟨b, rfl, fun ω => by simp [Constraint.Sat]⟩
  | impossible => exact ⟨.impossible, rfl, fun ω => by simp [Constraint.Sat]⟩
  | varValue n vs =>
    cases b with
    | null => simp [Constraint.canMerge] at h
    | impossible => simp [Constraint.canMerge] at h
    | varValue m ws =>
      have hm : m = n := by simpa [Constraint.canMerge] using h
      subst hm
      by_cases hz : (inter vs ws).length = 0
      · refine ⟨.impossible, by simp [Constraint.merge, h, hz], fun ω => ?_⟩
        have : inter vs ws = [] := List.length_eq_zero_iff.mp hz
        simp only [Constraint.Sat, false_iff]
        rw [← mem_inter, this]; simp
      · refine ⟨.varValue m (inter vs ws), by simp [Constraint.merge, h, hz], fun ω => ?_⟩
        simp only [Constraint.Sat]; exact mem_inter _ _ _

/-- A variable constraint with at least one value, listed without repetition. -/
def Constraint.WF : Constraint → Prop
  | .varValue _ vs => vs ≠ [] ∧ vs.Nodup
  | _ => True

theorem merge_wf (a b m : Constraint) (ha : a.WF) (hb : b.WF) (h : a.merge b = .ok m) : m.WF := by
  cases a with
  | null => simp [Constraint.merge] at h; subst h; exact hb
  | impossible => simp [Constraint.merge] at h; subst h; trivial
  | varValue n vs =>
    cases b with
    | null => simp [Constraint.merge, Constraint.canMerge] at h
    | impossible => simp [Constraint.merge, Constraint.canMerge] at h
    | varValue m' ws =>
      simp only [Constraint.merge] at h
      split at h
      · simp at h
      · split at h
        · simp at h; subst h; trivial
        · rename_i h1 h2
          simp at h; subst h
          exact ⟨fun h0 => h2 (by rw [h0]; rfl), inter_nodup _ _ ha.2⟩

/-- Merging an impossible constraint with anything gives the impossible constraint. -/
theorem merge_impossible (a b m : Constraint) (h : a.merge b = .ok m)
    (hi : a = .impossible ∨ b = .impossible) : m = .impossible := by
  cases a <;> rcases hi with hi | hi <;> simp_all [Constraint.merge, Constraint.canMerge]

theorem merge_complies (a b m : Constraint) (h : a.merge b = .ok m) (hm : m ≠ .impossible)
    (vals : Str → Option Int) :
    m.complies vals = true ↔ a.complies vals = true ∧ b.complies vals = true := by
  cases a with
  | null => simp [Constraint.merge] at h; subst h; simp [Constraint.complies]
  | impossible => simp [Constraint.merge] at h; exact absurd h.symm hm
  | varValue n vs =>
    cases b with
    | null => simp [Constraint.merge, Constraint.canMerge] at h
    | impossible => simp [Constraint.merge, Constraint.canMerge] at h
    | varValue m' ws =>
      simp only [Constraint.merge] at h
      split at h
      · simp at h
      · rename_i h0
        have hmn : m' = n := by simpa [Constraint.canMerge] using h0
        subst hmn
        split at h
        · simp at h; exact absurd h.symm hm
        · simp at h; subst h
          simp only [Constraint.complies]
          cases vals m' <;> simp [mem_inter]

/-- What the `for` loop finds: either nothing in the set can be merged with `new`, or some element `c` can, and the
    merged constraint means the conjunction. -/
theorem mergeScan_spec (new : Constraint) (set : CSet) (l : List Constraint) :
    (mergeScan new set l = .ok none ∧ ∀ c ∈ l, c.canMerge new = false ∧ new.canMerge c = false) ∨
    ∃ c ∈ l, ∃ m, mergeScan new set l = .ok (some (m, erase (copy set) c)) ∧
      (c.merge new = .ok m ∨ new.merge c = .ok m) ∧ ∀ ω, m.Sat ω ↔ c.Sat ω ∧ new.Sat ω := by
  induction l with
  | nil => left; simp [mergeScan]
  | cons c rest ih =>
    unfold mergeScan
    by_cases h1 : c.canMerge new = true
    · obtain ⟨m, hm, hs⟩ := merge_spec c new h1
      right
      refine ⟨c, by simp, m, ?_, Or.inl hm, hs⟩
      simp only [h1, if_true, hm]; rfl
    · by_cases h2 : new.canMerge c = true
      · obtain ⟨m, hm, hs⟩ := merge_spec new c h2
        right
        refine ⟨c, by simp, m, ?_, Or.inr hm, fun ω => by rw [hs ω, and_comm]⟩
        simp only [h1, h2, if_true, hm]; rfl
      · rcases ih with ⟨h3, h4⟩ | ⟨c', hc', m, h3, h4⟩
        · left
          refine ⟨by simp only [h1, h2]; exact h3, ?_⟩
          intro c' hc'
          rcases List.mem_cons.mp hc' with rfl | hc'
          · exact ⟨by simpa using h1, by simpa using h2⟩
          · exact h4 c' hc'
        · right
          exact ⟨c', List.mem_cons_of_mem _ hc', m, by simp only [h1, h2]; exact h3, h4⟩

/-- One step: either `new` is inserted (nothing can merge with it) or merged with one element that leaves the set. -/
theorem mergeOne_spec (new : Constraint) (set : CSet) :
    (mergeOne new set = .ok ([], insert set new) ∧
        ∀ c ∈ iter set, c.canMerge new = false ∧ new.canMerge c = false) ∨
    ∃ c ∈ iter set, ∃ m, mergeOne new set = .ok ([m], erase (copy set) c) ∧
      (c.merge new = .ok m ∨ new.merge c = .ok m) ∧ ∀ ω, m.Sat ω ↔ c.Sat ω ∧ new.Sat ω := by
  rcases mergeScan_spec new set (iter set) with ⟨h, h'⟩ | ⟨c, hc, m, h, h'⟩
  · left; exact ⟨by unfold mergeOne; rw [h]; rfl, h'⟩
  · right; exact ⟨c, hc, m, by unfold mergeOne; rw [h]; rfl, h'⟩

omit R in
theorem perm_of_mem_iff {α : Type} [DecidableEq α] {l m : List α} (hl : l.Nodup) (hm : m.Nodup)
    (h : ∀ x, x ∈ l ↔ x ∈ m) : l.Perm m := by
  exact (List.perm_ext_iff_of_nodup hl hm).mpr h

theorem length_insert (s : CSet) (c : Constraint) (h : c ∉ iter s) :
    (iter (insert s c)).length = (iter s).length + 1 := by
  have : (iter (insert s c)).Perm (c :: iter s) := by
    apply perm_of_mem_iff (iter_nodup _)
    · exact List.nodup_cons.mpr ⟨h, iter_nodup _⟩
    · intro x; rw [mem_insert]; simp [or_comm]
  simpa using this.length_eq

theorem length_erase (s : CSet) (c : Constraint) (h : c ∈ iter s) :
    (iter (erase s c)).length + 1 = (iter s).length := by
  have : (c :: iter (erase s c)).Perm (iter s) := by
    apply perm_of_mem_iff
    · exact List.nodup_cons.mpr ⟨fun h' => ((mem_erase _ _ _).mp h').2 rfl, iter_nodup _⟩
    · exact iter_nodup _
    · intro x
      rw [List.mem_cons, mem_erase]
      by_cases hx : x = c
      · subst hx; simp [h]
      · simp [hx]
  simpa using this.length_eq

theorem length_copy (s : CSet) : (iter (copy s)).length = (iter s).length :=
  (perm_of_mem_iff (iter_nodup _) (iter_nodup _) (mem_copy s)).length_eq

theorem iter_ne_nil_copy (s : CSet) : iter (copy s) ≠ [] ↔ iter s ≠ [] := by
  rw [← List.length_pos_iff, ← List.length_pos_iff, length_copy]

/-- Everything about the loop at once. -/
theorem mergeLoop_spec : ∀ (fuel : Nat) (stack : List Constraint) (clean : CSet),
    2 * stack.length + (iter clean).length ≤ fuel →
    ∃ r, mergeLoop fuel stack clean = .ok r ∧
      (Normal clean → Normal r) ∧
      (∀ ω, Sat ω r ↔ (∀ c ∈ stack, c.Sat ω) ∧ Sat ω clean) ∧
      ((∀ c ∈ stack, c.WF) → (∀ c ∈ iter clean, c.WF) → ∀ c ∈ iter r, c.WF) ∧
      ((stack ≠ [] ∨ iter clean ≠ []) → iter r ≠ []) ∧
      (.impossible ∉ iter r → (.impossible ∉ stack ∧ .impossible ∉ iter clean) ∧
        ∀ vals, csComplies r vals = true ↔ (∀ c ∈ stack, c.complies vals = true) ∧ csComplies clean vals = true) := by
  intro fuel
  induction fuel with
  | zero =>
    intro stack clean hf
    have : stack = [] := by
      cases stack with
      | nil => rfl
      | cons => simp at hf
    subst this
    refine ⟨clean, rfl, id, by simp, fun _ h => h, by simp, by simp⟩
  | succ fuel ih =>
    intro stack clean hf
    cases stack with
    | nil => refine ⟨clean, rfl, id, by simp, fun _ h => h, by simp, by simp⟩
    | cons cur rest =>
      have hlen : 2 * rest.length + 2 + (iter clean).length ≤ fuel + 1 := by simp at hf; omega
      rcases mergeOne_spec cur clean with ⟨hstep, hno⟩ | ⟨c, hc, m, hstep, hmerge, hsat⟩
      · have hnot : cur ∉ iter clean := by
          intro h
          have := (hno cur h).1
          rw [canMerge_self] at this; simp at this
        obtain ⟨r, hr, hN, hS, hW, hE, hC⟩ := ih rest (insert clean cur) (by rw [length_insert _ _ hnot]; omega)
        refine ⟨r, ?_, ?_, ?_, ?_, ?_, ?_⟩
        · simp only [mergeLoop, hstep]; exact hr
        · intro hn
          apply hN
          intro a ha b hb hab
          rcases (mem_insert _ _ _).mp ha with ha | ha <;> rcases (mem_insert _ _ _).mp hb with hb | hb
          · exact hn a ha b hb hab
          · rw [hb]; exact (hno a ha).1
          · rw [ha]; exact (hno b hb).2
          · exact absurd (ha.trans hb.symm) hab
        · intro ω
          rw [hS ω]
          simp only [Sat, mem_insert, List.mem_cons]
          constructor
          · rintro ⟨h1, h2⟩
            refine ⟨?_, fun x hx => h2 x (Or.inl hx)⟩
            rintro x (rfl | hx)
            · exact h2 _ (Or.inr rfl)
            · exact h1 x hx
          · rintro ⟨h1, h2⟩
            refine ⟨fun x hx => h1 x (Or.inr hx), ?_⟩
            rintro x (hx | rfl)
            · exact h2 x hx
            · exact h1 _ (Or.inl rfl)
        · intro h1 h2
          apply hW
          · intro x hx; exact h1 x (by simp [hx])
          · intro x hx
            rcases (mem_insert _ _ _).mp hx with hx | hx
            · exact h2 x hx
            · subst hx; exact h1 x (by simp)
        · intro _
          apply hE
          right
          intro h0
          have : cur ∈ iter (insert clean cur) := (mem_insert _ _ _).mpr (Or.inr rfl)
          rw [h0] at this; simp at this
        · intro hi
          obtain ⟨⟨hi1, hi2⟩, hcomp⟩ := hC hi
          have hi3 : Constraint.impossible ≠ cur := fun h => hi2 ((mem_insert _ _ _).mpr (Or.inr h))
          have hi4 : Constraint.impossible ∉ iter clean := fun h => hi2 ((mem_insert _ _ _).mpr (Or.inl h))
          refine ⟨⟨by simp [hi3, hi1], hi4⟩, fun vals => ?_⟩
          rw [hcomp vals]
          simp only [csComplies, List.all_eq_true, mem_insert, List.mem_cons]
          constructor
          · rintro ⟨h1, h2⟩
            refine ⟨?_, fun x hx => h2 x (Or.inl hx)⟩
            rintro x (rfl | hx)
            · exact h2 _ (Or.inr rfl)
            · exact h1 x hx
          · rintro ⟨h1, h2⟩
            refine ⟨fun x hx => h1 x (Or.inr hx), ?_⟩
            rintro x (hx | rfl)
            · exact h2 x hx
            · exact h1 _ (Or.inl rfl)
      · have hc' : c ∈ iter (copy clean) := (mem_copy _ _).mpr hc
        have hmem : ∀ x, x ∈ iter (erase (copy clean) c) ↔ x ∈ iter clean ∧ x ≠ c := by
          intro x; rw [mem_erase, mem_copy]
        obtain ⟨r, hr, hN, hS, hW, hE, hC⟩ := ih (m :: rest) (erase (copy clean) c) (by
          have := length_erase (copy clean) c hc'
          rw [length_copy] at this
          simp only [List.length_cons]; omega)
        refine ⟨r, ?_, ?_, ?_, ?_, ?_, ?_⟩
        · simp only [mergeLoop, hstep]; exact hr
        · intro hn
          apply hN
          intro a ha b hb hab
          exact hn a ((hmem a).mp ha).1 b ((hmem b).mp hb).1 hab
        · intro ω
          rw [hS ω]
          simp only [Sat, hmem, List.mem_cons]
          constructor
          · rintro ⟨h1, h2⟩
            obtain ⟨hcs, hcur⟩ := (hsat ω).mp (h1 m (Or.inl rfl))
            refine ⟨?_, ?_⟩
            · rintro x (rfl | hx)
              · exact hcur
              · exact h1 x (Or.inr hx)
            · intro x hx
              by_cases hxc : x = c
              · subst hxc; exact hcs
              · exact h2 x ⟨hx, hxc⟩
          · rintro ⟨h1, h2⟩
            refine ⟨?_, fun x hx => h2 x hx.1⟩
            rintro x (rfl | hx)
            · exact (hsat ω).mpr ⟨h2 c hc, h1 cur (Or.inl rfl)⟩
            · exact h1 x (Or.inr hx)
        · intro h1 h2
          apply hW
          · intro x hx
            rcases List.mem_cons.mp hx with rfl | hx
            · rcases hmerge with hm | hm
              · exact merge_wf _ _ _ (h2 c hc) (h1 cur (by simp)) hm
              · exact merge_wf _ _ _ (h1 cur (by simp)) (h2 c hc) hm
            · exact h1 x (by simp [hx])
          · intro x hx; exact h2 x ((hmem x).mp hx).1
        · intro _
          exact hE (Or.inl (by simp))
        · intro hi
          obtain ⟨⟨hi1, hi2⟩, hcomp⟩ := hC hi
          have him : m ≠ Constraint.impossible := fun h => hi1 (by simp [h])
          have hic : c ≠ Constraint.impossible := by
            intro h
            rcases hmerge with hm | hm
            · exact him (merge_impossible _ _ _ hm (Or.inl h))
            · exact him (merge_impossible _ _ _ hm (Or.inr h))
          have hicur : cur ≠ Constraint.impossible := by
            intro h
            rcases hmerge with hm | hm
            · exact him (merge_impossible _ _ _ hm (Or.inr h))
            · exact him (merge_impossible _ _ _ hm (Or.inl h))
          refine ⟨⟨?_, ?_⟩, fun vals => ?_⟩
          · intro h
            rcases List.mem_cons.mp h with h | h
            · exact hicur h.symm
            · exact hi1 (by simp [h])
          · intro h; exact hi2 ((hmem _).mpr ⟨h, fun h' => hic h'.symm⟩)
          · rw [hcomp vals]
            have hmc : m.complies vals = true ↔ c.complies vals = true ∧ cur.complies vals = true := by
              rcases hmerge with hm | hm
              · exact merge_complies _ _ _ hm him vals
              · rw [merge_complies _ _ _ hm him vals, and_comm]
            simp only [csComplies, List.all_eq_true, hmem, List.mem_cons]
            constructor
            · rintro ⟨h1, h2⟩
              obtain ⟨hcs, hcur⟩ := hmc.mp (h1 m (Or.inl rfl))
              refine ⟨?_, ?_⟩
              · rintro x (rfl | hx)
                · exact hcur
                · exact h1 x (Or.inr hx)
              · intro x hx
                by_cases hxc : x = c
                · subst hxc; exact hcs
                · exact h2 x ⟨hx, hxc⟩
            · rintro ⟨h1, h2⟩
              refine ⟨?_, fun x hx => h2 x hx.1⟩
              rintro x (rfl | hx)
              · exact hmc.mpr ⟨h2 c hc, h1 cur (Or.inl rfl)⟩
              · exact h1 x (Or.inr hx)

theorem normal_empty : Normal (empty : CSet) := by
  intro a ha; rw [iter_empty] at ha; simp at ha

theorem sat_empty (ω : Str → Int) : Sat ω (empty : CSet) := by
  intro a ha; rw [iter_empty] at ha; simp at ha

theorem normal_copy (s : CSet) (h : Normal s) : Normal (copy s : CSet) := by
  intro a ha b hb hab
  exact h a ((mem_copy _ _).mp ha) b ((mem_copy _ _).mp hb) hab

theorem normal_deepcopy (s : CSet) (h : Normal s) : Normal (deepcopy s : CSet) := by
  intro a ha b hb hab
  obtain ⟨c, hc, rfl⟩ := (mem_deepcopy _ _).mp ha
  obtain ⟨d, hd, rfl⟩ := (mem_deepcopy _ _).mp hb
  have hcd : c ≠ d := fun h => hab (by rw [h])
  have := h c hc d hd hcd
  cases c <;> cases d <;> simp_all [Constraint.mapValues, Constraint.canMerge]

theorem sat_copy (ω : Str → Int) (s : CSet) : Sat ω (copy s : CSet) ↔ Sat ω s := by
  simp [Sat, mem_copy]

theorem sat_deepcopy (ω : Str → Int) (s : CSet) : Sat ω (deepcopy s : CSet) ↔ Sat ω s := by
  have key : ∀ c : Constraint, (c.mapValues recopy).Sat ω ↔ c.Sat ω := by
    intro c
    cases c with
    | null => exact Iff.rfl
    | impossible => exact Iff.rfl
    | varValue n vs => exact mem_recopy _ _
  constructor
  · intro h c hc; exact (key c).mp (h _ ((mem_deepcopy _ _).mpr ⟨c, hc, rfl⟩))
  · intro h x hx
    obtain ⟨c, hc, rfl⟩ := (mem_deepcopy _ _).mp hx
    exact (key c).mpr (h c hc)

theorem wf_deepcopy (s : CSet) (h : ∀ c ∈ iter s, c.WF) : ∀ c ∈ iter (deepcopy s), c.WF := by
  intro x hx
  obtain ⟨c, hc, rfl⟩ := (mem_deepcopy _ _).mp hx
  have := h c hc
  cases c with
  | null => trivial
  | impossible => trivial
  | varValue n vs =>
    refine ⟨?_, recopy_nodup _ this.2⟩
    obtain ⟨a, ha⟩ := List.exists_mem_of_ne_nil _ this.1
    exact List.ne_nil_of_mem ((mem_recopy _ _).mpr ha)

theorem iter_ne_nil_deepcopy (s : CSet) (h : iter s ≠ []) : iter (deepcopy s) ≠ [] := by
  obtain ⟨c, hc⟩ := List.exists_mem_of_ne_nil _ h
  exact List.ne_nil_of_mem ((mem_deepcopy _ _).mpr ⟨c, hc, rfl⟩)

/-- Result of merging: the list version of everything we need. -/
structure MergedInto (news : List Constraint) (set r : CSet) : Prop where
  normal : Normal set → Normal r
  sat : ∀ ω, Sat ω r ↔ (∀ c ∈ news, c.Sat ω) ∧ Sat ω set
  wf : (∀ c ∈ news, c.WF) → (∀ c ∈ iter set, c.WF) → ∀ c ∈ iter r, c.WF
  nonempty : (news ≠ [] ∨ iter set ≠ []) → iter r ≠ []
  complies : .impossible ∉ iter r → ((.impossible ∉ news ∧ .impossible ∉ iter set) ∧
        ∀ vals, csComplies r vals = true ↔ (∀ c ∈ news, c.complies vals = true) ∧ csComplies set vals = true)

theorem mergeNewAll_spec (news : List Constraint) (set : CSet) :
    ∃ r, mergeNewAll news set = .ok r ∧ MergedInto news set r := by
  obtain ⟨r, hr, hN, hS, hW, hE, hC⟩ := mergeLoop_spec (mergeFuel news.reverse (copy set)) news.reverse (copy set) (Nat.le_refl _)
  refine ⟨r, hr, fun h => hN (normal_copy _ h), ?_, ?_, ?_, ?_⟩
  · intro ω; rw [hS ω, sat_copy]; simp
  · intro h1 h2; exact hW (fun c hc => h1 c (by simpa using hc)) (fun c hc => h2 c ((mem_copy _ _).mp hc))
  · intro h
    apply hE
    rcases h with h | h
    · left; simpa using h
    · right; exact (iter_ne_nil_copy _).mpr h
  · intro hi
    obtain ⟨⟨h1, h2⟩, h3⟩ := hC hi
    refine ⟨⟨by simpa using h1, fun h => h2 ((mem_copy _ _).mpr h)⟩, fun vals => ?_⟩
    rw [h3 vals]
    simp [csComplies, mem_copy]

theorem addConstraint_spec (s : CSet) (c : Constraint) :
    ∃ r, addConstraint s c = .ok r ∧ MergedInto [c] s r := mergeNewAll_spec [c] s

theorem addAll_spec (cs : List Constraint) : ∀ s : CSet, ∃ r, addAll s cs = .ok r ∧ MergedInto cs s r := by
  induction cs with
  | nil =>
    intro s
    exact ⟨s, rfl, ⟨id, by simp, fun _ h => h, by simp, by simp⟩⟩
  | cons c rest ih =>
    intro s
    obtain ⟨r1, h1, m1⟩ := addConstraint_spec s c
    obtain ⟨r, h, m⟩ := ih r1
    refine ⟨r, ?_, ⟨fun hn => m.normal (m1.normal hn), ?_, ?_, ?_, ?_⟩⟩
    · simp only [addAll, h1]; exact h
    · intro ω
      rw [m.sat ω, m1.sat ω]
      simp only [List.mem_cons, List.not_mem_nil, or_false, forall_eq, forall_eq_or_imp]
      constructor
      · rintro ⟨a, b, c⟩; exact ⟨⟨b, a⟩, c⟩
      · rintro ⟨⟨b, a⟩, c⟩; exact ⟨a, b, c⟩
    · intro hw hs
      exact m.wf (fun x hx => hw x (by simp [hx])) (m1.wf (fun x hx => hw x (by simp at hx; simp [hx])) hs)
    · intro _
      exact m.nonempty (Or.inr (m1.nonempty (Or.inl (by simp))))
    · intro hi
      obtain ⟨⟨i1, i2⟩, i3⟩ := m.complies hi
      obtain ⟨⟨j1, j2⟩, j3⟩ := m1.complies i2
      refine ⟨⟨?_, j2⟩, fun vals => ?_⟩
      · intro h
        rcases List.mem_cons.mp h with h | h
        · exact j1 (by simp [h])
        · exact i1 h
      · rw [i3 vals, j3 vals]
        simp only [List.mem_cons, List.not_mem_nil, or_false, forall_eq, forall_eq_or_imp]
        constructor
        · rintro ⟨a, b, c⟩; exact ⟨⟨b, a⟩, c⟩
        · rintro ⟨⟨b, a⟩, c⟩; exact ⟨a, b, c⟩

theorem mkConstraintSet_spec (cs : List Constraint) (hne : cs ≠ []) :
    ∃ r, mkConstraintSet cs = .ok r ∧ MergedInto cs empty r := by
  obtain ⟨r, h, m⟩ := addAll_spec cs empty
  exact ⟨r, by simp [mkConstraintSet, hne, h], m⟩

/-- The result of `combine_sets`. -/
structure Combined (s t r : CSet) : Prop where
  normal : Normal r
  sat : ∀ ω, Sat ω r ↔ Sat ω s ∧ Sat ω t
  wf : (∀ c ∈ iter s, c.WF) → (∀ c ∈ iter t, c.WF) → ∀ c ∈ iter r, c.WF
  nonempty : iter r ≠ []

theorem combineSets_spec (s t : CSet) (hne : iter s ≠ [] ∨ iter t ≠ []) :
    ∃ r, combineSets s t = .ok r ∧ Combined s t r := by
  have hmem : ∀ x, x ∈ iter (union s (copy t)) ↔ x ∈ iter s ∨ x ∈ iter t := by
    intro x; rw [mem_union, mem_copy]
  have hne' : iter (union s (copy t)) ≠ [] := by
    intro h0
    rcases hne with h | h
    · obtain ⟨x, hx⟩ := List.exists_mem_of_ne_nil _ h
      have := (hmem x).mpr (Or.inl hx)
      rw [h0] at this; simp at this
    · obtain ⟨x, hx⟩ := List.exists_mem_of_ne_nil _ h
      have := (hmem x).mpr (Or.inr hx)
      rw [h0] at this; simp at this
  obtain ⟨r, hr, m⟩ := mkConstraintSet_spec (iter (union s (copy t))) hne'
  refine ⟨r, hr, m.normal normal_empty, ?_, ?_, m.nonempty (Or.inl hne')⟩
  · intro ω
    rw [m.sat ω]
    simp only [hmem, Sat]
    constructor
    · rintro ⟨h, _⟩; exact ⟨fun c hc => h c (Or.inl hc), fun c hc => h c (Or.inr hc)⟩
    · rintro ⟨h1, h2⟩
      refine ⟨?_, sat_empty ω⟩
      rintro c (hc | hc)
      · exact h1 c hc
      · exact h2 c hc
  · intro h1 h2
    apply m.wf
    · intro c hc
      rcases (hmem c).mp hc with hc | hc
      · exact h1 c hc
      · exact h2 c hc
    · intro c hc; rw [iter_empty] at hc; simp at hc

/-- In a normal set, the variable constraints have different names. -/
theorem Normal.names_unique {s : CSet} (h : Normal s) {n : Str} {vs ws : List Int}
    (h1 : .varValue n vs ∈ iter s) (h2 : .varValue n ws ∈ iter s) : vs = ws := by
  by_cases hne : vs = ws
  · exact hne
  · have := h _ h1 _ h2 (by simp [hne])
    simp [Constraint.canMerge] at this

theorem Normal.lone_null {s : CSet} (h : Normal s) (h1 : .null ∈ iter s) : ∀ c ∈ iter s, c = .null := by
  intro c hc
  by_cases hne : Constraint.null = c
  · exact hne.symm
  · have := h _ h1 _ hc hne
    simp [Constraint.canMerge] at this

theorem Normal.lone_impossible {s : CSet} (h : Normal s) (h1 : .impossible ∈ iter s) :
    ∀ c ∈ iter s, c = .impossible := by
  intro c hc
  by_cases hne : Constraint.impossible = c
  · exact hne.symm
  · have := h _ h1 _ hc hne
    simp [Constraint.canMerge] at this

/-- `is_possible` says whether some assignment satisfies the set. -/
theorem isPossible_iff {s : CSet} (h : Normal s) : csPossible s = true ↔ ∃ ω, Sat ω s := by
  classical
  constructor
  · intro hp
    simp only [csPossible, List.all_eq_true] at hp
    have hv : ∀ n vs, .varValue n vs ∈ iter s → ∃ a, a ∈ vs := by
      intro n vs hm
      have := hp _ hm
      simp only [Constraint.isPossible, decide_eq_true_eq] at this
      exact List.exists_mem_of_length_pos this
    refine ⟨fun n => if hn : ∃ a, ∃ vs, .varValue n vs ∈ iter s ∧ a ∈ vs then hn.choose else 0, ?_⟩
    intro c hc
    cases c with
    | null => trivial
    | impossible => have := hp _ hc; simp [Constraint.isPossible] at this
    | varValue n vs =>
      simp only [Constraint.Sat]
      have hex : ∃ a, ∃ vs, .varValue n vs ∈ iter s ∧ a ∈ vs := by
        obtain ⟨a, ha⟩ := hv n vs hc
        exact ⟨a, vs, hc, ha⟩
      simp only [hex, dite_true]
      obtain ⟨ws, hw, ha⟩ := hex.choose_spec
      rw [h.names_unique hc hw]; exact ha
  · rintro ⟨ω, hs⟩
    simp only [csPossible, List.all_eq_true]
    intro c hc
    have := hs c hc
    cases c with
    | null => rfl
    | impossible => exact this.elim
    | varValue n vs =>
      simp only [Constraint.isPossible, decide_eq_true_eq]
      exact List.length_pos_of_mem this

end PyDice
