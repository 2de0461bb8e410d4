import Verif.Lemmas.ConstraintUnique
/-!
# Exactly which elements merging produces
-/

namespace PyDice
open PyRuntime

/-- All constraints are null (and there is one). -/
def AllNull (l : List Constraint) : Prop := l ≠ [] ∧ ∀ c ∈ l, c = .null

/-- The two lists demand the same. -/
structure Eqv (l l' : List Constraint) : Prop where
  contra : Contradict l ↔ Contradict l'
  nonempty : ¬ Contradict l → ∀ n, valuesOf n l ≠ [] ↔ valuesOf n l' ≠ []
  values : ¬ Contradict l → ∀ n a, (∀ ws ∈ valuesOf n l, a ∈ ws) ↔ (∀ ws ∈ valuesOf n l', a ∈ ws)
  null : AllNull l ↔ AllNull l'

theorem Eqv.refl (l : List Constraint) : Eqv l l := ⟨Iff.rfl, fun _ _ => Iff.rfl, fun _ _ _ => Iff.rfl, Iff.rfl⟩

theorem Eqv.trans {l m k : List Constraint} (h : Eqv l m) (h' : Eqv m k) : Eqv l k where
  contra := h.contra.trans h'.contra
  nonempty hc n := (h.nonempty hc n).trans (h'.nonempty (fun c => hc (h.contra.mpr c)) n)
  values hc n a := (h.values hc n a).trans (h'.values (fun c => hc (h.contra.mpr c)) n a)
  null := h.null.trans h'.null

theorem valuesOf_perm {l m : List Constraint} (h : l.Perm m) (n : Str) : (valuesOf n l).Perm (valuesOf n m) :=
  h.filterMap _

theorem contradict_perm {l m : List Constraint} (h : l.Perm m) : Contradict l ↔ Contradict m := by
  unfold Contradict
  rw [h.mem_iff]
  constructor
  · rintro (h1 | ⟨n, h1, h2⟩)
    · exact Or.inl h1
    · right
      refine ⟨n, by rw [← (valuesOf_perm h n).length_eq]; exact h1, fun a => ?_⟩
      obtain ⟨vs, hv, ha⟩ := h2 a
      exact ⟨vs, (valuesOf_perm h n).mem_iff.mp hv, ha⟩
  · rintro (h1 | ⟨n, h1, h2⟩)
    · exact Or.inl h1
    · right
      refine ⟨n, by rw [(valuesOf_perm h n).length_eq]; exact h1, fun a => ?_⟩
      obtain ⟨vs, hv, ha⟩ := h2 a
      exact ⟨vs, (valuesOf_perm h n).mem_iff.mpr hv, ha⟩

theorem eqv_of_perm {l m : List Constraint} (h : l.Perm m) : Eqv l m where
  contra := contradict_perm h
  nonempty _ n := by
    rw [← List.length_pos_iff, ← List.length_pos_iff, (valuesOf_perm h n).length_eq]
  values _ n a := by simp only [(valuesOf_perm h n).mem_iff]
  null := by
    unfold AllNull
    rw [← List.length_pos_iff, ← List.length_pos_iff, h.length_eq]
    simp only [h.mem_iff]

theorem valuesOf_cons_var (n m : Str) (vs : List Int) (l : List Constraint) :
    valuesOf n (.varValue m vs :: l) = if m = n then vs :: valuesOf n l else valuesOf n l := by
  unfold valuesOf
  by_cases h : m = n <;> simp [h]

theorem valuesOf_cons_null (n : Str) (l : List Constraint) : valuesOf n (.null :: l) = valuesOf n l := by
  simp [valuesOf]

theorem valuesOf_cons_impossible (n : Str) (l : List Constraint) : valuesOf n (.impossible :: l) = valuesOf n l := by
  simp [valuesOf]

theorem contradict_cons {c : Constraint} {l : List Constraint} (h : Contradict l) : Contradict (c :: l) := by
  rcases h with h | ⟨n, h1, h2⟩
  · exact Or.inl (by simp [h])
  · right
    refine ⟨n, ?_, fun a => ?_⟩
    · cases c with
      | null => rw [valuesOf_cons_null]; exact h1
      | impossible => rw [valuesOf_cons_impossible]; exact h1
      | varValue m vs =>
        rw [valuesOf_cons_var]; split
        · simp only [List.length_cons]; omega
        · exact h1
    · obtain ⟨vs, hv, ha⟩ := h2 a
      refine ⟨vs, ?_, ha⟩
      cases c with
      | null => rw [valuesOf_cons_null]; exact hv
      | impossible => rw [valuesOf_cons_impossible]; exact hv
      | varValue m us =>
        rw [valuesOf_cons_var]; split
        · exact List.mem_cons_of_mem _ hv
        · exact hv

theorem eqv_cons_half {l l' : List Constraint} (c : Constraint) (h : Eqv l l') (hc : Contradict (c :: l)) :
    Contradict (c :: l') := by
  by_cases hl : Contradict l
  · exact contradict_cons (h.contra.mp hl)
  · have hl' : ¬ Contradict l' := fun h' => hl (h.contra.mpr h')
    rcases hc with hc | ⟨n, h1, h2⟩
    · rcases List.mem_cons.mp hc with hc | hc
      · exact Or.inl (by simp [hc])
      · exact absurd (Or.inl hc) hl
    · cases c with
      | null => rw [valuesOf_cons_null] at h1 h2; exact absurd (Or.inr ⟨n, h1, h2⟩) hl
      | impossible => exact Or.inl (by simp)
      | varValue m vs =>
        rw [valuesOf_cons_var] at h1 h2
        by_cases hm : m = n
        · subst hm
          simp only [if_true, List.length_cons] at h1 h2
          right
          refine ⟨m, ?_, fun a => ?_⟩
          · have : valuesOf m l ≠ [] := by rw [← List.length_pos_iff]; omega
            have := List.length_pos_iff.mpr ((h.nonempty hl m).mp this)
            rw [valuesOf_cons_var]; simp only [if_true, List.length_cons]; omega
          · rw [valuesOf_cons_var]; simp only [if_true]
            by_cases ha : a ∈ vs
            · have hno : ¬ ∀ ws ∈ valuesOf m l', a ∈ ws := by
                rw [← h.values hl m a]
                intro hall
                obtain ⟨ws, hw, haw⟩ := h2 a
                rcases List.mem_cons.mp hw with rfl | hw
                · exact haw ha
                · exact haw (hall ws hw)
              simp only [not_forall] at hno
              obtain ⟨ws, hw, haw⟩ := hno
              exact ⟨ws, List.mem_cons_of_mem _ hw, haw⟩
            · exact ⟨vs, by simp, ha⟩
        · simp only [hm, if_false] at h1 h2
          exact absurd (Or.inr ⟨n, h1, h2⟩) hl

theorem Eqv.symm {l m : List Constraint} (h : Eqv l m) : Eqv m l where
  contra := h.contra.symm
  nonempty hc n := (h.nonempty (fun c => hc (h.contra.mp c)) n).symm
  values hc n a := (h.values (fun c => hc (h.contra.mp c)) n a).symm
  null := h.null.symm

theorem eqv_cons {l l' : List Constraint} (c : Constraint) (h : Eqv l l') (hne : l = [] ↔ l' = []) :
    Eqv (c :: l) (c :: l') where
  contra := ⟨eqv_cons_half c h, eqv_cons_half c h.symm⟩
  nonempty hc n := by
    have hl : ¬ Contradict l := fun h' => hc (contradict_cons h')
    cases c with
    | null => rw [valuesOf_cons_null, valuesOf_cons_null]; exact h.nonempty hl n
    | impossible => rw [valuesOf_cons_impossible, valuesOf_cons_impossible]; exact h.nonempty hl n
    | varValue m vs =>
      rw [valuesOf_cons_var, valuesOf_cons_var]
      split
      · simp
      · exact h.nonempty hl n
  values hc n a := by
    have hl : ¬ Contradict l := fun h' => hc (contradict_cons h')
    cases c with
    | null => rw [valuesOf_cons_null, valuesOf_cons_null]; exact h.values hl n a
    | impossible => rw [valuesOf_cons_impossible, valuesOf_cons_impossible]; exact h.values hl n a
    | varValue m vs =>
      rw [valuesOf_cons_var, valuesOf_cons_var]
      split
      · simp only [List.mem_cons, forall_eq_or_imp, h.values hl n a]
      · exact h.values hl n a
  null := by
    have := h.null
    unfold AllNull at this ⊢
    simp only [ne_eq, reduceCtorEq, not_false_eq_true, List.mem_cons, forall_eq_or_imp, true_and]
    by_cases hl : l = []
    · have hl' := hne.mp hl
      subst hl; subst hl'; simp
    · have hl' : l' ≠ [] := fun h' => hl (hne.mpr h')
      constructor
      · rintro ⟨h1, h2⟩; exact ⟨h1, (this.mp ⟨hl, h2⟩).2⟩
      · rintro ⟨h1, h2⟩; exact ⟨h1, (this.mpr ⟨hl', h2⟩).2⟩

section
variable [R : PyRuntime]

/-- Replacing two constraints by their merge changes nothing. -/
theorem eqv_merge (a b m : Constraint) (rest : List Constraint) (h : a.merge b = .ok m) :
    Eqv (a :: b :: rest) (m :: rest) := by
  have hbad : ∀ l, Contradict l → (¬ AllNull l) := by
    rintro l (h1 | ⟨n, h1, _⟩) ⟨_, h2⟩
    · exact absurd (h2 _ h1) (by simp)
    · have : valuesOf n l = [] := by
        unfold valuesOf
        rw [List.filterMap_eq_nil_iff]
        intro c hc; rw [h2 c hc]
      rw [this] at h1; simp at h1
  have both : ∀ l l', Contradict l → Contradict l' → Eqv l l' := fun l l' h1 h2 =>
    ⟨⟨fun _ => h2, fun _ => h1⟩, fun hc => absurd h1 hc, fun hc => absurd h1 hc,
      ⟨fun hn => absurd hn (hbad _ h1), fun hn => absurd hn (hbad _ h2)⟩⟩
  cases a with
  | null =>
    simp [Constraint.merge] at h; subst h
    refine ⟨?_, fun _ n => by rw [valuesOf_cons_null], fun _ n a => by rw [valuesOf_cons_null], ?_⟩
    · unfold Contradict
      simp only [valuesOf_cons_null]
      simp
    · unfold AllNull; simp
  | impossible =>
    simp [Constraint.merge] at h; subst h
    exact both _ _ (Or.inl (by simp)) (Or.inl (by simp))
  | varValue n vs =>
    cases b with
    | null => simp [Constraint.merge, Constraint.canMerge] at h
    | impossible => simp [Constraint.merge, Constraint.canMerge] at h
    | varValue n' ws =>
      simp only [Constraint.merge] at h
      split at h
      · simp at h
      · rename_i h0
        have hmn : n' = n := by simpa [Constraint.canMerge] using h0
        subst hmn
        split at h
        · rename_i h1
          simp at h; subst h
          have hemp : inter vs ws = [] := List.length_eq_zero_iff.mp h1
          refine both _ _ (Or.inr ⟨n', ?_, ?_⟩) (Or.inl (by simp))
          · simp [valuesOf_cons_var]
          · intro a
            simp only [valuesOf_cons_var, if_true]
            by_cases ha : a ∈ vs
            · refine ⟨ws, by simp, fun hw => ?_⟩
              have : a ∈ inter vs ws := (mem_inter _ _ _).mpr ⟨ha, hw⟩
              rw [hemp] at this; simp at this
            · exact ⟨vs, by simp, ha⟩
        · rename_i h1
          simp at h; subst h
          obtain ⟨x, hx⟩ := List.exists_mem_of_ne_nil (inter vs ws) (fun h0 => h1 (by rw [h0]; rfl))
          have hx' := (mem_inter _ _ _).mp hx
          refine ⟨⟨?_, ?_⟩, ?_, ?_, ?_⟩
          · rintro (h2 | ⟨k, h2, h3⟩)
            · simp at h2; exact Or.inl (by simp [h2])
            · right
              refine ⟨k, ?_, ?_⟩
              · simp only [valuesOf_cons_var] at h2 h3 ⊢
                by_cases hk : n' = k
                · simp only [hk, if_true, List.length_cons] at h2 h3 ⊢
                  cases hv : valuesOf k rest with
                  | nil =>
                    exfalso
                    obtain ⟨us, hu, hxu⟩ := h3 x
                    rw [hv] at hu
                    simp only [List.mem_cons, List.not_mem_nil, or_false] at hu
                    rcases hu with rfl | rfl
                    · exact hxu hx'.1
                    · exact hxu hx'.2
                  | cons => simp
                · simpa [hk] using h2
              · intro a
                obtain ⟨us, hu, ha⟩ := h3 a
                simp only [valuesOf_cons_var] at hu ⊢
                by_cases hk : n' = k
                · simp only [hk, if_true, List.mem_cons] at hu ⊢
                  rcases hu with rfl | rfl | hu
                  · exact ⟨_, Or.inl rfl, fun h' => ha ((mem_inter _ _ _).mp h').1⟩
                  · exact ⟨_, Or.inl rfl, fun h' => ha ((mem_inter _ _ _).mp h').2⟩
                  · exact ⟨us, Or.inr hu, ha⟩
                · simp only [hk, if_false] at hu ⊢
                  exact ⟨us, hu, ha⟩
          · rintro (h2 | ⟨k, h2, h3⟩)
            · simp at h2; exact Or.inl (by simp [h2])
            · right
              refine ⟨k, ?_, ?_⟩
              · simp only [valuesOf_cons_var] at h2 ⊢
                by_cases hk : n' = k
                · simp only [hk, if_true, List.length_cons] at h2 ⊢; omega
                · simpa [hk] using h2
              · intro a
                obtain ⟨us, hu, ha⟩ := h3 a
                simp only [valuesOf_cons_var] at hu ⊢
                by_cases hk : n' = k
                · simp only [hk, if_true, List.mem_cons] at hu ⊢
                  rcases hu with rfl | hu
                  · by_cases hav : a ∈ vs
                    · exact ⟨ws, Or.inr (Or.inl rfl), fun h' => ha ((mem_inter _ _ _).mpr ⟨hav, h'⟩)⟩
                    · exact ⟨vs, Or.inl rfl, hav⟩
                  · exact ⟨us, Or.inr (Or.inr hu), ha⟩
                · simp only [hk, if_false] at hu ⊢
                  exact ⟨us, hu, ha⟩
          · intro _ k
            simp only [valuesOf_cons_var]
            by_cases hk : n' = k <;> simp [hk]
          · intro _ k a
            simp only [valuesOf_cons_var]
            by_cases hk : n' = k
            · simp only [hk, if_true, List.mem_cons, forall_eq_or_imp, mem_inter, and_assoc]
            · simp [hk]
          · unfold AllNull; simp

theorem mergeLoop_elems : ∀ (fuel : Nat) (stack : List Constraint) (clean r : CSet),
    mergeLoop fuel stack clean = .ok r → Eqv (stack ++ iter clean) (iter r) := by
  intro fuel
  induction fuel with
  | zero =>
    intro stack clean r h
    cases stack with
    | nil => simp [mergeLoop] at h; subst h; exact Eqv.refl _
    | cons => simp [mergeLoop] at h
  | succ fuel ih =>
    intro stack clean r h
    cases stack with
    | nil => simp [mergeLoop] at h; subst h; exact Eqv.refl _
    | cons cur rest =>
      rcases mergeOne_spec cur clean with ⟨hstep, hno⟩ | ⟨c, hc, m, hstep, hmerge, _⟩
      · simp only [mergeLoop, hstep] at h
        have hnot : cur ∉ iter clean := by
          intro h
          have := (hno cur h).1
          rw [canMerge_self] at this; simp at this
        refine Eqv.trans (eqv_of_perm ?_) (ih rest (insert clean cur) r h)
        have : (iter (insert clean cur)).Perm (cur :: iter clean) := by
          apply perm_of_mem_iff (iter_nodup _)
          · exact List.nodup_cons.mpr ⟨hnot, iter_nodup _⟩
          · intro x; rw [mem_insert]; simp [or_comm]
        exact (List.perm_middle.symm).trans (List.Perm.append_left rest this.symm)
      · simp only [mergeLoop, hstep] at h
        have hp : (iter clean).Perm (c :: iter (erase (copy clean) c)) := by
          apply perm_of_mem_iff (iter_nodup _)
          · exact List.nodup_cons.mpr ⟨fun h' => ((mem_erase _ _ _).mp h').2 rfl, iter_nodup _⟩
          · intro x
            rw [List.mem_cons, mem_erase, mem_copy]
            by_cases hx : x = c
            · subst hx; simp [hc]
            · simp [hx]
        have hp2 : (cur :: rest ++ iter clean).Perm (cur :: c :: (rest ++ iter (erase (copy clean) c))) := by
          refine List.Perm.cons _ ?_
          exact (List.Perm.append_left rest hp).trans List.perm_middle
        refine Eqv.trans (eqv_of_perm hp2) (Eqv.trans ?_ (ih (m :: rest) _ r h))
        rcases hmerge with hm | hm
        · exact Eqv.trans (eqv_of_perm (List.Perm.swap _ _ _)) (eqv_merge _ _ _ _ hm)
        · exact eqv_merge _ _ _ _ hm

theorem addConstraint_elems {s : CSet} {c : Constraint} {r : CSet} (h : addConstraint s c = .ok r) :
    Eqv (c :: iter s) (iter r) := by
  have := mergeLoop_elems _ _ _ _ h
  refine Eqv.trans (eqv_of_perm ?_) this
  simp only [List.reverse_singleton, List.singleton_append]
  exact List.Perm.cons _ (perm_of_mem_iff (iter_nodup _) (iter_nodup _) (fun x => (mem_copy s x).symm))

theorem addAll_elems : ∀ (cs : List Constraint) (s r : CSet), addAll s cs = .ok r → Eqv (cs ++ iter s) (iter r) := by
  intro cs
  induction cs with
  | nil => intro s r h; simp [addAll] at h; subst h; exact Eqv.refl _
  | cons c rest ih =>
    intro s r h
    obtain ⟨r1, h1, m1⟩ := addConstraint_spec s c
    simp only [addAll, h1] at h
    have h2 := ih r1 r h
    have hne : iter r1 ≠ [] := m1.nonempty (Or.inl (by simp))
    refine Eqv.trans ?_ h2
    refine Eqv.trans (eqv_of_perm (List.perm_middle.symm : (c :: rest ++ iter s).Perm (rest ++ c :: iter s))) ?_
    clear h2 h ih
    have hbase := addConstraint_elems h1
    have : ∀ l : List Constraint, Eqv (l ++ c :: iter s) (l ++ iter r1) := by
      intro l
      induction l with
      | nil => exact hbase
      | cons x l ih => exact eqv_cons x ih (by simp [hne])
    exact this rest

theorem valuesOf_normal {s : CSet} (h : Normal s) {n : Str} {vs : List Int} (hm : .varValue n vs ∈ iter s) :
    valuesOf n (iter s) = [vs] := by
  have hall : ∀ ws ∈ valuesOf n (iter s), ws = vs := by
    intro ws hw
    unfold valuesOf at hw
    rw [List.mem_filterMap] at hw
    obtain ⟨c, hc, hcw⟩ := hw
    cases c with
    | null => simp at hcw
    | impossible => simp at hcw
    | varValue m us =>
      by_cases hmn : m = n
      · subst hmn
        simp at hcw; subst hcw
        exact h.names_unique hc hm
      · simp [hmn] at hcw
  have hmem : vs ∈ valuesOf n (iter s) := by
    unfold valuesOf
    rw [List.mem_filterMap]
    exact ⟨_, hm, by simp⟩
  have hnd : (valuesOf n (iter s)).Nodup := by
    unfold valuesOf
    apply List.Nodup.filterMap _ (iter_nodup s)
    intro a a' b hb hb'
    cases a <;> cases a' <;> simp at hb hb'
    rename_i m1 v1 m2 v2
    obtain ⟨rfl, rfl⟩ := hb
    obtain ⟨rfl, rfl⟩ := hb'
    rfl
  cases hv : valuesOf n (iter s) with
  | nil => rw [hv] at hmem; simp at hmem
  | cons x t =>
    have hx := hall x (by rw [hv]; simp)
    cases t with
    | nil => rw [hx]
    | cons y t =>
      have hy := hall y (by rw [hv]; simp)
      rw [hv, hx, hy] at hnd
      simp at hnd

omit R in
theorem mem_of_valuesOf {l : List Constraint} {n : Str} {vs : List Int} (h : vs ∈ valuesOf n l) :
    .varValue n vs ∈ l := by
  unfold valuesOf at h
  rw [List.mem_filterMap] at h
  obtain ⟨c, hc, hcw⟩ := h
  cases c with
  | null => simp at hcw
  | impossible => simp at hcw
  | varValue m us =>
    by_cases hmn : m = n
    · subst hmn
      simp at hcw; subst hcw; exact hc
    · simp [hmn] at hcw

/-- A normal set is what merging its own elements should give. -/
theorem expected_self {s : CSet} (h : Normal s) : ExpectedMerge (iter s) (iter s) where
  impossible := by
    constructor
    · exact Or.inl
    · rintro (h1 | ⟨n, h1, _⟩)
      · exact h1
      · exfalso
        obtain ⟨vs, hv⟩ := List.exists_mem_of_length_pos (show 0 < (valuesOf n (iter s)).length by omega)
        rw [valuesOf_normal h (mem_of_valuesOf hv)] at h1
        simp at h1
  null := by
    constructor
    · intro hn
      exact ⟨fun h0 => by rw [h0] at hn; simp at hn, h.lone_null hn⟩
    · rintro ⟨hne, hall⟩
      obtain ⟨x, hx⟩ := List.exists_mem_of_ne_nil _ hne
      rw [← hall x hx]; exact hx
  var_sound n vs hm := by
    rw [valuesOf_normal h hm]
    refine ⟨?_, by simp, by simp⟩
    rintro (h1 | ⟨k, h1, _⟩)
    · exact absurd (h.lone_impossible h1 _ hm) (by simp)
    · obtain ⟨us, hv⟩ := List.exists_mem_of_length_pos (show 0 < (valuesOf k (iter s)).length by omega)
      rw [valuesOf_normal h (mem_of_valuesOf hv)] at h1
      simp at h1
  var_complete _ n hne := by
    obtain ⟨vs, hv⟩ := List.exists_mem_of_ne_nil _ hne
    exact ⟨vs, mem_of_valuesOf hv⟩

omit R in
theorem expected_of_eqv {l m r : List Constraint} (h : Eqv l m) (e : ExpectedMerge m r) : ExpectedMerge l r where
  impossible := e.impossible.trans h.contra.symm
  null := e.null.trans h.null.symm
  var_sound n vs hm := by
    obtain ⟨h1, h2, h3⟩ := e.var_sound n vs hm
    have hc : ¬ Contradict l := fun c => h1 (h.contra.mp c)
    exact ⟨hc, (h.nonempty hc n).mpr h2, fun a => (h3 a).trans (h.values hc n a).symm⟩
  var_complete hc n hne := e.var_complete (fun c => hc (h.contra.mpr c)) n ((h.nonempty hc n).mp hne)

theorem expected_addAll {cs : List Constraint} {s r : CSet} (hs : Normal s) (h : addAll s cs = .ok r) :
    ExpectedMerge (cs ++ iter s) (iter r) := by
  obtain ⟨r', h', m⟩ := addAll_spec cs s
  rw [h] at h'
  obtain rfl : r = r' := by simpa using h'
  exact expected_of_eqv (addAll_elems cs s r h) (expected_self (m.normal hs))

end

/-- Two results expected from permuted inputs are the same. -/
theorem same_of_expected {l m r r' : List Constraint} (hp : l.Perm m) (h : ExpectedMerge l r)
    (h' : ExpectedMerge m r') : SameConstraints r r' := by
  have e := eqv_of_perm hp
  refine ⟨?_, ?_, ?_, ?_⟩
  · exact h.null.trans (e.null.trans h'.null.symm)
  · exact h.impossible.trans (e.contra.trans h'.impossible.symm)
  · intro n vs hm
    obtain ⟨h1, h2, h3⟩ := h.var_sound n vs hm
    have hc' : ¬ Contradict m := fun c => h1 (e.contra.mpr c)
    obtain ⟨ws, hw⟩ := h'.var_complete hc' n ((e.nonempty h1 n).mp h2)
    obtain ⟨_, _, h5⟩ := h'.var_sound n ws hw
    exact ⟨ws, hw, fun a => (h3 a).trans ((e.values h1 n a).trans (h5 a).symm)⟩
  · intro n ws hm
    obtain ⟨h1, h2, h3⟩ := h'.var_sound n ws hm
    have hc : ¬ Contradict l := fun c => h1 (e.contra.mp c)
    obtain ⟨vs, hv⟩ := h.var_complete hc n ((e.nonempty hc n).mpr h2)
    obtain ⟨_, _, h5⟩ := h.var_sound n vs hv
    exact ⟨vs, hv, fun a => (h5 a).trans ((e.values hc n a).trans (h3 a).symm)⟩

end PyDice
