import Verif.Lemmas.Work
import Mathlib.Data.Sym.Card
import Mathlib.Data.Set.List
import Mathlib.Algebra.BigOperators.Group.Finset.Basic
/-!
# How many keys keep and drop terms go through
-/

namespace PyDice

/-- The dict has one entry for every way `i` dice can fall, their order left aside. -/
structure AllKeys (table : List (Int × Nat)) (i : Nat) (d : List (Str × Nat)) : Prop where
  nodup : (d.map Prod.fst).Nodup
  keys : ∀ k, k ∈ d.map Prod.fst ↔ ∃ l : List Int, l.length = i ∧ (∀ x ∈ l, x ∈ table.map Prod.fst) ∧ k = listToKey l

theorem listToKey_perm {l m : List Int} (h : l.Perm m) : listToKey l = listToKey m := by
  unfold listToKey
  rw [sortInts_eq_of_perm h]

theorem allKeys_length {table : List (Int × Nat)} (ht : (table.map Prod.fst).Nodup) {i : Nat} {d : List (Str × Nat)}
    (h : AllKeys table i d) : d.length = Nat.multichoose table.length i := by
  let face : Fin table.length → Int := fun j => (table.get j).1
  have inj : Function.Injective face := by
    intro a b e
    have h1 := List.nodup_iff_injective_get.mp ht
    have : (⟨a, by simp⟩ : Fin (table.map Prod.fst).length) = ⟨b, by simp⟩ := h1 (by simpa [face] using e)
    exact Fin.ext (by simpa using this)
  have range : ∀ x, x ∈ table.map Prod.fst ↔ x ∈ Set.range face := by
    intro x
    simp only [List.mem_map, Set.mem_range, face]
    constructor
    · rintro ⟨p, hp, e⟩
      obtain ⟨j, hj⟩ := List.mem_iff_get.mp hp
      exact ⟨j, by rw [hj, e]⟩
    · rintro ⟨j, e⟩
      exact ⟨_, List.get_mem _ _, e⟩
  let key : Sym (Fin table.length) i → Str := fun s => listToKey ((s : Multiset (Fin table.length)).map face).toList
  have kinj : Function.Injective key := by
    intro s t e
    have h1 := listToKey_injective e
    have h2 : (((s : Multiset (Fin table.length)).map face).toList).Perm ((t : Multiset (Fin table.length)).map face).toList :=
      (sortInts_perm _).symm.trans (h1 ▸ sortInts_perm _)
    have h3 := Multiset.coe_eq_coe.mpr h2
    rw [Multiset.coe_toList, Multiset.coe_toList] at h3
    exact Sym.coe_injective (Multiset.map_injective inj h3)
  have himg : (d.map Prod.fst).toFinset = Finset.univ.image key := by
    ext k
    rw [List.mem_toFinset, h.keys, Finset.mem_image]
    constructor
    · rintro ⟨l, h1, h2, rfl⟩
      have : l ∈ Set.range (List.map face) := by
        rw [Set.range_list_map]
        exact fun x hx => (range x).mp (h2 x hx)
      obtain ⟨l', rfl⟩ := this
      refine ⟨⟨(l' : Multiset (Fin table.length)), by simpa using h1⟩, Finset.mem_univ _, ?_⟩
      apply listToKey_perm
      rw [← Multiset.coe_eq_coe, Multiset.coe_toList]
      rfl
    · rintro ⟨s, _, rfl⟩
      refine ⟨_, ?_, ?_, rfl⟩
      · simp
      · intro x hx
        rw [Multiset.mem_toList, Multiset.mem_map] at hx
        obtain ⟨j, _, rfl⟩ := hx
        exact (range _).mpr ⟨j, rfl⟩
  have h1 := List.toFinset_card_of_nodup h.nodup
  rw [himg, Finset.card_image_of_injective _ kinj, Finset.card_univ, Sym.card_sym_eq_multichoose, Fintype.card_fin, List.length_map] at h1
  exact h1.symm

theorem allKeys_start (table : List (Int × Nat)) : AllKeys table 0 [([], 1)] := by
  refine ⟨by simp, fun k => ?_⟩
  constructor
  · intro h
    simp at h
    exact ⟨[], rfl, by simp, h⟩
  · rintro ⟨l, h1, _, rfl⟩
    rw [List.length_eq_zero_iff] at h1
    subst h1
    simp [listToKey_nil]

theorem AllKeys.encoded {table : List (Int × Nat)} {i : Nat} {d : List (Str × Nat)} (h : AllKeys table i d) : Encoded d := by
  intro p hp
  obtain ⟨l, _, _, e⟩ := (h.keys p.1).mp (List.mem_map.mpr ⟨p, hp, rfl⟩)
  exact ⟨l, e⟩

/-- One round of the outer loop. -/
theorem keys_round {next : Str → Int → Res Str} {step : List Int → Int → List Int}
    (hn : ∀ k face l, keyToList k = .ok l → next k face = .ok (listToKey (step l face))) {table : List (Int × Nat)} {i j : Nat}
    (hs : ∀ m : List Int, (m.length = j ∧ ∀ x ∈ m, x ∈ table.map Prod.fst) → ∃ l x, l.length = i ∧ (∀ y ∈ l, y ∈ table.map Prod.fst) ∧
      x ∈ table.map Prod.fst ∧ listToKey (step (sortInts l) x) = listToKey m)
    (hc : ∀ (l : List Int) x, l.length = i → (∀ y ∈ l, y ∈ table.map Prod.fst) → x ∈ table.map Prod.fst →
      (step (sortInts l) x).length = j ∧ ∀ y ∈ step (sortInts l) x, y ∈ table.map Prod.fst)
    {d : List (Str × Nat)} (h : AllKeys table i d) : ∃ d', keyLoop next (pairsOf table d) [] = .ok d' ∧ AllKeys table j d' := by
  have hnext : ∀ p ∈ pairsOf table d, next p.2.1 p.1.1 = .ok (listToKey (step (decode p.2.1) p.1.1)) := by
    intro p hp
    obtain ⟨l, hl⟩ := h.encoded p.2 ((mem_pairsOf _ _ _).mp hp).2
    rw [hl, hn _ _ _ (keyToList_listToKey l), decode_listToKey]
  refine ⟨_, keyLoop_ok next (fun k x => listToKey (step (decode k) x)) (pairsOf table d) [] hnext, ?_, ?_⟩
  · rw [← distinct_iff_nodup]
    exact distinct_foldl_safeAdd _ (fun p : (Int × Nat) × (Str × Nat) => listToKey (step (decode p.2.1) p.1.1)) (fun p => p.2.2 * p.1.2) _
      List.Pairwise.nil
  · intro k
    have := exists_foldl_safeAdd (pairsOf table d) (fun p : (Int × Nat) × (Str × Nat) => listToKey (step (decode p.2.1) p.1.1))
      (fun p => p.2.2 * p.1.2) (fun x => x = k) (resp_of_lawful _) []
    rw [List.mem_map, this]
    simp only [List.not_mem_nil, false_and, exists_false, false_or]
    constructor
    · rintro ⟨q, hq, rfl⟩
      obtain ⟨h1, h2⟩ := (mem_pairsOf _ _ _).mp hq
      obtain ⟨l, e1, e2, e3⟩ := (h.keys q.2.1).mp (List.mem_map.mpr ⟨q.2, h2, rfl⟩)
      rw [e3, decode_listToKey]
      obtain ⟨c1, c2⟩ := hc l q.1.1 e1 e2 (List.mem_map.mpr ⟨q.1, h1, rfl⟩)
      exact ⟨_, c1, c2, rfl⟩
    · rintro ⟨m, h1, h2, rfl⟩
      obtain ⟨l, x, e1, e2, e3, e4⟩ := hs m ⟨h1, h2⟩
      obtain ⟨q, hq, rfl⟩ := List.mem_map.mp e3
      obtain ⟨p, hp, e5⟩ := List.mem_map.mp ((h.keys (listToKey l)).mpr ⟨l, e1, e2, rfl⟩)
      exact ⟨(q, p), (mem_pairsOf _ _ _).mpr ⟨hq, hp⟩, by simp only [e5, decode_listToKey, e4]⟩

theorem keys_add {table : List (Int × Nat)} {i : Nat} {d : List (Str × Nat)} (h : AllKeys table i d) :
    ∃ d', keyLoop addKey (pairsOf table d) [] = .ok d' ∧ AllKeys table (i + 1) d' := by
  refine keys_round (step := fun l x => sortInts (l ++ [x])) (fun k face l h => by simp only [addKey, h, ok_bind]; rfl) ?_ ?_ h
  · rintro m ⟨h1, h2⟩
    cases m with
    | nil => simp at h1
    | cons x m =>
      refine ⟨m, x, by simpa using h1, fun y hy => h2 y (by simp [hy]), h2 x (by simp), ?_⟩
      apply listToKey_perm
      exact (sortInts_perm _).trans (((sortInts_perm m).append_right [x]).trans List.perm_append_comm)
  · intro l x h1 h2 h3
    have hp := (sortInts_perm (sortInts l ++ [x])).trans ((sortInts_perm l).append_right [x])
    refine ⟨by rw [hp.length_eq]; simp [h1], fun y hy => ?_⟩
    rcases List.mem_append.mp (hp.mem_iff.mp hy) with hy | hy
    · exact h2 y hy
    · simp only [List.mem_singleton] at hy
      rw [hy]
      exact h3

theorem keys_update {table : List (Int × Nat)} (keep : Bool) {i : Nat} (hi : 1 ≤ i) {d : List (Str × Nat)} (h : AllKeys table i d) :
    ∃ d', keyLoop (updateKey keep) (pairsOf table d) [] = .ok d' ∧ AllKeys table i d' := by
  refine keys_round (step := fun l x => if keep then (sortInts (l ++ [x])).drop 1 else (sortInts (l ++ [x])).dropLast)
    (fun k face l h => by simp only [updateKey, h, ok_bind]; rfl) ?_ ?_ h
  · rintro m ⟨h1, h2⟩
    have hl := length_sortInts m
    have hmem : ∀ y ∈ sortInts m, y ∈ table.map Prod.fst := fun y hy => h2 y ((sortInts_perm m).mem_iff.mp hy)
    cases keep with
    | true =>
      cases hs : sortInts m with
      | nil => rw [hs] at hl; simp at hl; omega
      | cons x l =>
        refine ⟨m, x, h1, h2, hmem x (by rw [hs]; simp), ?_⟩
        have h3 := sortInts_sorted m
        rw [hs] at h3
        have h4 : sortInts (sortInts m ++ [x]) = x :: sortInts m := by
          rw [sortInts_snoc, sortInts_idem, ins_of_le]
          rw [hs]
          intro y hy
          rcases List.mem_cons.mp hy with rfl | hy
          · exact le_refl _
          · exact List.rel_of_pairwise_cons h3 hy
        simp only [if_true]
        rw [h4, List.drop_one, List.tail_cons, listToKey_sort]
    | false =>
      obtain ⟨l, x, hs⟩ : ∃ l x, sortInts m = l ++ [x] := by
        have : sortInts m ≠ [] := by intro e; rw [e] at hl; simp at hl; omega
        exact ⟨_, _, (List.dropLast_append_getLast this).symm⟩
      refine ⟨m, x, h1, h2, hmem x (by rw [hs]; simp), ?_⟩
      have h3 := sortInts_sorted m
      rw [hs, List.pairwise_append] at h3
      have h4 : sortInts (sortInts m ++ [x]) = sortInts m ++ [x] := by
        apply sortInts_of_sorted
        rw [hs]
        rw [List.pairwise_append]
        refine ⟨List.pairwise_append.mpr h3, by simp, fun y hy z hz => ?_⟩
        simp only [List.mem_singleton] at hz
        subst hz
        rcases List.mem_append.mp hy with hy | hy
        · exact h3.2.2 y hy z (by simp)
        · simp only [List.mem_singleton] at hy
          exact le_of_eq hy
      simp only [Bool.false_eq_true, if_false]
      rw [h4, List.dropLast_concat, listToKey_sort]
  · intro l x h1 h2 h3
    have hp := (sortInts_perm (sortInts l ++ [x])).trans ((sortInts_perm l).append_right [x])
    have hsub : ∀ y ∈ sortInts (sortInts l ++ [x]), y ∈ table.map Prod.fst := by
      intro y hy
      rcases List.mem_append.mp (hp.mem_iff.mp hy) with hy | hy
      · exact h2 y hy
      · simp only [List.mem_singleton] at hy
        rw [hy]
        exact h3
    have hlen : (sortInts (sortInts l ++ [x])).length = i + 1 := by rw [hp.length_eq]; simp [h1]
    cases keep with
    | true => exact ⟨by simp [hlen], fun y hy => hsub y (List.mem_of_mem_drop hy)⟩
    | false => exact ⟨by simp [hlen], fun y hy => hsub y (List.mem_of_mem_dropLast hy)⟩

/-- The first phase. -/
theorem build_passes {table : List (Int × Nat)} (ht : (table.map Prod.fst).Nodup) : ∀ (k i : Nat) (d : List (Str × Nat)) (n : Nat),
    AllKeys table i d → ∃ d', iterKeysW addKey table k d n =
      .ok (d', n + ∑ j ∈ Finset.range k, table.length * Nat.multichoose table.length (i + j)) ∧ AllKeys table (i + k) d' := by
  intro k
  induction k with
  | zero => exact fun i d n h => ⟨d, by simp [iterKeysW], h⟩
  | succ k ih =>
    intro i d n h
    obtain ⟨d1, e1, h1⟩ := keys_add h
    obtain ⟨d2, e2, h2⟩ := ih (i + 1) d1 (n + table.length * Nat.multichoose table.length i) h1
    refine ⟨d2, ?_, by rw [show i + (k + 1) = i + 1 + k by omega]; exact h2⟩
    simp only [iterKeysW, keyLoopW_eq, e1, length_pairsOf, allKeys_length ht h]
    show iterKeysW addKey table k d1 _ = _
    rw [e2, Finset.sum_range_succ']
    congr 2
    rw [Nat.add_assoc, Nat.add_comm (table.length * _)]
    simp only [show ∀ j, i + 1 + j = i + (j + 1) by intro j; omega]
    rfl

/-- The second phase. -/
theorem update_passes {table : List (Int × Nat)} (ht : (table.map Prod.fst).Nodup) (keep : Bool) {i : Nat} (hi : 1 ≤ i) :
    ∀ (k : Nat) (d : List (Str × Nat)) (n : Nat),
    AllKeys table i d → ∃ d', iterKeysW (updateKey keep) table k d n =
      .ok (d', n + k * (table.length * Nat.multichoose table.length i)) ∧ AllKeys table i d' := by
  intro k
  induction k with
  | zero => exact fun d n h => ⟨d, by simp [iterKeysW], h⟩
  | succ k ih =>
    intro d n h
    obtain ⟨d1, e1, h1⟩ := keys_update keep hi h
    obtain ⟨d2, e2, h2⟩ := ih d1 (n + table.length * Nat.multichoose table.length i) h1
    refine ⟨d2, ?_, h2⟩
    simp only [iterKeysW, keyLoopW_eq, e1, length_pairsOf, allKeys_length ht h]
    show iterKeysW (updateKey keep) table k d1 _ = _
    rw [e2]
    congr 2
    ring

theorem table_length {m : List (Int × Nat)} (hd : DistinctKeys m) {lo hi : Int} (hk : ∀ v, hasKey m v ↔ lo ≤ v ∧ v ≤ hi) :
    m.length = (hi + 1 - lo).toNat := by
  have h1 := List.toFinset_card_of_nodup ((distinct_iff_nodup m).mp hd)
  rw [List.length_map] at h1
  rw [← h1, ← Int.card_Icc]
  congr 1
  ext v
  rw [List.mem_toFinset, Finset.mem_Icc]
  exact hk v

/-- Powers of two outgrow powers. -/
theorem outgrow (C e : Nat) : ∃ m, C * (2 * (m + 1)) ^ e < 2 ^ (m + 1) := by
  obtain ⟨a, ha⟩ : ∃ a, a = C + e + 1 := ⟨_, rfl⟩
  have h2 : ∀ n : Nat, n + 1 ≤ 2 ^ n := fun n => Nat.lt_two_pow_self
  refine ⟨2 ^ (3 * a) - 1, ?_⟩
  have hp : 2 ^ (3 * a) - 1 + 1 = 2 ^ (3 * a) := Nat.sub_add_cancel (Nat.one_le_two_pow)
  rw [hp]
  have h3 : C + (3 * a + 1) * e < 2 ^ (3 * a) := by
    have h4 : (a + 1) ^ 3 ≤ 2 ^ (3 * a) := by
      rw [Nat.mul_comm, Nat.pow_mul]
      exact Nat.pow_le_pow_left (h2 a) 3
    have h5 : (3 * a + 1) * e ≤ (3 * a + 1) * a := Nat.mul_le_mul_left _ (by omega)
    have h6 : a + (3 * a + 1) * a < (a + 1) ^ 3 := by nlinarith [Nat.zero_le (a ^ 3)]
    omega
  calc C * (2 * 2 ^ (3 * a)) ^ e ≤ 2 ^ C * (2 * 2 ^ (3 * a)) ^ e := Nat.mul_le_mul_right _ (by have := h2 C; omega)
    _ = 2 ^ (C + (3 * a + 1) * e) := by rw [← Nat.pow_succ', ← Nat.pow_mul, ← Nat.pow_add]
    _ < 2 ^ 2 ^ (3 * a) := Nat.pow_lt_pow_right (by omega) h3

/-- Ways to choose with repetition outgrow powers. -/
theorem outgrow_choose (C e N c : Nat) : ∃ F, 1 ≤ F ∧ C * (N * c * F) ^ e < F * Nat.multichoose F (e + 1) := by
  obtain ⟨K, hK⟩ : ∃ K, K = (e + 1).factorial * (C * (N * c) ^ e) := ⟨_, rfl⟩
  refine ⟨K + 1, by omega, ?_⟩
  have hf : 0 < (e + 1).factorial := Nat.factorial_pos _
  have h1 : (K + 1) ^ (e + 1) ≤ (e + 1).factorial * Nat.multichoose (K + 1) (e + 1) := by
    rw [Nat.multichoose_eq, show K + 1 + (e + 1) - 1 = K + (e + 1) by omega, ← Nat.ascFactorial_eq_factorial_mul_choose]
    exact Nat.pow_succ_le_ascFactorial (K + 1) (e + 1)
  have h2 : (e + 1).factorial * (C * (N * c * (K + 1)) ^ e) < (e + 1).factorial * ((K + 1) * Nat.multichoose (K + 1) (e + 1)) := by
    calc (e + 1).factorial * (C * (N * c * (K + 1)) ^ e) = K * (K + 1) ^ e := by rw [Nat.mul_pow, hK]; ring
      _ < (K + 1) * (K + 1) ^ e := Nat.mul_lt_mul_of_pos_right (by omega) (by positivity)
      _ = (K + 1) ^ (e + 1) := by ring
      _ ≤ (K + 1) * (K + 1) ^ (e + 1) := Nat.le_mul_of_pos_left _ (by omega)
      _ ≤ (K + 1) * ((e + 1).factorial * Nat.multichoose (K + 1) (e + 1)) := Nat.mul_le_mul_left _ h1
      _ = _ := by ring
  exact Nat.lt_of_mul_lt_mul_left h2

section
variable [R : PyRuntime]

theorem dropKeepW_passes {t : DropKeepTerm} (hs : t.simplified = .none) (h0 : 0 < t.count) (h1 : t.count < t.number)
    (ht : (t.table.map Prod.fst).Nodup) : ∃ d, t.distW = .ok (d,
      (∑ i ∈ Finset.range t.counted, t.table.length * Nat.multichoose t.table.length i) +
        (t.number - t.counted) * (t.table.length * Nat.multichoose t.table.length t.counted)) := by
  have hc : 1 ≤ t.counted := by unfold DropKeepTerm.counted; split <;> omega
  have hsel : (if t.keep then t.count else t.number - t.count) = t.counted := rfl
  have hrem : (if t.keep then t.number - t.count else t.count) = t.number - t.counted := by
    unfold DropKeepTerm.counted; split <;> omega
  obtain ⟨d1, e1, k1⟩ := build_passes ht t.counted 0 [([], 1)] 0 (allKeys_start _)
  rw [Nat.zero_add] at k1
  obtain ⟨d2, e2, k2⟩ := update_passes ht t.keep hc (t.number - t.counted) d1
    (0 + ∑ j ∈ Finset.range t.counted, t.table.length * Nat.multichoose t.table.length (0 + j)) k1
  obtain ⟨m, hm, _⟩ := dropKeepMap_spec t (by omega)
  rw [← dropKeepMapW_fst] at hm
  obtain ⟨n, hn⟩ := map_fst_ok hm
  have hn' := hn
  unfold dropKeepMapW at hn'
  simp only [hsel, hrem, e1, ok_bind, e2] at hn'
  obtain ⟨m', _, hn'⟩ := bind_eq_ok.mp hn'
  have hn2 := (Prod.mk.inj (Except.ok.inj hn')).2
  unfold DropKeepTerm.distW
  rw [hs]
  obtain ⟨d, hd⟩ : ∃ d, mkDistInt (R := R) m = .ok d := ⟨_, mkDistInt_eq _⟩
  refine ⟨d, ?_⟩
  simp only [hn, ok_bind, hd]
  rw [← hn2]
  simp only [Nat.zero_add]
  rfl

end

end PyDice
