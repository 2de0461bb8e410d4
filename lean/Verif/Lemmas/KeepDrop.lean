import Verif.Lemmas.Dice
import Mathlib.Data.List.Sort
/-!
# Lemmas about keep/drop terms
-/

namespace PyDice
open PyRuntime

/-! ### Sorting -/

theorem ins_perm (x : Int) (l : List Int) : (ins x l).Perm (x :: l) := by
  induction l with
  | nil => exact .refl _
  | cons y l ih =>
    unfold ins
    split
    · exact .refl _
    · exact (ih.cons y).trans (.swap _ _ _)

theorem ins_sorted (x : Int) {l : List Int} (h : l.Pairwise (· ≤ ·)) : (ins x l).Pairwise (· ≤ ·) := by
  induction l with
  | nil => simp [ins]
  | cons y l ih =>
    rw [List.pairwise_cons] at h
    unfold ins
    split
    · rename_i hxy
      rw [List.pairwise_cons]
      refine ⟨?_, List.pairwise_cons.mpr h⟩
      intro z hz
      rcases List.mem_cons.mp hz with rfl | hz
      · exact hxy
      · exact le_trans hxy (h.1 z hz)
    · rename_i hxy
      rw [List.pairwise_cons]
      refine ⟨?_, ih h.2⟩
      intro z hz
      rcases List.mem_cons.mp ((ins_perm x l).mem_iff.mp hz) with rfl | hz
      · omega
      · exact h.1 z hz

theorem sortInts_perm (l : List Int) : (sortInts l).Perm l := by
  induction l with
  | nil => exact .refl _
  | cons x l ih => exact (ins_perm x _).trans (ih.cons x)

theorem sortInts_sorted (l : List Int) : (sortInts l).Pairwise (· ≤ ·) := by
  induction l with
  | nil => exact .nil
  | cons x l ih => exact ins_sorted x ih

theorem sorted_unique {l m : List Int} (h : l.Perm m) (hl : l.Pairwise (· ≤ ·)) (hm : m.Pairwise (· ≤ ·)) : l = m :=
  h.eq_of_pairwise (fun _ _ _ _ h1 h2 => by omega) hl hm

theorem sortInts_eq_of_perm {l m : List Int} (h : l.Perm m) : sortInts l = sortInts m :=
  sorted_unique ((sortInts_perm l).trans (h.trans (sortInts_perm m).symm)) (sortInts_sorted l) (sortInts_sorted m)

theorem sortInts_of_sorted {l : List Int} (h : l.Pairwise (· ≤ ·)) : sortInts l = l :=
  sorted_unique (sortInts_perm l) (sortInts_sorted l) h

theorem sortInts_idem (l : List Int) : sortInts (sortInts l) = sortInts l := sortInts_of_sorted (sortInts_sorted l)

theorem length_sortInts (l : List Int) : (sortInts l).length = l.length := (sortInts_perm l).length_eq

theorem ins_length (x : Int) (l : List Int) : (ins x l).length = l.length + 1 := by
  simpa using (ins_perm x l).length_eq

theorem sortInts_snoc (l : List Int) (x : Int) : sortInts (l ++ [x]) = ins x (sortInts l) := by
  apply sorted_unique _ (sortInts_sorted _) (ins_sorted x (sortInts_sorted l))
  refine (sortInts_perm _).trans (List.Perm.trans ?_ (ins_perm x _).symm)
  exact List.perm_append_singleton x l |>.trans ((sortInts_perm l).symm.cons x)

theorem ins_of_le {x : Int} {l : List Int} (h : ∀ y ∈ l, x ≤ y) : ins x l = x :: l := by
  cases l with
  | nil => rfl
  | cons y l => simp [ins, h y (by simp)]

theorem drop_ins (x : Int) : ∀ (low high : List Int), (low ++ high).Pairwise (· ≤ ·) →
    (ins x (low ++ high)).drop (low.length + 1) = (ins x high).drop 1 := by
  intro low
  induction low with
  | nil => intro high _; simp
  | cons y low ih =>
    intro high h
    rw [List.cons_append, List.pairwise_cons] at h
    simp only [List.cons_append, ins]
    split
    · rename_i hxy
      rw [ins_of_le (fun z hz => le_trans hxy (h.1 z (by simp [hz])))]
      simp
    · simpa using ih high h.2

theorem take_ins (x : Int) : ∀ (low high : List Int),
    (ins x (low ++ high)).take low.length = (ins x low).dropLast := by
  intro low
  induction low with
  | nil => intro high; simp [ins]
  | cons y low ih =>
    intro high
    simp only [List.cons_append, ins, List.length_cons]
    split
    · rw [List.dropLast_cons_cons, List.take_succ_cons]
      congr 1
      rw [← List.cons_append, List.dropLast_eq_take]
      simp only [List.length_cons, Nat.add_sub_cancel]
      rw [List.take_append_of_le_length (by simp)]
    · have hne : ins x low ≠ [] := by intro h0; have := ins_length x low; rw [h0] at this; simp at this
      rw [List.dropLast_cons_of_ne_nil hne, List.take_succ_cons, ih]

/-- The `k` highest, in increasing order. -/
def topK (k : Nat) (l : List Int) : List Int := (sortInts l).drop (l.length - k)
/-- The `k` lowest, in increasing order. -/
def lowK (k : Nat) (l : List Int) : List Int := (sortInts l).take k

theorem topK_sorted (k : Nat) (l : List Int) : (topK k l).Pairwise (· ≤ ·) := (sortInts_sorted l).sublist (List.drop_sublist _ _)
theorem lowK_sorted (k : Nat) (l : List Int) : (lowK k l).Pairwise (· ≤ ·) := (sortInts_sorted l).sublist (List.take_sublist _ _)

theorem topK_snoc (k : Nat) (l : List Int) (x : Int) (h : k ≤ l.length) :
    (sortInts (topK k l ++ [x])).drop 1 = topK k (l ++ [x]) := by
  rw [sortInts_snoc, sortInts_of_sorted (topK_sorted k l)]
  unfold topK
  rw [sortInts_snoc]
  have hs : sortInts l = (sortInts l).take (l.length - k) ++ (sortInts l).drop (l.length - k) := (List.take_append_drop _ _).symm
  have hd := drop_ins x ((sortInts l).take (l.length - k)) ((sortInts l).drop (l.length - k))
    (by rw [List.take_append_drop]; exact sortInts_sorted l)
  rw [List.take_append_drop] at hd
  rw [← hd]
  congr 1
  rw [List.length_take, length_sortInts]
  simp
  omega

theorem lowK_snoc (k : Nat) (l : List Int) (x : Int) (h : k ≤ l.length) :
    (sortInts (lowK k l ++ [x])).dropLast = lowK k (l ++ [x]) := by
  rw [sortInts_snoc, sortInts_of_sorted (lowK_sorted k l)]
  unfold lowK
  rw [sortInts_snoc]
  have hd := take_ins x ((sortInts l).take k) ((sortInts l).drop k)
  rw [List.take_append_drop] at hd
  rw [← hd]
  congr 1
  rw [List.length_take, length_sortInts]
  omega

theorem topK_all (l : List Int) : topK l.length l = sortInts l := by simp [topK]
theorem lowK_all (l : List Int) : lowK l.length l = sortInts l := by
  unfold lowK; rw [List.take_of_length_le]; rw [length_sortInts]

theorem sortInts_rev (l : List Int) : l.mergeSort (fun a b => decide (b ≤ a)) = (sortInts l).reverse := by
  have h1 : (l.mergeSort (fun a b => decide (b ≤ a))).Pairwise (fun a b => b ≤ a) := by
    have := List.pairwise_mergeSort (le := fun a b : Int => decide (b ≤ a))
      (by intro a b c; simp; omega) (by intro a b; simp; omega) l
    simpa using this
  have h2 : (l.mergeSort (fun a b => decide (b ≤ a))).reverse = sortInts l := by
    apply sorted_unique _ (by rw [List.pairwise_reverse]; exact h1) (sortInts_sorted l)
    exact (List.reverse_perm _).trans ((List.mergeSort_perm _ _).trans (sortInts_perm l).symm)
  rw [← h2, List.reverse_reverse]

theorem sumHighest_eq (k : Nat) (l : List Int) : sumHighest k l = (topK k l).sum := by
  unfold sumHighest topK
  rw [sortInts_rev, List.take_reverse, List.sum_reverse, length_sortInts]

theorem mergeSort_eq (l : List Int) : l.mergeSort (fun a b => decide (a ≤ b)) = sortInts l := by
  refine sorted_unique ((List.mergeSort_perm _ _).trans (sortInts_perm l).symm) ?_ (sortInts_sorted l)
  have := List.pairwise_mergeSort (le := fun a b : Int => decide (a ≤ b))
    (by intro a b c; simp; omega) (by intro a b; simp; omega) l
  simpa using this

theorem sumLowest_eq (k : Nat) (l : List Int) : sumLowest k l = (lowK k l).sum := by
  unfold sumLowest lowK; rw [mergeSort_eq]

/-! ### Textual keys -/

theorem keyToList_listToKey (l : List Int) : keyToList (listToKey l) = .ok (sortInts l) := by
  unfold keyToList listToKey
  by_cases hl : sortInts l = []
  · simp [hl, joinWith]
  · have hne : (sortInts l).map intStr ≠ [] := by simpa using hl
    rw [if_neg (joinWith_ne_nil '|' hne (by
      intro w hw; rw [List.mem_map] at hw; obtain ⟨i, _, rfl⟩ := hw; exact intStr_ne_nil i))]
    rw [splitOn_join (by simp) _ hne]
    · rw [List.mapM_map, mapM_ok _ id]
      · simp
      · intro a _; exact pyInt_intStr a
    · intro w hw c hc
      rw [List.mem_map] at hw
      obtain ⟨i, _, rfl⟩ := hw
      rcases intStr_chars i c hc with rfl | h
      · decide
      · by_contra hcon
        have : c = '|' := by simpa using hcon
        rw [this] at h; revert h; decide

theorem listToKey_sort (l : List Int) : listToKey (sortInts l) = listToKey l := by
  unfold listToKey; rw [sortInts_idem]

theorem listToKey_injective {l m : List Int} (h : listToKey l = listToKey m) : sortInts l = sortInts m := by
  have := keyToList_listToKey l
  rw [h, keyToList_listToKey] at this
  injection this with this
  exact this.symm

/-- The list a key stands for. -/
def decode (k : Str) : List Int := match keyToList k with
  | .ok l => l
  | .error _ => []

theorem decode_listToKey (l : List Int) : decode (listToKey l) = sortInts l := by simp [decode, keyToList_listToKey]

/-- The keys of the dict are encodings. -/
def Encoded (d : List (Str × Nat)) : Prop := ∀ p ∈ d, ∃ l, p.1 = listToKey l

/-! ### The loops -/

theorem keyLoop_ok (next : Str → Int → Res Str) (nk : Str → Int → Str) :
    ∀ (ps : List ((Int × Nat) × (Str × Nat))) (acc : List (Str × Nat)),
      (∀ p ∈ ps, next p.2.1 p.1.1 = .ok (nk p.2.1 p.1.1)) →
      keyLoop next ps acc = .ok (ps.foldl (fun d p => safeAdd d (nk p.2.1 p.1.1) (p.2.2 * p.1.2)) acc) := by
  intro ps
  induction ps with
  | nil => intro acc _; rfl
  | cons p ps ih =>
    intro acc h
    obtain ⟨⟨face, count⟩, ⟨oldKey, oldValue⟩⟩ := p
    have h0 := h _ (List.mem_cons_self)
    simp only at h0
    simp only [keyLoop, h0, ok_bind, List.foldl_cons]
    exact ih _ (fun p hp => h p (by simp [hp]))

theorem iterKeys_spec (next : Str → Int → Res Str) (step : List Int → Int → List Int)
    (hn : ∀ k face l, keyToList k = .ok l → next k face = .ok (listToKey (step l face))) (table : List (Int × Nat)) :
    ∀ (n : Nat) (d : List (Str × Nat)), Encoded d →
    ∃ d', iterKeys next table n d = .ok d' ∧ Encoded d' ∧
      (∀ {M : Type} [AddCommMonoid M] (f : Str → M), wsum d' f = wsum d (fun k => ((tuples (facesOf table) n).map fun l =>
        f (l.foldl (fun k x => listToKey (step (decode k) x)) k)).sum)) ∧
      (∀ P : Str → Prop, (∃ p ∈ d', P p.1) ↔ ∃ p ∈ d, ∃ l ∈ tuples (table.map Prod.fst) n,
        P (l.foldl (fun k x => listToKey (step (decode k) x)) p.1)) := by
  intro n
  induction n with
  | zero =>
    intro d hd
    refine ⟨d, rfl, hd, ?_, ?_⟩
    · intro M _ f; simp [tuples]
    · intro P; simp [tuples]
  | succ n ih =>
    intro d hd
    have hnext : ∀ p ∈ pairsOf table d, next p.2.1 p.1.1 = .ok (listToKey (step (decode p.2.1) p.1.1)) := by
      intro p hp
      obtain ⟨l, hl⟩ := hd p.2 ((mem_pairsOf _ _ _).mp hp).2
      rw [hl, hn _ _ _ (keyToList_listToKey l), decode_listToKey]
    have hk := keyLoop_ok next (fun k x => listToKey (step (decode k) x)) (pairsOf table d) [] hnext
    set d1 := (pairsOf table d).foldl (fun d p => safeAdd d (listToKey (step (decode p.2.1) p.1.1)) (p.2.2 * p.1.2)) []
      with hd1
    have he1 : Encoded d1 := by
      intro p hp
      rcases mem_foldl_safeAdd_key (pairsOf table d) (fun p => listToKey (step (decode p.2.1) p.1.1))
        (fun p => p.2.2 * p.1.2) [] p hp with ⟨q, _, hq⟩ | ⟨q, hq, _⟩
      · exact ⟨_, hq.symm⟩
      · simp at hq
    obtain ⟨d', h1, h2, h3, h4⟩ := ih d1 he1
    refine ⟨d', ?_, h2, ?_, ?_⟩
    · simp only [iterKeys, hk, ok_bind]; exact h1
    · intro M _ f
      rw [h3]
      rw [hd1, wsum_foldl_safeAdd _ (fun p : (Int × Nat) × (Str × Nat) => listToKey (step (decode p.2.1) p.1.1))
        (fun p => p.2.2 * p.1.2) _
        (resp_of_lawful _)]
      have hsp := sum_pairs table d (fun (x : Int) (k : Str) => ((tuples (facesOf table) n).map fun l =>
        f (l.foldl (fun k x => listToKey (step (decode k) x)) (listToKey (step (decode k) x)))).sum)
      have hcomm : ∀ p : (Int × Nat) × (Str × Nat), p.2.2 * p.1.2 = p.1.2 * p.2.2 := fun p => Nat.mul_comm _ _
      simp only [hcomm]
      rw [hsp, wsum_comm]
      simp only [wsum_nil, zero_add]
      apply wsum_congr
      intro p _
      rw [sum_tuples_succ, sum_facesOf]
      simp
    · intro P
      rw [h4, hd1, exists_foldl_safeAdd _ (fun p : (Int × Nat) × (Str × Nat) => listToKey (step (decode p.2.1) p.1.1))
        (fun p => p.2.2 * p.1.2) (fun k => ∃ l ∈ tuples (table.map Prod.fst) n, P (l.foldl (fun k x => listToKey (step (decode k) x)) k))
        (resp_of_lawful _)]
      simp only [List.not_mem_nil, false_and, exists_false, false_or]
      constructor
      · rintro ⟨q, hq, l, hl, hP⟩
        obtain ⟨hq1, hq2⟩ := (mem_pairsOf _ _ _).mp hq
        refine ⟨q.2, hq2, q.1.1 :: l, ?_, by simpa using hP⟩
        rw [mem_tuples] at hl ⊢
        refine ⟨by simp [hl.1], ?_⟩
        intro y hy
        rcases List.mem_cons.mp hy with rfl | hy
        · exact List.mem_map.mpr ⟨q.1, hq1, rfl⟩
        · exact hl.2 y hy
      · rintro ⟨p, hp, l, hl, hP⟩
        rw [mem_tuples] at hl
        cases l with
        | nil => simp at hl
        | cons x l =>
          obtain ⟨q, hq, rfl⟩ := List.mem_map.mp (hl.2 x (by simp))
          refine ⟨(q, p), (mem_pairsOf _ _ _).mpr ⟨hq, hp⟩, l, ?_, by simpa using hP⟩
          rw [mem_tuples]; exact ⟨by simpa using hl.1, fun y hy => hl.2 y (by simp [hy])⟩

theorem foldl_add (l a : List Int) :
    l.foldl (fun k x => listToKey (sortInts (decode k ++ [x]))) (listToKey a) = listToKey (a ++ l) := by
  induction l generalizing a with
  | nil => simp
  | cons x l ih =>
    rw [List.foldl_cons, decode_listToKey, listToKey_sort]
    have : listToKey (sortInts a ++ [x]) = listToKey (a ++ [x]) := by
      unfold listToKey
      rw [sortInts_eq_of_perm ((sortInts_perm a).append_right [x])]
    rw [this, ih]; simp

theorem foldl_keep (k : Nat) (l a : List Int) (h : k ≤ a.length) :
    l.foldl (fun key x => listToKey ((sortInts (decode key ++ [x])).drop 1)) (listToKey (topK k a)) =
      listToKey (topK k (a ++ l)) := by
  induction l generalizing a with
  | nil => simp
  | cons x l ih =>
    rw [List.foldl_cons, decode_listToKey, sortInts_of_sorted (topK_sorted k a), topK_snoc k a x h, ih _ (by simp; omega)]
    simp

theorem foldl_drop (k : Nat) (l a : List Int) (h : k ≤ a.length) :
    l.foldl (fun key x => listToKey ((sortInts (decode key ++ [x])).dropLast)) (listToKey (lowK k a)) =
      listToKey (lowK k (a ++ l)) := by
  induction l generalizing a with
  | nil => simp
  | cons x l ih =>
    rw [List.foldl_cons, decode_listToKey, sortInts_of_sorted (lowK_sorted k a), lowK_snoc k a x h, ih _ (by simp; omega)]
    simp

theorem collapse_ok : ∀ (d : List (Str × Nat)) (acc : List (Int × Nat)), Encoded d →
    collapse d acc = .ok (d.foldl (fun m p => safeAdd m (decode p.1).sum p.2) acc) := by
  intro d
  induction d with
  | nil => intro acc _; rfl
  | cons p d ih =>
    intro acc h
    obtain ⟨k, n⟩ := p
    obtain ⟨l, hl⟩ := h (k, n) (by simp)
    simp only at hl
    subst hl
    simp only [collapse, keyToList_listToKey, ok_bind, List.foldl_cons, decode_listToKey]
    exact ih _ (fun p hp => h p (by simp [hp]))

theorem sum_tuples_add {α M : Type} [AddCommMonoid M] (fs : List α) (a b : Nat) (F : List α → M) :
    ((tuples fs a).map fun l => ((tuples fs b).map fun m => F (l ++ m)).sum).sum = ((tuples fs (a + b)).map F).sum := by
  induction a generalizing F with
  | zero => simp [tuples]
  | succ a ih =>
    rw [sum_tuples_succ, show a + 1 + b = (a + b) + 1 by omega, sum_tuples_succ]
    congr 1
    apply List.map_congr_left
    intro x _
    rw [← ih]
    simp

theorem sortInts_nil : sortInts [] = [] := rfl

theorem listToKey_nil : listToKey [] = [] := rfl

/-- The kept dice, for a keep/drop term that is not simplified. -/
def DropKeepTerm.score (t : DropKeepTerm) (l : List Int) : Int :=
  if t.keep then sumHighest t.count l else sumLowest (t.number - t.count) l

theorem dropKeepMap_spec (t : DropKeepTerm) (hk : t.count ≤ t.number) : ∃ m, dropKeepMap t = .ok m ∧
    (∀ {M : Type} [AddCommMonoid M] (f : Int → M), wsum m f =
      ((tuples (facesOf t.table) t.number).map fun l => f (t.score l)).sum) ∧
    (∀ v, hasKey m v ↔ ∃ l ∈ tuples (t.table.map Prod.fst) t.number, v = t.score l) := by
  have hadd : ∀ k face l, keyToList k = .ok l → addKey k face = .ok (listToKey (sortInts (l ++ [face]))) := by
    intro k face l h; simp only [addKey, h, ok_bind]; rfl
  set sel := if t.keep then t.count else t.number - t.count with hsel
  set rem := if t.keep then t.number - t.count else t.count with hrem
  have hsum : sel + rem = t.number := by rw [hsel, hrem]; split <;> omega
  obtain ⟨d1, h1, e1, w1, k1⟩ := iterKeys_spec addKey (fun l x => sortInts (l ++ [x])) hadd t.table sel [([], 1)]
    (by intro p hp; simp at hp; exact ⟨[], by rw [hp]; rfl⟩)
  have hupd : ∀ k face l, keyToList k = .ok l → updateKey t.keep k face =
      .ok (listToKey (if t.keep then (sortInts (l ++ [face])).drop 1 else (sortInts (l ++ [face])).dropLast)) := by
    intro k face l h; simp only [updateKey, h, ok_bind]; rfl
  obtain ⟨d2, h2, e2, w2, k2⟩ := iterKeys_spec (updateKey t.keep)
    (fun l x => if t.keep then (sortInts (l ++ [x])).drop 1 else (sortInts (l ++ [x])).dropLast) hupd t.table rem d1 e1
  have hscore : ∀ (fs : List Int), ∀ l ∈ tuples fs sel, ∀ m : List Int,
      (decode (m.foldl (fun k x => listToKey (if t.keep then (sortInts (decode k ++ [x])).drop 1 else
        (sortInts (decode k ++ [x])).dropLast)) (l.foldl (fun k x => listToKey (sortInts (decode k ++ [x]))) []))).sum =
      t.score (l ++ m) := by
    intro fs l hl m
    have hlen : l.length = sel := ((mem_tuples _ _ _).mp hl).1
    have := foldl_add l []
    rw [listToKey_nil, List.nil_append] at this
    rw [this]
    unfold DropKeepTerm.score
    by_cases hkeep : t.keep = true
    · have hs : sel = t.count := by rw [hsel, if_pos hkeep]
      simp only [hkeep, if_true]
      have := foldl_keep t.count m l (by omega)
      rw [show topK t.count l = sortInts l by rw [← hs, ← hlen, topK_all], listToKey_sort] at this
      rw [this, decode_listToKey, sortInts_of_sorted (topK_sorted _ _), sumHighest_eq]
    · have hs : sel = t.number - t.count := by rw [hsel, if_neg hkeep]
      simp only [hkeep]
      have := foldl_drop (t.number - t.count) m l (by omega)
      rw [show lowK (t.number - t.count) l = sortInts l by rw [← hs, ← hlen, lowK_all], listToKey_sort] at this
      simp only [Bool.false_eq_true, if_false]
      rw [this, decode_listToKey, sortInts_of_sorted (lowK_sorted _ _), sumLowest_eq]
  refine ⟨d2.foldl (fun m p => safeAdd m (decode p.1).sum p.2) [], ?_, ?_, ?_⟩
  · unfold dropKeepMap buildDiceDict
    simp only [h1, ok_bind, ← hsel, ← hrem, h2]
    exact collapse_ok d2 [] e2
  · intro M _ f
    rw [wsum_foldl_safeAdd d2 (fun p => (decode p.1).sum) (fun p => p.2) f (resp_of_lawful _)]
    have : (d2.map fun p => p.2 • f (decode p.1).sum).sum = wsum d2 (fun k => f (decode k).sum) := rfl
    rw [this, wsum_nil, zero_add, w2, w1, wsum_cons, wsum_nil, one_smul, add_zero, ← hsum, ← sum_tuples_add]
    congr 1
    apply List.map_congr_left
    intro l hl
    congr 1
    apply List.map_congr_left
    intro m _
    rw [hscore _ l hl m]
  · intro v
    rw [hasKey_iff, exists_foldl_safeAdd d2 (fun p => (decode p.1).sum) (fun p => p.2) (fun x => x = v) (resp_of_lawful _)]
    simp only [List.not_mem_nil, false_and, exists_false, false_or]
    rw [k2 (fun k => (decode k).sum = v), k1 (fun k => ∃ l ∈ tuples (t.table.map Prod.fst) rem,
      (decode (l.foldl (fun k x => listToKey (if t.keep then (sortInts (decode k ++ [x])).drop 1 else
        (sortInts (decode k ++ [x])).dropLast)) k)).sum = v)]
    simp only [List.mem_singleton, exists_eq_left]
    constructor
    · rintro ⟨l, hl, m, hm, h⟩
      rw [hscore _ l hl m] at h
      refine ⟨l ++ m, ?_, h.symm⟩
      rw [mem_tuples] at hl hm ⊢
      refine ⟨by rw [List.length_append, hl.1, hm.1, hsum], ?_⟩
      intro x hx
      rcases List.mem_append.mp hx with hx | hx
      · exact hl.2 x hx
      · exact hm.2 x hx
    · rintro ⟨l, hl, h⟩
      rw [mem_tuples] at hl
      have ht : l.take sel ∈ tuples (t.table.map Prod.fst) sel := by
        rw [mem_tuples]; exact ⟨by rw [List.length_take]; omega, fun x hx => hl.2 x (List.mem_of_mem_take hx)⟩
      refine ⟨l.take sel, ht, l.drop sel, ?_, ?_⟩
      · rw [mem_tuples]; exact ⟨by rw [List.length_drop]; omega, fun x hx => hl.2 x (List.mem_of_mem_drop hx)⟩
      · rw [hscore _ _ ht, List.take_append_drop, h]

end PyDice
