import Verif.Spec.Dist
import Mathlib.Algebra.Order.Floor.Ring
import Mathlib.Data.Rat.Floor
import Mathlib.Algebra.Order.BigOperators.Group.List
import Mathlib.Algebra.Module.Basic
import Mathlib.Tactic.Linarith
/-!
# Dict lemmas: `safe_add`, sums over dict items
-/

namespace PyDice

section
variable {κ κ' M : Type} [AddCommMonoid M]

@[simp] theorem wsum_nil (f : κ → M) : wsum [] f = 0 := rfl
@[simp] theorem wsum_cons (p : κ × Nat) (l : List (κ × Nat)) (f : κ → M) :
    wsum (p :: l) f = p.2 • f p.1 + wsum l f := by simp [wsum]
theorem wsum_append (l m : List (κ × Nat)) (f : κ → M) : wsum (l ++ m) f = wsum l f + wsum m f := by
  simp [wsum]
theorem wsum_congr {l : List (κ × Nat)} {f g : κ → M} (h : ∀ p ∈ l, f p.1 = g p.1) : wsum l f = wsum l g := by
  unfold wsum
  congr 1
  apply List.map_congr_left
  intro p hp; rw [h p hp]
theorem wsum_zero (l : List (κ × Nat)) : wsum l (fun _ => (0 : M)) = 0 := by
  induction l with
  | nil => rfl
  | cons p l ih => simp [ih]
theorem wsum_add (l : List (κ × Nat)) (f g : κ → M) : wsum l (fun k => f k + g k) = wsum l f + wsum l g := by
  induction l with
  | nil => simp
  | cons p l ih => simp only [wsum_cons, ih, smul_add]; rw [add_add_add_comm]
theorem wsum_smul (l : List (κ × Nat)) (n : Nat) (f : κ → M) : wsum l (fun k => n • f k) = n • wsum l f := by
  induction l with
  | nil => simp
  | cons p l ih => simp only [wsum_cons, ih, smul_add]; rw [smul_comm]
theorem wsum_map (l : List (κ × Nat)) (g : κ → κ') (f : κ' → M) :
    wsum (l.map fun p => (g p.1, p.2)) f = wsum l (fun k => f (g k)) := by
  simp [wsum, Function.comp_def]
theorem wsum_comm (l : List (κ × Nat)) (m : List (κ' × Nat)) (f : κ → κ' → M) :
    wsum l (fun a => wsum m (fun b => f a b)) = wsum m (fun b => wsum l (fun a => f a b)) := by
  induction l with
  | nil => simp [wsum_zero]
  | cons p l ih => simp only [wsum_cons, ih, wsum_add, wsum_smul]
theorem wsum_hom {N : Type} [AddCommMonoid N] (l : List (κ × Nat)) (g : M →+ N) (f : κ → M) :
    g (wsum l f) = wsum l (fun k => g (f k)) := by
  induction l with
  | nil => simp
  | cons p l ih => simp [ih, map_add, map_nsmul]

theorem wsum_perm {l m : List (κ × Nat)} (h : l.Perm m) (f : κ → M) : wsum l f = wsum m f := by
  unfold wsum
  exact (h.map _).sum_eq

end

section
variable {κ M : Type} [BEq κ] [AddCommMonoid M]

/-- `f` does not see the difference between keys that `==` identifies. -/
def Resp {α : Type} (f : κ → α) : Prop := ∀ a b : κ, (a == b) = true → f a = f b

theorem wsum_safeAdd (d : List (κ × Nat)) (k : κ) (n : Nat) (f : κ → M) (hf : Resp f) :
    wsum (safeAdd d k n) f = wsum d f + n • f k := by
  induction d with
  | nil => simp [safeAdd]
  | cons p d ih =>
    obtain ⟨k', m⟩ := p
    unfold safeAdd
    split
    · rename_i h
      simp only [wsum_cons]
      rw [add_smul, hf _ _ h]
      rw [add_assoc, add_assoc, add_comm (n • f k)]
    · simp only [wsum_cons, ih, add_assoc]

theorem wsum_foldl_safeAdd {α : Type} (l : List α) (key : α → κ) (cnt : α → Nat) (f : κ → M) (hf : Resp f) :
    ∀ acc : List (κ × Nat), wsum (l.foldl (fun d p => safeAdd d (key p) (cnt p)) acc) f =
      wsum acc f + (l.map fun p => cnt p • f (key p)).sum := by
  induction l with
  | nil => intro acc; simp
  | cons p l ih =>
    intro acc
    simp only [List.foldl_cons, ih, wsum_safeAdd _ _ _ _ hf, List.map_cons, List.sum_cons, add_assoc]

theorem exists_safeAdd (d : List (κ × Nat)) (k : κ) (n : Nat) (P : κ → Prop) (hP : Resp P) :
    (∃ p ∈ safeAdd d k n, P p.1) ↔ (∃ p ∈ d, P p.1) ∨ P k := by
  induction d with
  | nil => simp [safeAdd]
  | cons q d ih =>
    obtain ⟨k', m⟩ := q
    unfold safeAdd
    split
    · rename_i h
      have := hP _ _ h
      simp only [List.mem_cons, exists_eq_or_imp]
      rw [this, or_comm (a := P k), or_assoc, or_self]
    · simp only [List.mem_cons, exists_eq_or_imp, ih, or_assoc]

theorem exists_foldl_safeAdd {α : Type} (l : List α) (key : α → κ) (cnt : α → Nat) (P : κ → Prop) (hP : Resp P) :
    ∀ acc : List (κ × Nat), (∃ p ∈ l.foldl (fun d p => safeAdd d (key p) (cnt p)) acc, P p.1) ↔
      (∃ p ∈ acc, P p.1) ∨ ∃ q ∈ l, P (key q) := by
  induction l with
  | nil => intro acc; simp
  | cons p l ih =>
    intro acc
    simp only [List.foldl_cons, ih, exists_safeAdd _ _ _ _ hP, List.mem_cons, exists_eq_or_imp, or_assoc]

theorem mem_safeAdd_key (d : List (κ × Nat)) (k : κ) (n : Nat) (p : κ × Nat) (h : p ∈ safeAdd d k n) :
    p.1 = k ∨ ∃ q ∈ d, q.1 = p.1 := by
  induction d with
  | nil => simp [safeAdd] at h; exact Or.inl (by rw [h])
  | cons q d ih =>
    obtain ⟨k', m⟩ := q
    unfold safeAdd at h
    split at h
    · rcases List.mem_cons.mp h with h | h
      · right; exact ⟨(k', m), by simp, by rw [h]⟩
      · right; exact ⟨p, by simp [h], rfl⟩
    · rcases List.mem_cons.mp h with h | h
      · right; exact ⟨(k', m), by simp, by rw [h]⟩
      · rcases ih h with h | ⟨q, hq, h⟩
        · exact Or.inl h
        · exact Or.inr ⟨q, by simp [hq], h⟩

theorem mem_foldl_safeAdd_key {α : Type} (l : List α) (key : α → κ) (cnt : α → Nat) :
    ∀ (acc : List (κ × Nat)) (p : κ × Nat), p ∈ l.foldl (fun d p => safeAdd d (key p) (cnt p)) acc →
      (∃ q ∈ l, key q = p.1) ∨ ∃ q ∈ acc, q.1 = p.1 := by
  induction l with
  | nil => intro acc p h; exact Or.inr ⟨p, h, rfl⟩
  | cons x l ih =>
    intro acc p h
    rcases ih _ p h with ⟨q, hq, h⟩ | ⟨q, hq, h⟩
    · exact Or.inl ⟨q, by simp [hq], h⟩
    · rcases mem_safeAdd_key _ _ _ _ hq with h' | ⟨q', hq', h'⟩
      · exact Or.inl ⟨x, by simp, by rw [← h, ← h']⟩
      · exact Or.inr ⟨q', hq', by rw [h', h]⟩

theorem pos_safeAdd (d : List (κ × Nat)) (k : κ) (n : Nat) (hd : ∀ p ∈ d, 0 < p.2) (hn : 0 < n) :
    ∀ p ∈ safeAdd d k n, 0 < p.2 := by
  induction d with
  | nil => simp [safeAdd, hn]
  | cons q d ih =>
    obtain ⟨k', m⟩ := q
    have hm : 0 < m := hd (k', m) (by simp)
    unfold safeAdd
    split
    · intro p hp
      rcases List.mem_cons.mp hp with rfl | hp
      · simp; omega
      · exact hd p (by simp [hp])
    · intro p hp
      rcases List.mem_cons.mp hp with rfl | hp
      · exact hm
      · exact ih (fun p hp => hd p (by simp [hp])) p hp

theorem pos_foldl_safeAdd {α : Type} (l : List α) (key : α → κ) (cnt : α → Nat) (hl : ∀ p ∈ l, 0 < cnt p) :
    ∀ acc : List (κ × Nat), (∀ p ∈ acc, 0 < p.2) →
      ∀ p ∈ l.foldl (fun d p => safeAdd d (key p) (cnt p)) acc, 0 < p.2 := by
  induction l with
  | nil => intro acc h; exact h
  | cons x l ih =>
    intro acc h
    exact ih (fun p hp => hl p (by simp [hp])) _ (pos_safeAdd _ _ _ h (hl x (by simp)))

/-- No two keys of the dict are identified by `==`. -/
def DistinctKeys {ν : Type} (d : List (κ × ν)) : Prop := d.Pairwise (fun p q => (p.1 == q.1) = false)

theorem distinct_safeAdd (d : List (κ × Nat)) (k : κ) (n : Nat) (h : DistinctKeys d) :
    DistinctKeys (safeAdd d k n) := by
  induction d with
  | nil => simp [safeAdd, DistinctKeys]
  | cons q d ih =>
    obtain ⟨k', m⟩ := q
    unfold DistinctKeys at h ⊢
    rw [List.pairwise_cons] at h
    unfold safeAdd
    split
    · rw [List.pairwise_cons]; exact ⟨fun p hp => h.1 p hp, h.2⟩
    · rename_i hk
      rw [List.pairwise_cons]
      refine ⟨fun p hp => ?_, ih h.2⟩
      rcases mem_safeAdd_key _ _ _ _ hp with h' | ⟨q', hq', h'⟩
      · simp only; rw [h']; simpa using hk
      · simp only; rw [← h']; exact h.1 q' hq'

theorem distinct_foldl_safeAdd {α : Type} (l : List α) (key : α → κ) (cnt : α → Nat) :
    ∀ acc : List (κ × Nat), DistinctKeys acc →
      DistinctKeys (l.foldl (fun d p => safeAdd d (key p) (cnt p)) acc) := by
  induction l with
  | nil => intro acc h; exact h
  | cons x l ih => intro acc h; exact ih _ (distinct_safeAdd _ _ _ h)

end

/-! ### Int-keyed dicts -/

theorem resp_of_lawful {κ α : Type} [BEq κ] [LawfulBEq κ] (f : κ → α) : Resp f := fun a b h => by
  rw [eq_of_beq h]

theorem distinct_iff_nodup {κ ν : Type} [BEq κ] [LawfulBEq κ] (d : List (κ × ν)) : DistinctKeys d ↔ (d.map Prod.fst).Nodup := by
  unfold DistinctKeys List.Nodup
  rw [List.pairwise_map]
  simp

theorem hasKey_iff {ν : Type} (m : List (Int × ν)) (v : Int) : hasKey m v ↔ ∃ p ∈ m, p.1 = v := by
  simp [hasKey]

theorem countOf_eq_wsum (m : List (Int × Nat)) (v : Int) (h : DistinctKeys m) :
    countOf m v = wsum m (fun x => if x = v then 1 else 0) := by
  induction m with
  | nil => simp [countOf, dictGet?]
  | cons p m ih =>
    obtain ⟨k, n⟩ := p
    unfold DistinctKeys at h
    rw [List.pairwise_cons] at h
    simp only [wsum_cons]
    by_cases hk : k = v
    · have hz : wsum m (fun x => if x = v then 1 else 0) = (0 : Nat) := by
        have h0 : wsum m (fun x => if x = v then 1 else 0) = wsum m (fun _ => (0 : Nat)) := by
          apply wsum_congr
          intro p hp
          have := h.1 p hp
          simp only at this
          rw [if_neg]
          intro h'; rw [h', hk] at this; simp at this
        rw [h0, wsum_zero]
      rw [hz]
      simp [countOf, dictGet?, hk]
    · have := ih h.2
      simp only [countOf, dictGet?] at this ⊢
      simp [hk, this]

theorem dictGet_isSome {ν : Type} (m : List (Int × ν)) (v : Int) : (dictGet? m v).isSome = true ↔ hasKey m v := by
  induction m with
  | nil => simp [dictGet?, hasKey]
  | cons p m ih =>
    obtain ⟨k, n⟩ := p
    unfold dictGet?
    unfold hasKey at ih ⊢
    by_cases hk : k = v
    · simp [hk]
    · have hk' : v ≠ k := fun h => hk h.symm
      simp only [beq_iff_eq, hk, if_false, List.map_cons, List.mem_cons, ih, hk', false_or]

theorem countOf_zero_of_not_key (m : List (Int × Nat)) (v : Int) (h : ¬ hasKey m v) : countOf m v = 0 := by
  rw [← dictGet_isSome] at h
  unfold countOf
  cases hd : dictGet? m v with
  | none => rfl
  | some => rw [hd] at h; simp at h

theorem dictGet_of_mem {ν : Type} (m : List (Int × ν)) (h : DistinctKeys m) {p : Int × ν} (hp : p ∈ m) :
    dictGet? m p.1 = some p.2 := by
  induction m with
  | nil => simp at hp
  | cons q m ih =>
    obtain ⟨k, n⟩ := q
    unfold DistinctKeys at h
    rw [List.pairwise_cons] at h
    rcases List.mem_cons.mp hp with rfl | hp
    · simp [dictGet?]
    · have := h.1 p hp
      unfold dictGet?
      simp only [this]
      exact ih h.2 hp

theorem fmod_nonpos_of_neg (x : Int) {y : Int} (h : y < 0) : x.fmod y ≤ 0 := by
  rw [Int.fmod_eq_emod]
  have h1 := Int.emod_nonneg x (Int.ne_of_lt h)
  have h2 := Int.emod_lt_of_neg x h
  split
  · rename_i hc
    rcases hc with hc | hc
    · omega
    · have := Int.emod_eq_zero_of_dvd hc; omega
  · omega

theorem lt_fmod_of_neg (x : Int) {y : Int} (h : y < 0) : y < x.fmod y := by
  rw [Int.fmod_eq_emod]
  have h1 := Int.emod_nonneg x (Int.ne_of_lt h)
  split
  · omega
  · rename_i hc
    simp only [not_or] at hc
    have : x % y ≠ 0 := fun h0 => hc.2 (Int.dvd_of_emod_eq_zero h0)
    omega

/-- The model's operator agrees with the specification. -/
theorem apply_yields (op : BinOp) (x y v : Int) : op.apply x y = .ok v ↔ OpYields op x y v := by
  cases op <;> simp only [BinOp.apply, OpYields, binaryToInt, valueToBinary]
  case floordiv =>
    by_cases hy : y = 0
    · simp [hy]
    · simp only [hy, if_false, ne_eq, not_false_eq_true, true_and]
      have : ⌊(x : ℚ) / (y : ℚ)⌋ = x.fdiv y := by
        rw [Int.floor_eq_iff]
        have hm := Int.mul_fdiv_add_fmod x y
        rcases lt_or_gt_of_ne hy with hneg | hpos
        · have hn : ((y : ℚ)) < 0 := by exact_mod_cast hneg
          have h1 := fmod_nonpos_of_neg x hneg
          have h2 := lt_fmod_of_neg x hneg
          constructor
          · rw [le_div_iff_of_neg hn]
            have : x ≤ x.fdiv y * y := by nlinarith
            exact_mod_cast this
          · rw [div_lt_iff_of_neg hn]
            have : (x.fdiv y + 1) * y < x := by nlinarith
            exact_mod_cast this
        · have hn : (0 : ℚ) < (y : ℚ) := by exact_mod_cast hpos
          have h1 := Int.fmod_nonneg_of_pos x hpos
          have h2 := Int.fmod_lt_of_pos x hpos
          constructor
          · rw [le_div_iff₀ hn]
            have : x.fdiv y * y ≤ x := by nlinarith
            exact_mod_cast this
          · rw [div_lt_iff₀ hn]
            have : x < (x.fdiv y + 1) * y := by nlinarith
            exact_mod_cast this
      rw [this]
      constructor
      · intro h; injection h with h; exact h.symm
      · intro h; rw [h]
  all_goals
    constructor
    · intro h
      injection h with h
      subst h
      try simp only [Bool.and_eq_true, Bool.or_eq_true, decide_eq_true_eq]
      try split_ifs
      all_goals first | rfl | omega
    · intro h
      congr 1
      try simp only [Bool.and_eq_true, Bool.or_eq_true, decide_eq_true_eq]
      try split_ifs
      all_goals first | exact h.symm | omega

end PyDice
