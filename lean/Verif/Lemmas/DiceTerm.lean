import Verif.Lemmas.KeepDrop
import Verif.Lemmas.Summary
/-!
# Helpers for C12, C13, C42
-/

namespace PyDice

open PyRuntime

section
variable [R : PyRuntime]

/-- The faces that can come up: weight above 0. -/
def weightOf (table : List (Int × Nat)) (v : Int) : Nat := ((table.filter fun p => p.1 == v).map Prod.snd).sum

omit R in
theorem weightOf_eq (t : List (Int × Nat)) (v : Int) : weightOf t v = (facesOf t).count v := by
  unfold weightOf facesOf
  induction t with
  | nil => simp
  | cons p t ih =>
    simp only [List.flatMap_cons, List.count_append, ← ih, List.count_replicate]
    by_cases h : p.1 = v
    · simp [h]
    · simp [h]

theorem total_E {d : Dist} (h : d.Plain) : (d.getResultMap.map Prod.snd).sum = d.E (fun _ => 1) := by
  rw [E_one d h.constructed, ← total_eq d h.constructed]; simp [wsum]

omit R in
theorem replicate_mem_tuples {α : Type} {fs : List α} {x : α} (h : x ∈ fs) (n : Nat) : List.replicate n x ∈ tuples fs n := by
  rw [mem_tuples]
  exact ⟨by simp, fun y hy => by rw [List.eq_of_mem_replicate hy]; exact h⟩

omit R in
theorem listMax_ok {l : List Int} (h : l ≠ []) : ∃ v, listMax l = .ok v ∧ v ∈ l ∧ ∀ x ∈ l, x ≤ v := by
  cases hl : listMax l with
  | ok v => exact ⟨v, rfl, (listMax_spec l v).mp hl⟩
  | error e =>
    obtain ⟨v, hv⟩ := listMax_nonempty h
    rw [hl] at hv; exact absurd hv (by simp)

omit R in
theorem listMin_ok {l : List Int} (h : l ≠ []) : ∃ v, listMin l = .ok v ∧ v ∈ l ∧ ∀ x ∈ l, v ≤ x := by
  cases hl : listMin l with
  | ok v => exact ⟨v, rfl, (listMin_spec l v).mp hl⟩
  | error e =>
    obtain ⟨v, hv⟩ := listMin_nonempty h
    rw [hl] at hv; exact absurd hv (by simp)

omit R in
theorem sum_replicate_int (n : Nat) (v : Int) : (List.replicate n v).sum = v * n := by
  simp [Int.mul_comm]

omit R in
/-- Every result of a roll, for a table of positive total weight. -/
theorem roll_possible (t : DiceTerm) (hw : 0 < (t.table.map Prod.snd).sum) (r : Res Int) :
    Rand.Possible r t.roll ↔ ∃ l ∈ tuples (facesOf t.table) t.number, r = .ok l.sum := by
  unfold DiceTerm.roll
  rw [choices_eq _ hw, Rand.possible_bind]
  constructor
  · rintro ⟨a, ha, hr⟩
    obtain ⟨l, hl, rfl⟩ := (chooseMany_possible _ _ _).mp ha
    exact ⟨l, hl, Rand.possible_pure.mp hr⟩
  · rintro ⟨l, hl, rfl⟩
    exact ⟨.ok l, (chooseMany_possible _ _ _).mpr ⟨l, hl, rfl⟩, .pure⟩

omit R in
theorem facesOf_subset {t : List (Int × Nat)} {v : Int} (h : v ∈ facesOf t) : v ∈ t.map Prod.fst := by
  obtain ⟨p, hp, rfl, _⟩ := (mem_facesOf t v).mp h
  exact List.mem_map.mpr ⟨p, hp, rfl⟩

omit R in
theorem tuples_count (fs : List Int) : ∀ (n : Nat) (l : List Int),
    ((tuples fs n).map fun m => if m = l then 1 else 0).sum = if l.length = n then (l.map fun v => fs.count v).prod else 0 := by
  intro n
  induction n with
  | zero =>
    intro l
    cases l with
    | nil => simp [tuples]
    | cons v l => simp [tuples]
  | succ n ih =>
    intro l
    rw [sum_tuples_succ]
    cases l with
    | nil => simp
    | cons v l =>
      have h1 : ∀ f : Int, ((tuples fs n).map fun m => if f :: m = v :: l then 1 else 0).sum =
          if f = v then (if l.length = n then (l.map fun v => fs.count v).prod else 0) else 0 := by
        intro f
        by_cases hf : f = v
        · simp only [hf, List.cons.injEq, true_and, if_true, ih]
        · simp [hf]
      simp only [h1, List.length_cons, Nat.add_right_cancel_iff, List.map_cons, List.prod_cons]
      generalize (l.map fun v => fs.count v).prod = c
      by_cases hl : l.length = n
      · simp only [hl, if_true]
        clear h1 ih
        induction fs with
        | nil => simp
        | cons a fs ih => by_cases ha : a = v <;> simp [ha, ih, List.count_cons, Nat.add_mul, Nat.add_comm]
      · simp [hl]

end

end PyDice
