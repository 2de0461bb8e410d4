import Verif.Lemmas.Dist
/-!
# Helpers for C05 - C07
-/

namespace PyDice

open PyRuntime

section
variable [R : PyRuntime]

omit R in
theorem nsmul_list_sum (k : Nat) (l : List Nat) : k • l.sum = (l.map (fun x => k • x)).sum := by
  induction l with
  | nil => simp
  | cons x l ih => simp only [List.map_cons, List.sum_cons, smul_add, ih]

omit R in
theorem pairCount_wsum (op : BinOp) (m n : List (Int × Nat)) (v : Int) :
    pairCount op m n v = wsum m (fun x => wsum n (fun y => onOk (op.apply x y) (fun z => if z = v then 1 else 0))) := by
  classical
  unfold pairCount wsum
  congr 1
  apply List.map_congr_left
  intro p _
  rw [nsmul_list_sum, List.map_map]
  congr 1
  apply List.map_congr_left
  intro q _
  simp only [Function.comp]
  by_cases h : OpYields op p.1 q.1 v
  · rw [if_pos h, (apply_yields _ _ _ _).mpr h]; simp [onOk]
  · rw [if_neg h]
    cases hv : op.apply p.1 q.1 with
    | error e => simp [onOk]
    | ok z =>
      have : z ≠ v := by rintro rfl; exact h ((apply_yields _ _ _ _).mp hv)
      simp [onOk, this]

omit R in
theorem notVal_yields (x v : Int) : notVal x = v ↔ NotYields x v := by
  unfold notVal NotYields valueToBinary
  by_cases h : x > 0
  · rw [if_pos (by simpa using h)]; omega
  · rw [if_neg (by simpa using h)]; omega

omit R in
theorem absVal_yields (x v : Int) : absVal x = v ↔ AbsYields x v := by
  unfold absVal AbsYields
  by_cases h : x < 0
  · rw [if_pos h, abs_of_neg h]; exact eq_comm
  · rw [if_neg h, abs_of_nonneg (by omega)]; exact eq_comm

theorem imageCount_mapValue (Y : Int → Int → Prop) (g : Int → Int) (hg : ∀ x v, g x = v ↔ Y x v) (d : Dist) (v : Int) :
    countOf (d.mapValue g).getResultMap v = imageCount Y d.getResultMap v := by
  classical
  rw [countOf_getResultMap, mapValue_E, ← wsum_getResultMap]
  unfold imageCount wsum
  congr 1
  apply List.map_congr_left
  intro p _
  by_cases h : Y p.1 v
  · simp [h, (hg _ _).mpr h]
  · simp [h, mt (hg _ _).mp h]

theorem mapValue_total (g : Int → Int) (d : Dist) (hc : d.Constructed) :
    (d.mapValue g).outcomeCount = d.outcomeCount := by
  rw [outcomeCount_constructed (mapValue_constructed g d), outcomeCount_constructed hc]
  exact mapValue_E g d (fun _ => (1 : Nat))

theorem mapValue_support (g : Int → Int) (d : Dist) (v : Int) :
    hasKey (d.mapValue g).getResultMap v ↔ ∃ x, hasKey d.getResultMap x ∧ g x = v := by
  rw [hasKey_getResultMap, mapValue_exists g d (fun o => o.value = v) (resp_value (fun x => x = v))]
  constructor
  · rintro ⟨p, hp, h⟩; exact ⟨_, (hasKey_getResultMap _ _).mpr ⟨p, hp, rfl⟩, h⟩
  · rintro ⟨x, hx, h⟩
    obtain ⟨p, hp, rfl⟩ := (hasKey_getResultMap _ _).mp hx
    exact ⟨p, hp, h⟩

end

end PyDice
