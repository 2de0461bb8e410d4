import Verif.Props.C08_C11
import Verif.Props.C44
import Verif.Lemmas.FloatPlot
/-!
# Pictures of distributions
-/

namespace PyDice

open PyRuntime

section
variable [R : PyRuntime]

omit R in
theorem range_values (l : List (Int × ℚ)) (lo hi : Int) (hl : l.map Prod.fst = pyRange lo (hi + 1)) :
    (pyRange lo (hi + 1)).map (fun v => (dictGet? l v).getD 0) = l.map Prod.snd := by
  have hd : DistinctKeys l := by rw [distinct_iff_nodup, hl]; exact pyRange_nodup _ _
  rw [← hl, List.map_map]
  apply List.map_congr_left
  intro p hp
  show (dictGet? l p.1).getD 0 = p.2
  rw [dictGet_of_mem l hd hp]; rfl

omit R in
theorem range_lookups (k : List (Int × ℚ)) (f : Int → ℚ) (lo hi : Int) (hk : (k.map Prod.fst).Perm (pyRange lo (hi + 1)))
    (hv : ∀ v, lo ≤ v → v ≤ hi → (dictGet? k v).getD 0 = f v) : lookupAll k (k.map Prod.fst) = (k.map Prod.fst).map f := by
  unfold lookupAll
  apply List.map_congr_left
  intro v hmem
  have := hk.mem_iff.mp hmem
  rw [mem_pyRange] at this
  exact hv v this.1 (by omega)

omit R in
theorem range_keys_ne (k : List (Int × ℚ)) (lo hi : Int) (hle : lo ≤ hi) (hk : (k.map Prod.fst).Perm (pyRange lo (hi + 1))) :
    k.map Prod.fst ≠ [] := by
  intro h; rw [h] at hk
  have := hk.length_eq
  rw [pyRange_length] at this
  simp only [List.length_nil] at this
  omega

omit R in
theorem range_zip (k : List (Int × ℚ)) (f : Int → ℚ) (lo hi : Int) (hle : lo ≤ hi) (hk : (k.map Prod.fst).Perm (pyRange lo (hi + 1)))
    (hv : ∀ v, lo ≤ v → v ≤ hi → (dictGet? k v).getD 0 = f v) :
    sortedZip (k.map Prod.fst) (lookupAll k (k.map Prod.fst)) = .ok (pyRange lo (hi + 1), (pyRange lo (hi + 1)).map f) := by
  rw [range_lookups k f lo hi hk hv]
  obtain ⟨ys, e, hp, hs⟩ := sortedZip_spec (k.map Prod.fst) f (range_keys_ne k lo hi hle hk)
  rw [e, perm_range_eq (hp.trans hk) hs]

theorem lastDist_constructed (parse : Str → Res Expr) : ∀ (lines : List Str) (d : Dist) (s : State), TidyState s → d.Constructed →
    ∀ d' s', lastDist parse lines d s = (.ok d', s') → d'.Constructed
  | [], d, s, _, hd, d', s', h => by cases h; exact hd
  | l :: ls, d, s, hs, hd, d', s', h => by
    obtain ⟨e, s1, h1, h2⟩ := evalBind_eq_ok.mp h
    obtain ⟨x, s2, h3, h4⟩ := evalBind_eq_ok.mp h2
    obtain ⟨_, rfl⟩ := Prod.mk.inj h1
    obtain ⟨k1, _, k2⟩ := keeps_dist e s hs
    rw [h3] at k1 k2
    obtain ⟨A, ht, _⟩ := k2 x rfl
    exact lastDist_constructed parse ls x s2 k1 ht.constructed d' s' h4

/-- Sorting the outcomes of a full range. -/
theorem shows_range (d : Dist) (hc : d.Constructed) (hN : 0 < d.outcomeCount) (lo hi : Int) (hlo : d.min = .ok lo) (hhi : d.max = .ok hi)
    (b1 : |lo| < 2 ^ 52) (b2 : |hi| < 2 ^ 52) (hle : lo ≤ hi) (k : List (Int × ℚ)) (f : Int → ℚ)
    (hk : (k.map Prod.fst).Perm (pyRange lo (hi + 1))) (hv : ∀ v, lo ≤ v → v ≤ hi → (dictGet? k v).getD 0 = f v) :
    ∃ p x m, (d.averageF >>= fun a => makeHistogramF (k.map Prod.fst) (lookupAll k (k.map Prod.fst)) (some a)) = .ok p ∧
      ShowsRange p.hist lo hi f ∧ d.average = .ok m ∧ RoundsTo m x ∧ (lo : ℚ) ≤ x ∧ x ≤ (hi : ℚ) ∧
      LineIs p.line x ((pyRange lo (hi + 1)).map f) := by
  obtain ⟨x, hx1, hx2, hx3, hx4⟩ := (C44_average d _ (average_E d hN)).2.2 hc hN lo hi hlo hhi (by omega) (by omega)
  have hy : lookupAll k (k.map Prod.fst) = (k.map Prod.fst).map f := by
    unfold lookupAll
    apply List.map_congr_left
    intro v hmem
    have := hk.mem_iff.mp hmem
    rw [mem_pyRange] at this
    exact hv v this.1 (by omega)
  have hne : k.map Prod.fst ≠ [] := by
    intro h; rw [h] at hk
    have := hk.length_eq
    rw [pyRange_length] at this
    simp only [List.length_nil] at this
    omega
  rw [abs_lt] at b1 b2
  obtain ⟨ys, hn, p, h1, h2, h3, h4, h5, _⟩ := makeHistogramF_spec (k.map Prod.fst) f hne (by
    intro v hv
    have := hk.mem_iff.mp hv
    rw [mem_pyRange] at this
    rw [abs_lt]; omega) (some x)
  have := perm_range_eq (h1.trans hk) h2
  subst this
  refine ⟨p, x, _, ?_, ?_, average_E d hN, hx2, hx3, hx4, h5 x rfl⟩
  · rw [hx1, hy]; exact h3
  · rw [h4]; exact exactHist_range lo hi f hle hn

end

end PyDice
