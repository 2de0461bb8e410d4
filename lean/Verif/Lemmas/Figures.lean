import Verif.Lemmas.FloatDist
import Verif.Lemmas.Dicts
import Verif.Lemmas.Errors
import Verif.Lemmas.Law
import Verif.Parser
/-!
# The float figures of a program's distribution
-/

namespace PyDice
open PyRuntime

section
variable [R : PyRuntime]

omit R in
theorem mapValues_map {α β γ : Type} {f : α → Res β} {f' : α → Res γ} {r : β → γ} : ∀ {d : List (Str × α)} {m : List (Str × β)},
    mapValues f d = .ok m → (∀ p ∈ d, ∀ y, f p.2 = .ok y → (p.1, y) ∈ m → f' p.2 = .ok (r y)) →
    mapValues f' d = .ok (m.map fun p => (p.1, r p.2))
  | [], m, h, _ => by cases h; rfl
  | p :: d, m, h, hf => by
    unfold mapValues at h ⊢
    rw [List.mapM_cons] at h ⊢
    cases h1 : f p.2 with
    | error e => rw [h1] at h; cases h
    | ok y =>
      cases h2 : mapValues f d with
      | error e => unfold mapValues at h2; rw [h1, h2] at h; cases h
      | ok m' =>
        have h3 := h2
        unfold mapValues at h2
        rw [h1, h2] at h
        cases h
        have h4 := mapValues_map (f' := f') (r := r) h3 (fun q hq z hz hm => hf q (List.mem_cons_of_mem _ hq) z hz (List.mem_cons_of_mem _ hm))
        unfold mapValues at h4
        rw [hf p (List.mem_cons_self ..) y h1 (List.mem_cons_self ..), h4]
        rfl

omit R in
theorem mapValues_except {α β γ : Type} {f : α → Res β} {f' : α → Res γ} {r : β → γ} : ∀ {d : List (Str × α)},
    (∀ p ∈ d, f' p.2 = (f p.2).map r) → mapValues f' d = (mapValues f d).map (fun m => m.map fun p => (p.1, r p.2))
  | [], _ => rfl
  | p :: d, hf => by
    have ih := mapValues_except (d := d) (fun q hq => hf q (List.mem_cons_of_mem _ hq))
    unfold mapValues at ih ⊢
    rw [List.mapM_cons, List.mapM_cons, hf p (List.mem_cons_self ..), ih]
    cases f p.2 with
    | error e => rfl
    | ok y => cases (d.mapM fun p => do return (p.1, ← f p.2)) <;> rfl

omit R in
theorem mapValues_ok_mem {α β : Type} {f : α → Res β} : ∀ {d : List (Str × α)} {m : List (Str × β)},
    mapValues f d = .ok m → ∀ p ∈ d, ∃ y, f p.2 = .ok y
  | [], _, _, p, hp => by cases hp
  | q :: d, m, h, p, hp => by
    unfold mapValues at h
    rw [List.mapM_cons] at h
    cases h1 : f q.2 with
    | error e' => rw [h1] at h; cases h
    | ok y =>
      cases h2 : mapValues f d with
      | error e' => unfold mapValues at h2; rw [h1, h2] at h; cases h
      | ok m' =>
        rcases List.mem_cons.mp hp with rfl | hp
        · exact ⟨y, h1⟩
        · exact mapValues_ok_mem h2 p hp

omit R in
theorem mapValues_values {α β : Type} {f : α → Res β} {g : α → β} : ∀ {d : List (Str × α)} {m : List (Str × β)},
    mapValues f d = .ok m → (∀ p ∈ d, ∀ y, f p.2 = .ok y → y = g p.2) → m = d.map fun p => (p.1, g p.2)
  | [], m, h, _ => by cases h; rfl
  | p :: d, m, h, hf => by
    unfold mapValues at h
    rw [List.mapM_cons] at h
    cases h1 : f p.2 with
    | error e => rw [h1] at h; cases h
    | ok y =>
      cases h2 : mapValues f d with
      | error e => unfold mapValues at h2; rw [h1, h2] at h; cases h
      | ok m' =>
        have h3 := mapValues_values (g := g) h2 (fun q hq => hf q (List.mem_cons_of_mem _ hq))
        unfold mapValues at h2
        rw [h1, h2] at h
        cases h
        rw [h3, List.map_cons, hf p (List.mem_cons_self ..) y h1]

theorem averageF_error {d : Dist} {e : Err} (h : d.averageF = .error e) : e = .overflow ∨ (e = .zeroDivision ∧ d.average = .error .zeroDivision) := by
  unfold Dist.averageF at h
  unfold Dist.average
  simp only at h ⊢
  split at h
  · next h0 => cases h; exact Or.inr ⟨rfl, by rw [if_pos h0]⟩
  · unfold toFloat at h
    split at h
    · cases h; exact Or.inl rfl
    · cases h

theorem average_error {d : Dist} {e : Err} (h : d.average = .error e) : e = .zeroDivision := by
  unfold Dist.average at h
  simp only at h
  split at h <;> cases h
  rfl

/-- The figures of a one-line program, computed from its result map. -/
theorem program_figures (line : Str) (m : List (Int × Nat)) (n : Nat) (lo hi : Int) (hn : 0 < n)
    (h : ((interpDists parse [line] State.new).1.toOption.map fun ms =>
      ms.map fun p => (p.1, p.2.getResultMap, p.2.outcomeCount, p.2.min.toOption, p.2.max.toOption)) =
        some [(stdoutName, m, n, some lo, some hi)]) :
    ∃ d f g, (interpDists parse [line] State.new).1 = .ok [(stdoutName, d)] ∧ d.getResultMap = m ∧
      d.atLeastF = .ok f ∧ d.atMostF = .ok g ∧
      (∀ v, lo ≤ v → v ≤ hi → dictGet? f v =
        some ((pyRange lo v).foldl (fun a u => toDouble (a - toDouble ((countOf m u : ℚ) / (n : ℚ)))) 1)) ∧
      (∀ v, lo ≤ v → v ≤ hi → dictGet? g v =
        some ((pyRange lo (v + 1)).foldl (fun a u => toDouble (a + toDouble ((countOf m u : ℚ) / (n : ℚ)))) 0)) := by
  obtain ⟨ms, h1, h2⟩ := evalOk _ h
  match ms, h2 with
  | [], h2 => simp at h2
  | _ :: _ :: _, h2 => simp at h2
  | [(k, d)], h2 =>
    simp only [List.map_cons, List.map_nil, List.cons.injEq, Prod.mk.injEq, and_true] at h2
    obtain ⟨rfl, rfl, rfl, hlo, hhi⟩ := h2
    have hc := interpDists_constructed parse [line] Reachable.new h1 _ (List.mem_singleton.mpr rfl)
    obtain ⟨lo', hi', f, g, e1, e2, e3, e4, _, _, e5, e6, _⟩ := tailsF d hc hn
    rw [e1] at hlo; rw [e2] at hhi
    cases hlo; cases hhi
    exact ⟨d, f, g, by rw [h1], rfl, e3, e4, e5, e6⟩

end

end PyDice
