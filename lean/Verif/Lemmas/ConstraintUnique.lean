import Verif.Lemmas.Constraint
import Mathlib.Data.Int.LeastGreatest
/-!
# The normal form is determined by its meaning
-/

namespace PyDice
open PyRuntime

theorem exists_not_mem (vs : List Int) : ∃ a : Int, a ∉ vs := by
  have : ∀ l : List Int, ∃ b : Int, ∀ a ∈ l, a < b := by
    intro l
    induction l with
    | nil => exact ⟨0, by simp⟩
    | cons x t ih =>
      obtain ⟨b, hb⟩ := ih
      refine ⟨max b (x + 1), ?_⟩
      intro a ha
      rcases List.mem_cons.mp ha with rfl | ha
      · omega
      · have := hb a ha; omega
  obtain ⟨b, hb⟩ := this vs
  exact ⟨b, fun h => by have := hb b h; omega⟩

/-- Change the value of one variable. -/
def updAt (ω : Str → Int) (n : Str) (a : Int) : Str → Int := fun m => if m = n then a else ω m

theorem updAt_same (ω : Str → Int) (n : Str) (a : Int) : updAt ω n a n = a := by simp [updAt]
theorem updAt_ne (ω : Str → Int) {n m : Str} (a : Int) (h : m ≠ n) : updAt ω n a m = ω m := by simp [updAt, h]

section
variable [R : PyRuntime]

/-- Changing a constrained variable to another allowed value keeps a normal set satisfied. -/
theorem sat_update_mem {s : CSet} (h : Normal s) {ω : Str → Int} (hs : Sat ω s) {n : Str} {vs : List Int} {a : Int}
    (hm : .varValue n vs ∈ iter s) (ha : a ∈ vs) : Sat (updAt ω n a) s := by
  intro c hc
  cases c with
  | null => trivial
  | impossible => exact hs _ hc
  | varValue m ws =>
    simp only [Constraint.Sat]
    by_cases hmn : m = n
    · subst hmn
      rw [updAt_same, h.names_unique hc hm]; exact ha
    · rw [updAt_ne _ _ hmn]; exact hs _ hc

/-- Changing an unconstrained variable keeps a set satisfied. -/
theorem sat_update_free {s : CSet} {ω : Str → Int} (hs : Sat ω s) {n : Str} (a : Int)
    (hm : ∀ vs, .varValue n vs ∉ iter s) : Sat (updAt ω n a) s := by
  intro c hc
  cases c with
  | null => trivial
  | impossible => exact hs _ hc
  | varValue m ws =>
    simp only [Constraint.Sat]
    by_cases hmn : m = n
    · subst hmn; exact absurd hc (hm ws)
    · rw [updAt_ne _ _ hmn]; exact hs _ hc

/-- Every satisfiable normal set that forces `n = a` contains the constraint `n ∈ {a}`. -/
theorem forced_mem {s : CSet} (h : Normal s) (hwf : ∀ c ∈ iter s, c.WF) (hex : ∃ ω, Sat ω s) {n : Str} {a : Int}
    (hf : ∀ ω, Sat ω s → ω n = a) : .varValue n [a] ∈ iter s := by
  obtain ⟨ω, hω⟩ := hex
  by_cases hm : ∃ vs, .varValue n vs ∈ iter s
  · obtain ⟨vs, hvs⟩ := hm
    have hall : ∀ b ∈ vs, b = a := by
      intro b hb
      have := hf _ (sat_update_mem h hω hvs hb)
      rwa [updAt_same] at this
    have hw := hwf _ hvs
    simp only [Constraint.WF] at hw
    have : vs = [a] := by
      obtain ⟨hne, hnd⟩ := hw
      cases vs with
      | nil => exact absurd rfl hne
      | cons x t =>
        have hx := hall x (by simp)
        cases t with
        | nil => rw [hx]
        | cons y t =>
          have hy := hall y (by simp)
          rw [hx, hy] at hnd
          simp at hnd
    rwa [this] at hvs
  · exfalso
    have hm' : ∀ vs, .varValue n vs ∉ iter s := fun vs h' => hm ⟨vs, h'⟩
    have := hf _ (sat_update_free hω (a + 1) hm')
    rw [updAt_same] at this
    omega

end

theorem exists_sat_of_no_impossible [R : PyRuntime] {s : CSet} (h : Normal s) (hwf : ∀ c ∈ iter s, c.WF)
    (hi : .impossible ∉ iter s) : ∃ ω, Sat ω s := by
  rw [← isPossible_iff h]
  simp only [csPossible, List.all_eq_true]
  intro c hc
  cases c with
  | null => rfl
  | impossible => exact absurd hc hi
  | varValue n vs =>
    have := hwf _ hc
    simp only [Constraint.WF] at this
    simp only [Constraint.isPossible, decide_eq_true_eq]
    exact List.length_pos_iff.mpr this.1

/-- One half of uniqueness, possibly for two different runtimes. -/
theorem unique_half (R1 R2 : PyRuntime) {s : R1.CSet} {t : R2.CSet} (hs : Normal (R := R1) s)
    (ht : Normal (R := R2) t) (ws : ∀ c ∈ R1.iter s, c.WF) (wt : ∀ c ∈ R2.iter t, c.WF)
    (_ns : R1.iter s ≠ []) (nt : R2.iter t ≠ [])
    (h : ∀ ω, Sat (R := R1) ω s ↔ Sat (R := R2) ω t) :
    (Constraint.null ∈ R1.iter s → Constraint.null ∈ R2.iter t) ∧
    (Constraint.impossible ∈ R1.iter s → Constraint.impossible ∈ R2.iter t) ∧
    (∀ n vs, Constraint.varValue n vs ∈ R1.iter s → ∃ us, Constraint.varValue n us ∈ R2.iter t ∧ ∀ a, a ∈ vs ↔ a ∈ us) := by
  have himp : Constraint.impossible ∈ R1.iter s → Constraint.impossible ∈ R2.iter t := by
    intro hi
    by_contra hno
    obtain ⟨ω, hω⟩ := exists_sat_of_no_impossible (R := R2) ht wt hno
    exact (h ω).mpr hω _ hi
  have himp' : Constraint.impossible ∈ R2.iter t → Constraint.impossible ∈ R1.iter s := by
    intro hi
    by_contra hno
    obtain ⟨ω, hω⟩ := exists_sat_of_no_impossible (R := R1) hs ws hno
    exact (h ω).mp hω _ hi
  refine ⟨?_, himp, ?_⟩
  · intro hn
    have hall := Normal.lone_null (R := R1) hs hn
    have hsat : ∀ ω, Sat (R := R1) ω s := by
      intro ω c hc; rw [hall c hc]; trivial
    obtain ⟨x, hx⟩ := List.exists_mem_of_ne_nil _ nt
    cases x with
    | null => exact hx
    | impossible => exact ((h (fun _ => 0)).mp (hsat _) _ hx).elim
    | varValue m us =>
      exfalso
      obtain ⟨a, ha⟩ := exists_not_mem us
      exact ha ((h (fun _ => a)).mp (hsat _) _ hx)
  · intro n vs hm
    have hi : Constraint.impossible ∉ R1.iter s := by
      intro hi
      have := Normal.lone_impossible (R := R1) hs hi _ hm
      simp at this
    have hi2 : Constraint.impossible ∉ R2.iter t := fun h' => hi (himp' h')
    obtain ⟨ω, hω⟩ := exists_sat_of_no_impossible (R := R1) hs ws hi
    by_cases hex : ∃ us, Constraint.varValue n us ∈ R2.iter t
    · obtain ⟨us, hus⟩ := hex
      refine ⟨us, hus, fun a => ⟨?_, ?_⟩⟩
      · intro ha
        have h1 := (h _).mp (sat_update_mem (R := R1) hs hω hm ha) _ hus
        simpa [Constraint.Sat, updAt_same] using h1
      · intro ha
        have h1 := (h _).mpr (sat_update_mem (R := R2) ht ((h ω).mp hω) hus ha) _ hm
        simpa [Constraint.Sat, updAt_same] using h1
    · exfalso
      obtain ⟨a, ha⟩ := exists_not_mem vs
      have h1 := (h _).mpr (sat_update_free (R := R2) (n := n) ((h ω).mp hω) a (fun us hus => hex ⟨us, hus⟩)) _ hm
      simp only [Constraint.Sat, updAt_same] at h1
      exact ha h1

theorem normal_unique (R1 R2 : PyRuntime) {s : R1.CSet} {t : R2.CSet} (hs : Normal (R := R1) s)
    (ht : Normal (R := R2) t) (ws : ∀ c ∈ R1.iter s, c.WF) (wt : ∀ c ∈ R2.iter t, c.WF)
    (ns : R1.iter s ≠ []) (nt : R2.iter t ≠ [])
    (h : ∀ ω, Sat (R := R1) ω s ↔ Sat (R := R2) ω t) : SameConstraints (R1.iter s) (R2.iter t) := by
  obtain ⟨a1, a2, a3⟩ := unique_half R1 R2 hs ht ws wt ns nt h
  obtain ⟨b1, b2, b3⟩ := unique_half R2 R1 ht hs wt ws nt ns (fun ω => (h ω).symm)
  refine ⟨⟨a1, b1⟩, ⟨a2, b2⟩, a3, ?_⟩
  intro n us hm
  obtain ⟨vs, h1, h2⟩ := b3 n us hm
  exact ⟨vs, h1, fun a => (h2 a).symm⟩

end PyDice
