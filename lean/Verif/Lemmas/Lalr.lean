import Verif.Spec.Lalr
/-!
# The look-ahead sets are the FOLLOW sets
-/

namespace PyDice

/-! ### Nothing else can follow -/

/-- What the induction needs to know of each production: the start symbol is in no right-hand side, and a symbol after an expression is
    a terminal that `follow` lists. -/
theorem production_facts : ∀ p ∈ productions, (∀ s ∈ p.rhs, s ≠ .start) ∧ (p.lhs = .expr ∨ p.lhs = .start) ∧
    ∀ k < p.rhs.length, p.rhs[k]? = some .expr → ∀ s ∈ p.rhs[k + 1]?, s ∈ follow ∧ s.isTerminal = true := by decide +kernel

theorem production_zero : ∀ n < productions.length, ∀ p ∈ productions[n]?, p.lhs ≠ .start → n ≠ 0 := by decide +kernel

theorem begins_terminal {s t : Sym} (h : Begins s t) (hs : s.isTerminal = true) : t = s := by
  cases h with
  | terminal => rfl
  | production p s' t hp _ _ =>
    rcases (production_facts p hp).2.1 with h | h <;> rw [h] at hs <;> cases hs

theorem opened_nonzero {p p' : Production} {m n k : Nat} (hp : productions[m]? = some p) (hp' : productions[n]? = some p')
    (hk : p.rhs[k]? = some p'.lhs) : n ≠ 0 ∧ p'.lhs = .expr := by
  have h1 := (production_facts p (List.mem_of_getElem? hp)).1 _ (List.mem_of_getElem? hk)
  refine ⟨production_zero n ?_ p' (by rw [hp']; rfl) h1, (production_facts p' (List.mem_of_getElem? hp')).2.1.resolve_right h1⟩
  exact (List.getElem?_eq_some_iff.mp hp').1

theorem lookAhead_follow {q : Nat} {i : Item} {a : Sym} (h : LookAhead q i a) : (i.prod = 0 → a = .eof) ∧ a ∈ follow := by
  induction h with
  | start => exact ⟨fun _ => rfl, List.mem_cons_self⟩
  | last q i a p p' n _ hp hp' hk _ ih => exact ⟨fun h0 => absurd h0 (opened_nonzero hp hp' hk).1, ih.2⟩
  | inner q i a b s p p' n _ hp hp' hk hs hb _ =>
    have ho := opened_nonzero hp hp' hk
    rw [ho.2] at hk
    have h2 := (production_facts p (List.mem_of_getElem? hp)).2.2 i.dot (List.getElem?_eq_some_iff.mp hk).1 hk s (by rw [hs]; rfl)
    rw [begins_terminal hb h2.2]
    exact ⟨fun h0 => absurd h0 ho.1, h2.1⟩
  | goto q q' i a s set _ _ _ _ ih => exact ih

/-! ### All of it can -/

/-- The state after the first `k` symbols of production `n` from state `q`. -/
def walk (q n : Nat) : Nat → Option Nat
  | 0 => some q
  | k + 1 => do
    let q' ← walk q n k
    let set ← itemSets[q']?
    let s ← (⟨n, k⟩ : Item).next
    itemSets.findIdx? (fun g => decide (g = gotoSet set s))

theorem walk_sound {q n : Nat} {a : Sym} (h : LookAhead q ⟨n, 0⟩ a) : ∀ {k q' : Nat}, walk q n k = some q' → LookAhead q' ⟨n, k⟩ a
  | 0, q', hw => by
    have : q = q' := Option.some.inj hw
    exact this ▸ h
  | k + 1, q', hw => by
    unfold walk at hw
    obtain ⟨q1, h1, hw⟩ := Option.bind_eq_some_iff.mp hw
    obtain ⟨set, h2, hw⟩ := Option.bind_eq_some_iff.mp hw
    obtain ⟨s, h3, hw⟩ := Option.bind_eq_some_iff.mp hw
    obtain ⟨hlt, hg, _⟩ := List.findIdx?_eq_some_iff_getElem.mp hw
    refine .goto q1 q' ⟨n, k⟩ a s set (walk_sound h h1) h3 h2 ?_
    rw [List.getElem?_eq_getElem hlt, of_decide_eq_true hg]

/-- States in which an expression is expected, with what may follow it there. -/
def openings : List (Nat × Sym) :=
  [(0, .eof), (0, .tok .binop), (0, .tok .add), (0, .tok .sub), (0, .tok .mul), (0, .tok .div), (2, .tok .closeP), (19, .tok .comma)]

theorem expr_productions : ∀ n < productions.length, n ≠ 0 → (productions[n]?).map (·.lhs) = some .expr := by decide +kernel

theorem productions_lhs {n : Nat} (hn : n < productions.length) (h0 : n ≠ 0) : ∃ p, productions[n]? = some p ∧ p.lhs = .expr := by
  obtain ⟨p, hp, hl⟩ := Option.map_eq_some_iff.mp (expr_productions n hn h0)
  exact ⟨p, hp, hl⟩

theorem open_eof {n : Nat} (hn : n < productions.length) (h0 : n ≠ 0) : LookAhead 0 ⟨n, 0⟩ .eof := by
  obtain ⟨p, hp, hl⟩ := productions_lhs hn h0
  exact .last 0 ⟨0, 0⟩ .eof ⟨.start, [.expr]⟩ p n .start rfl hp (by rw [hl]; rfl) rfl

theorem open_inner {q m k n : Nat} {a t : Sym} {pm : Production} (h : LookAhead q ⟨m, k⟩ a) (hm : productions[m]? = some pm)
    (hk : pm.rhs[k]? = some .expr) (ht : pm.rhs[k + 1]? = some t) (hterm : t.isTerminal = true) (hn : n < productions.length) (h0 : n ≠ 0) :
    LookAhead q ⟨n, 0⟩ t := by
  obtain ⟨p, hp, hl⟩ := productions_lhs hn h0
  exact .inner q ⟨m, k⟩ a t t pm p n h hm hp (by rw [hl]; exact hk) ht (.terminal t hterm)

theorem openings_sound {o : Nat × Sym} (ho : o ∈ openings) {n : Nat} (hn : n < productions.length) (h0 : n ≠ 0) :
    LookAhead o.1 ⟨n, 0⟩ o.2 := by
  simp only [openings, List.mem_cons, List.not_mem_nil, or_false] at ho
  have e (m : Nat) (hm : m < productions.length) (h : m ≠ 0) := open_eof hm h
  rcases ho with rfl | rfl | rfl | rfl | rfl | rfl | rfl | rfl
  · exact open_eof hn h0
  · exact open_inner (e 11 (by decide) (by decide)) rfl rfl rfl rfl hn h0
  · exact open_inner (e 7 (by decide) (by decide)) rfl rfl rfl rfl hn h0
  · exact open_inner (e 8 (by decide) (by decide)) rfl rfl rfl rfl hn h0
  · exact open_inner (e 9 (by decide) (by decide)) rfl rfl rfl rfl hn h0
  · exact open_inner (e 10 (by decide) (by decide)) rfl rfl rfl rfl hn h0
  · exact open_inner (walk_sound (e 1 (by decide) (by decide)) (k := 1) (by decide +kernel)) rfl rfl rfl rfl hn h0
  · exact open_inner (walk_sound (e 12 (by decide) (by decide)) (k := 2) (by decide +kernel)) rfl rfl rfl rfl hn h0

theorem openings_follow : ∀ a ∈ follow, ∃ o ∈ openings, o.2 = a := by decide +kernel

set_option synthInstance.maxSize 2000 in
set_option synthInstance.maxHeartbeats 200000 in
/-- Wherever a production is begun, it is finished in the same state, the only one that holds its complete item. -/
theorem walk_ends : ∀ q < itemSets.length, ∀ set ∈ itemSets[q]?, ∀ i ∈ set, i.next = none →
    i.prod < productions.length ∧ (i.prod = 0 → q = 1 ∧ i.dot = 1) ∧
      (i.prod ≠ 0 → ∀ o ∈ openings, walk o.1 i.prod i.dot = some q) := by decide +kernel

theorem lookAhead_iff {q : Nat} {set : List Item} {i : Item} (hq : itemSets[q]? = some set) (hi : i ∈ set) (hn : i.next = none) (a : Sym) :
    LookAhead q i a ↔ if i.prod = 0 then a = .eof else a ∈ follow := by
  obtain ⟨hlt, hz, hw⟩ := walk_ends q (List.getElem?_eq_some_iff.mp hq).1 set (by rw [hq]; rfl) i hi hn
  constructor
  · intro h
    have := lookAhead_follow h
    split
    · exact this.1 (by assumption)
    · exact this.2
  · split
    · rename_i h0
      rintro rfl
      obtain ⟨rfl, hd⟩ := hz h0
      have h1 : walk 0 0 1 = some 1 := by decide +kernel
      have := walk_sound LookAhead.start h1
      obtain ⟨ip, idot⟩ := i
      cases h0
      cases hd
      exact this
    · rename_i h0
      intro ha
      obtain ⟨o, ho, rfl⟩ := openings_follow a ha
      exact walk_sound (openings_sound ho hlt h0) (hw h0 o ho)

end PyDice
