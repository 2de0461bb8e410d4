import Verif.Spec.Repr
import Verif.Lemmas.Text
import Verif.Lemmas.Names
/-!
# Printed forms can be read back
-/

namespace PyDice
open PyRuntime

/-! ### Heads of the fixed texts -/

theorem head_null : txtNull = 'N' :: "ullConstraint".toList := by decide +kernel
theorem head_impossible : txtImpossible = 'I' :: "mpossibleConstraint".toList := by decide +kernel
theorem head_var : txtVar = 'V' :: "arValueConstraint: name=".toList := by decide +kernel
theorem head_values : txtValues = ',' :: " values=".toList := by decide +kernel
theorem head_cs : txtCs = ',' :: " constraint_set=".toList := by decide +kernel
theorem head_outcome : txtOutcome = 'P' :: "robabilityOutcome: value=".toList := by decide +kernel
theorem head_set : txtEmpty = 's' :: "et()".toList := by decide +kernel
theorem head_open : txtOpen = ['{'] := by decide +kernel
theorem head_close : txtClose = ['}'] := by decide +kernel
theorem head_comma : txtComma = [',', ' '] := by decide +kernel

theorem cons_ne {c d : Char} {u v : Str} (hcd : c ≠ d) : c :: u ≠ d :: v := fun h => hcd (List.cons.inj h).1

theorem head_ne {c d : Char} {x y u v a b : Str} (hx : x = c :: u) (hy : y = d :: v) (hcd : c ≠ d) : x ++ a ≠ y ++ b := by
  rw [hx, hy]
  exact cons_ne hcd

theorem text_var (n : Str) (vs : List Int) : (Constraint.varValue n vs).text = txtVar ++ (n ++ (txtValues ++ reprSet (vs.map intStr))) := by
  rw [Constraint.text, List.append_assoc, List.append_assoc]

/-- The kind of a constraint is its first letter. -/
theorem constraint_kind {c d : Constraint} {u v : Str} (h : c.text ++ u = d.text ++ v) :
    (c = .null ∧ d = .null) ∨ (c = .impossible ∧ d = .impossible) ∨ ∃ n vs m ws, c = .varValue n vs ∧ d = .varValue m ws := by
  cases c with
  | null =>
    cases d with
    | null => exact .inl ⟨rfl, rfl⟩
    | impossible => exact absurd h (head_ne head_null head_impossible (by decide))
    | varValue m ws => rw [text_var, List.append_assoc] at h; exact absurd h (head_ne head_null head_var (by decide))
  | impossible =>
    cases d with
    | null => exact absurd h (head_ne head_impossible head_null (by decide))
    | impossible => exact .inr (.inl ⟨rfl, rfl⟩)
    | varValue m ws => rw [text_var, List.append_assoc] at h; exact absurd h (head_ne head_impossible head_var (by decide))
  | varValue n vs =>
    cases d with
    | null => rw [text_var, List.append_assoc] at h; exact absurd h (head_ne head_var head_null (by decide))
    | impossible => rw [text_var, List.append_assoc] at h; exact absurd h (head_ne head_var head_impossible (by decide))
    | varValue m ws => exact .inr (.inr ⟨n, vs, m, ws, rfl, rfl⟩)

theorem values_head (u : Str) : ∀ c ∈ (txtValues ++ u).head?, ¬ c ≠ ',' := by
  rw [head_values]
  simp

theorem span_unique (p : Char → Prop) : ∀ (a b u v : Str), (∀ c ∈ a, p c) → (∀ c ∈ b, p c) → (∀ c ∈ u.head?, ¬ p c) →
    (∀ c ∈ v.head?, ¬ p c) → a ++ u = b ++ v → a = b ∧ u = v
  | [], [], _, _, _, _, _, _, h => ⟨rfl, h⟩
  | [], c :: b, u, v, _, hb, hu, _, h => by
    exfalso
    rw [List.nil_append] at h
    exact hu c (by rw [h]; rfl) (hb c (by simp))
  | c :: a, [], u, v, ha, _, _, hv, h => by
    exfalso
    rw [List.nil_append] at h
    exact hv c (by rw [← h]; rfl) (ha c (by simp))
  | c :: a, d :: b, u, v, ha, hb, hu, hv, h => by
    rw [List.cons_append, List.cons_append, List.cons.injEq] at h
    obtain ⟨h1, h2⟩ := span_unique p a b u v (fun x hx => ha x (by simp [hx])) (fun x hx => hb x (by simp [hx])) hu hv h.2
    exact ⟨by rw [h.1, h1], h2⟩

/-- The text goes on with a character that ends an item. -/
def ItemEnds (u : Str) : Prop := ∃ c w, u = c :: w ∧ (c = ',' ∨ c = '}')

/-- Texts printed for the elements of `D` can be read off the front of a text going on as `T`. -/
def Code {α : Type} (f : α → Str) (D : α → Prop) (T : Str → Prop) : Prop :=
  ∀ a b u v, D a → D b → T u → T v → f a ++ u = f b ++ v → a = b ∧ u = v

theorem ends_notInt {u : Str} (h : ItemEnds u) : ∀ c ∈ u.head?, ¬ (c = '-' ∨ isDigit c = true) := by
  obtain ⟨c, w, rfl, hc⟩ := h
  intro d hd
  simp only [List.head?_cons, Option.mem_def, Option.some.injEq] at hd
  subst hd
  rcases hc with rfl | rfl <;> decide

theorem code_int : Code intStr (fun _ => True) ItemEnds := by
  intro a b u v _ _ hu hv h
  obtain ⟨h1, h2⟩ := span_unique (fun c => c = '-' ∨ isDigit c = true) _ _ _ _ (intStr_chars a) (intStr_chars b)
    (ends_notInt hu) (ends_notInt hv) h
  exact ⟨intStr_injective h1, h2⟩

theorem code_nat : Code natStr (fun _ => True) ItemEnds := by
  intro a b u v _ _ hu hv h
  obtain ⟨h1, h2⟩ := span_unique (fun c => c = '-' ∨ isDigit c = true) _ _ _ _ (fun c hc => .inr (natStr_digits a c hc))
    (fun c hc => .inr (natStr_digits b c hc)) (ends_notInt hu) (ends_notInt hv) h
  exact ⟨natStr_injective h1, h2⟩

/-- What follows the first item of a set or dict. -/
def tailText {α : Type} (f : α → Str) : List α → Str
  | [] => ['}']
  | a :: l => ',' :: ' ' :: (f a ++ tailText f l)

theorem tailText_ends {α : Type} (f : α → Str) (l : List α) (u : Str) : ItemEnds (tailText f l ++ u) := by
  cases l with
  | nil => exact ⟨'}', u, rfl, .inr rfl⟩
  | cons a l => exact ⟨',', _, rfl, .inl rfl⟩

theorem reprItems_map {α : Type} (f : α → Str) : ∀ (a : α) (l : List α), reprItems ((a :: l).map f) ++ txtClose = f a ++ tailText f l
  | _, [] => by rw [head_close]; rfl
  | a, b :: l => by
    have := reprItems_map f b l
    simp only [List.map_cons, reprItems, tailText] at this ⊢
    rw [List.append_assoc, List.append_assoc, this, head_comma]
    rfl

theorem code_tail {α : Type} {f : α → Str} {D : α → Prop} (hf : Code f D ItemEnds) : ∀ (l m : List α) (u v : Str), (∀ a ∈ l, D a) →
    (∀ a ∈ m, D a) → tailText f l ++ u = tailText f m ++ v → l = m ∧ u = v
  | [], [], u, v, _, _, h => ⟨rfl, by simpa [tailText] using h⟩
  | [], b :: m, u, v, _, _, h => by simp [tailText] at h
  | a :: l, [], u, v, _, _, h => by simp [tailText] at h
  | a :: l, b :: m, u, v, hl, hm, h => by
    simp only [tailText, List.cons_append, List.cons.injEq, true_and, List.append_assoc] at h
    obtain ⟨h1, h2⟩ := hf a b _ _ (hl a (by simp)) (hm b (by simp)) (tailText_ends f l u) (tailText_ends f m v) h
    obtain ⟨h3, h4⟩ := code_tail hf l m u v (fun x hx => hl x (by simp [hx])) (fun x hx => hm x (by simp [hx])) h2
    exact ⟨by rw [h1, h3], h4⟩

theorem code_items {α : Type} {f : α → Str} {D : α → Prop} (hf : Code f D ItemEnds) (a b : α) (l m : List α) (u v : Str)
    (hl : ∀ x ∈ a :: l, D x) (hm : ∀ x ∈ b :: m, D x)
    (h : reprItems ((a :: l).map f) ++ (txtClose ++ u) = reprItems ((b :: m).map f) ++ (txtClose ++ v)) :
    a :: l = b :: m ∧ u = v := by
  rw [← List.append_assoc, ← List.append_assoc, reprItems_map, reprItems_map, List.append_assoc, List.append_assoc] at h
  obtain ⟨h1, h2⟩ := hf a b _ _ (hl a (by simp)) (hm b (by simp)) (tailText_ends f l u) (tailText_ends f m v) h
  obtain ⟨h3, h4⟩ := code_tail hf l m u v (fun x hx => hl x (by simp [hx])) (fun x hx => hm x (by simp [hx])) h2
  exact ⟨by rw [h1, h3], h4⟩

theorem code_set {α : Type} {f : α → Str} {D : α → Prop} (hf : Code f D ItemEnds) :
    Code (fun l : List α => reprSet (l.map f)) (fun l => ∀ a ∈ l, D a) (fun _ => True) := by
  intro l m u v hl hm _ _ h
  have key : ∀ (b : α) (m : List α) (u v : Str), reprSet ((b :: m).map f) ++ u ≠ reprSet [] ++ v := by
    intro b m u v h
    simp only [List.map_cons, reprSet] at h
    rw [head_open, head_set] at h
    exact cons_ne (by decide) h
  cases l with
  | nil =>
    cases m with
    | nil => exact ⟨rfl, List.append_cancel_left h⟩
    | cons b m => exact absurd h.symm (key b m v u)
  | cons a l =>
    cases m with
    | nil => exact absurd h (key a l u v)
    | cons b m =>
      simp only [List.map_cons, reprSet, List.append_assoc, List.append_cancel_left_eq] at h
      exact code_items hf a b l m u v hl hm h

theorem code_dict {α : Type} {f : α → Str} {D : α → Prop} (hf : Code f D ItemEnds) (hb : ∀ a, ∃ w, f a = 'P' :: w) :
    Code (fun l : List α => reprDict (l.map f)) (fun l => ∀ a ∈ l, D a) (fun _ => True) := by
  have key : ∀ (b : α) (m : List α) (u v : Str), reprDict ((b :: m).map f) ++ u ≠ reprDict [] ++ v := by
    intro b m u v h
    simp only [reprDict, List.append_assoc, List.append_cancel_left_eq] at h
    rw [← List.append_assoc, reprItems_map] at h
    obtain ⟨w, hw⟩ := hb b
    rw [hw, head_close] at h
    exact cons_ne (by decide) h
  intro l m u v hl hm _ _ h
  cases l with
  | nil =>
    cases m with
    | nil => exact ⟨rfl, List.append_cancel_left h⟩
    | cons b m => exact absurd h.symm (key b m v u)
  | cons a l =>
    cases m with
    | nil => exact absurd h (key a l u v)
    | cons b m =>
      simp only [reprDict, List.append_assoc, List.append_cancel_left_eq] at h
      exact code_items hf a b l m u v hl hm h

/-- The values of a constraint. -/
theorem code_values : Code (fun l : List Int => reprSet (l.map intStr)) (fun _ => True) (fun _ => True) := by
  intro l m u v _ _ _ _ h
  exact code_set code_int l m u v (fun _ _ => trivial) (fun _ _ => trivial) trivial trivial h

/-! ### Constraints -/

theorem code_constraint : Code Constraint.text Constraint.NoComma ItemEnds := by
  intro a b u v ha hb _ _ h
  rcases constraint_kind h with ⟨rfl, rfl⟩ | ⟨rfl, rfl⟩ | ⟨n, vs, m, ws, rfl, rfl⟩
  · exact ⟨rfl, List.append_cancel_left h⟩
  · exact ⟨rfl, List.append_cancel_left h⟩
  · simp only [text_var, List.append_assoc, List.append_cancel_left_eq] at h
    obtain ⟨h1, h2⟩ := span_unique (fun c => c ≠ ',') n m _ _ (fun c hc e => ha (e ▸ hc))
      (fun c hc e => hb (e ▸ hc)) (values_head _) (values_head _) h
    rw [List.append_cancel_left_eq] at h2
    obtain ⟨h3, h4⟩ := code_values vs ws u v trivial trivial trivial trivial h2
    exact ⟨by rw [h1, h3], h4⟩

/-- No `=` in the values. -/
theorem reprItems_chars : ∀ l : List Int, '=' ∉ reprItems (l.map intStr)
  | [] => by simp [reprItems]
  | [a] => by
    intro h
    have := intStr_chars a _ h
    revert this; decide
  | a :: b :: l => by
    have := reprItems_chars (b :: l)
    simp only [List.map_cons, reprItems, List.mem_append] at this ⊢
    rintro ((h | h) | h)
    · have := intStr_chars a _ h
      revert this; decide
    · revert h; decide +kernel
    · exact this h

theorem reprSet_chars (l : List Int) : '=' ∉ reprSet (l.map intStr) := by
  cases l with
  | nil => decide +kernel
  | cons a l =>
    have := reprItems_chars (a :: l)
    simp only [List.map_cons, reprSet, List.mem_append] at this ⊢
    rintro ((h | h) | h)
    · revert h; decide +kernel
    · exact this h
    · revert h; decide +kernel

theorem text_injective {c d : Constraint} (h : c.text = d.text) : c = d := by
  have h0 : c.text ++ [] = d.text ++ [] := by rw [h]
  rcases constraint_kind h0 with ⟨rfl, rfl⟩ | ⟨rfl, rfl⟩ | ⟨n, vs, m, ws, rfl, rfl⟩
  · rfl
  · rfl
  · simp only [text_var, List.append_cancel_left_eq] at h
    have h' := congrArg List.reverse h
    simp only [List.reverse_append, List.append_assoc] at h'
    have e : txtValues.reverse = '=' :: "seulav ,".toList := by decide +kernel
    have he : ∀ u : Str, ∀ c ∈ (txtValues.reverse ++ u).head?, ¬ c ≠ '=' := by
      intro u
      rw [e]
      simp
    obtain ⟨h1, h2⟩ := span_unique (fun c => c ≠ '=') _ _ _ _
      (fun c hc e => reprSet_chars vs (by rw [← List.mem_reverse]; exact e ▸ hc))
      (fun c hc e => reprSet_chars ws (by rw [← List.mem_reverse]; exact e ▸ hc)) (he _) (he _) h'
    rw [List.append_cancel_left_eq, List.reverse_inj] at h2
    rw [List.reverse_inj] at h1
    obtain ⟨h3, _⟩ := code_values vs ws [] [] trivial trivial trivial trivial (by dsimp only; rw [h1])
    rw [h2, h3]

/-! ### Sets, outcomes and distributions -/

section
variable [R : PyRuntime]

/-- All names in the set are free of commas. -/
def CsCommaFree (s : CSet) : Prop := ∀ c ∈ iter s, Constraint.NoComma c

theorem code_cs {s t : CSet} {u v : Str} (hs : CsCommaFree s) (ht : CsCommaFree t) (h : csText s ++ u = csText t ++ v) :
    iter s = iter t ∧ u = v := by
  simp only [csText, List.append_assoc, List.append_cancel_left_eq] at h
  exact code_set code_constraint (iter s) (iter t) u v hs ht trivial trivial h

theorem code_outcome {o o' : Outcome} {u v : Str} (ho : CsCommaFree o.cs) (ho' : CsCommaFree o'.cs)
    (h : o.text ++ u = o'.text ++ v) : (o.value = o'.value ∧ iter o.cs = iter o'.cs) ∧ u = v := by
  simp only [Outcome.text, List.append_assoc, List.append_cancel_left_eq] at h
  obtain ⟨h1, h2⟩ := code_int o.value o'.value _ _ trivial trivial ⟨',', _, by rw [head_cs]; rfl, .inl rfl⟩
    ⟨',', _, by rw [head_cs]; rfl, .inl rfl⟩ h
  rw [List.append_cancel_left_eq] at h2
  obtain ⟨h3, h4⟩ := code_cs ho ho' h2
  exact ⟨⟨h1, h3⟩, h4⟩

/-- What an entry of a distribution prints. -/
def entryOf (p : Outcome × Nat) : ShownEntry := (p.1.value, iter p.1.cs, p.2)

omit R in
/-- The printed form of what an entry prints. -/
def shownText (x : ShownEntry) : Str :=
  txtOutcome ++ intStr x.1 ++ txtCs ++
    (txtSet ++ reprSet (x.2.1.map Constraint.text)) ++ txtColon ++ natStr x.2.2

theorem entryText_eq (p : Outcome × Nat) : entryText p = shownText (entryOf p) := rfl

omit R in
theorem code_entry : Code shownText (fun x => ∀ c ∈ x.2.1, Constraint.NoComma c) ItemEnds := by
  rintro ⟨a, l, n⟩ ⟨b, m, k⟩ u v hl hm hu hv h
  simp only [shownText, List.append_assoc, List.append_cancel_left_eq] at h
  obtain ⟨h1, h2⟩ := code_int a b _ _ trivial trivial ⟨',', _, by rw [head_cs]; rfl, .inl rfl⟩
    ⟨',', _, by rw [head_cs]; rfl, .inl rfl⟩ h
  rw [List.append_cancel_left_eq, List.append_cancel_left_eq] at h2
  obtain ⟨h3, h4⟩ := code_set code_constraint l m _ _ hl hm trivial trivial h2
  rw [List.append_cancel_left_eq] at h4
  obtain ⟨h5, h6⟩ := code_nat n k u v trivial trivial hu hv h4
  exact ⟨by rw [h1, h3, h5], h6⟩

omit R in
theorem shownText_head (x : ShownEntry) : ∃ w, shownText x = 'P' :: w := by
  rw [shownText, head_outcome]
  exact ⟨_, rfl⟩

theorem dist_text (d : Dist) : d.text = txtDist ++ reprDict (d.entries.map shownText) := by
  rw [Dist.text, Dist.entries, List.map_map]
  rfl

theorem code_dist {d d' : Dist} (hd : ∀ p ∈ d.resultMap, CsCommaFree p.1.cs) (hd' : ∀ p ∈ d'.resultMap, CsCommaFree p.1.cs)
    (h : d.text = d'.text) : d.entries = d'.entries := by
  simp only [Dist.text, List.append_cancel_left_eq] at h
  have e : ∀ m : List (Outcome × Nat), m.map entryText = (m.map entryOf).map shownText := by
    intro m
    rw [List.map_map]
    rfl
  rw [e, e] at h
  have key := code_dict (f := shownText) code_entry shownText_head (d.resultMap.map entryOf) (d'.resultMap.map entryOf) [] []
    (by
      intro x hx
      obtain ⟨p, hp, rfl⟩ := List.mem_map.mp hx
      exact hd p hp)
    (by
      intro x hx
      obtain ⟨p, hp, rfl⟩ := List.mem_map.mp hx
      exact hd' p hp) trivial trivial (by rw [List.append_nil, List.append_nil]; exact h)
  exact key.1

end

end PyDice
