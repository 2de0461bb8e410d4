import Verif.Text
import Mathlib.Tactic.Ring
/-!
# Lemmas about text
-/

namespace PyDice

/-! ### Character classes -/

theorem digit_code {c : Char} (h : isDigit c = true) : (48 ≤ c.toNat ∧ c.toNat ≤ 57) ∨ ∃ z ∈ uniZeros, z ≤ c.toNat ∧ c.toNat ≤ z + 9 := by
  unfold isDigit at h
  simp only [Bool.or_eq_true, Bool.and_eq_true, decide_eq_true_eq, List.any_eq_true] at h
  exact h.imp id fun ⟨_, z, hz, h⟩ => ⟨z, hz, h⟩

theorem space_code {c : Char} (h : isSpace c = true) : c.toNat ≤ 32 ∨ ∃ r ∈ uniSpaces, r.1 ≤ c.toNat ∧ c.toNat ≤ r.2 := by
  unfold isSpace inRanges at h
  simp only [Bool.or_eq_true, Bool.and_eq_true, decide_eq_true_eq, List.any_eq_true, beq_iff_eq] at h
  rcases h with ((h | h) | h) | ⟨_, r, hr, h⟩
  · exact .inl (by omega)
  · exact .inl (by omega)
  · exact .inl (by omega)
  · exact .inr ⟨r, hr, h⟩

theorem zeros_high : ∀ z ∈ uniZeros, 128 ≤ z := by decide +kernel
theorem spaces_high : ∀ r ∈ uniSpaces, 128 ≤ r.1 := by decide +kernel
theorem zeros_spaces : ∀ z ∈ uniZeros, ∀ r ∈ uniSpaces, z + 9 < r.1 ∨ r.2 < z := by decide +kernel
theorem words_spaces : ∀ z ∈ uniWords, ∀ r ∈ uniSpaces, z.2 < r.1 ∨ r.2 < z.1 := by decide +kernel
theorem words_high : ∀ r ∈ uniWords, 128 ≤ r.1 := by decide +kernel

/-- Whitespace is not a word character; in particular digits are not whitespace. -/
theorem word_not_space {c : Char} (h : isWord c = true) : isSpace c = false := by
  cases hs : isSpace c
  · rfl
  exfalso
  unfold isWord inRanges at h
  simp only [Bool.or_eq_true, Bool.and_eq_true, decide_eq_true_eq, beq_iff_eq, List.any_eq_true] at h
  have hu : '_'.toNat = 95 := rfl
  rcases space_code hs with h1 | ⟨r, hr, h1⟩
  · rcases h with (((h | h) | h) | h) | ⟨h, _⟩
    · rcases digit_code h with h | ⟨z, hz, h⟩
      · omega
      · have := zeros_high z hz
        omega
    · omega
    · omega
    · subst h
      omega
    · omega
  · have h2 := spaces_high r hr
    rcases h with (((h | h) | h) | h) | ⟨_, w, hw, h⟩
    · rcases digit_code h with h | ⟨z, hz, h⟩
      · omega
      · have := zeros_spaces z hz r hr
        omega
    · omega
    · omega
    · subst h
      omega
    · have := words_spaces w hw r hr
      omega

theorem digit_word {c : Char} (h : isDigit c = true) : isWord c = true := by
  unfold isWord
  rw [h]
  rfl

/-- Of the ASCII characters only `0`-`9` are digits. -/
theorem digit_ascii {c : Char} (h : c.toNat < 128) : isDigit c = (decide (48 ≤ c.toNat) && decide (c.toNat ≤ 57)) := by
  unfold isDigit
  rw [decide_eq_false (p := 128 ≤ c.toNat) (by omega)]
  simp

/-- Digits are not whitespace. -/
theorem digit_not_space {c : Char} (h : isDigit c = true) : isSpace c = false := word_not_space (digit_word h)

/-! ### Numbers -/

theorem natOf_append (a b : Str) : natOf (a ++ b) = b.foldl (fun a c => a * 10 + digitValue c) (natOf a) := by
  simp [natOf, List.foldl_append]

theorem natOf_snoc (a : Str) (c : Char) : natOf (a ++ [c]) = natOf a * 10 + digitValue c := by simp [natOf_append]

theorem digitChar_val {n : Nat} (h : n < 10) : digitValue (digitChar n) = n ∧ isDigit (digitChar n) = true := by
  have : ∀ n < 10, digitValue (digitChar n) = n ∧ isDigit (digitChar n) = true := by decide
  exact this n h

theorem natStrAux_spec : ∀ f n : Nat, n < f → natOf (natStrAux f n) = n ∧ (∀ c ∈ natStrAux f n, isDigit c = true) ∧
    natStrAux f n ≠ [] := by
  intro f
  induction f with
  | zero => intro n h; omega
  | succ f ih =>
    intro n h
    unfold natStrAux
    by_cases h10 : n < 10
    · rw [if_pos h10]
      have := digitChar_val h10
      simp [natOf, this]
    · rw [if_neg h10]
      obtain ⟨h1, h2, _⟩ := ih (n / 10) (by omega)
      have hd := digitChar_val (n := n % 10) (by omega)
      refine ⟨?_, ?_, by simp⟩
      · rw [natOf_snoc, h1, hd.1]; omega
      · intro c hc
        rw [List.mem_append, List.mem_singleton] at hc
        rcases hc with hc | hc
        · exact h2 c hc
        · rw [hc]; exact hd.2

theorem natOf_natStr (n : Nat) : natOf (natStr n) = n := (natStrAux_spec (n + 1) n (by omega)).1
theorem natStr_digits (n : Nat) : ∀ c ∈ natStr n, isDigit c = true := (natStrAux_spec (n + 1) n (by omega)).2.1
theorem natStr_ne_nil (n : Nat) : natStr n ≠ [] := (natStrAux_spec (n + 1) n (by omega)).2.2

theorem isDigits_iff (s : Str) : isDigits s = true ↔ s ≠ [] ∧ ∀ c ∈ s, isDigit c = true := by
  unfold isDigits
  cases s <;> simp

theorem isDigits_natStr (n : Nat) : isDigits (natStr n) = true := (isDigits_iff _).mpr ⟨natStr_ne_nil n, natStr_digits n⟩

theorem not_digit_minus : isDigit '-' = false := by decide

theorem pyInt_digits {s : Str} (h : isDigits s = true) : pyInt s = .ok (natOf s : Int) := by
  unfold pyInt
  split
  · rename_i ds
    exfalso
    have := ((isDigits_iff _).mp h).2 '-' (by simp)
    simp [not_digit_minus] at this
  · simp [h]

theorem pyInt_neg {s : Str} (h : isDigits s = true) : pyInt ('-' :: s) = .ok (-(natOf s : Int)) := by
  simp [pyInt, h]

theorem pyInt_natStr (n : Nat) : pyInt (natStr n) = .ok (n : Int) := by
  rw [pyInt_digits (isDigits_natStr n), natOf_natStr]

theorem pyInt_intStr (i : Int) : pyInt (intStr i) = .ok i := by
  cases i with
  | ofNat n => exact pyInt_natStr n
  | negSucc n =>
    show pyInt ('-' :: natStr (n + 1)) = _
    rw [pyInt_neg (isDigits_natStr _), natOf_natStr]
    rfl

theorem intStr_injective {i j : Int} (h : intStr i = intStr j) : i = j := by
  have := pyInt_intStr i
  rw [h, pyInt_intStr] at this
  injection this with this
  exact this.symm

theorem intStr_ne_nil (i : Int) : intStr i ≠ [] := by
  cases i with
  | ofNat n => exact natStr_ne_nil n
  | negSucc n => simp [intStr]

theorem intStr_chars (i : Int) : ∀ c ∈ intStr i, c = '-' ∨ isDigit c = true := by
  intro c hc
  cases i with
  | ofNat n => exact Or.inr (natStr_digits n c hc)
  | negSucc n =>
    simp only [intStr, List.mem_cons] at hc
    rcases hc with hc | hc
    · exact Or.inl hc
    · exact Or.inr (natStr_digits _ c hc)

/-! ### split and join -/

theorem splitOn_ne_nil (p : Char → Bool) (s : Str) : splitOn p s ≠ [] := by
  cases s with
  | nil => simp [splitOn]
  | cons c s =>
    unfold splitOn
    split
    · simp
    · split <;> simp

theorem splitOn_clean {p : Char → Bool} {s : Str} (h : ∀ c ∈ s, p c = false) : splitOn p s = [s] := by
  induction s with
  | nil => rfl
  | cons c s ih =>
    unfold splitOn
    rw [if_neg (by simp [h c (by simp)]), ih (fun c hc => h c (by simp [hc]))]

theorem splitOn_sep {p : Char → Bool} {s : Str} {c : Char} (h : ∀ c ∈ s, p c = false) (hc : p c = true) (t : Str) :
    splitOn p (s ++ c :: t) = s :: splitOn p t := by
  induction s with
  | nil => simp [splitOn, hc]
  | cons d s ih =>
    rw [List.cons_append]
    conv_lhs => unfold splitOn
    rw [if_neg (by simp [h d (by simp)]), ih (fun c hc => h c (by simp [hc]))]

theorem splitOn_join {p : Char → Bool} {sep : Char} (hs : p sep = true) : ∀ ws : List Str, ws ≠ [] →
    (∀ w ∈ ws, ∀ c ∈ w, p c = false) → splitOn p (joinWith sep ws) = ws := by
  intro ws
  induction ws with
  | nil => intro h; simp at h
  | cons w ws ih =>
    intro _ h
    cases ws with
    | nil => exact splitOn_clean (h w (by simp))
    | cons v ws =>
      show splitOn p (w ++ sep :: joinWith sep (v :: ws)) = _
      rw [splitOn_sep (h w (by simp)) hs, ih (by simp) (fun w hw => h w (by simp [hw]))]

theorem splitOn_parts_clean (p : Char → Bool) (s : Str) : ∀ w ∈ splitOn p s, ∀ c ∈ w, p c = false := by
  induction s with
  | nil => simp [splitOn]
  | cons c s ih =>
    intro w hw
    unfold splitOn at hw
    split at hw
    · rename_i hc
      rcases List.mem_cons.mp hw with rfl | hw
      · simp
      · exact ih w hw
    · rename_i hc
      cases hsp : splitOn p s with
      | nil => exact absurd hsp (splitOn_ne_nil p s)
      | cons h t =>
        rw [hsp] at hw ih
        rcases List.mem_cons.mp hw with rfl | hw
        · intro d hd
          rcases List.mem_cons.mp hd with rfl | hd
          · simpa using hc
          · exact ih h (by simp) d hd
        · exact ih w (by simp [hw])

theorem joinWith_ne_nil (sep : Char) {ws : List Str} (h : ws ≠ []) (hw : ∀ w ∈ ws, w ≠ []) : joinWith sep ws ≠ [] := by
  cases ws with
  | nil => exact absurd rfl h
  | cons w ws =>
    cases ws with
    | nil => exact hw w (by simp)
    | cons v ws => simp [joinWith]

theorem ok_bind {α β : Type} (a : α) (f : α → Res β) : ((Except.ok a : Res α) >>= f) = f a := rfl
theorem error_bind {α β : Type} (e : Err) (f : α → Res β) : ((Except.error e : Res α) >>= f) = .error e := rfl

theorem bind_eq_ok {α β : Type} {x : Res α} {f : α → Res β} {b : β} :
    (x >>= f) = .ok b ↔ ∃ a, x = .ok a ∧ f a = .ok b := by
  cases x with
  | ok a => simp [ok_bind]
  | error e => simp [error_bind]

theorem mapM_ok {α β : Type} (f : α → Res β) (g : α → β) : ∀ l : List α, (∀ a ∈ l, f a = .ok (g a)) →
    l.mapM f = .ok (l.map g) := by
  intro l
  induction l with
  | nil => intro _; rfl
  | cons a l ih =>
    intro h
    rw [List.mapM_cons, h a (by simp), ih (fun a ha => h a (by simp [ha]))]
    rfl

end PyDice
