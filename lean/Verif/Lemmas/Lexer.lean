import Verif.Lemmas.Match
/-!
# The loop of the lexer
-/

namespace PyDice
open LexSpec

theorem num_text_ne_nil {n : Num} (h : n.WF) : n.text ≠ [] := by
  unfold Num.text; split
  · simp
  · exact h.1

/-- No rule matches the empty text. -/
theorem matches_ne_nil {t : TokType} {b w v : Str} (h : Matches t b w v) : w ≠ [] := by
  rintro rfl
  cases t <;> simp [Matches, Keyword] at h
  case constInt => obtain ⟨⟨n, hn, h1⟩, _⟩ := h; exact num_text_ne_nil hn h1

theorem name_word {c : Char} (h : NameLetter c) : isWord c = true := by
  rcases h with rfl | h
  · decide
  · have h1 : 'a'.toNat = 97 := rfl
    have h2 : 'z'.toNat = 122 := rfl
    unfold isWord
    simp only [Bool.or_eq_true, Bool.and_eq_true, decide_eq_true_eq]
    omega

theorem name_not_space {c : Char} (h : NameLetter c) : isSpace c = false := word_not_space (name_word h)

/-- What a rule matches does not begin with whitespace. -/
theorem matches_solid {t : TokType} {b w v : Str} (h : Matches t b w v) : Solid (w ++ v) := by
  have digits : ∀ (n : Str) (c : Char) (s : Str), Digits n → isSpace c = false → Solid (n ++ c :: s) := by
    intro n c s hn hc
    cases n with
    | nil => exact hc
    | cons x n => exact digit_not_space (hn x (by simp))
  cases t with
  | openP => obtain rfl := h; rfl
  | closeP => obtain rfl := h; rfl
  | comma => obtain rfl := h; rfl
  | not => obtain ⟨rfl, _⟩ := h; rfl
  | dropKeep =>
    obtain ⟨n, ty, k, m, rfl, hn, _⟩ := h
    rw [show n ++ 'd' :: ty ++ k :: m ++ v = n ++ 'd' :: (ty ++ k :: m ++ v) by simp]
    exact digits n 'd' _ hn rfl
  | dice =>
    obtain ⟨n, ty, rfl, hn, _⟩ := h
    rw [show n ++ 'd' :: ty ++ v = n ++ 'd' :: (ty ++ v) by simp]
    exact digits n 'd' _ hn rfl
  | binop => rcases h with rfl | rfl | rfl | rfl | ⟨rfl, _⟩ | ⟨rfl, _⟩ | ⟨rfl, _⟩ | ⟨rfl, _⟩ <;> rfl
  | constInt =>
    obtain ⟨⟨n, hn, rfl⟩, _⟩ := h
    unfold Num.text
    split
    · rfl
    · cases hd : n.digits with
      | nil => exact absurd hd hn.1
      | cons c t => exact digit_not_space (hn.2 c (by rw [hd]; simp))
  | constBin => rcases h with ⟨rfl, _⟩ | ⟨rfl, _⟩ <;> rfl
  | add => obtain rfl := h; rfl
  | sub => obtain rfl := h; rfl
  | mul => obtain rfl := h; rfl
  | div => obtain rfl := h; rfl
  | minmax => rcases h with ⟨rfl, _⟩ | ⟨rfl, _⟩ <;> rfl
  | abs => obtain ⟨rfl, _⟩ := h; rfl
  | assign => obtain ⟨rfl, _⟩ := h; rfl
  | var => obtain ⟨rfl, _⟩ := h; rfl
  | name =>
    obtain ⟨hne, hw, _⟩ := h
    cases w with
    | nil => exact absurd rfl hne
    | cons c w => exact name_not_space (hw c (by simp))

/-- A rule matches in one way only. -/
theorem matches_unique {t : TokType} {b w v w' v' : Str} (h : Matches t b w v) (h' : Matches t b w' v') (he : w ++ v = w' ++ v') :
    w = w' ∧ v = v' := by
  have h1 := (Re.matchAt_rule t b (w ++ v) _).mpr ⟨w, v, rfl, h, rfl⟩
  have h2 := (Re.matchAt_rule t b (w ++ v) _).mpr ⟨w', v', he, h', rfl⟩
  rw [h1] at h2
  simp only [Option.some.injEq, Pos.mk.injEq] at h2
  have hv := h2.2
  subst hv
  exact ⟨List.append_cancel_right he, rfl⟩

/-! ### The first rule that matches -/

theorem firstRule_some : ∀ (ts : List TokType) (p : Pos) (t : TokType) (q : Pos), firstRule ts p = some (t, q) →
    ∃ pre post, ts = pre ++ t :: post ∧ (∀ t' ∈ pre, Re.matchAt t'.regex p = none) ∧ Re.matchAt t.regex p = some q := by
  intro ts
  induction ts with
  | nil => intro p t q h; simp [firstRule] at h
  | cons a ts ih =>
    intro p t q h
    rw [firstRule] at h
    cases hm : Re.matchAt a.regex p with
    | none =>
      rw [hm] at h
      obtain ⟨pre, post, rfl, h1, h2⟩ := ih p t q h
      refine ⟨a :: pre, post, rfl, ?_, h2⟩
      intro t' ht'
      rcases List.mem_cons.mp ht' with rfl | ht'
      · exact hm
      · exact h1 t' ht'
    | some q' =>
      rw [hm] at h
      simp only [Option.some.injEq, Prod.mk.injEq] at h
      obtain ⟨rfl, rfl⟩ := h
      exact ⟨[], ts, rfl, by simp, hm⟩

theorem firstRule_none : ∀ (ts : List TokType) (p : Pos), firstRule ts p = none ↔ ∀ t ∈ ts, Re.matchAt t.regex p = none := by
  intro ts
  induction ts with
  | nil => intro p; simp [firstRule]
  | cons a ts ih =>
    intro p
    rw [firstRule]
    cases hm : Re.matchAt a.regex p with
    | none => simp [hm, ih]
    | some q => simp [hm]

theorem mem_lexerSyntax (t : TokType) : t ∈ lexerSyntax := by cases t <;> decide

theorem lexerSyntax_sorted : lexerSyntax.Pairwise (fun s t => rank s < rank t) := by decide

theorem firstRule_best {b s : Str} {t : TokType} {q : Pos} (h : firstRule lexerSyntax ⟨b, s⟩ = some (t, q)) :
    ∃ w v, s = w ++ v ∧ Best t b w v ∧ q = ⟨w.reverse ++ b, v⟩ := by
  obtain ⟨pre, post, hts, h1, h2⟩ := firstRule_some _ _ _ _ h
  obtain ⟨w, v, rfl, hm, rfl⟩ := (Re.matchAt_rule t b s q).mp h2
  refine ⟨w, v, rfl, ⟨hm, ?_⟩, rfl⟩
  intro t' ht'
  have hmem := mem_lexerSyntax t'
  have hsort := lexerSyntax_sorted
  rw [hts] at hmem hsort
  rw [List.pairwise_append] at hsort
  rcases List.mem_append.mp hmem with hp | hp
  · exact (Re.matchAt_rule_none t' b _).mp (h1 t' hp)
  · rcases List.mem_cons.mp hp with rfl | hp
    · omega
    · have := (List.pairwise_cons.mp hsort.2.1).1 t' hp
      omega

theorem best_firstRule {b w v : Str} {t : TokType} (h : Best t b w v) :
    firstRule lexerSyntax ⟨b, w ++ v⟩ = some (t, ⟨w.reverse ++ b, v⟩) := by
  cases hf : firstRule lexerSyntax ⟨b, w ++ v⟩ with
  | none =>
    have := (firstRule_none _ _).mp hf t (mem_lexerSyntax t)
    exact absurd ⟨w, v, rfl, h.1⟩ ((Re.matchAt_rule_none t b _).mp this)
  | some r =>
    obtain ⟨t', q⟩ := r
    obtain ⟨w', v', he, hb, rfl⟩ := firstRule_best hf
    have htt : t' = t := by
      rcases Nat.lt_trichotomy (rank t') (rank t) with hlt | heq | hgt
      · exact absurd ⟨w', v', he, hb.1⟩ (h.2 t' hlt)
      · revert heq; cases t <;> cases t' <;> simp [rank]
      · exact absurd ⟨w, v, he.symm, h.1⟩ (hb.2 t hgt)
    subst htt
    obtain ⟨rfl, rfl⟩ := matches_unique h.1 hb.1 he
    rfl

theorem firstRule_stuck {b s : Str} : firstRule lexerSyntax ⟨b, s⟩ = none ↔ ∀ t, ¬ Applies t b s := by
  rw [firstRule_none]
  constructor
  · intro h t; exact (Re.matchAt_rule_none t b s).mp (h t (mem_lexerSyntax t))
  · intro h t _; exact (Re.matchAt_rule_none t b s).mpr (h t)

/-! ### Whitespace -/

theorem solid_iff (v : Str) : Solid v ↔ ¬ Re.ClsNext isSpace v := by
  cases v with
  | nil => simp [Solid, Re.ClsNext]
  | cons x v => simp [Solid, Re.ClsNext]

theorem ignore_some {b s : Str} {q : Pos} (h : Re.matchAt reIgnore ⟨b, s⟩ = some q) :
    ∃ u v, s = u ++ v ∧ u ≠ [] ∧ Blank u ∧ Solid v ∧ q = ⟨u.reverse ++ b, v⟩ := by
  obtain ⟨u, v, h1, h2, h3, h4, h5⟩ := (Re.matchAt_plus_cls _ _ _ _).mp h
  exact ⟨u, v, h1, h2, h3, (solid_iff v).mpr h4, h5⟩

theorem ignore_run {b u v : Str} (hne : u ≠ []) (hu : Blank u) (hv : Solid v) :
    Re.matchAt reIgnore ⟨b, u ++ v⟩ = some ⟨u.reverse ++ b, v⟩ :=
  (Re.matchAt_plus_cls _ _ _ _).mpr ⟨u, v, rfl, hne, hu, (solid_iff v).mp hv, rfl⟩

theorem ignore_solid {b v : Str} (hv : Solid v) : Re.matchAt reIgnore ⟨b, v⟩ = none := by
  cases h : Re.matchAt reIgnore ⟨b, v⟩ with
  | none => rfl
  | some q =>
    obtain ⟨u, v', rfl, hne, hu, _, _⟩ := ignore_some h
    cases u with
    | nil => exact absurd rfl hne
    | cons c u => have := hu c (by simp); simp only [List.cons_append, Solid] at hv; rw [hv] at this; cases this

theorem ignore_none {b s : Str} (h : Re.matchAt reIgnore ⟨b, s⟩ = none) : Solid s := by
  cases s with
  | nil => trivial
  | cons c s =>
    by_cases hc : isSpace c = true
    · obtain ⟨u, v, h1, hu, hv⟩ := Re.exists_run isSpace (c :: s)
      have hne : u ≠ [] := by
        rintro rfl; rw [List.nil_append] at h1; rw [← h1] at hv; exact hv hc
      rw [h1, ignore_run hne hu ((solid_iff v).mpr hv)] at h; cases h
    · simpa [Solid] using hc

theorem blank_nil : Blank [] := by simp [Blank]

theorem lexed_skip {b u s : Str} {ts : List Token} (hu : Blank u) (h : Lexed (u.reverse ++ b) s ts) : Lexed b (u ++ s) ts := by
  cases h with
  | done hs => exact .done (Re.blank_append hu hs)
  | token hu' hs hne ht rest =>
    rename_i u' w v t ts
    have heq : u ++ (u' ++ (w ++ v)) = (u ++ u') ++ (w ++ v) := by simp
    have hlen : (u.reverse ++ b).length + u'.length = b.length + (u ++ u').length := by simp; omega
    have hb : u'.reverse ++ (u.reverse ++ b) = (u ++ u').reverse ++ b := by simp
    rw [heq, hlen]
    rw [hb] at ht rest
    exact .token (Re.blank_append hu hu') hs hne ht rest

theorem stuck_skip {b u s : Str} {i : Nat} (hu : Blank u) (h : Stuck (u.reverse ++ b) s i) : Stuck b (u ++ s) i := by
  cases h with
  | here hu' hc h =>
    rename_i u' c v
    have heq : u ++ (u' ++ c :: v) = (u ++ u') ++ c :: v := by simp
    have hlen : (u.reverse ++ b).length + u'.length = b.length + (u ++ u').length := by simp; omega
    have hb : u'.reverse ++ (u.reverse ++ b) = (u ++ u').reverse ++ b := by simp
    rw [heq, hlen]
    rw [hb] at h
    exact .here (Re.blank_append hu hu') hc h
  | later hu' hs hne ht rest =>
    rename_i u' w v t
    have heq : u ++ (u' ++ (w ++ v)) = (u ++ u') ++ (w ++ v) := by simp
    have hb : u'.reverse ++ (u.reverse ++ b) = (u ++ u').reverse ++ b := by simp
    rw [heq]
    rw [hb] at ht rest
    exact .later (Re.blank_append hu hu') hs hne ht rest

theorem between_eq (b w v : Str) : between ⟨b, w ++ v⟩ ⟨w.reverse ++ b, v⟩ = w := by
  unfold between; simp

/-- What the loop delivers. -/
theorem lexLoop_sound : ∀ (n : Nat) (b s : Str), s.length < n → match lexLoop n ⟨b, s⟩ with
    | .tokens ts => Lexed b s ts
    | .lexingError i => Stuck b s i
    | .diverges => False := by
  intro n
  induction n with
  | zero => intro b s h; omega
  | succ n ih =>
    intro b s hlen
    rw [lexLoop]
    by_cases hs : s = []
    · subst hs; simp only [if_true]; exact .done blank_nil
    · simp only [hs, if_false]
      cases hi : Re.matchAt reIgnore ⟨b, s⟩ with
      | some q =>
        obtain ⟨u, v, rfl, hne, hu, hv, rfl⟩ := ignore_some hi
        have hu0 : 0 < u.length := List.length_pos_iff.mpr hne
        have hl : v.length < n := by simp only [List.length_append] at hlen; omega
        have := ih (u.reverse ++ b) v hl
        dsimp only
        revert this
        cases lexLoop n ⟨u.reverse ++ b, v⟩ with
        | tokens ts => exact lexed_skip hu
        | lexingError i => exact stuck_skip hu
        | diverges => exact id
      | none =>
        have hsol := ignore_none hi
        cases hf : firstRule lexerSyntax ⟨b, s⟩ with
        | none =>
          cases s with
          | nil => exact absurd rfl hs
          | cons c s => exact .here (u := []) blank_nil hsol (firstRule_stuck.mp hf)
        | some r =>
          obtain ⟨t, q⟩ := r
          obtain ⟨w, v, rfl, hb, rfl⟩ := firstRule_best hf
          have hne := matches_ne_nil hb.1
          have hw0 : 0 < w.length := List.length_pos_iff.mpr hne
          have hl : v.length < n := by simp only [List.length_append] at hlen; omega
          have := ih (w.reverse ++ b) v hl
          dsimp only
          rw [between_eq]
          revert this
          cases lexLoop n ⟨w.reverse ++ b, v⟩ with
          | tokens ts => exact fun h => .token (u := []) blank_nil hsol hne hb h
          | lexingError i => exact fun h => .later (u := []) blank_nil hsol hne hb h
          | diverges => exact id

theorem lexLoop_token {b w v : Str} {t : TokType} (hb : Best t b w v) (hs : Solid (w ++ v)) (n : Nat) :
    lexLoop (n + 1) ⟨b, w ++ v⟩ = (lexLoop n ⟨w.reverse ++ b, v⟩).cons ⟨t, w, b.length⟩ := by
  have hne := matches_ne_nil hb.1
  rw [lexLoop, if_neg (by simp [hne]), ignore_solid hs]
  dsimp only
  rw [best_firstRule hb]
  dsimp only
  rw [between_eq]

theorem lexLoop_skip {b u v : Str} (hu : Blank u) (hv : Solid v) {r : LexResult}
    (h : ∀ n, v.length < n → lexLoop n ⟨u.reverse ++ b, v⟩ = r) : ∀ n, (u ++ v).length < n → lexLoop n ⟨b, u ++ v⟩ = r := by
  intro n hn
  cases u with
  | nil => exact h n hn
  | cons c u =>
    cases n with
    | zero => omega
    | succ n =>
      rw [lexLoop, if_neg (by simp), ignore_run (by simp) hu hv]
      exact h n (by simp only [List.length_append, List.length_cons] at hn; omega)

theorem lexLoop_nil (b : Str) : ∀ n, 0 < n → lexLoop n ⟨b, []⟩ = .tokens [] := by
  intro n hn
  cases n with
  | zero => omega
  | succ n => rw [lexLoop, if_pos rfl]

theorem lexed_complete {b s : Str} {ts : List Token} (h : Lexed b s ts) : ∀ n, s.length < n → lexLoop n ⟨b, s⟩ = .tokens ts := by
  induction h with
  | done h =>
    rename_i b s
    intro n hn
    have := lexLoop_skip (b := b) (v := []) h trivial (r := .tokens []) (fun m hm => lexLoop_nil _ m (by simpa using hm)) n
      (by simpa using hn)
    simpa using this
  | token hu hs hne ht hrest ih =>
    rename_i b u w v t ts
    refine lexLoop_skip hu hs fun n hn => ?_
    cases n with
    | zero => omega
    | succ n =>
      have hw0 : 0 < w.length := List.length_pos_iff.mpr hne
      rw [lexLoop_token ht hs, ih n (by simp only [List.length_append] at hn; omega)]
      simp [LexResult.cons, Nat.add_comm]

theorem stuck_complete {b s : Str} {i : Nat} (h : Stuck b s i) : ∀ n, s.length < n → lexLoop n ⟨b, s⟩ = .lexingError i := by
  induction h with
  | here hu hc h =>
    rename_i b u c v
    refine lexLoop_skip (v := c :: v) hu hc fun n hn => ?_
    cases n with
    | zero => omega
    | succ n =>
      rw [lexLoop, if_neg (by simp), ignore_solid (v := c :: v) hc]
      dsimp only
      rw [firstRule_stuck.mpr h]
      simp [Nat.add_comm]
  | later hu hs hne ht hrest ih =>
    rename_i b u w v t ts
    refine lexLoop_skip hu hs fun n hn => ?_
    cases n with
    | zero => omega
    | succ n =>
      have hw0 : 0 < w.length := List.length_pos_iff.mpr hne
      rw [lexLoop_token ht hs, ih n (by simp only [List.length_append] at hn; omega)]
      rfl

theorem lexText_tokens {text : Str} {ts : List Token} : lexText text = .tokens ts ↔ Lexed [] text ts := by
  constructor
  · intro h
    have := lexLoop_sound (text.length + 1) [] text (by omega)
    rw [show lexLoop (text.length + 1) ⟨[], text⟩ = .tokens ts from h] at this
    exact this
  · intro h; exact lexed_complete h _ (by omega)

theorem lexText_error {text : Str} {i : Nat} : lexText text = .lexingError i ↔ Stuck [] text i := by
  constructor
  · intro h
    have := lexLoop_sound (text.length + 1) [] text (by omega)
    rw [show lexLoop (text.length + 1) ⟨[], text⟩ = .lexingError i from h] at this
    exact this
  · intro h; exact stuck_complete h _ (by omega)

theorem lexText_terminates (text : Str) : lexText text ≠ .diverges := by
  intro h
  have := lexLoop_sound (text.length + 1) [] text (by omega)
  rw [show lexLoop (text.length + 1) ⟨[], text⟩ = .diverges from h] at this
  exact this

/-! ### Where the error message points -/

theorem stuck_char {b s : Str} {i : Nat} (h : Stuck b s i) : ∃ k c, i = b.length + k ∧ s[k]? = some c ∧ isSpace c = false ∧ k < s.length := by
  induction h with
  | here hu hc h =>
    rename_i b u c v
    exact ⟨u.length, c, rfl, by simp, hc, by simp⟩
  | later hu hs hne ht hrest ih =>
    rename_i b u w v t i
    obtain ⟨k, c, rfl, hk, hc, hlt⟩ := ih
    refine ⟨u.length + w.length + k, c, by simp; omega, ?_, hc, by simp; omega⟩
    rw [← List.append_assoc, List.getElem?_append_right (by simp)]
    simpa using hk

theorem join_splitOn (sep : Char) (s : Str) : joinWith sep (splitOn (· == sep) s) = s := by
  induction s with
  | nil => rfl
  | cons c s ih =>
    rw [splitOn]
    split
    · rename_i h
      have : c = sep := by simpa using h
      subst this
      cases hs : splitOn (· == c) s with
      | nil => exact absurd hs (splitOn_ne_nil _ _)
      | cons a l => rw [Re.joinWith_cons₂, ← hs, ih]; rfl
    · cases hs : splitOn (· == sep) s with
      | nil => exact absurd hs (splitOn_ne_nil _ _)
      | cons a l =>
        rw [hs] at ih
        show joinWith sep ((c :: a) :: l) = _
        rw [show c :: a = [c] ++ a from rfl, Re.joinWith_pre, ih]; rfl

theorem findLine_spec : ∀ (ls : List Str) (pre : Str) (i : Nat) (c : Char), (∀ l ∈ ls, '\n' ∉ l) →
    (joinWith '\n' ls)[i]? = some c → c ≠ '\n' → (pre = [] ∨ ∃ pre', pre = pre' ++ ['\n']) →
    ∃ line col start, findLine ls i = some (line, col) ∧ LineAt (pre ++ joinWith '\n' ls) line start ∧ pre.length + i = start + col ∧
      line[col]? = some c := by
  intro ls
  induction ls with
  | nil => intro pre i c _ h; simp [joinWith] at h
  | cons l ls ih =>
    intro pre i c hl hi hc hpre
    have found : ∀ post, joinWith '\n' (l :: ls) = l ++ post → (post = [] ∨ ∃ post', post = '\n' :: post') → i < l.length →
        ∃ line col start, findLine (l :: ls) i = some (line, col) ∧ LineAt (pre ++ joinWith '\n' (l :: ls)) line start ∧
          pre.length + i = start + col ∧ line[col]? = some c := by
      intro post hj hpost hlt
      refine ⟨l, i, pre.length, by rw [findLine, if_neg (by omega)], ⟨pre, post, by rw [hj], rfl, hl l (by simp), hpre, hpost⟩, rfl, ?_⟩
      rw [hj, List.getElem?_append_left hlt] at hi
      exact hi
    cases ls with
    | nil =>
      refine found [] (by simp [joinWith]) (Or.inl rfl) ?_
      exact (List.getElem?_eq_some_iff.mp hi).1
    | cons l' ls =>
      rw [Re.joinWith_cons₂] at hi
      by_cases hlt : i < l.length
      · exact found _ (Re.joinWith_cons₂ _ _ _ _) (Or.inr ⟨_, rfl⟩) hlt
      · rw [List.getElem?_append_right (by omega)] at hi
        cases hk : i - l.length with
        | zero => rw [hk] at hi; simp at hi; exact absurd hi.symm hc
        | succ k =>
          rw [hk] at hi
          simp only [List.getElem?_cons_succ] at hi
          obtain ⟨line, col, start, h1, h2, h3, h4⟩ := ih (pre ++ l ++ ['\n']) k c (fun x hx => hl x (by simp [hx])) hi hc
            (Or.inr ⟨_, rfl⟩)
          refine ⟨line, col, start, ?_, ?_, ?_, h4⟩
          · rw [findLine, if_pos (by omega), show i - (l.length + 1) = k by omega]; exact h1
          · rw [Re.joinWith_cons₂]
            simpa using h2
          · simp only [List.length_append, List.length_singleton] at h3; omega

end PyDice
