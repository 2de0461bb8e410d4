import Verif.Lemmas.Source
import Verif.Lemmas.Notation
/-!
# Running the texts of the dice classes
-/
namespace PyDice.Source
open PyRuntime

theorem findRange_ne (t : Str) (l : List Int) (h : findRange t = .ok l) : l ≠ [] := by
  have aux : ∀ a b : Int, a ≤ b → pyRange a (b + 1) ≠ [] := by
    intro a b h
    apply List.ne_nil_of_length_pos
    simp only [pyRange, List.length_map, List.length_range]
    omega
  revert h
  unfold findRange
  cases Re.isMatch rePosStart t <;> cases Re.isMatch reNegEnd t <;>
    cases pyIndex (splitOn (· == '-') t) 0 <;> cases pyIndex (splitOn (· == '-') t) 1 <;> cases pyLast (splitOn (· == '-') t) <;>
    simp only [bind, Except.bind, pure, Except.pure, if_true, if_false, Bool.false_eq_true] <;>
    (repeat' split) <;> intro h <;> first | (cases h; done) | (cases h; exact aux _ _ (by omega))

theorem multiplier_nonneg (t v m : Str) (h : Re.isMatch reMultiplied t = true) (hs : splitOn (· == '*') t = [v, m]) (i : Int)
    (hi : pyInt m = .ok i) : 0 ≤ i := by
  rw [Re.isMatch_iff (by simp [reMultiplied, reRange, reInt, Re.Plain, Re.chr, Re.plus, Re.digit])] at h
  obtain ⟨w, z, rfl, hw⟩ := h
  obtain ⟨u, d, hu, hd, rfl⟩ := (lang_reMultiplied w).mp hw
  have hclean : ∀ c ∈ u, (c == '*') = false := by
    have num : ∀ {a : Num}, a.WF → ∀ c ∈ a.text, (c == '*') = false := by
      intro a ha c hc
      rcases num_chars ha c hc with h | rfl
      · exact beq_eq_false_iff_ne.mpr (digit_ne h (by decide))
      · decide
    intro c hc
    rcases hu with hu | hu
    · obtain ⟨a, b, ha, hb, rfl⟩ := (lang_reRange u).mp hu
      rcases List.mem_append.mp hc with h | h
      · exact num ha c h
      · rcases List.mem_cons.mp h with rfl | h
        · decide
        · exact num hb c h
    · obtain ⟨a, ha, rfl⟩ := (lang_reInt u).mp hu
      exact num ha c hc
  rw [List.append_assoc, List.cons_append, splitOn_sep hclean (by decide)] at hs
  rw [isDigits_iff] at hd
  obtain ⟨c, d', rfl⟩ := List.exists_cons_of_ne_nil hd.1
  have hc := hd.2 c (by simp)
  rw [List.cons_append] at hs
  unfold splitOn at hs
  rw [if_neg (by simpa using digit_ne hc (by decide))] at hs
  have : ∃ w, m = c :: w := by
    revert hs
    split <;> intro hs
    · injection hs with _ hs; injection hs with hs; exact ⟨_, hs.symm⟩
    · injection hs with _ hs; injection hs with hs; exact ⟨_, hs.symm⟩
  obtain ⟨w, rfl⟩ := this
  have hm : c ≠ '-' := digit_ne hc (by decide)
  unfold pyInt at hi
  split at hi
  · rename_i heq; injection heq with h1; exact absurd h1 hm
  · split at hi
    · cases hi; exact Int.natCast_nonneg _
    · cases hi

section
variable [R : PyRuntime] (fl : ℚ → Res ℚ) (rd : ℚ → ℚ) (fu : Nat)
set_option linter.unusedSimpArgs false
set_option maxHeartbeats 1000000
local notation "W" => world fl rd fu

/-- The body of `safe_add` (`dice_expression_helper.py:24-27`). -/
abbrev saBody : PyS := (.seq (.ifs (.cmp .notIn (.name "value") (.name "dictionary")) (.seq (.assign (.index (.name "dictionary") (.name "value")) (.int 0))
    .done) .done)
    (.seq (.aug .add (.index (.name "dictionary") (.name "value")) (.name "amount"))
    .done))

theorem safeAdd_text (d : List (V × V)) (k : V) (n : Int) (env : Env Obj) (hk : (k == k) = true)
   (hd : ∀ v, dictGet? d k = some v → ∃ m, v = .int m) :
    defnFun W [] ["dictionary", "value", "amount"] saBody [.dict d, k, .int n] env =
      pure (.none, [.dict (addV d k n), k, .int n], env) := by
  simp [src, saBody, addV, defnFun_apply]
  cases h : dictGet? d k with
  | none => 
    simp [src, h, get_set_self _ _ _ hk, set_set_self _ _ _ _ hk]
  | some m =>
    obtain ⟨i, rfl⟩ := hd m h
    simp [src, h]

theorem get_encI_int (d : List (Int × Nat)) (k : Int) (v : V) (h : dictGet? (encI d) (.int k) = some v) : ∃ m, v = .int m := by
  rw [get_encI] at h
  cases h' : dictGet? d k with
  | none => rw [h'] at h; cases h
  | some m => rw [h'] at h; cases h; exact ⟨_, rfl⟩

theorem safeAdd_textI (d : List (Int × Nat)) (k : Int) (n : Nat) (env : Env Obj) :
    defnFun W [] ["dictionary", "value", "amount"] saBody [.dict (encI d), .int k, .int n] env =
      pure (.none, [.dict (encI (safeAdd d k n)), .int k, .int n], env) := by
  rw [safeAdd_text fl rd fu _ _ _ _ (by simp [src]) (get_encI_int d k), addV_encI]

/-- The last of a list, or a default. -/
def lastV (k : V) : List Int → V
  | [] => k
  | x :: t => lastV (.int x) t

theorem facesLoop (l : List Int) (acc : List (Int × Nat)) (m : Str) (n : Nat) (hm : pyInt m = .ok (n : Int)) (s v r k : V) :
    forLoop W [("safe_add", defnFun W [] ["dictionary", "value", "amount"] saBody)] (.name "key")
      (.seq (.expr (.callName "safe_add" (.cons (.name "value_dictionary") (.cons (.name "key") (.cons (.callName "int" (.cons (.name "multiplier") .nil)) .nil)))))
    .done) (l.map .int)
     [("dice_type_string", s), ("value_dictionary", .dict (encI acc)), ("value", v), ("multiplier", .str m), ("range_values", r), ("key", k)] =
    pure (.next, [("dice_type_string", s), ("value_dictionary", .dict (encI (l.foldl (fun d k => safeAdd d k n) acc))), ("value", v),
      ("multiplier", .str m), ("range_values", r), ("key", lastV k l)]) := by
  induction l generalizing acc k with
  | nil => rfl
  | cons x t ih =>
    simp only [List.map_cons, forLoop_cons]
    simp [src, hm, safeAdd_textI]
    simpa [lastV] using ih _ _

theorem facesLoop_error (x : Int) (l : List Int) (acc : List (Int × Nat)) (m : Str) (e : Err) (hm : pyInt m = .error e) (s v r k : V) :
    forLoop W [("safe_add", defnFun W [] ["dictionary", "value", "amount"] saBody)] (.name "key")
      (.seq (.expr (.callName "safe_add" (.cons (.name "value_dictionary") (.cons (.name "key") (.cons (.callName "int" (.cons (.name "multiplier") .nil)) .nil)))))
    .done) (.int x :: l.map .int)
     [("dice_type_string", s), ("value_dictionary", .dict (encI acc)), ("value", v), ("multiplier", .str m), ("range_values", r), ("key", k)] =
    throwM e := by
  simp only [forLoop_cons]
  simp [src, hm]

/-- The body of the loop over the entries (`dice_expression_helper.py:38-46`). -/
abbrev entryBody : PyS := (.seq (.assign (.name "multiplier") (.str ['1']))
    (.seq (.ifs (.cmp .isNot (.callAttr (.name "re") "match" (.cons (.str ['(', '-', '?', '\\', 'd', '+', '-', '-', '?', '\\', 'd', '+', '|', '-', '?', '\\', 'd', '+', ')', '\\', '*', '\\', 'd', '+']) (.cons (.name "value") .nil))) .none) (.seq (.assign (.tuple (.cons (.name "value") (.cons (.name "multiplier") .nil))) (.callAttr (.name "re") "split" (.cons (.str ['\\', '*']) (.cons (.name "value") .nil))))
    .done) .done)
    (.seq (.ifs (.cmp .isNot (.callAttr (.name "re") "match" (.cons (.str ['-', '?', '\\', 'd', '+', '-', '-', '?', '\\', 'd', '+']) (.cons (.name "value") .nil))) .none) (.seq (.assign (.name "range_values") (.callName "_find_range" (.cons (.name "value") .nil)))
    .done) (.seq (.assign (.name "range_values") (.list (.cons (.callName "int" (.cons (.name "value") .nil)) .nil)))
    .done))
    (.seq (.for_ (.name "key") (.name "range_values") (.seq (.expr (.callName "safe_add" (.cons (.name "value_dictionary") (.cons (.name "key") (.cons (.callName "int" (.cons (.name "multiplier") .nil)) .nil)))))
    .done))
    .done))))

/-- The faces part. -/
theorem afterFaces (l : List Int) (hl : l ≠ []) (acc : List (Int × Nat)) (m : Str) (s v r k : V) (hm : ∀ i, pyInt m = .ok i → 0 ≤ i)
    {β : Type} (K : List (Int × Nat) → RollM β) (k' : Flow Obj × Env Obj → RollM β)
    (hk : ∀ acc k, k' (.next, [("dice_type_string", s), ("value_dictionary", .dict (encI acc)), ("value", v), ("multiplier", .str m), ("range_values", r), ("key", k)]) = K acc) :
    (forLoop W [("safe_add", defnFun W [] ["dictionary", "value", "amount"] saBody)] (.name "key")
      (.seq (.expr (.callName "safe_add" (.cons (.name "value_dictionary") (.cons (.name "key") (.cons (.callName "int" (.cons (.name "multiplier") .nil)) .nil)))))
    .done) (l.map .int)
     [("dice_type_string", s), ("value_dictionary", .dict (encI acc)), ("value", v), ("multiplier", .str m), ("range_values", r), ("key", k)] >>= k') =
    liftR (pyInt m) >>= fun i => K (l.foldl (fun d k => safeAdd d k i.toNat) acc) := by
  cases h : pyInt m with
  | error e =>
    obtain ⟨x, l, rfl⟩ := List.exists_cons_of_ne_nil hl
    rw [List.map_cons, facesLoop_error fl rd fu x l acc m e h]
    simp [src]
  | ok i =>
    obtain ⟨n, rfl⟩ := Int.eq_ofNat_of_zero_le (hm i h)
    rw [facesLoop fl rd fu l acc m n h]
    simp [src, hk]

theorem entriesLoop_text (l : List Str) (acc : List (Int × Nat)) (s v m r k : V) {β : Type} (K : List (Int × Nat) → RollM β) (k' : Flow Obj × Env Obj → RollM β)
    (hk : ∀ acc v m r k, k' (.next, [("dice_type_string", s), ("value_dictionary", .dict (encI acc)), ("value", v), ("multiplier", m), ("range_values", r), ("key", k)]) = K acc) :
    (forLoop W [("safe_add", defnFun W [] ["dictionary", "value", "amount"] saBody)] (.name "value") entryBody (l.map .str)
     [("dice_type_string", s), ("value_dictionary", .dict (encI acc)), ("value", v), ("multiplier", m), ("range_values", r), ("key", k)] >>= k') =
    liftR (entriesLoop l acc) >>= K := by
  induction l generalizing acc v m r k with
  | nil => simp [src, forLoop_nil, entriesLoop, hk]
  | cons t l ih =>
    simp only [List.map_cons, forLoop_cons]
    simp only [entriesLoop, entryFaces]
    have one : ∀ i, pyInt ['1'] = .ok i → 0 ≤ i := by
      intro i h
      have : pyInt ['1'] = .ok 1 := by decide +kernel
      rw [this] at h; cases h; decide
    cases h1 : Re.isMatch reMultiplied t
    · cases h2 : Re.isMatch reRange t
      · simp [src, entryBody, h1, h2, liftR_bind, liftR_map]
        refine bind_congr fun x => ?_
        rw [show [(Val.int x : V)] = [x].map Val.int from rfl, afterFaces fl rd fu [x] (by simp) acc ['1'] _ _ _ _ one (fun acc => liftR (entriesLoop l acc) >>= K)]
        · simp
        · intro acc k
          simp [src]
          exact ih _ _ _ _ _
      · simp [src, entryBody, h1, h2, liftR_bind, liftR_map]
        cases h3 : findRange t with
        | error e => rfl
        | ok fs =>
          simp only [liftR_ok, pure_bind]
          rw [afterFaces fl rd fu fs (findRange_ne _ _ h3) acc ['1'] _ _ _ _ one (fun acc => liftR (entriesLoop l acc) >>= K)]
          intro acc k
          simp [src]
          exact ih _ _ _ _ _
    · rcases h0 : splitOn (· == '*') t with _ | ⟨a, _ | ⟨m, _ | ⟨c, d⟩⟩⟩
      · simp [src, entryBody, h1, h0, liftR_bind, liftR_map, setNames]
      · simp [src, entryBody, h1, h0, liftR_bind, liftR_map, setNames]
      · have hm := multiplier_nonneg t a m h1 h0
        cases h2 : Re.isMatch reRange a
        · simp [src, entryBody, h1, h2, h0, liftR_bind, liftR_map]
          refine bind_congr fun x => ?_
          rw [show [(Val.int x : V)] = [x].map Val.int from rfl, afterFaces fl rd fu [x] (by simp) acc m _ _ _ _ hm (fun acc => liftR (entriesLoop l acc) >>= K)]
          · simp
          · intro acc k
            simp [src]
            exact ih _ _ _ _ _
        · simp [src, entryBody, h1, h2, h0, liftR_bind, liftR_map]
          cases h3 : findRange a with
          | error e => rfl
          | ok fs =>
            simp only [liftR_ok, pure_bind]
            rw [afterFaces fl rd fu fs (findRange_ne _ _ h3) acc m _ _ _ _ hm (fun acc => liftR (entriesLoop l acc) >>= K)]
            intro acc k
            simp [src]
            exact ih _ _ _ _ _
      · simp [src, entryBody, h1, h0, liftR_bind, liftR_map, setNames]

/-- A comprehension that gives every value the weight 1. -/
theorem onesLoop (Φ : Funs Obj RollM) (l : List Int) (env : Env Obj) :
    dictLoop W Φ (.name "value") (.int 1) (.name "value") (l.map .int) env = pure (l.map fun v => (.int v, .int 1), env) := by
  induction l with
  | nil => rfl
  | cons x t ih => simp [src, ih]

omit R in
theorem dictSet_new (d : List (Int × Nat)) (k : Int) (n : Nat) (h : k ∉ d.map Prod.fst) : dictSet d k n = d ++ [(k, n)] := by
  induction d with
  | nil => rfl
  | cons p t ih =>
    simp only [List.map_cons, List.mem_cons, not_or] at h
    have : (p.1 == k) = false := by simpa using fun e => h.1 e.symm
    simp only [dictSet, this, Bool.false_eq_true, if_false, ih h.2, List.cons_append]

theorem foldl_ones (l : List Int) (acc : List (Int × Nat)) (h : l.Nodup) (ha : ∀ x ∈ l, x ∉ acc.map Prod.fst) :
    (l.map fun v => ((.int v : V), (.int 1 : V))).foldl (fun d p => dictSet d p.1 p.2) (encI acc) = encI (acc ++ ones l) := by
  induction l generalizing acc with
  | nil => simp [ones]
  | cons x t ih =>
    simp only [List.map_cons, List.foldl_cons]
    have := set_encI acc x 1
    simp only [Nat.cast_one] at this
    rw [this, dictSet_new acc x 1 (ha x (by simp)), ih _ (List.nodup_cons.mp h).2]
    · simp [ones]
    · intro y hy
      simp only [List.map_append, List.map_cons, List.map_nil, List.mem_append, List.mem_singleton, not_or]
      exact ⟨ha y (by simp [hy]), fun e => (List.nodup_cons.mp h).1 (e ▸ hy)⟩

omit R in
theorem nodup_pyRange (a b : Int) : (pyRange a b).Nodup := by
  unfold pyRange
  exact List.Nodup.map (fun x y h => by simpa using h) List.nodup_range

@[src] theorem ones_range (a b : Int) :
    ((pyRange a b).map fun v => ((.int v : V), (.int 1 : V))).foldl (fun d p => dictSet d p.1 p.2) [] = encI (ones (pyRange a b)) := by
  have := foldl_ones (pyRange a b) [] (nodup_pyRange a b) (by simp)
  simpa [encI] using this


omit R in
theorem pyInt_nonneg (s : Str) (h : s.head? ≠ some '-') (i : Int) (hi : pyInt s = .ok i) : 0 ≤ i := by
  unfold pyInt at hi
  split at hi
  · simp at h
  · split at hi
    · cases hi; exact Int.natCast_nonneg _
    · cases hi

/-- The number of dice as the code computes it. -/
theorem number_text (s : Str) (h : s.head? ≠ some '-') {β : Type} (k : Int → RollM β) :
    (if s = [] then k 1 else liftR (pyInt s) >>= k) = liftR (diceNumber s) >>= fun n => k (n : Int) := by
  unfold diceNumber
  split
  · simp [src]
  · cases hi : pyInt s with
    | error e => simp [src, liftR_bind]
    | ok i =>
      obtain ⟨n, rfl⟩ := Int.eq_ofNat_of_zero_le (pyInt_nonneg s h i hi)
      simp [src, liftR_bind]

theorem asMethod_apply (f : PyFun) (Φ : Funs Obj RollM) (args : List V) (env : Env Obj) : f.asMethod W Φ args env =
    (do let (r, finals, env) ← defnFun W Φ f.params f.body (.unbound :: args) env; return (r, finals.tail, env)) := rfl

omit R in
theorem splitOn_head (p : Char → Bool) (s t : Str) (h : s.head? ≠ some '-') (ht : pyIndex (splitOn p s) 0 = .ok t) : t.head? ≠ some '-' := by
  cases s with
  | nil => simp [splitOn, pyIndex] at ht; subst ht; simp
  | cons c s =>
    unfold splitOn at ht
    split at ht
    · simp [pyIndex] at ht; subst ht; simp
    · split at ht <;> simp [pyIndex] at ht <;> subst ht <;> simpa using h

theorem addLoop (single : Dist) (l : List V) (d : Dist) (x v : V) {β : Type} (K : Dist → RollM β) (k' : Flow Obj × Env Obj → RollM β)
    (hk : ∀ d v, k' (.next, [("self", x), ("single_dice_distribution", dV single), ("distribution", dV d), ("_", v)]) = K d) :
    (forLoop W [] (.name "_") (.seq (.assign (.name "distribution") (.bin .add (.name "distribution") (.name "single_dice_distribution")))
      .done) l [("self", x), ("single_dice_distribution", dV single), ("distribution", dV d), ("_", v)] >>= k') =
    liftR (addDice single l.length d) >>= K := by
  induction l generalizing d v with
  | nil => simp [src, forLoop_nil, addDice] at hk ⊢; rw [hk]
  | cons t l ih =>
    simp only [forLoop_cons]
    simp [src, addDice, liftR_bind] at ih ⊢
    refine bind_congr fun d' => ?_
    exact ih _ _


theorem intsComp (Φ : Funs Obj RollM) (hΦ : Φ.get? "int" = none) (l : List Str) (env : Env Obj) (he : Env.get? env "int" = none) :
    compLoop W Φ (.callName "int" (.cons (.name "n") .nil)) (.name "n") (l.map .str) env =
      (fun l => (l.map .int, env)) <$> liftR (l.mapM pyInt) := by
  induction l with
  | nil => rfl
  | cons x t ih => simp [src, ih, he, hΦ, List.mapM_cons, liftR_bind, liftR_map]

theorem strsComp (Φ : Funs Obj RollM) (hΦ : Φ.get? "str" = none) (l : List Int) (env : Env Obj) (he : Env.get? env "str" = none) :
    compLoop W Φ (.callName "str" (.cons (.name "n") .nil)) (.name "n") (l.map .int) env =
      pure (l.map fun n => .str (intStr n), env) := by
  induction l with
  | nil => rfl
  | cons x t ih => simp [src, ih, he, hΦ]

omit R in
@[src] theorem slice_tail {α β : Type} (f : α → β) (l : List α) : sliceL (l.map f) (some 1) none = (l.drop 1).map f := by
  cases l <;> simp [sliceL, sliceBound]
omit R in
@[src] theorem slice_init {α β : Type} (f : α → β) (l : List α) : sliceL (l.map f) none (some (-1)) = l.dropLast.map f := by
  rw [List.dropLast_eq_take]
  have : (((l.length : Int) + -1).toNat) = l.length - 1 := by omega
  simp [sliceL, sliceBound, this, List.map_take]
omit R in
@[src] theorem slice_last {β : Type} (f : Int → β) (l : List Int) (k : Nat) : sliceL (l.map f) (some (-(k : Int))) none = (pyTail l k).map f := by
  unfold sliceL sliceBound pyTail
  by_cases h : k = 0
  · subst h; simp
  · have h1 : (-(k : Int)) < 0 := by omega
    have h2 : (((l.length : Int) + -(k : Int)).toNat) = l.length - k := by omega
    simp only [h1, if_true, List.length_map, h2, h, if_false]
    rw [List.take_of_length_le (by simp), List.map_drop]
omit R in
theorem slice_first {β : Type} (f : Int → β) (l : List Int) (n k : Nat) (h : k ≤ n) :
    sliceL (l.map f) none (some ((n : Int) - (k : Int))) = (l.take (n - k)).map f := by
  unfold sliceL sliceBound
  have h1 : ¬ ((n : Int) - (k : Int)) < 0 := by omega
  have h2 : ((n : Int) - (k : Int)).toNat = n - k := by omega
  simp only [h1, if_false, h2, List.length_map, List.drop_zero]
  rw [← List.map_take, List.take_eq_take_iff.mpr]
  omega
theorem decInts_dropLast (l : List Int) : decInts (l.map .int).dropLast = some l.dropLast := by
  rw [← List.map_dropLast, decInts_ints]
theorem decInts_tail (l : List Int) : decInts (l.map .int).tail = some l.tail := by
  rw [← List.map_tail, decInts_ints]

/-- The body of `safe_add_to_dict` (`drop_keep_expression.py:132-135`). -/
abbrev kaBody : PyS := (.seq (.ifs (.cmp .notIn (.name "key") (.name "dictionary")) (.seq (.assign (.index (.name "dictionary") (.name "key")) (.int 0))
    .done) .done)
    (.seq (.aug .add (.index (.name "dictionary") (.name "key")) (.name "value"))
    .done))

theorem keyAdd_text (d : List (V × V)) (k : V) (n : Int) (env : Env Obj) (hk : (k == k) = true)
   (hd : ∀ v, dictGet? d k = some v → ∃ m, v = .int m) :
    defnFun W [] ["dictionary", "key", "value"] kaBody [.dict d, k, .int n] env =
      pure (.none, [.dict (addV d k n), k, .int n], env) := by
  simp [src, kaBody, addV, defnFun_apply]
  cases h : dictGet? d k with
  | none => 
    simp [src, h, get_set_self _ _ _ hk, set_set_self _ _ _ _ hk]
  | some m =>
    obtain ⟨i, rfl⟩ := hd m h
    simp [src, h]

theorem get_encS_int (d : List (Str × Nat)) (k : Str) (v : V) (h : dictGet? (encS d) (.str k) = some v) : ∃ m, v = .int m := by
  rw [get_encS] at h
  cases h' : dictGet? d k with
  | none => rw [h'] at h; cases h
  | some m => rw [h'] at h; cases h; exact ⟨_, rfl⟩

theorem keyAdd_textI (d : List (Int × Nat)) (k : Int) (n : Nat) (env : Env Obj) :
    defnFun W [] ["dictionary", "key", "value"] kaBody [.dict (encI d), .int k, .int n] env =
      pure (.none, [.dict (encI (safeAdd d k n)), .int k, .int n], env) := by
  rw [keyAdd_text fl rd fu _ _ _ _ (by simp [src]) (get_encI_int d k), addV_encI]

theorem keyAdd_textS (d : List (Str × Nat)) (k : Str) (n m : Nat) (env : Env Obj) :
    defnFun W [] ["dictionary", "key", "value"] kaBody [.dict (encS d), .str k, .int ((n : Int) * (m : Int))] env =
      pure (.none, [.dict (encS (safeAdd d k (n * m))), .str k, .int ((n : Int) * (m : Int))], env) := by
  rw [keyAdd_text fl rd fu _ _ _ _ (by simp [src]) (get_encS_int d k), ← Int.natCast_mul, addV_encS]

omit R in
theorem keyLoop_append (next : Str → Int → Res Str) (a b : List ((Int × Nat) × (Str × Nat))) (acc : List (Str × Nat)) :
    keyLoop next (a ++ b) acc = keyLoop next a acc >>= keyLoop next b := by
  induction a generalizing acc with
  | nil => rfl
  | cons p t ih =>
    obtain ⟨⟨f, c⟩, ⟨k, v⟩⟩ := p
    simp only [List.cons_append, keyLoop]
    cases next k f with
    | error e => rfl
    | ok k' => exact ih _

/-- The innermost body of `_build_dice_dict` (`drop_keep_expression.py:142-149`). -/
abbrev buildInner : PyS := (.seq (.assign (.name "new_key") (.callAttr (.name "DropKeepExpression") "_string_key_to_list" (.cons (.name "old_key") .nil)))
    (.seq (.expr (.callAttr (.name "new_key") "append" (.cons (.name "dice_outcome") .nil)))
    (.seq (.expr (.callAttr (.name "new_key") "sort" .nil))
    (.seq (.expr (.callName "safe_add_to_dict" (.cons (.name "new_dict") (.cons (.callAttr (.name "DropKeepExpression") "_int_list_to_string" (.cons (.name "new_key") .nil)) (.cons (.bin .mul (.name "old_value") (.name "count")) .nil)))))
    .done))))

theorem buildInner_text (d : List (Str × Nat)) (face : Int) (count : Nat) (acc : List (Str × Nat)) (a1 a2 a3 a4 v1 v2 v3 : V)
    {β : Type} (K : List (Str × Nat) → RollM β) (k' : Flow Obj × Env Obj → RollM β)
    (hk : ∀ acc v1 v2 v3, k' (.next, [("number_of_dice", a1), ("dice_outcome_map", a2), ("current_dict", a3), ("_", a4), ("new_dict", .dict (encS acc)),
      ("dice_outcome", .int face), ("count", .int (count : Int)), ("old_key", v1), ("old_value", v2), ("new_key", v3)]) = K acc) :
    (forLoop W [("safe_add_to_dict", defnFun W [] ["dictionary", "key", "value"] kaBody)] (.tuple (.cons (.name "old_key") (.cons (.name "old_value") .nil)))
      buildInner (d.map fun p => .tuple [.str p.1, .int (p.2 : Int)])
      [("number_of_dice", a1), ("dice_outcome_map", a2), ("current_dict", a3), ("_", a4), ("new_dict", .dict (encS acc)),
      ("dice_outcome", .int face), ("count", .int (count : Int)), ("old_key", v1), ("old_value", v2), ("new_key", v3)] >>= k') =
    liftR (keyLoop addKey (d.map fun q => ((face, count), q)) acc) >>= K := by
  induction d generalizing acc v1 v2 v3 with
  | nil => simp [src, forLoop_nil, keyLoop, hk]
  | cons p t ih =>
    obtain ⟨key, n⟩ := p
    simp only [List.map_cons, forLoop_cons]
    simp [src, buildInner, keyLoop, addKey, liftR_bind, liftR_map, keyAdd_textS]
    refine bind_congr fun l => ?_
    exact ih _ _ _ _

/-- The middle loop. -/
abbrev buildMiddle : PyS := (.seq (.for_ (.tuple (.cons (.name "old_key") (.cons (.name "old_value") .nil))) (.callAttr (.name "current_dict") "items" .nil) buildInner) .done)

theorem buildMiddle_text (table : List (Int × Nat)) (d : List (Str × Nat)) (acc : List (Str × Nat)) (a1 a2 a4 u1 u2 v1 v2 v3 : V)
    {β : Type} (K : List (Str × Nat) → RollM β) (k' : Flow Obj × Env Obj → RollM β)
    (hk : ∀ acc u1 u2 v1 v2 v3, k' (.next, [("number_of_dice", a1), ("dice_outcome_map", a2), ("current_dict", .dict (encS d)), ("_", a4), ("new_dict", .dict (encS acc)),
      ("dice_outcome", u1), ("count", u2), ("old_key", v1), ("old_value", v2), ("new_key", v3)]) = K acc) :
    (forLoop W [("safe_add_to_dict", defnFun W [] ["dictionary", "key", "value"] kaBody)] (.tuple (.cons (.name "dice_outcome") (.cons (.name "count") .nil)))
      buildMiddle (table.map fun p => .tuple [.int p.1, .int (p.2 : Int)])
      [("number_of_dice", a1), ("dice_outcome_map", a2), ("current_dict", .dict (encS d)), ("_", a4), ("new_dict", .dict (encS acc)),
      ("dice_outcome", u1), ("count", u2), ("old_key", v1), ("old_value", v2), ("new_key", v3)] >>= k') =
    liftR (keyLoop addKey (pairsOf table d) acc) >>= K := by
  induction table generalizing acc u1 u2 v1 v2 v3 with
  | nil => simp [src, forLoop_nil, keyLoop, hk, pairsOf]
  | cons p t ih =>
    obtain ⟨face, n⟩ := p
    have e : pairsOf ((face, n) :: t) d = d.map (fun q => ((face, n), q)) ++ pairsOf t d := rfl
    rw [e, keyLoop_append]
    simp only [List.map_cons, forLoop_cons]
    simp [src, buildMiddle, liftR_bind]
    refine (buildInner_text fl rd fu d face n acc _ _ _ _ _ _ _ (fun acc => liftR (keyLoop addKey (pairsOf t d) acc) >>= K) _ ?_)
    intro acc v1 v2 v3
    simp [src]
    exact ih _ _ _ _ _ _

/-- The outer loop. -/
abbrev buildOuter : PyS := (.seq (.assign (.name "new_dict") (.dict .nil))
    (.seq (.for_ (.tuple (.cons (.name "dice_outcome") (.cons (.name "count") .nil))) (.callAttr (.name "dice_outcome_map") "items" .nil) buildMiddle)
    (.seq (.assign (.name "current_dict") (.name "new_dict"))
    .done)))

theorem buildOuter_text (table : List (Int × Nat)) (l : List V) (d : List (Str × Nat)) (a1 a4 u0 u1 u2 v1 v2 v3 : V)
    {β : Type} (K : List (Str × Nat) → RollM β) (k' : Flow Obj × Env Obj → RollM β)
    (hk : ∀ d a4 u0 u1 u2 v1 v2 v3, k' (.next, [("number_of_dice", a1), ("dice_outcome_map", .dict (encI table)), ("current_dict", .dict (encS d)), ("_", a4), ("new_dict", u0),
      ("dice_outcome", u1), ("count", u2), ("old_key", v1), ("old_value", v2), ("new_key", v3)]) = K d) :
    (forLoop W [("safe_add_to_dict", defnFun W [] ["dictionary", "key", "value"] kaBody)] (.name "_")
      buildOuter l
      [("number_of_dice", a1), ("dice_outcome_map", .dict (encI table)), ("current_dict", .dict (encS d)), ("_", a4), ("new_dict", u0),
      ("dice_outcome", u1), ("count", u2), ("old_key", v1), ("old_value", v2), ("new_key", v3)] >>= k') =
    liftR (iterKeys addKey table l.length d) >>= K := by
  induction l generalizing d a4 u0 u1 u2 v1 v2 v3 with
  | nil => simp [src, forLoop_nil, iterKeys, hk]
  | cons x t ih =>
    simp only [forLoop_cons, List.length_cons, iterKeys]
    simp [src, buildOuter, liftR_bind]
    refine (buildMiddle_text fl rd fu table d [] _ _ _ _ _ _ _ _ (fun d => liftR (iterKeys addKey table t.length d) >>= K) _ ?_)
    intro acc u1 u2 v1 v2 v3
    simp [src]
    exact ih _ _ _ _ _ _ _ _
/-- The innermost body of `_compute_iterations` (`drop_keep_expression.py:192-193`). -/
abbrev iterInner : PyS := (.seq (.assign (.name "new_key") (.callAttr (.name "DropKeepExpression") "_update_key_list" (.cons (.name "old_key") (.cons (.name "dice_outcome") (.cons (.name "is_keep") .nil)))))
    (.seq (.expr (.callName "safe_add_to_dict" (.cons (.name "new_dict") (.cons (.name "new_key") (.cons (.bin .mul (.name "old_value") (.name "count")) .nil)))))
    .done))

theorem iterInner_text (d : List (Str × Nat)) (face : Int) (count : Nat) (acc : List (Str × Nat)) (keep : Bool) (a0 a1 a2 a3 a4 v1 v2 v3 : V)
    {β : Type} (K : List (Str × Nat) → RollM β) (k' : Flow Obj × Env Obj → RollM β)
    (hk : ∀ acc v1 v2 v3, k' (.next, [("current", a0), ("number_of_dice", a1), ("dice_outcome_map", a2), ("is_keep", .bool keep), ("current_dict", a3), ("_", a4), ("new_dict", .dict (encS acc)),
      ("dice_outcome", .int face), ("count", .int (count : Int)), ("old_key", v1), ("old_value", v2), ("new_key", v3)]) = K acc) :
    (forLoop W [("safe_add_to_dict", defnFun W [] ["dictionary", "key", "value"] kaBody)] (.tuple (.cons (.name "old_key") (.cons (.name "old_value") .nil)))
      iterInner (d.map fun p => .tuple [.str p.1, .int (p.2 : Int)])
      [("current", a0), ("number_of_dice", a1), ("dice_outcome_map", a2), ("is_keep", .bool keep), ("current_dict", a3), ("_", a4), ("new_dict", .dict (encS acc)),
      ("dice_outcome", .int face), ("count", .int (count : Int)), ("old_key", v1), ("old_value", v2), ("new_key", v3)] >>= k') =
    liftR (keyLoop (updateKey keep) (d.map fun q => ((face, count), q)) acc) >>= K := by
  induction d generalizing acc v1 v2 v3 with
  | nil => simp [src, forLoop_nil, keyLoop, hk]
  | cons p t ih =>
    obtain ⟨key, n⟩ := p
    simp only [List.map_cons, forLoop_cons]
    simp [src, iterInner, keyLoop, liftR_bind, liftR_map, keyAdd_textS]
    refine bind_congr fun l => ?_
    exact ih _ _ _ _

/-- The middle loop. -/
abbrev iterMiddle : PyS := (.seq (.for_ (.tuple (.cons (.name "old_key") (.cons (.name "old_value") .nil))) (.callAttr (.name "current_dict") "items" .nil) iterInner) .done)

theorem iterMiddle_text (table : List (Int × Nat)) (d : List (Str × Nat)) (acc : List (Str × Nat)) (keep : Bool) (a0 a1 a2 a4 u1 u2 v1 v2 v3 : V)
    {β : Type} (K : List (Str × Nat) → RollM β) (k' : Flow Obj × Env Obj → RollM β)
    (hk : ∀ acc u1 u2 v1 v2 v3, k' (.next, [("current", a0), ("number_of_dice", a1), ("dice_outcome_map", a2), ("is_keep", .bool keep), ("current_dict", .dict (encS d)), ("_", a4), ("new_dict", .dict (encS acc)),
      ("dice_outcome", u1), ("count", u2), ("old_key", v1), ("old_value", v2), ("new_key", v3)]) = K acc) :
    (forLoop W [("safe_add_to_dict", defnFun W [] ["dictionary", "key", "value"] kaBody)] (.tuple (.cons (.name "dice_outcome") (.cons (.name "count") .nil)))
      iterMiddle (table.map fun p => .tuple [.int p.1, .int (p.2 : Int)])
      [("current", a0), ("number_of_dice", a1), ("dice_outcome_map", a2), ("is_keep", .bool keep), ("current_dict", .dict (encS d)), ("_", a4), ("new_dict", .dict (encS acc)),
      ("dice_outcome", u1), ("count", u2), ("old_key", v1), ("old_value", v2), ("new_key", v3)] >>= k') =
    liftR (keyLoop (updateKey keep) (pairsOf table d) acc) >>= K := by
  induction table generalizing acc u1 u2 v1 v2 v3 with
  | nil => simp [src, forLoop_nil, keyLoop, hk, pairsOf]
  | cons p t ih =>
    obtain ⟨face, n⟩ := p
    have e : pairsOf ((face, n) :: t) d = d.map (fun q => ((face, n), q)) ++ pairsOf t d := rfl
    rw [e, keyLoop_append]
    simp only [List.map_cons, forLoop_cons]
    simp [src, iterMiddle, liftR_bind]
    refine (iterInner_text fl rd fu d face n acc keep _ _ _ _ _ _ _ _ (fun acc => liftR (keyLoop (updateKey keep) (pairsOf t d) acc) >>= K) _ ?_)
    intro acc v1 v2 v3
    simp [src]
    exact ih _ _ _ _ _ _

/-- The outer loop. -/
abbrev iterOuter : PyS := (.seq (.assign (.name "new_dict") (.dict .nil))
    (.seq (.for_ (.tuple (.cons (.name "dice_outcome") (.cons (.name "count") .nil))) (.callAttr (.name "dice_outcome_map") "items" .nil) iterMiddle)
    (.seq (.assign (.name "current_dict") (.name "new_dict"))
    .done)))

theorem iterOuter_text (table : List (Int × Nat)) (l : List V) (d : List (Str × Nat)) (keep : Bool) (a0 a1 a4 u0 u1 u2 v1 v2 v3 : V)
    {β : Type} (K : List (Str × Nat) → RollM β) (k' : Flow Obj × Env Obj → RollM β)
    (hk : ∀ d a4 u0 u1 u2 v1 v2 v3, k' (.next, [("current", a0), ("number_of_dice", a1), ("dice_outcome_map", .dict (encI table)), ("is_keep", .bool keep), ("current_dict", .dict (encS d)), ("_", a4), ("new_dict", u0),
      ("dice_outcome", u1), ("count", u2), ("old_key", v1), ("old_value", v2), ("new_key", v3)]) = K d) :
    (forLoop W [("safe_add_to_dict", defnFun W [] ["dictionary", "key", "value"] kaBody)] (.name "_")
      iterOuter l
      [("current", a0), ("number_of_dice", a1), ("dice_outcome_map", .dict (encI table)), ("is_keep", .bool keep), ("current_dict", .dict (encS d)), ("_", a4), ("new_dict", u0),
      ("dice_outcome", u1), ("count", u2), ("old_key", v1), ("old_value", v2), ("new_key", v3)] >>= k') =
    liftR (iterKeys (updateKey keep) table l.length d) >>= K := by
  induction l generalizing d a4 u0 u1 u2 v1 v2 v3 with
  | nil => simp [src, forLoop_nil, iterKeys, hk]
  | cons x t ih =>
    simp only [forLoop_cons, List.length_cons, iterKeys]
    simp [src, iterOuter, liftR_bind]
    refine (iterMiddle_text fl rd fu table d [] keep _ _ _ _ _ _ _ _ _ (fun d => liftR (iterKeys (updateKey keep) table t.length d) >>= K) _ ?_)
    intro acc u1 u2 v1 v2 v3
    simp [src]
    exact ih _ _ _ _ _ _ _ _
/-- The loop of `_collapse_outcomes` (`drop_keep_expression.py:205-207`). -/
abbrev collapseBody : PyS := (.seq (.assign (.name "total") (.callName "sum" (.cons (.callAttr (.name "DropKeepExpression") "_string_key_to_list" (.cons (.name "current_key") .nil)) .nil)))
    (.seq (.expr (.callName "safe_add_to_dict" (.cons (.name "new_dict") (.cons (.name "total") (.cons (.name "current_value") .nil)))))
    .done))

theorem collapse_text (d : List (Str × Nat)) (acc : List (Int × Nat)) (a v1 v2 v3 : V) {β : Type} (K : List (Int × Nat) → RollM β)
    (k' : Flow Obj × Env Obj → RollM β)
    (hk : ∀ acc v1 v2 v3, k' (.next, [("outcomes", a), ("new_dict", .dict (encI acc)), ("current_key", v1), ("current_value", v2), ("total", v3)]) = K acc) :
    (forLoop W [("safe_add_to_dict", defnFun W [] ["dictionary", "key", "value"] kaBody)]
      (.tuple (.cons (.name "current_key") (.cons (.name "current_value") .nil))) collapseBody (d.map fun p => .tuple [.str p.1, .int (p.2 : Int)])
      [("outcomes", a), ("new_dict", .dict (encI acc)), ("current_key", v1), ("current_value", v2), ("total", v3)] >>= k') =
    liftR (collapse d acc) >>= K := by
  induction d generalizing acc v1 v2 v3 with
  | nil => simp [src, forLoop_nil, collapse, hk]
  | cons p t ih =>
    obtain ⟨key, n⟩ := p
    simp only [List.map_cons, forLoop_cons]
    simp [src, collapseBody, collapse, liftR_bind, liftR_map, keyAdd_textI]
    refine bind_congr fun l => ?_
    exact ih _ _ _ _

omit R in
theorem mkDropKeep_facts (form : Str) (t : DropKeepTerm) (h : mkDropKeep form = .ok t) :
    t.form = form ∧ t.keep = form.contains 'k' ∧ (t.simplified = .none → t.count < t.number) := by
  unfold mkDropKeep at h
  cases e0 : pyIndex (splitOn (fun c => c == 'd' || c == 'k') form) 0 with
  | error e => simp [e0, bind, Except.bind] at h
  | ok p0 =>
  cases e1 : diceNumber p0 with
  | error e => simp [e0, e1, bind, Except.bind] at h
  | ok n =>
  cases e2 : pyIndex (splitOn (fun c => c == 'd' || c == 'k') form) 1 with
  | error e => simp [e0, e1, e2, bind, Except.bind] at h
  | ok p1 =>
  cases e3 : singleDiceMap p1 with
  | error e => simp [e0, e1, e2, e3, bind, Except.bind] at h
  | ok tb =>
  cases e4 : pyIndex (splitOn (fun c => c == 'd' || c == 'k') form) 2 with
  | error e => simp [e0, e1, e2, e3, e4, bind, Except.bind] at h
  | ok p2 =>
  cases e5 : pyInt p2 with
  | error e => simp [e0, e1, e2, e3, e4, e5, bind, Except.bind] at h
  | ok k =>
  simp only [e0, e1, e2, e3, e4, e5, bind, Except.bind, pure, Except.pure] at h
  split at h <;> split at h
  · split at h
    · cases h
    · cases h; exact ⟨rfl, rfl, fun h => by simp at h⟩
  · split at h
    · cases h; exact ⟨rfl, rfl, fun h => by simp at h⟩
    · cases h; refine ⟨rfl, rfl, fun _ => ?_⟩
      show k.toNat < n
      omega
  · cases h; exact ⟨rfl, rfl, fun h => by simp at h⟩
  · split at h
    · split at h
      · cases h
      · cases h; exact ⟨rfl, rfl, fun h => by simp at h⟩
    · cases h; refine ⟨rfl, rfl, fun _ => ?_⟩
      show k.toNat < n
      omega

theorem getNumber_text (form : Str) (h : form.head? ≠ some '-') (env : Env Obj) (he : Env.get? env "self._string_form" = some (.str form)) (he1 : Env.get? env "re" = none)
    (he2 : Env.get? env "int" = none) :
    Text.DropKeepExpression._get_number_of_dice.asMethod W [] [] env =
      (fun n => (.int ((n : Nat) : Int), [], env)) <$> liftR (pyIndex (splitOn (fun c => c == 'd' || c == 'k') form) 0 >>= diceNumber) := by
  have h0 := splitOn_head (fun c => c == 'd' || c == 'k') form
  simp [src, Text.DropKeepExpression._get_number_of_dice, asMethod_apply, defnFun_apply, liftR_bind, liftR_map, he, he1, he2]
  cases e0 : pyIndex (splitOn (fun c => c == 'd' || c == 'k') form) 0 with
  | error e => simp [src]
  | ok q =>
    simp [src]
    exact number_text q (h0 q h e0) fun n => pure (Val.int n, [], env)

theorem getCount_text (form : Str)
    (h2 : ∀ p, pyIndex (splitOn (fun c => c == 'd' || c == 'k') form) 2 = .ok p → p.head? ≠ some '-')
    (env : Env Obj) (he : Env.get? env "self._string_form" = some (.str form)) (he1 : Env.get? env "re" = none)
    (he2 : Env.get? env "int" = none) :
    Text.DropKeepExpression._get_number_to_keep_or_drop.asMethod W [] [] env =
      (fun n => (.int ((Int.toNat n : Nat) : Int), [], env)) <$> liftR (pyIndex (splitOn (fun c => c == 'd' || c == 'k') form) 2 >>= pyInt) := by
  simp [src, Text.DropKeepExpression._get_number_to_keep_or_drop, asMethod_apply, defnFun_apply, liftR_bind, liftR_map, he, he1, he2]
  cases e0 : pyIndex (splitOn (fun c => c == 'd' || c == 'k') form) 2 with
  | error e => simp [src]
  | ok q =>
    simp [src]
    cases hi : pyInt q with
    | error e => simp [src]
    | ok i => simp [src, Int.toNat_of_nonneg (pyInt_nonneg q (h2 q e0) i hi), max_eq_left (pyInt_nonneg q (h2 q e0) i hi)]

theorem getSides_text (form : Str) (env : Env Obj) (he : Env.get? env "self._string_form" = some (.str form)) (he1 : Env.get? env "re" = none)
    (he2 : Env.get? env "int" = none) :
    Text.DropKeepExpression._get_number_of_sides_string.asMethod W [] [] env =
      (fun n => (.str n, [], env)) <$> liftR (pyIndex (splitOn (fun c => c == 'd' || c == 'k') form) 1) := by
  simp [src, Text.DropKeepExpression._get_number_of_sides_string, asMethod_apply, defnFun_apply, liftR_bind, liftR_map, he, he1, he2]

theorem isKeep_text (form : Str) (env : Env Obj) (he : Env.get? env "self._string_form" = some (.str form)) (he1 : Env.get? env "re" = none)
    (he2 : Env.get? env "int" = none) :
    Text.DropKeepExpression._is_keep.asMethod W [] [] env = pure (.bool (form.contains 'k'), [], env) := by
  simp [src, Text.DropKeepExpression._is_keep, asMethod_apply, defnFun_apply, liftR_bind, liftR_map, he, he1, he2]

omit R in
theorem zero_text : pyInt ['0'] = .ok 0 := by rfl
end
end PyDice.Source
