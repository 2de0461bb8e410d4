import Verif.Work
import Verif.Spec.Work
import Verif.Lemmas.Tidy
import Verif.Lemmas.KeepDrop
import Verif.Lemmas.Notation
import Verif.Lemmas.DropKeepTerm
import Mathlib.Algebra.BigOperators.Group.Finset.Basic
import Mathlib.Order.Interval.Finset.Basic
import Mathlib.Data.Int.Interval
import Mathlib.Tactic.Linarith
/-!
# Counting passes
-/

namespace PyDice
open PyRuntime

theorem keyLoopW_eq (next : Str → Int → Res Str) : ∀ (ps : List ((Int × Nat) × (Str × Nat))) (acc : List (Str × Nat)) (n : Nat),
    keyLoopW next ps acc n = (keyLoop next ps acc).map fun m => (m, n + ps.length)
  | [], _, _ => rfl
  | ((face, count), (key, value)) :: rest, acc, n => by
    simp only [keyLoopW, keyLoop]
    cases next key face with
    | error e => rfl
    | ok k =>
      simp only [ok_bind]
      rw [keyLoopW_eq next rest, List.length_cons, Nat.add_right_comm, Nat.add_assoc]

theorem length_pairsOf {α β : Type} (a : List α) (b : List β) : (pairsOf a b).length = a.length * b.length := by
  unfold pairsOf
  induction a with
  | nil => simp
  | cons x a ih => simp only [List.flatMap_cons, List.length_append, List.length_map, ih, List.length_cons]; ring

theorem iterKeysW_fst (next : Str → Int → Res Str) (table : List (Int × Nat)) : ∀ (k : Nat) (d : List (Str × Nat)) (n : Nat),
    (iterKeysW next table k d n).map Prod.fst = iterKeys next table k d
  | 0, _, _ => rfl
  | k + 1, d, n => by
    simp only [iterKeysW, iterKeys, keyLoopW_eq]
    cases keyLoop next (pairsOf table d) [] with
    | error e => rfl
    | ok m => exact iterKeysW_fst next table k m _

theorem map_fst_ok {α β : Type} {r : Res (α × β)} {a : α} (h : r.map Prod.fst = .ok a) : ∃ b, r = .ok (a, b) := by
  cases r with
  | error e => cases h
  | ok p => cases h; exact ⟨p.2, rfl⟩

theorem dropKeepMapW_fst (t : DropKeepTerm) : (dropKeepMapW t).map Prod.fst = dropKeepMap t := by
  unfold dropKeepMapW dropKeepMap buildDiceDict
  simp only []
  have h1 := iterKeysW_fst addKey t.table (if t.keep then t.count else t.number - t.count) [([], 1)] 0
  cases h : iterKeysW addKey t.table (if t.keep then t.count else t.number - t.count) [([], 1)] 0 with
  | error e => rw [h] at h1; rw [← h1]; rfl
  | ok p =>
    rw [h] at h1
    rw [← h1]
    have h2 := iterKeysW_fst (updateKey t.keep) t.table (if t.keep then t.number - t.count else t.count) p.1 p.2
    show (Except.map Prod.fst (iterKeysW (updateKey t.keep) t.table (if t.keep then t.number - t.count else t.count) p.1 p.2 >>= _)) =
      iterKeys (updateKey t.keep) t.table (if t.keep then t.number - t.count else t.count) p.1 >>= _
    rw [← h2]
    cases iterKeysW (updateKey t.keep) t.table (if t.keep then t.number - t.count else t.count) p.1 p.2 with
    | error e => rfl
    | ok q =>
      show Except.map Prod.fst (collapse q.1 [] >>= fun m => pure (m, q.2)) = collapse q.1 []
      cases collapse q.1 [] <;> rfl

section
variable [R : PyRuntime]

theorem combineLoopW_eq (op : BinOp) : ∀ (ps : List ((Outcome × Nat) × (Outcome × Nat))) (acc : List (Outcome × Nat)) (n : Nat),
    combineLoopW op ps acc n = (combineLoop op ps acc).map fun m => (m, n + ps.length)
  | [], _, _ => rfl
  | (p, q) :: rest, acc, n => by
    simp only [combineLoopW, combineLoop]
    cases Outcome.combine op p.1 q.1 with
    | error e => rfl
    | ok o =>
      simp only [ok_bind]
      have e : n + (rest.length + 1) = n + 1 + rest.length := by omega
      split <;> rw [combineLoopW_eq op rest, List.length_cons, e]

theorem binopW_eq (op : BinOp) (a b : Dist) :
    Dist.binopW op a b = (Dist.binop op a b).map fun d => (d, a.size * b.size) := by
  unfold Dist.binopW Dist.binop
  rw [combineLoopW_eq, length_pairsOf]
  cases combineLoop op (pairsOf a.resultMap b.getConstraintResultMap) [] with
  | error e => rfl
  | ok m =>
    show Except.ok (mkDist m, 0 + a.resultMap.length * b.resultMap.length) = _
    rw [Nat.zero_add]
    rfl

theorem addDiceW_fst (single : Dist) : ∀ (n : Nat) (d : Dist) (w : Nat), (addDiceW single n d w).map Prod.fst = addDice single n d
  | 0, _, _ => rfl
  | n + 1, d, w => by
    simp only [addDiceW, addDice, binopW_eq]
    cases Dist.binop .add d single with
    | error e => rfl
    | ok d' => exact addDiceW_fst single n d' _

theorem diceW_fst (t : DiceTerm) : t.distW.map Prod.fst = t.dist := by
  unfold DiceTerm.distW DiceTerm.dist
  cases mkDistInt t.table with
  | error e => rfl
  | ok single =>
    simp only [ok_bind]
    cases mkDistInt single.getResultMap with
    | error e => rfl
    | ok d => exact addDiceW_fst _ _ _ _

theorem dropKeepW_fst (t : DropKeepTerm) : t.distW.map Prod.fst = t.dist := by
  unfold DropKeepTerm.distW DropKeepTerm.dist
  cases t.simplified with
  | dice d => exact diceW_fst d
  | zero =>
    show Except.map Prod.fst (constDist 0 >>= fun d => pure (d, 0)) = constDist 0
    cases constDist 0 <;> rfl
  | none =>
    rw [← dropKeepMapW_fst]
    show (Except.map Prod.fst (dropKeepMapW t >>= _)) = _
    cases dropKeepMapW t with
    | error e => rfl
    | ok p =>
      show Except.map Prod.fst (mkDistInt p.1 >>= fun m => pure (m, p.2)) = mkDistInt p.1
      cases mkDistInt p.1 <;> rfl

/-- The counting computation does what the other one does. -/
def Counts (m : EvalM (Dist × Nat)) (m' : EvalM Dist) : Prop := ∀ s, ((m s).1.map Prod.fst, (m s).2) = m' s

theorem counts_ofRes {r : Res (Dist × Nat)} {r' : Res Dist} (h : r.map Prod.fst = r') : Counts (EvalM.ofRes r) (EvalM.ofRes r') := by
  intro s
  show (r.map Prod.fst, s) = (r', s)
  rw [h]

theorem counts_unary {m : EvalM (Dist × Nat)} {m' : EvalM Dist} (h : Counts m m') (g : Dist → Dist) :
    Counts (do let x ← m; return (g x.1, x.2)) (do return g (← m')) := by
  intro s
  rw [evalBind, evalBind, ← h s]
  rcases m s with ⟨r, s'⟩
  cases r <;> rfl

theorem counts_binop {m n : EvalM (Dist × Nat)} {m' n' : EvalM Dist} (op : BinOp) (h : Counts m m') (h' : Counts n n') :
    Counts (EvalM.binopW op m n) (do let x ← m'; let y ← n'; EvalM.ofRes (Dist.binop op x y)) := by
  intro s
  unfold EvalM.binopW
  rw [evalBind, evalBind, ← h s]
  rcases m s with ⟨r, s'⟩
  cases r with
  | error e => rfl
  | ok x =>
    show ((((n >>= _) s').1.map Prod.fst, ((n >>= _) s').2) : Res Dist × State) = (n' >>= _) s'
    rw [evalBind, evalBind, ← h' s']
    rcases n s' with ⟨r', s''⟩
    cases r' with
    | error e => rfl
    | ok y =>
      show ((((EvalM.ofRes (Dist.binopW op x.1 y.1) >>= _) s'').1.map Prod.fst, ((EvalM.ofRes (Dist.binopW op x.1 y.1) >>= _) s'').2) :
        Res Dist × State) = (Dist.binop op x.1 y.1, s'')
      rw [evalBind, binopW_eq]
      unfold EvalM.ofRes
      cases Dist.binop op x.1 y.1 <;> rfl

theorem counts_dist : ∀ e : Expr, Counts e.distW e.dist
  | .paren e => counts_dist e
  | .not e => counts_unary (counts_dist e) Dist.notOp
  | .abs e => counts_unary (counts_dist e) Dist.absOp
  | .dropKeep t => counts_ofRes (dropKeepW_fst t)
  | .dice t => counts_ofRes (diceW_fst t)
  | .constInt text => counts_ofRes (by
      cases pyInt text with
      | error e => rfl
      | ok v => simp only [ok_bind]; cases constDist v <;> rfl)
  | .constBin text => counts_ofRes (by show Except.map Prod.fst (constDist (binValue text) >>= fun d => pure (d, 0)) = _; cases constDist (binValue text) <;> rfl)
  | .add a b => counts_binop .add (counts_dist a) (counts_dist b)
  | .sub a b => counts_binop .sub (counts_dist a) (counts_dist b)
  | .mul a b => counts_binop .mul (counts_dist a) (counts_dist b)
  | .div a b => counts_binop .floordiv (counts_dist a) (counts_dist b)
  | .bin op a b => counts_binop op.toBinOp (counts_dist a) (counts_dist b)
  | .minmax k a b => counts_binop (if k then .max else .min) (counts_dist a) (counts_dist b)
  | .assign name e => by
    intro s
    simp only [Expr.distW, Expr.dist]
    rw [evalBind, evalBind, ← counts_dist e s]
    rcases e.distW s with ⟨r, s'⟩
    cases r with
    | error e => rfl
    | ok x =>
      show ((((EvalM.setVar name x.1 >>= _) s').1.map Prod.fst, ((EvalM.setVar name x.1 >>= _) s').2) : Res Dist × State) =
        (EvalM.setVar name x.1 >>= _) s'
      rw [evalBind, evalBind]
      rcases EvalM.setVar name x.1 s' with ⟨r', s''⟩
      cases r' <;> rfl
  | .getVar name => by
    intro s
    simp only [Expr.distW, Expr.dist]
    rw [evalBind]
    unfold EvalM.read
    beta_reduce
    cases s.getVar name <;> rfl

/-! ### Sizes of distributions tied to nothing -/

/-- The distribution is tied to nothing and well made. -/
abbrev Loose (d : Dist) : Prop := Tidy (fun _ => False) d

theorem loose_cs {d : Dist} (h : Loose d) {p q : Outcome × Nat} (hp : p ∈ d.resultMap) (hq : q ∈ d.resultMap) : p.1.cs = q.1.cs := by
  obtain ⟨ρ, hρ⟩ := h.pins p hp
  obtain ⟨σ, hσ⟩ := h.pins q hq
  exact h.coherent p hp q hq ⟨ρ, (hρ ρ).mpr fun _ hn => hn.elim, (hσ ρ).mpr fun _ hn => hn.elim⟩

theorem loose_nodup {d : Dist} (h : Loose d) : (d.resultMap.map fun p => p.1.value).Nodup := by
  unfold List.Nodup
  rw [List.pairwise_map]
  refine List.Pairwise.imp_of_mem ?_ (distinct_constructed h.constructed)
  intro p q hp hq hpq hv
  have : (p.1 == q.1) = true := outcome_beq.mpr ⟨hv, by rw [loose_cs h hp hq]⟩
  rw [this] at hpq
  cases hpq

theorem nodup_getResultMap (d : Dist) : (d.getResultMap.map Prod.fst).Nodup := by
  unfold List.Nodup
  rw [List.pairwise_map]
  exact (distinct_getResultMap d).imp fun h e => by rw [e] at h; simp at h

/-- One entry per value. -/
theorem loose_size {d : Dist} (h : Loose d) : d.size = d.valueCount := by
  have e : (d.resultMap.map fun p => p.1.value).toFinset = (d.getResultMap.map Prod.fst).toFinset := by
    ext v
    rw [List.mem_toFinset, List.mem_toFinset]
    show _ ↔ hasKey d.getResultMap v
    rw [hasKey_getResultMap, List.mem_map]
  have h1 := List.toFinset_card_of_nodup (loose_nodup h)
  have h2 := List.toFinset_card_of_nodup (nodup_getResultMap d)
  rw [e, h2, List.length_map, List.length_map] at h1
  exact h1.symm

/-- All values are between two numbers. -/
def Ranged (d : Dist) (lo hi : Int) : Prop := ∀ p ∈ d.resultMap, lo ≤ p.1.value ∧ p.1.value ≤ hi

theorem loose_within {d : Dist} (h : Loose d) {lo hi : Int} (hw : Ranged d lo hi) : d.size ≤ (hi + 1 - lo).toNat := by
  have h1 := List.toFinset_card_of_nodup (loose_nodup h)
  rw [List.length_map] at h1
  rw [Dist.size, ← h1, ← Int.card_Icc]
  apply Finset.card_le_card
  intro v hv
  rw [List.mem_toFinset, List.mem_map] at hv
  obtain ⟨p, hp, rfl⟩ := hv
  rw [Finset.mem_Icc]
  exact hw p hp

theorem loose_binop {op : BinOp} {a b d : Dist} (ha : Loose a) (hb : Loose b) (h : Dist.binop op a b = .ok d) : Loose d := by
  have := tidy_binop ha hb h
  simpa only [or_self] using this

theorem loose_int {m : List (Int × Nat)} {d : Dist} (h : mkDistInt m = .ok d) : Loose d := tidy_mkDistInt h

theorem int_keys {m : List (Int × Nat)} {d : Dist} (h : mkDistInt m = .ok d) : ∀ p ∈ d.resultMap, ∃ q ∈ m, p.1.value = q.1 := by
  rw [mkDistInt_eq] at h
  injection h with h
  subst h
  intro p hp
  obtain ⟨q, hq, h⟩ := mem_mkDist _ hp
  rw [List.mem_map] at hq
  obtain ⟨r, hr, rfl⟩ := hq
  exact ⟨r, hr, by rw [← h]⟩

omit R in
/-- Operators that do not spread values more than their operands do. -/
theorem tame_op (op : BinOp) (hm : op ≠ .mul) (hf : op ≠ .floordiv) {l h l' h' c c' : Int} (hl : l ≤ h) (hl' : l' ≤ h')
    (hc : h - l ≤ c) (hc' : h' - l' ≤ c') (h1 : 1 ≤ c) (h1' : 1 ≤ c') : ∃ lo hi, lo ≤ hi ∧ hi - lo ≤ c + c' ∧
      ∀ x y v, l ≤ x → x ≤ h → l' ≤ y → y ≤ h' → op.apply x y = .ok v → lo ≤ v ∧ v ≤ hi := by
  have bits : ∀ (f : Int → Int → Bool), (∀ x y, op.apply x y = .ok (binaryToInt (f x y))) →
      ∃ lo hi, lo ≤ hi ∧ hi - lo ≤ c + c' ∧
      ∀ x y v, l ≤ x → x ≤ h → l' ≤ y → y ≤ h' → op.apply x y = .ok v → lo ≤ v ∧ v ≤ hi := by
    intro f hfn
    refine ⟨0, 1, by omega, by omega, fun x y v _ _ _ _ hv => ?_⟩
    rw [hfn] at hv
    injection hv with hv
    rw [← hv]
    cases f x y <;> decide
  cases op with
  | mul => exact absurd rfl hm
  | floordiv => exact absurd rfl hf
  | add =>
    refine ⟨l + l', h + h', by omega, by omega, fun x y v a b a' b' hv => ?_⟩
    injection hv with hv
    omega
  | sub =>
    refine ⟨l - h', h - l', by omega, by omega, fun x y v a b a' b' hv => ?_⟩
    injection hv with hv
    omega
  | max =>
    refine ⟨max l l', max h h', by omega, by omega, fun x y v a b a' b' hv => ?_⟩
    injection hv with hv
    split at hv <;> omega
  | min =>
    refine ⟨min l l', min h h', by omega, by omega, fun x y v a b a' b' hv => ?_⟩
    injection hv with hv
    split at hv <;> omega
  | _ => exact bits _ fun _ _ => rfl

/-! ### Dice -/

theorem loose_span {d : Dist} (h : Loose d) {lo : Int} {σ j : Nat} (hw : Ranged d (j * lo) (j * (lo + σ))) : d.size ≤ j * σ + 1 := by
  have := loose_within h hw
  have e : (j : Int) * (lo + σ) + 1 - j * lo = ((j * σ + 1 : Nat) : Int) := by push_cast; ring
  rw [e, Int.toNat_natCast] at this
  exact this

theorem addDiceW_bound {single : Dist} (hs : Loose single) {lo : Int} {σ L : Nat} (hw : Ranged single lo (lo + σ)) (hL : single.size ≤ L) :
    ∀ (n j : Nat) (d : Dist) (w : Nat) (r : Dist) (w' : Nat), Loose d → Ranged d (j * lo) (j * (lo + σ)) →
      addDiceW single n d w = .ok (r, w') →
      Loose r ∧ Ranged r ((j + n : Nat) * lo) ((j + n : Nat) * (lo + σ)) ∧ w' ≤ w + n * (((j + n - 1) * σ + 1) * L) := by
  intro n
  induction n with
  | zero =>
    intro j d w r w' hd hr h
    cases h
    exact ⟨hd, hr, by omega⟩
  | succ n ih =>
    intro j d w r w' hd hr h
    simp only [addDiceW, binopW_eq] at h
    cases hb : Dist.binop .add d single with
    | error e => rw [hb] at h; cases h
    | ok d' =>
      rw [hb] at h
      have hd' := loose_binop hd hs hb
      have hr' : Ranged d' ((j + 1 : Nat) * lo) ((j + 1 : Nat) * (lo + σ)) := by
        intro p hp
        obtain ⟨x, hx, y, hy, hv, _⟩ := binop_mem hb hd.proper hp
        injection hv with hv
        have h1 := hr x hx
        have h2 := hw y hy
        rw [← hv]
        push_cast
        constructor <;> nlinarith
      obtain ⟨h1, h2, h3⟩ := ih (j + 1) d' _ r w' hd' hr' h
      have e : j + 1 + n = j + (n + 1) := by omega
      rw [e] at h2 h3
      refine ⟨h1, h2, le_trans h3 ?_⟩
      have h4 : d.size * single.size ≤ ((j + (n + 1) - 1) * σ + 1) * L := by
        refine Nat.mul_le_mul (le_trans (loose_span hd hr) ?_) hL
        exact Nat.add_le_add_right (Nat.mul_le_mul_right _ (by omega)) 1
      rw [Nat.succ_mul (n := n)]
      show w + d.size * single.size + _ ≤ _
      omega

omit R in
theorem foldl_safeAdd_length {κ α : Type} [BEq κ] (key : α → κ) (cnt : α → Nat) : ∀ (l : List α) (acc : List (κ × Nat)),
    (l.foldl (fun d p => safeAdd d (key p) (cnt p)) acc).length ≤ acc.length + l.length
  | [], acc => by simp
  | x :: l, acc => by
    have one : ∀ (d : List (κ × Nat)) (k : κ) (n : Nat), (safeAdd d k n).length ≤ d.length + 1 := by
      intro d k n
      induction d with
      | nil => simp [safeAdd]
      | cons p d ih => unfold safeAdd; split <;> simp; omega
    have h1 := foldl_safeAdd_length key cnt l (safeAdd acc (key x) (cnt x))
    have h2 := one acc (key x) (cnt x)
    simp only [List.foldl_cons, List.length_cons]
    omega

theorem int_size {m : List (Int × Nat)} {d : Dist} (h : mkDistInt m = .ok d) : d.size ≤ m.length := by
  rw [mkDistInt_eq] at h
  injection h with h
  subst h
  have := foldl_safeAdd_length (fun p : Outcome × Nat => p.1) (fun p => p.2) (m.map fun p => ((⟨p.1, (nullCS : CSet)⟩ : Outcome), p.2)) []
  simpa [Dist.size, mkDist] using this

theorem combineLoop_length {op : BinOp} : ∀ (ps : List ((Outcome × Nat) × (Outcome × Nat))) (acc m : List (Outcome × Nat)),
    combineLoop op ps acc = .ok m → m.length ≤ acc.length + ps.length
  | [], acc, m, h => by cases h; simp
  | (p, q) :: rest, acc, m, h => by
    simp only [combineLoop] at h
    obtain ⟨o, _, h⟩ := bind_eq_ok.mp h
    split at h
    · have h1 := combineLoop_length rest _ _ h
      have h2 := foldl_safeAdd_length (fun _ : Unit => o) (fun _ => p.2 * q.2) [()] acc
      simp only [List.foldl_cons, List.foldl_nil, List.length_singleton] at h2
      rw [List.length_cons]
      omega
    · have h1 := combineLoop_length rest _ _ h
      rw [List.length_cons]
      omega

theorem binop_size {op : BinOp} {a b d : Dist} (h : Dist.binop op a b = .ok d) : d.size ≤ a.size * b.size := by
  unfold Dist.binop at h
  obtain ⟨m, h1, h⟩ := bind_eq_ok.mp h
  cases h
  have h2 := combineLoop_length _ _ _ h1
  have h3 := foldl_safeAdd_length (fun p : Outcome × Nat => p.1) (fun p => p.2) m []
  rw [length_pairsOf] at h2
  simp only [List.length_nil, Nat.zero_add] at h2 h3
  exact le_trans h3 h2

theorem diceW_bound {t : DiceTerm} (hn : 1 ≤ t.number) {lo : Int} {σ : Nat} (hf : ∀ p ∈ t.table, lo ≤ p.1 ∧ p.1 ≤ lo + σ)
    {d : Dist} {w : Nat} (h : t.distW = .ok (d, w)) :
    Loose d ∧ Ranged d (t.number * lo) (t.number * (lo + σ)) ∧
      w ≤ (t.number - 1) * (((t.number - 1) * σ + 1) * t.table.length) := by
  unfold DiceTerm.distW at h
  obtain ⟨single, h1, h⟩ := bind_eq_ok.mp h
  obtain ⟨d0, h2, h⟩ := bind_eq_ok.mp h
  have hr : Ranged single lo (lo + σ) := by
    intro p hp
    obtain ⟨q, hq, e⟩ := int_keys h1 p hp
    rw [e]
    exact hf q hq
  have hr0 : Ranged d0 ((1 : Nat) * lo) ((1 : Nat) * (lo + σ)) := by
    intro p hp
    obtain ⟨q, hq, e⟩ := int_keys h2 p hp
    obtain ⟨p', hp', e'⟩ := (hasKey_getResultMap single q.1).mp (List.mem_map.mpr ⟨q, hq, rfl⟩)
    rw [e, ← e']
    simpa using hr p' hp'
  obtain ⟨g1, g2, g3⟩ := addDiceW_bound (loose_int h1) hr (int_size h1) _ 1 d0 0 d w (loose_int h2) hr0 h
  have e : 1 + (t.number - 1) = t.number := by omega
  rw [e] at g2 g3
  exact ⟨g1, g2, by simpa using g3⟩

/-! ### Expressions -/

/-- What is known of the result of a tame expression with bill `c`. -/
structure Affords (c : Int) (d : Dist) (w : Nat) : Prop where
  loose : Loose d
  range : ∃ lo hi : Int, lo ≤ hi ∧ hi - lo ≤ c ∧ Ranged d lo hi
  pos : 1 ≤ c
  work : (w : Int) ≤ 2 * c ^ 2

theorem Affords.size {c : Int} {d : Dist} {w : Nat} (h : Affords c d w) : (d.size : Int) ≤ c + 1 := by
  obtain ⟨lo, hi, h1, h2, h3⟩ := h.range
  have := loose_within h.loose h3
  omega

theorem fits_binop {op : BinOp} (hm : op ≠ .mul) (hf : op ≠ .floordiv) {m n : EvalM (Dist × Nat)} {c c' : Int}
    (hm' : ∀ s s' d w, m s = (.ok (d, w), s') → Affords c d w) (hn' : ∀ s s' d w, n s = (.ok (d, w), s') → Affords c' d w) :
    ∀ s s' d w, EvalM.binopW op m n s = (.ok (d, w), s') → Affords (c + c') d w := by
  intro s s' d w h
  unfold EvalM.binopW at h
  obtain ⟨x, s1, h1, h⟩ := evalBind_eq_ok.mp h
  obtain ⟨y, s2, h2, h⟩ := evalBind_eq_ok.mp h
  obtain ⟨z, s3, h3, h⟩ := evalBind_eq_ok.mp h
  cases h
  have fx := hm' _ _ x.1 x.2 h1
  have fy := hn' _ _ y.1 y.2 h2
  have h4 : Dist.binopW op x.1 y.1 = .ok z := (Prod.mk.inj h3).1
  rw [binopW_eq] at h4
  cases hb : Dist.binop op x.1 y.1 with
  | error e => rw [hb] at h4; cases h4
  | ok r =>
    rw [hb] at h4
    cases h4
    obtain ⟨l, h, a1, a2, a3⟩ := fx.range
    obtain ⟨l', h', b1, b2, b3⟩ := fy.range
    obtain ⟨lo, hi, c1, c2, c3⟩ := tame_op op hm hf a1 b1 a2 b2 fx.pos fy.pos
    have p1 := fx.pos
    have p2 := fy.pos
    refine ⟨loose_binop fx.loose fy.loose hb, ⟨lo, hi, c1, c2, ?_⟩, by omega, ?_⟩
    · intro p hp
      obtain ⟨u, hu, v, hv, e, _⟩ := binop_mem hb fx.loose.proper hp
      exact c3 _ _ _ (a3 u hu).1 (a3 u hu).2 (b3 v hv).1 (b3 v hv).2 e
    · have w1 := fx.work
      have w2 := fy.work
      have s1 := fx.size
      have s2 := fy.size
      have h5 : (x.1.size : Int) * y.1.size ≤ (c + 1) * (c' + 1) :=
        mul_le_mul s1 s2 (by positivity) (by omega)
      push_cast
      nlinarith [mul_nonneg (sub_nonneg.mpr p1) (sub_nonneg.mpr p2)]

theorem fits_unary {g : Int → Int} (lip : ∀ l h : Int, l ≤ h → ∃ l' h', l' ≤ h' ∧ (h' - l' ≤ h - l ∨ h' - l' ≤ 1) ∧
    ∀ x, l ≤ x → x ≤ h → l' ≤ g x ∧ g x ≤ h') {c : Int} {d : Dist} {w : Nat} (h : Affords c d w) : Affords c (d.mapValue g) w := by
  obtain ⟨lo, hi, h1, h2, h3⟩ := h.range
  obtain ⟨l', h', g1, g2, g3⟩ := lip lo hi h1
  have p := h.pos
  refine ⟨tidy_mapValue g h.loose, ⟨l', h', g1, by omega, ?_⟩, h.pos, h.work⟩
  intro e he
  obtain ⟨q, hq, e1⟩ := mapValue_mem he
  rw [e1]
  exact g3 _ (h3 q hq).1 (h3 q hq).2

theorem fits_const {v : Int} {d : Dist} (h : constDist v = .ok d) : Affords 2 d 0 := by
  refine ⟨loose_int h, ⟨v, v, le_refl v, by omega, ?_⟩, by omega, by simp⟩
  intro p hp
  obtain ⟨q, hq, e⟩ := int_keys h p hp
  simp only [List.mem_singleton] at hq
  rw [e, hq]
  exact ⟨le_refl v, le_refl v⟩

theorem fits_dice {t : DiceTerm} (hn : 1 ≤ t.number) (hg : Gapless t.table) {d : Dist} {w : Nat} (h : t.distW = .ok (d, w)) :
    Affords (t.number * t.table.length) d w := by
  obtain ⟨hne, lo, hf⟩ := hg
  have hL : 1 ≤ t.table.length := List.length_pos_of_ne_nil hne
  obtain ⟨L, hLe⟩ : ∃ L, t.table.length = L + 1 := ⟨t.table.length - 1, by omega⟩
  obtain ⟨N, hNe⟩ : ∃ N, t.number = N + 1 := ⟨t.number - 1, by omega⟩
  obtain ⟨g1, g2, g3⟩ := diceW_bound (σ := L) hn (lo := lo) (fun p hp => ⟨(hf p hp).1, by have := (hf p hp).2; rw [hLe] at this; push_cast at this; omega⟩) h
  rw [hLe, hNe] at *
  refine ⟨g1, ⟨_, _, ?_, ?_, g2⟩, ?_, ?_⟩
  · push_cast; nlinarith
  · push_cast; nlinarith
  · push_cast; nlinarith
  · have h5 : N * ((N * L + 1) * (L + 1)) ≤ 2 * ((N + 1) * (L + 1)) ^ 2 := by
      have a : N * L + 1 ≤ (N + 1) * (L + 1) := by nlinarith
      have b : N * (L + 1) ≤ (N + 1) * (L + 1) := by nlinarith
      have := Nat.mul_le_mul a b
      calc N * ((N * L + 1) * (L + 1)) = (N * L + 1) * (N * (L + 1)) := by ring
        _ ≤ (N + 1) * (L + 1) * ((N + 1) * (L + 1)) := this
        _ ≤ 2 * ((N + 1) * (L + 1)) ^ 2 := by nlinarith [Nat.zero_le (((N + 1) * (L + 1)) ^ 2)]
    have h6 : w ≤ 2 * ((N + 1) * (L + 1)) ^ 2 := le_trans (by simpa using g3) h5
    exact_mod_cast h6

theorem fits_tame : ∀ e : Expr, e.Tame → ∀ s s' d w, e.distW s = (.ok (d, w), s') → Affords e.bill d w := by
  have bill2 : ∀ a b : Expr, ((a.leafPrices fun _ => 0) ++ (b.leafPrices fun _ => 0)).sum = a.bill + b.bill := by
    intro a b
    rw [List.sum_append]
    rfl
  intro e
  induction e with
  | paren e ih => exact ih
  | not e ih =>
    intro ht s s' d w h
    obtain ⟨x, s1, h1, h⟩ := evalBind_eq_ok.mp h
    cases h
    rw [notOp_eq]
    refine fits_unary (fun l h _ => ⟨0, 1, by omega, .inr (by omega), fun x _ _ => ?_⟩) (ih ht _ _ _ _ h1)
    unfold notVal
    split <;> omega
  | abs e ih =>
    intro ht s s' d w h
    obtain ⟨x, s1, h1, h⟩ := evalBind_eq_ok.mp h
    cases h
    rw [absOp_eq]
    refine fits_unary (fun l h hl => ?_) (ih ht _ _ _ _ h1)
    unfold absVal
    by_cases h0 : 0 ≤ l
    · exact ⟨l, h, hl, .inl (le_refl _), fun x _ _ => by split <;> omega⟩
    · by_cases h1 : h ≤ 0
      · exact ⟨-h, -l, by omega, .inl (by omega), fun x _ _ => by split <;> omega⟩
      · exact ⟨0, max h (-l), by omega, .inl (by omega), fun x _ _ => by split <;> omega⟩
  | add a b iha ihb =>
    intro ht
    show ∀ s s' d w, EvalM.binopW .add a.distW b.distW s = _ → Affords (((a.leafPrices fun _ => 0) ++ (b.leafPrices fun _ => 0)).sum) d w
    rw [bill2]
    exact fits_binop (by decide) (by decide) (iha ht.1) (ihb ht.2)
  | sub a b iha ihb =>
    intro ht
    show ∀ s s' d w, EvalM.binopW .sub a.distW b.distW s = _ → Affords (((a.leafPrices fun _ => 0) ++ (b.leafPrices fun _ => 0)).sum) d w
    rw [bill2]
    exact fits_binop (by decide) (by decide) (iha ht.1) (ihb ht.2)
  | bin op a b iha ihb =>
    intro ht
    show ∀ s s' d w, EvalM.binopW op.toBinOp a.distW b.distW s = _ → Affords (((a.leafPrices fun _ => 0) ++ (b.leafPrices fun _ => 0)).sum) d w
    rw [bill2]
    exact fits_binop (by cases op <;> decide) (by cases op <;> decide) (iha ht.1) (ihb ht.2)
  | minmax k a b iha ihb =>
    intro ht
    show ∀ s s' d w, EvalM.binopW (if k then .max else .min) a.distW b.distW s = _ →
      Affords (((a.leafPrices fun _ => 0) ++ (b.leafPrices fun _ => 0)).sum) d w
    rw [bill2]
    exact fits_binop (by cases k <;> decide) (by cases k <;> decide) (iha ht.1) (ihb ht.2)
  | constInt text =>
    intro _ s s' d w h
    have h1 := (Prod.mk.inj h).1
    obtain ⟨v, _, h1⟩ := bind_eq_ok.mp h1
    obtain ⟨d', h2, h1⟩ := bind_eq_ok.mp h1
    cases h1
    exact fits_const h2
  | constBin text =>
    intro _ s s' d w h
    have h1 := (Prod.mk.inj h).1
    obtain ⟨d', h2, h1⟩ := bind_eq_ok.mp h1
    cases h1
    exact fits_const h2
  | dice t =>
    intro ht s s' d w h
    have h1 : t.distW = .ok (d, w) := (Prod.mk.inj h).1
    have := fits_dice ht.1 ht.2 h1
    simpa [Expr.bill, Expr.leafPrices] using this
  | dropKeep t => exact fun h => h.elim
  | mul a b => exact fun h => h.elim
  | div a b => exact fun h => h.elim
  | assign x e => exact fun h => h.elim
  | getVar x => exact fun h => h.elim

/-! ### Exactly which values -/

/-- The values are exactly the integers between two numbers. -/
def Fills (d : Dist) (lo hi : Int) : Prop := ∀ v, (∃ p ∈ d.resultMap, p.1.value = v) ↔ lo ≤ v ∧ v ≤ hi

theorem fills_size {d : Dist} (h : Loose d) {lo hi : Int} (hf : Fills d lo hi) : d.size = (hi + 1 - lo).toNat := by
  have h1 := List.toFinset_card_of_nodup (loose_nodup h)
  rw [List.length_map] at h1
  rw [Dist.size, ← h1, ← Int.card_Icc]
  congr 1
  ext v
  rw [List.mem_toFinset, List.mem_map, Finset.mem_Icc]
  exact hf v

theorem Tidy.untied {d : Dist} (h : Loose d) (ω : Str → Int) {p : Outcome × Nat} (hp : p ∈ d.resultMap) : Sat ω p.1.cs := by
  obtain ⟨ρ, hρ⟩ := h.pins p hp
  exact (hρ ω).mpr fun _ hn => hn.elim

theorem loose_vals {op : BinOp} {a b d : Dist} (ha : Loose a) (hb : Loose b) (h : Dist.binop op a b = .ok d) (v : Int) :
    (∃ e ∈ d.resultMap, e.1.value = v) ↔ ∃ p ∈ a.resultMap, ∃ q ∈ b.resultMap, op.apply p.1.value q.1.value = .ok v := by
  have hs := binop_support_given h ha.proper (fun _ => 0) v
  constructor
  · rintro ⟨e, he, hv⟩
    obtain ⟨p, hp, q, hq, h1, _⟩ := hs.mp ⟨e, he, hv, (loose_binop ha hb h).untied _ he⟩
    exact ⟨p, hp, q, hq, h1⟩
  · rintro ⟨p, hp, q, hq, h1⟩
    obtain ⟨e, he, hv, _⟩ := hs.mpr ⟨p, hp, q, hq, h1, ha.untied _ hp, hb.untied _ hq⟩
    exact ⟨e, he, hv⟩

theorem int_vals {m : List (Int × Nat)} {d : Dist} (h : mkDistInt m = .ok d) (v : Int) :
    (∃ p ∈ d.resultMap, p.1.value = v) ↔ hasKey m v := by
  obtain ⟨d', h1, _, _, _, _, h2⟩ := mkDistInt_spec (R := R) m
  rw [h] at h1
  cases h1
  rw [← h2, hasKey_getResultMap]

theorem add_defined {a b : Dist} (ha : Loose a) : ∃ d, Dist.binop .add a b = .ok d := by
  rw [binop_ok_iff ha.proper]
  exact fun p _ q _ => ⟨_, rfl⟩

theorem addDiceW_exact {single : Dist} (hs : Loose single) {lo : Int} {σ : Nat} (hw : Fills single lo (lo + σ)) :
    ∀ (n j : Nat) (d : Dist) (w : Nat), Loose d → Fills d (j * lo) (j * (lo + σ)) →
      ∃ r, addDiceW single n d w = .ok (r, w + ∑ i ∈ Finset.range n, ((j + i) * σ + 1) * (σ + 1)) ∧
      Loose r ∧ Fills r ((j + n : Nat) * lo) ((j + n : Nat) * (lo + σ)) := by
  have sz : ∀ {d : Dist} {j : Nat}, Loose d → Fills d (j * lo) (j * (lo + σ)) → d.size = j * σ + 1 := by
    intro d j h1 h2
    have e : (j : Int) * (lo + σ) + 1 - j * lo = ((j * σ + 1 : Nat) : Int) := by push_cast; ring
    rw [fills_size h1 h2, e, Int.toNat_natCast]
  have sz1 : single.size = σ + 1 := by
    have e : lo + (σ : Int) + 1 - lo = ((σ + 1 : Nat) : Int) := by push_cast; ring
    rw [fills_size hs hw, e, Int.toNat_natCast]
  intro n
  induction n with
  | zero => exact fun j d w hd hf => ⟨d, by simp [addDiceW], hd, by simpa using hf⟩
  | succ n ih =>
    intro j d w hd hf
    obtain ⟨d', hb⟩ := add_defined (b := single) hd
    have hd' := loose_binop hd hs hb
    have hf' : Fills d' ((j + 1 : Nat) * lo) ((j + 1 : Nat) * (lo + σ)) := by
      intro v
      rw [loose_vals hd hs hb]
      constructor
      · rintro ⟨p, hp, q, hq, e⟩
        injection e with e
        have h1 := (hf _).mp ⟨p, hp, rfl⟩
        have h2 := (hw _).mp ⟨q, hq, rfl⟩
        rw [← e]
        push_cast
        constructor <;> nlinarith
      · rintro ⟨h1, h2⟩
        push_cast at h1 h2
        have key : ∃ y, (lo ≤ y ∧ y ≤ lo + σ) ∧ ((j : Int) * lo ≤ v - y ∧ v - y ≤ j * (lo + σ)) := by
          by_cases hv : v - lo ≤ j * (lo + σ)
          · exact ⟨lo, ⟨le_refl _, by omega⟩, by nlinarith, hv⟩
          · refine ⟨v - j * (lo + σ), ⟨by omega, by nlinarith⟩, ?_, by omega⟩
            have : (0 : Int) ≤ j * σ := by positivity
            nlinarith
        obtain ⟨y, hy, hx⟩ := key
        obtain ⟨q, hq, e2⟩ := (hw y).mpr hy
        obtain ⟨p, hp, e1⟩ := (hf (v - y)).mpr hx
        exact ⟨p, hp, q, hq, by rw [e1, e2]; exact congrArg Except.ok (by ring)⟩
    obtain ⟨r, h1, h2, h3⟩ := ih (j + 1) d' (w + d.size * single.size) hd' hf'
    refine ⟨r, ?_, h2, by rw [show j + (n + 1) = j + 1 + n by omega]; exact h3⟩
    simp only [addDiceW, binopW_eq, hb]
    show addDiceW single n d' (w + d.size * single.size) = _
    rw [h1, Finset.sum_range_succ', sz hd hf, sz1]
    congr 2
    simp only [show ∀ i, j + 1 + i = j + (i + 1) by intro i; omega]
    show _ = w + (_ + (j * σ + 1) * (σ + 1))
    omega

theorem diceW_exact {t : DiceTerm} (hn : 1 ≤ t.number) {lo : Int} {σ : Nat} (hf : ∀ v, hasKey t.table v ↔ lo ≤ v ∧ v ≤ lo + σ) :
    ∃ d, t.distW = .ok (d, ∑ i ∈ Finset.range (t.number - 1), ((i + 1) * σ + 1) * (σ + 1)) ∧ d.size = t.number * σ + 1 := by
  obtain ⟨single, h1⟩ : ∃ single, mkDistInt t.table = .ok single := ⟨_, mkDistInt_eq _⟩
  obtain ⟨d0, h2⟩ : ∃ d0, mkDistInt single.getResultMap = .ok d0 := ⟨_, mkDistInt_eq _⟩
  have f1 : Fills single lo (lo + σ) := fun v => by rw [int_vals h1]; exact hf v
  have f2 : Fills d0 ((1 : Nat) * lo) ((1 : Nat) * (lo + σ)) := fun v => by
    rw [int_vals h2, hasKey_getResultMap, f1 v]; simp
  obtain ⟨r, g1, g2, g3⟩ := addDiceW_exact (loose_int h1) f1 (t.number - 1) 1 d0 0 (loose_int h2) f2
  refine ⟨r, ?_, ?_⟩
  · unfold DiceTerm.distW
    rw [h1, ok_bind, h2, ok_bind, g1, Nat.zero_add]
    simp only [show ∀ i, 1 + i = i + 1 by intro i; omega]
  · rw [show 1 + (t.number - 1) = t.number by omega] at g3
    have e : (t.number : Int) * (lo + σ) + 1 - t.number * lo = ((t.number * σ + 1 : Nat) : Int) := by push_cast; ring
    rw [fills_size g2 g3, e, Int.toNat_natCast]

/-! ### Expressions without variables -/

theorem loose_ofRes {r : Res (Dist × Nat)} (h : ∀ d w, r = .ok (d, w) → Loose d) : ∀ s s' d w, EvalM.ofRes r s = (.ok (d, w), s') → Loose d :=
  fun _ _ d w e => h d w (Prod.mk.inj e).1

theorem loose_addDice {single : Dist} (hs : Loose single) : ∀ (n : Nat) (d : Dist) (w : Nat) (r : Dist) (w' : Nat), Loose d →
    addDiceW single n d w = .ok (r, w') → Loose r
  | 0, d, w, r, w', hd, h => by cases h; exact hd
  | n + 1, d, w, r, w', hd, h => by
    simp only [addDiceW, binopW_eq] at h
    cases hb : Dist.binop .add d single with
    | error e => rw [hb] at h; cases h
    | ok d' => rw [hb] at h; exact loose_addDice hs n d' _ r w' (loose_binop hd hs hb) h

theorem loose_diceW {t : DiceTerm} {d : Dist} {w : Nat} (h : t.distW = .ok (d, w)) : Loose d := by
  unfold DiceTerm.distW at h
  obtain ⟨single, h1, h⟩ := bind_eq_ok.mp h
  obtain ⟨d0, h2, h⟩ := bind_eq_ok.mp h
  exact loose_addDice (loose_int h1) _ _ _ _ _ (loose_int h2) h

theorem loose_dropKeepW {t : DropKeepTerm} {d : Dist} {w : Nat} (h : t.distW = .ok (d, w)) : Loose d := by
  unfold DropKeepTerm.distW at h
  split at h
  · exact loose_diceW h
  · obtain ⟨d', h1, h⟩ := bind_eq_ok.mp h
    cases h
    exact loose_int h1
  · obtain ⟨m, _, h⟩ := bind_eq_ok.mp h
    obtain ⟨d', h1, h⟩ := bind_eq_ok.mp h
    cases h
    exact loose_int h1

theorem loose_binopW {op : BinOp} {m n : EvalM (Dist × Nat)} (hm : ∀ s s' d w, m s = (.ok (d, w), s') → Loose d)
    (hn : ∀ s s' d w, n s = (.ok (d, w), s') → Loose d) : ∀ s s' d w, EvalM.binopW op m n s = (.ok (d, w), s') → Loose d := by
  intro s s' d w h
  unfold EvalM.binopW at h
  obtain ⟨x, s1, h1, h⟩ := evalBind_eq_ok.mp h
  obtain ⟨y, s2, h2, h⟩ := evalBind_eq_ok.mp h
  obtain ⟨z, s3, h3, h⟩ := evalBind_eq_ok.mp h
  cases h
  have h4 : Dist.binopW op x.1 y.1 = .ok z := (Prod.mk.inj h3).1
  rw [binopW_eq] at h4
  cases hb : Dist.binop op x.1 y.1 with
  | error e => rw [hb] at h4; cases h4
  | ok r =>
    rw [hb] at h4
    cases h4
    exact loose_binop (hm _ _ _ _ h1) (hn _ _ _ _ h2) hb

theorem loose_nameless : ∀ e : Expr, e.Nameless → ∀ s s' d w, e.distW s = (.ok (d, w), s') → Loose d
  | .paren e, h => loose_nameless e h
  | .not e, h => by
    intro s s' d w he
    obtain ⟨x, s1, h1, he⟩ := evalBind_eq_ok.mp he
    cases he
    rw [notOp_eq]
    exact tidy_mapValue _ (loose_nameless e h _ _ _ _ h1)
  | .abs e, h => by
    intro s s' d w he
    obtain ⟨x, s1, h1, he⟩ := evalBind_eq_ok.mp he
    cases he
    rw [absOp_eq]
    exact tidy_mapValue _ (loose_nameless e h _ _ _ _ h1)
  | .add a b, h => loose_binopW (loose_nameless a h.1) (loose_nameless b h.2)
  | .sub a b, h => loose_binopW (loose_nameless a h.1) (loose_nameless b h.2)
  | .mul a b, h => loose_binopW (loose_nameless a h.1) (loose_nameless b h.2)
  | .div a b, h => loose_binopW (loose_nameless a h.1) (loose_nameless b h.2)
  | .bin _ a b, h => loose_binopW (loose_nameless a h.1) (loose_nameless b h.2)
  | .minmax _ a b, h => loose_binopW (loose_nameless a h.1) (loose_nameless b h.2)
  | .constInt text, _ => loose_ofRes fun d w h => by
      obtain ⟨v, _, h⟩ := bind_eq_ok.mp h
      obtain ⟨d', h1, h⟩ := bind_eq_ok.mp h
      cases h
      exact loose_int h1
  | .constBin text, _ => loose_ofRes fun d w h => by
      obtain ⟨d', h1, h⟩ := bind_eq_ok.mp h
      cases h
      exact loose_int h1
  | .dice t, _ => loose_ofRes fun _ _ h => loose_diceW h
  | .dropKeep t, _ => loose_ofRes fun _ _ h => loose_dropKeepW h

/-! ### Sums of powers of two -/

omit R in
theorem bitDie_built (i : Nat) : mkDice (bitDie i).form = .ok (bitDie i) := by
  let e0 : Entry := ⟨⟨false, ['0']⟩, none, none⟩
  let e1 : Entry := ⟨⟨false, natStr (2 ^ i)⟩, none, none⟩
  have w0 : e0.WF := ⟨⟨by simp [e0], by simp [e0, isDigit]⟩, by simp [e0], by simp [e0]⟩
  have w1 : e1.WF := ⟨⟨natStr_ne_nil _, natStr_digits _⟩, by simp [e1], by simp [e1]⟩
  have hch : ∀ c ∈ '[' :: '0' :: ',' :: natStr (2 ^ i) ++ [']'], c = '[' ∨ c = '0' ∨ c = ',' ∨ isDigit c = true ∨ c = ']' := by
    intro c hc
    simp only [List.mem_cons, List.cons_append, List.mem_append, List.not_mem_nil, or_false] at hc
    rcases hc with h | h | h | h | h
    · exact .inl h
    · exact .inr (.inl h)
    · exact .inr (.inr (.inl h))
    · exact .inr (.inr (.inr (.inl (natStr_digits _ c h))))
    · exact .inr (.inr (.inr (.inr h)))
  have hs : noSpace ('[' :: '0' :: ',' :: natStr (2 ^ i) ++ [']']) = '[' :: ('0' :: ',' :: natStr (2 ^ i)) ++ [']'] := by
    unfold noSpace
    rw [List.filter_eq_self.mpr]
    intro c hc
    rcases hch c hc with rfl | rfl | rfl | h | rfl
    · decide
    · decide
    · decide
    · simp [digit_not_space h]
    · decide
  have hstrip : stripBrackets ('[' :: '0' :: ',' :: natStr (2 ^ i) ++ [']']) = '0' :: ',' :: natStr (2 ^ i) := by
    apply stripBrackets_eq hs
    intro c hc
    simp only [List.mem_cons] at hc
    rcases hc with rfl | rfl | h
    · decide
    · decide
    · exact ⟨digit_ne (natStr_digits _ c h) (by decide), digit_ne (natStr_digits _ c h) (by decide)⟩
  obtain ⟨h1, h2, h3⟩ := bracket_start hs
  have hsplit : splitOn (· == ',') ('0' :: ',' :: natStr (2 ^ i)) = [e0.text, e1.text] := by
    have := splitOn_join (p := (· == ',')) (sep := ',') (by simp) [e0.text, e1.text] (by simp) (by
      intro w hw c hc
      have hw' : w = e0.text ∨ w = e1.text := by simpa using hw
      have hc' : isDigit c = true := by
        rcases hw' with rfl | rfl
        · exact w0.1.2 c hc
        · exact w1.1.2 c hc
      simpa using digit_ne (d := ',') hc' (by decide))
    simpa [joinWith, e0, e1, Entry.text, Entry.core, Num.text] using this
  have hmap : singleDiceMap ('[' :: '0' :: ',' :: natStr (2 ^ i) ++ [']']) = .ok (bitDie i).table := by
    unfold singleDiceMap
    rw [if_neg (by rw [h1]; simp), if_neg h2, if_neg h3, hstrip, hsplit]
    simp only [entriesLoop, entryFaces_spec w0, entryFaces_spec w1, ok_bind]
    have v0 : e0.faces = [0] := by simp [e0, Entry.faces, Num.val]; decide
    have v1 : e1.faces = [2 ^ i] := by simp [e1, Entry.faces, Num.val, natOf_natStr]
    have hne : ((0 : Int) == 2 ^ i) = false := by
      have : (0 : Int) < 2 ^ i := by positivity
      simp; omega
    rw [v0, v1]
    simp only [List.foldl_cons, List.foldl_nil, safeAdd, hne]
    rfl
  have := mkDice_plain 1 _ _ (by
    intro c hc
    rcases hch c hc with rfl | rfl | rfl | h | rfl
    · decide
    · decide
    · decide
    · simpa using digit_ne (d := 'd') h (by decide)
    · decide) hmap
  exact this

/-- All sums of different powers of two. -/
theorem bitSum_spec : ∀ (m : Nat) (s : State), ∃ d n, (bitSum m).distW s = (.ok (d, n), s) ∧ Loose d ∧ Fills d 0 (2 ^ (m + 1) - 1) := by
  have die : ∀ i, ∃ d, (bitDie i).distW = .ok (d, 0) ∧ Loose d ∧ ∀ v, (∃ p ∈ d.resultMap, p.1.value = v) ↔ v = 0 ∨ v = 2 ^ i := by
    intro i
    obtain ⟨single, h1⟩ : ∃ single, mkDistInt (bitDie i).table = .ok single := ⟨_, mkDistInt_eq _⟩
    obtain ⟨d0, h2⟩ : ∃ d0, mkDistInt single.getResultMap = .ok d0 := ⟨_, mkDistInt_eq _⟩
    refine ⟨d0, ?_, loose_int h2, fun v => ?_⟩
    · unfold DiceTerm.distW
      rw [h1, ok_bind, h2, ok_bind]
      rfl
    · rw [int_vals h2, hasKey_getResultMap, int_vals h1]
      simp [hasKey, bitDie]
  intro m
  induction m with
  | zero =>
    intro s
    obtain ⟨d, h1, h2, h3⟩ := die 0
    refine ⟨d, 0, by simp only [bitSum, Expr.distW, EvalM.ofRes, h1], h2, fun v => ?_⟩
    rw [h3 v]
    simp
    omega
  | succ m ih =>
    intro s
    obtain ⟨a, n, h1, h2, h3⟩ := ih s
    obtain ⟨b, g1, g2, g3⟩ := die (m + 1)
    obtain ⟨d, hb⟩ := add_defined (b := b) h2
    have hw : Dist.binopW .add a b = .ok (d, a.size * b.size) := by rw [binopW_eq, hb]; rfl
    refine ⟨d, n + 0 + a.size * b.size, ?_, loose_binop h2 g2 hb, fun v => ?_⟩
    · show EvalM.binopW .add (bitSum m).distW (Expr.dice (bitDie (m + 1))).distW s = _
      unfold EvalM.binopW
      refine evalBind_eq_ok.mpr ⟨_, s, h1, evalBind_eq_ok.mpr ⟨(b, 0), s, ?_, evalBind_eq_ok.mpr ⟨(d, a.size * b.size), s, ?_, rfl⟩⟩⟩
      · simp only [Expr.distW, EvalM.ofRes, g1]
      · simp only [EvalM.ofRes, hw]
    · rw [loose_vals h2 g2 hb]
      have e : (2 : Int) ^ (m + 1 + 1) = 2 * 2 ^ (m + 1) := by ring
      rw [e]
      constructor
      · rintro ⟨p, hp, q, hq, ev⟩
        injection ev with ev
        have a1 := (h3 _).mp ⟨p, hp, rfl⟩
        have a2 := (g3 _).mp ⟨q, hq, rfl⟩
        have : (0 : Int) < 2 ^ (m + 1) := by positivity
        omega
      · rintro ⟨b1, b2⟩
        by_cases hv : v < 2 ^ (m + 1)
        · obtain ⟨p, hp, e1⟩ := (h3 v).mpr ⟨b1, by omega⟩
          obtain ⟨q, hq, e2⟩ := (g3 0).mpr (.inl rfl)
          exact ⟨p, hp, q, hq, by rw [e1, e2]; exact congrArg Except.ok (by ring)⟩
        · obtain ⟨p, hp, e1⟩ := (h3 (v - 2 ^ (m + 1))).mpr ⟨by omega, by omega⟩
          obtain ⟨q, hq, e2⟩ := (g3 (2 ^ (m + 1))).mpr (.inr rfl)
          exact ⟨p, hp, q, hq, by rw [e1, e2]; exact congrArg Except.ok (by ring)⟩

end

end PyDice
