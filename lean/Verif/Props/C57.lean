import Verif.Spec.Identities
import Verif.Lemmas.Identities
import Verif.Props.C14_C15
/-!
# C57: identities between dice expressions
-/

namespace PyDice

section
variable [R : PyRuntime]
open PyRuntime

/-- C57: dice can be thrown in two groups: `(n+m)dS` is the same as `ndS + mdS`, even count by count. -/
theorem C57_split (table : List (Int × Nat)) (hw : 0 < (table.map Prod.snd).sum) (n m : Nat) (hn : 1 ≤ n) (hm : 1 ≤ m)
    (t a b : DiceTerm) (ht : t.Is table (n + m)) (ha : a.Is table n) (hb : b.Is table m) (s : State) :
    ∃ d e, (Expr.dice t).dist s = (.ok d, s) ∧ (Expr.add (.dice a) (.dice b)).dist s = (.ok e, s) ∧ SameChances d e ∧
      d.average = e.average ∧ ∀ v, countOf d.getResultMap v = countOf e.getResultMap v := by
  obtain ⟨rfl, ht2⟩ := ht
  obtain ⟨ha1, rfl⟩ := ha
  obtain ⟨hb1, rfl⟩ := hb
  obtain ⟨d, g1, fd⟩ := dice_follows t ⟨by omega, hw⟩
  obtain ⟨x, g2, fx⟩ := dice_follows a ⟨hn, by rw [ha1]; exact hw⟩
  obtain ⟨y, g3, fy⟩ := dice_follows b ⟨hm, by rw [hb1]; exact hw⟩
  rw [ht2] at fd
  rw [ha1] at fx
  rw [hb1] at fy
  obtain ⟨e, g4, pe, ne, hmean, same⟩ := split_follows (op := .add) (g := fun x y => x + y) (fun _ _ => rfl) fx fy fd (by simp)
  refine ⟨d, e, ?_, ?_, same, ?_, ?_⟩
  · exact congrArg (fun r => (r, s)) g1
  · refine (evalBind_eq_ok.mpr ⟨x, s, congrArg (fun r => (r, s)) g2, evalBind_eq_ok.mpr ⟨y, s, congrArg (fun r => (r, s)) g3, ?_⟩⟩)
    exact congrArg (fun r => (r, s)) g4
  · rw [average_mean d fd.pos, average_mean e ne, hmean]
  · intro v
    rw [countOf_getResultMap, countOf_getResultMap, binop_E g4 fx.plain.proper fx.plain.untied fy.plain.untied]
    obtain ⟨d', k1, _, k3, _⟩ := diceDist_spec t (by omega)
    obtain ⟨x', l1, _, l3, _⟩ := diceDist_spec a hn
    obtain ⟨y', m1, _, m3, _⟩ := diceDist_spec b hm
    rw [g1] at k1; cases k1
    rw [g2] at l1; cases l1
    rw [g3] at m1; cases m1
    rw [k3, l3, ha1, ht2, ← sum_tuples_add]
    simp only [m3, hb1]
    simp [BinOp.apply, onOk]

/-- C57: keeping the highest of `n + m` dice is the maximum of the highest of `n` and the highest of `m`. -/
theorem C57_keep_max (table : List (Int × Nat)) (hw : 0 < (table.map Prod.snd).sum) (n m : Nat) (hn : 1 ≤ n) (hm : 1 ≤ m)
    (t a b : DropKeepTerm) (ht : t.Is true table (n + m) 1) (ha : a.Is true table n 1) (hb : b.Is true table m 1) (s : State) :
    ∃ d e, (Expr.dropKeep t).dist s = (.ok d, s) ∧ (Expr.minmax true (.dropKeep a) (.dropKeep b)).dist s = (.ok e, s) ∧
      SameChances d e ∧ d.average = e.average := by
  obtain ⟨ht1, ht2, rfl, ht4, ht5⟩ := ht
  obtain ⟨ha1, ha2, ha3, rfl, ha5⟩ := ha
  obtain ⟨hb1, hb2, hb3, rfl, hb5⟩ := hb
  obtain ⟨d, g1, fd⟩ := dropKeep_follows t ⟨ht1, by omega, hw⟩
  obtain ⟨x, g2, fx⟩ := dropKeep_follows a ⟨ha1, hn, by rw [ha3]; exact hw⟩
  obtain ⟨y, g3, fy⟩ := dropKeep_follows b ⟨hb1, hm, by rw [hb3]; exact hw⟩
  rw [ht4] at fd
  rw [ha3] at fx
  rw [hb3] at fy
  obtain ⟨e, g4, pe, ne, hmean, same⟩ := split_follows (op := .max) (g := fun x y => if y > x then y else x) (fun _ _ => rfl) fx fy fd
    (by
      intro l k hl hk
      simp only [DropKeepTerm.result, ht2, ha2, hb2, ht5, ha5, hb5, if_true]
      exact highest_append (by rintro rfl; simp at hl; omega) (by rintro rfl; simp at hk; omega))
  refine ⟨d, e, congrArg (fun r => (r, s)) g1, ?_, same, ?_⟩
  · refine (evalBind_eq_ok.mpr ⟨x, s, congrArg (fun r => (r, s)) g2, evalBind_eq_ok.mpr ⟨y, s, congrArg (fun r => (r, s)) g3, ?_⟩⟩)
    exact congrArg (fun r => (r, s)) g4
  · rw [average_mean d fd.pos, average_mean e ne, hmean]

/-- C57: dropping all but the lowest of `n + m` dice is the minimum of the lowest of `n` and the lowest of `m`. -/
theorem C57_drop_min (table : List (Int × Nat)) (hw : 0 < (table.map Prod.snd).sum) (n m : Nat) (hn : 1 ≤ n) (hm : 1 ≤ m)
    (t a b : DropKeepTerm) (ht : t.Is false table (n + m) (n + m - 1)) (ha : a.Is false table n (n - 1))
    (hb : b.Is false table m (m - 1)) (s : State) :
    ∃ d e, (Expr.dropKeep t).dist s = (.ok d, s) ∧ (Expr.minmax false (.dropKeep a) (.dropKeep b)).dist s = (.ok e, s) ∧
      SameChances d e ∧ d.average = e.average := by
  obtain ⟨ht1, ht2, rfl, ht4, ht5⟩ := ht
  obtain ⟨ha1, ha2, ha3, rfl, ha5⟩ := ha
  obtain ⟨hb1, hb2, hb3, rfl, hb5⟩ := hb
  obtain ⟨d, g1, fd⟩ := dropKeep_follows t ⟨ht1, by omega, hw⟩
  obtain ⟨x, g2, fx⟩ := dropKeep_follows a ⟨ha1, hn, by rw [ha3]; exact hw⟩
  obtain ⟨y, g3, fy⟩ := dropKeep_follows b ⟨hb1, hm, by rw [hb3]; exact hw⟩
  rw [ht4] at fd
  rw [ha3] at fx
  rw [hb3] at fy
  obtain ⟨e, g4, pe, ne, hmean, same⟩ := split_follows (op := .min) (g := fun x y => if y < x then y else x) (fun _ _ => rfl) fx fy fd
    (by
      intro l k hl hk
      simp only [DropKeepTerm.result, ht2, ha2, hb2, Bool.false_eq_true, if_false]
      rw [show t.number - t.count = 1 by omega, show a.number - a.count = 1 by omega, show b.number - b.count = 1 by omega]
      exact lowest_append (by rintro rfl; simp at hl; omega) (by rintro rfl; simp at hk; omega))
  refine ⟨d, e, congrArg (fun r => (r, s)) g1, ?_, same, ?_⟩
  · refine (evalBind_eq_ok.mpr ⟨x, s, congrArg (fun r => (r, s)) g2, evalBind_eq_ok.mpr ⟨y, s, congrArg (fun r => (r, s)) g3, ?_⟩⟩)
    exact congrArg (fun r => (r, s)) g4
  · rw [average_mean d fd.pos, average_mean e ne, hmean]

/-- C57: the average of `n` dice is `n` times the mean face. -/
theorem C57_average (t : DiceTerm) (hn : 1 ≤ t.number) (hw : 0 < (t.table.map Prod.snd).sum) :
    ∃ d, t.dist = .ok d ∧ d.average = .ok (t.number * ((((facesOf t.table).sum : Int) : ℚ) / ((facesOf t.table).length : ℚ))) := by
  obtain ⟨d, g1, fd⟩ := dice_follows t ⟨hn, hw⟩
  refine ⟨d, g1, ?_⟩
  rw [fd.average, avg_sum _ (facesOf_ne_nil hw)]
  unfold avg
  congr 3
  generalize facesOf t.table = l
  induction l with
  | nil => simp
  | cons x l ih => simp [ih]

/-- C57: `ndS` with a plain number of sides has the average `n (S + 1) / 2`. -/
theorem C57_average_ordinary (ds : Str) (h : ds ≠ [] ∧ ∀ c ∈ ds, isDigit c = true) (hpos : 1 ≤ natOf ds) (t : DiceTerm)
    (ht : singleDiceMap ds = .ok t.table) (hn : 1 ≤ t.number) :
    ∃ d, t.dist = .ok d ∧ d.average = .ok (t.number * ((natOf ds + 1 : ℚ) / 2)) := by
  obtain ⟨table, hw, hmir⟩ : ∃ _ : t.table = ones (pyRange 1 ((natOf ds : Int) + 1)), 0 < (t.table.map Prod.snd).sum ∧
      Mirrored t.table ((natOf ds : Int) + 1) := by
    have hm : Re.isMatch (Re.plus Re.digit) ds = true :=
      (Re.isMatch_iff (by simp [Re.Plain, Re.plus, Re.digit]) _).mpr
        ⟨ds, [], by simp, (Re.lang_plus_digit _).mpr ((isDigits_iff _).mpr h)⟩
    have ht' : singleDiceMap ds = .ok (ones (pyRange 1 ((natOf ds : Int) + 1))) := by
      unfold singleDiceMap
      rw [if_pos hm, pyInt_digits ((isDigits_iff _).mpr h)]
      rfl
    rw [ht] at ht'
    have hte := Except.ok.inj ht'
    refine ⟨hte, ?_, ?_⟩
    · rw [hte, ← length_facesOf, facesOf_ones]
      unfold pyRange
      simp
      omega
    · rw [hte]; exact mirrored_ordinary _
  obtain ⟨d, g1, fd⟩ := dice_follows t ⟨hn, hw⟩
  refine ⟨d, g1, ?_⟩
  rw [fd.average, avg_sum _ (facesOf_ne_nil hw), mirrored_mean hw hmir]
  push_cast
  rfl

/-- C57: what is kept and what is dropped add up: the average of `ndSkK`, which keeps the `K` highest, and the average
    of `ndSdK`, which drops them, sum to the average of `ndS`. -/
theorem C57_keep_plus_drop (table : List (Int × Nat)) (hw : 0 < (table.map Prod.snd).sum) (n k : Nat) (hn : 1 ≤ n)
    (t : DiceTerm) (a b : DropKeepTerm) (ht : t.Is table n) (ha : a.Is true table n k) (hb : b.Is false table n k) :
    ∃ d x y p q, t.dist = .ok d ∧ a.dist = .ok x ∧ b.dist = .ok y ∧ x.average = .ok p ∧ y.average = .ok q ∧
      d.average = .ok (p + q) := by
  obtain ⟨rfl, rfl⟩ := ht
  obtain ⟨ha1, ha2, ha3, ha4, ha5⟩ := ha
  obtain ⟨hb1, hb2, hb3, hb4, hb5⟩ := hb
  obtain ⟨d, g1, fd⟩ := dice_follows t ⟨hn, hw⟩
  obtain ⟨x, g2, fx⟩ := dropKeep_follows a ⟨ha1, by omega, by rw [ha3]; exact hw⟩
  obtain ⟨y, g3, fy⟩ := dropKeep_follows b ⟨hb1, by omega, by rw [hb3]; exact hw⟩
  rw [ha3, ha4] at fx
  rw [hb3, hb4] at fy
  refine ⟨d, x, y, _, _, g1, g2, g3, fx.average, fy.average, ?_⟩
  rw [fd.average, ← avg_add]
  congr 1
  apply avg_congr
  intro l hl
  have hlen := ((mem_tuples _ _ _).mp hl).1
  have := sum_keep_drop k l
  rw [hlen] at this
  rw [← this]
  simp only [DropKeepTerm.result, ha2, hb2, ha5, hb5, hb4, if_true, Bool.false_eq_true, if_false]
  push_cast
  rfl

/-- C57: symmetric dice have symmetric sums: reaching `v` is as likely as reaching `n c - v`. -/
theorem C57_mirror_dice (t : DiceTerm) (hn : 1 ≤ t.number) (hw : 0 < (t.table.map Prod.snd).sum) (c : Int)
    (hc : Mirrored t.table c) : ∃ d, t.dist = .ok d ∧ (∀ P, probOf d P = probOf d (fun v => P (t.number * c - v))) ∧
      d.average = .ok (t.number * ((c : ℚ) / 2)) := by
  obtain ⟨d, g1, fd⟩ := dice_follows t ⟨hn, hw⟩
  refine ⟨d, g1, fun P => mirror_follows hc fd fd (fun l hl => by rw [sum_mirror, hl]) P, ?_⟩
  rw [fd.average, avg_sum _ (facesOf_ne_nil hw), mirrored_mean hw hc]

/-- C57: for symmetric dice, keeping the `k` highest is the mirror image of keeping the `k` lowest, that is of dropping the
    other `n - k` highest. -/
theorem C57_mirror_keep_drop (table : List (Int × Nat)) (hw : 0 < (table.map Prod.snd).sum) (c : Int) (hc : Mirrored table c)
    (n k : Nat) (hn : 1 ≤ n) (hk : k ≤ n) (a b : DropKeepTerm) (ha : a.Is true table n k) (hb : b.Is false table n (n - k)) :
    ∃ x y, a.dist = .ok x ∧ b.dist = .ok y ∧ ∀ P, probOf x P = probOf y (fun v => P (k * c - v)) := by
  obtain ⟨ha1, ha2, rfl, rfl, rfl⟩ := ha
  obtain ⟨hb1, hb2, hb3, hb4, hb5⟩ := hb
  obtain ⟨x, g2, fx⟩ := dropKeep_follows a ⟨ha1, hn, hw⟩
  obtain ⟨y, g3, fy⟩ := dropKeep_follows b ⟨hb1, by omega, by rw [hb3]; exact hw⟩
  rw [hb3, hb4] at fy
  refine ⟨x, y, g2, g3, fun P => mirror_follows hc fx fy ?_ P⟩
  intro l hl
  simp only [DropKeepTerm.result, ha2, hb2, if_true, Bool.false_eq_true, if_false]
  rw [highest_mirror c a.count l (by omega), show b.number - b.count = a.count by omega]

/-- C57: more dice to choose the highest from help, -/
theorem C57_more_dice_keep (table : List (Int × Nat)) (hw : 0 < (table.map Prod.snd).sum) (n m k : Nat) (hn : 1 ≤ n)
    (hnm : n ≤ m) (hk : k ≤ n) (a b : DropKeepTerm) (ha : a.Is true table n k) (hb : b.Is true table m k) :
    ∃ x y, a.dist = .ok x ∧ b.dist = .ok y ∧ Dominates x y := by
  obtain ⟨ha1, ha2, rfl, rfl, rfl⟩ := ha
  obtain ⟨hb1, hb2, hb3, rfl, hb5⟩ := hb
  obtain ⟨x, g2, fx⟩ := dropKeep_follows a ⟨ha1, hn, hw⟩
  obtain ⟨y, g3, fy⟩ := dropKeep_follows b ⟨hb1, by omega, by rw [hb3]; exact hw⟩
  have fx' := fx.extend hw (b.number - a.number)
  rw [show a.number + (b.number - a.number) = b.number by omega] at fx'
  rw [hb3] at fy
  refine ⟨x, y, g2, g3, atLeastAsGood_of_le fx' fy ?_⟩
  intro l hl
  have hlen := ((mem_tuples _ _ _).mp hl).1
  simp only [DropKeepTerm.result, ha2, hb2, hb5, if_true]
  have := highest_more a.count (l.take a.number) (by rw [List.length_take]; omega) (l.drop a.number)
  rwa [List.take_append_drop] at this

/-- C57: ... and more dice to choose the lowest from harm. -/
theorem C57_more_dice_drop (table : List (Int × Nat)) (hw : 0 < (table.map Prod.snd).sum) (n m k : Nat) (hn : 1 ≤ n)
    (hnm : n ≤ m) (hk : k ≤ n) (a b : DropKeepTerm) (ha : a.Is false table n (n - k)) (hb : b.Is false table m (m - k)) :
    ∃ x y, a.dist = .ok x ∧ b.dist = .ok y ∧ Dominates y x := by
  obtain ⟨ha1, ha2, rfl, rfl, ha5⟩ := ha
  obtain ⟨hb1, hb2, hb3, rfl, hb5⟩ := hb
  obtain ⟨x, g2, fx⟩ := dropKeep_follows a ⟨ha1, hn, hw⟩
  obtain ⟨y, g3, fy⟩ := dropKeep_follows b ⟨hb1, by omega, by rw [hb3]; exact hw⟩
  have fx' := fx.extend hw (b.number - a.number)
  rw [show a.number + (b.number - a.number) = b.number by omega] at fx'
  rw [hb3] at fy
  refine ⟨x, y, g2, g3, atLeastAsGood_of_le fy fx' ?_⟩
  intro l hl
  have hlen := ((mem_tuples _ _ _).mp hl).1
  simp only [DropKeepTerm.result, ha2, hb2, Bool.false_eq_true, if_false]
  rw [show a.number - a.count = k by omega, show b.number - b.count = k by omega]
  have := lowest_more k (l.take a.number) (by rw [List.length_take]; omega) (l.drop a.number)
  rwa [List.take_append_drop] at this

/-- C57: keeping the `k` highest is at least as good as keeping the `k` lowest. -/
theorem C57_keep_beats_drop (table : List (Int × Nat)) (hw : 0 < (table.map Prod.snd).sum) (n k : Nat) (hn : 1 ≤ n)
    (hk : k ≤ n) (a b : DropKeepTerm) (ha : a.Is true table n k) (hb : b.Is false table n (n - k)) :
    ∃ x y, a.dist = .ok x ∧ b.dist = .ok y ∧ Dominates y x := by
  obtain ⟨ha1, ha2, rfl, rfl, rfl⟩ := ha
  obtain ⟨hb1, hb2, hb3, hb4, hb5⟩ := hb
  obtain ⟨x, g2, fx⟩ := dropKeep_follows a ⟨ha1, hn, hw⟩
  obtain ⟨y, g3, fy⟩ := dropKeep_follows b ⟨hb1, by omega, by rw [hb3]; exact hw⟩
  rw [hb3, hb4] at fy
  refine ⟨x, y, g2, g3, atLeastAsGood_of_le fy fx ?_⟩
  intro l hl
  have hlen := ((mem_tuples _ _ _).mp hl).1
  simp only [DropKeepTerm.result, ha2, hb2, if_true, Bool.false_eq_true, if_false]
  rw [show b.number - b.count = a.count by omega]
  exact lowest_le_highest _ _ (by omega)

/-- C57: when no face is negative, keeping more dice helps and dropping more dice harms. -/
theorem C57_keep_more (table : List (Int × Nat)) (hw : 0 < (table.map Prod.snd).sum) (hpos : ∀ p ∈ table, 0 ≤ p.1) (keep : Bool)
    (n k k' : Nat) (hn : 1 ≤ n) (hk : k ≤ k') (a b : DropKeepTerm) (ha : a.Is keep table n k) (hb : b.Is keep table n k') :
    ∃ x y, a.dist = .ok x ∧ b.dist = .ok y ∧ (keep = true → Dominates x y) ∧ (keep = false → Dominates y x) := by
  obtain ⟨ha1, ha2, rfl, rfl, rfl⟩ := ha
  obtain ⟨hb1, hb2, hb3, hb4, rfl⟩ := hb
  obtain ⟨x, g2, fx⟩ := dropKeep_follows a ⟨ha1, hn, hw⟩
  obtain ⟨y, g3, fy⟩ := dropKeep_follows b ⟨hb1, by omega, by rw [hb3]; exact hw⟩
  rw [hb3, hb4] at fy
  have hnn : ∀ l ∈ tuples (facesOf a.table) a.number, ∀ v ∈ l, 0 ≤ v := by
    intro l hl v hv
    obtain ⟨p, hp, rfl, _⟩ := (mem_facesOf _ _).mp (((mem_tuples _ _ _).mp hl).2 v hv)
    exact hpos p hp
  refine ⟨x, y, g2, g3, ?_, ?_⟩
  · rintro rfl
    refine atLeastAsGood_of_le fx fy (fun l hl => ?_)
    simp only [DropKeepTerm.result, ha2, hb2, if_true]
    exact highest_mono (hnn l hl) hk
  · rintro rfl
    refine atLeastAsGood_of_le fy fx (fun l hl => ?_)
    simp only [DropKeepTerm.result, ha2, hb2, Bool.false_eq_true, if_false]
    exact lowest_mono (hnn l hl) (by omega)

end

/-! ### The hypotheses can be met -/

/-- `3d6` splits into `d6` and `2d6`. -/
example : ∃ t a b, mkDice "3d6".toList = .ok t ∧ mkDice "d6".toList = .ok a ∧ mkDice "2d6".toList = .ok b ∧
    t.Is (ones (pyRange 1 7)) (1 + 2) ∧ a.Is (ones (pyRange 1 7)) 1 ∧ b.Is (ones (pyRange 1 7)) 2 ∧
    0 < ((ones (pyRange 1 7)).map Prod.snd).sum := ⟨_, _, _, rfl, rfl, rfl, ⟨rfl, rfl⟩, ⟨rfl, rfl⟩, ⟨rfl, rfl⟩, by decide⟩

/-- `3d6k1`, `d6k1` and `2d6k1` are terms as C57_keep_max wants them, and `3d6d2`, `d6d0` and `2d6d1` as C57_drop_min does. -/
example : (∃ t a b, mkDropKeep "3d6k1".toList = .ok t ∧ mkDropKeep "d6k1".toList = .ok a ∧ mkDropKeep "2d6k1".toList = .ok b ∧
      t.Is true (ones (pyRange 1 7)) (1 + 2) 1 ∧ a.Is true (ones (pyRange 1 7)) 1 1 ∧ b.Is true (ones (pyRange 1 7)) 2 1) ∧
    ∃ t a b, mkDropKeep "3d6d2".toList = .ok t ∧ mkDropKeep "d6d0".toList = .ok a ∧ mkDropKeep "2d6d1".toList = .ok b ∧
      t.Is false (ones (pyRange 1 7)) (1 + 2) (1 + 2 - 1) ∧ a.Is false (ones (pyRange 1 7)) 1 (1 - 1) ∧
      b.Is false (ones (pyRange 1 7)) 2 (2 - 1) :=
  ⟨⟨_, _, _, rfl, rfl, rfl, ⟨⟨"3d6k1".toList, rfl⟩, rfl, rfl, rfl, rfl⟩, ⟨⟨"d6k1".toList, rfl⟩, rfl, rfl, rfl, rfl⟩,
      ⟨⟨"2d6k1".toList, rfl⟩, rfl, rfl, rfl, rfl⟩⟩,
   ⟨_, _, _, rfl, rfl, rfl, ⟨⟨"3d6d2".toList, rfl⟩, rfl, rfl, rfl, rfl⟩, ⟨⟨"d6d0".toList, rfl⟩, rfl, rfl, rfl, rfl⟩,
      ⟨⟨"2d6d1".toList, rfl⟩, rfl, rfl, rfl, rfl⟩⟩⟩

/-- Ordinary dice and fate dice are symmetric; a die with two ones and a two is not. -/
example : Mirrored (ones (pyRange 1 7)) 7 ∧ Mirrored [(-1, 1), (0, 1), (1, 1)] 0 ∧ ¬ Mirrored [(1, 2), (2, 1)] 3 := by
  refine ⟨mirrored_ordinary 6, ?_, fun h => by simpa [facesOf] using h 1⟩
  intro v
  simp only [facesOf, List.flatMap_cons, List.flatMap_nil, List.replicate_one, List.append_nil, List.singleton_append,
    List.count_cons, List.count_nil, beq_iff_eq]
  grind

end PyDice
