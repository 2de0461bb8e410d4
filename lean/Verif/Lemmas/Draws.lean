import Verif.Spec.Draws
import Verif.Lemmas.RandF
import Verif.Interp
/-!
# Programs rolled in floats
-/

namespace PyDice

/-! ### Trees -/

theorem expect_unit {α : Type} {f : α → ℚ} (hf : ∀ a, 0 ≤ f a ∧ f a ≤ 1) {W D : Nat} {r : Rand α} (h : r.Draws W D) :
    0 ≤ r.expect f ∧ r.expect f ≤ 1 := by
  induction h with
  | pure D a => exact hf a
  | draw D n k hn _ _ ih =>
    have hq : (0 : ℚ) < n := by exact_mod_cast hn
    have hs : ∀ l : List Nat, (∀ x ∈ l, x < n) → 0 ≤ (l.map fun t => (k t).expect f).sum ∧ (l.map fun t => (k t).expect f).sum ≤ l.length := by
      intro l hl
      induction l with
      | nil => simp
      | cons x l ihl =>
        have h1 := ih x (hl x List.mem_cons_self)
        have h2 := ihl (fun y hy => hl y (List.mem_cons_of_mem _ hy))
        simp only [List.map_cons, List.sum_cons, List.length_cons]
        push_cast
        constructor <;> linarith [h1.1, h1.2, h2.1, h2.2]
    have := hs (List.range n) (fun x hx => List.mem_range.mp hx)
    rw [List.length_range] at this
    show 0 ≤ ((List.range n).map fun t => (k t).expect f).sum / n ∧ ((List.range n).map fun t => (k t).expect f).sum / n ≤ 1
    exact ⟨div_nonneg this.1 hq.le, (div_le_one hq).mpr this.2⟩

theorem mean_diff (l : List Nat) (M c : ℚ) (hM : (l.length : ℚ) = M) (hM0 : 0 < M) (G H : Nat → ℚ) (h : ∀ j ∈ l, |G j - H j| ≤ c) :
    |(l.map G).sum / M - (l.map H).sum / M| ≤ c := by
  have hs : ∀ l : List Nat, (∀ j ∈ l, |G j - H j| ≤ c) → |(l.map G).sum - (l.map H).sum| ≤ (l.length : ℚ) * c := by
    intro l hl
    induction l with
    | nil => simp
    | cons x l ih =>
      have h1 := hl x List.mem_cons_self
      have h2 := ih (fun y hy => hl y (List.mem_cons_of_mem _ hy))
      simp only [List.map_cons, List.sum_cons, List.length_cons]
      push_cast
      rw [show G x + (l.map G).sum - (H x + (l.map H).sum) = (G x - H x) + ((l.map G).sum - (l.map H).sum) by ring, add_mul]
      linarith [abs_add_le (G x - H x) ((l.map G).sum - (l.map H).sum)]
  rw [← sub_div, abs_div, abs_of_pos hM0, div_le_iff₀ hM0, mul_comm c, ← hM]
  exact hs l h

/-- In floats the expected value of a quantity between 0 and 1 changes by at most `D * W / 2 ** 53`. -/
theorem floats_near {α : Type} {f : α → ℚ} (hf : ∀ a, 0 ≤ f a ∧ f a ≤ 1) {W : Nat} (hW : W ≤ 2 ^ 53) {D : Nat} {r : Rand α}
    (h : r.Draws W D) : |r.floats.expect f - r.expect f| ≤ (D : ℚ) * W / 2 ^ 53 := by
  induction h with
  | pure D a =>
    show |f a - f a| ≤ _
    rw [sub_self, abs_zero]
    positivity
  | draw D n k hn hnW hk ih =>
    have hn53 := hnW.trans hW
    have h1 := draw_near hn53 hn (fun x => (k x).expect f) (fun x hx => expect_unit hf (hk x hx))
    have h2 := mean_diff (List.range (2 ^ 53)) (2 ^ 53) ((D : ℚ) * W / 2 ^ 53) (by rw [List.length_range]; exact_mod_cast rfl)
      (by positivity) (fun j => (k ⌊scaledFloat n j⌋.toNat).floats.expect f) (fun j => (k ⌊scaledFloat n j⌋.toNat).expect f)
      (fun j hj => ih _ (drawn_lt hn53 hn (List.mem_range.mp hj)))
    have hM : (((2 ^ 53 : Nat)) : ℚ) = 2 ^ 53 := by exact_mod_cast rfl
    show |((List.range (2 ^ 53)).map fun j => (k ⌊scaledFloat n j⌋.toNat).floats.expect f).sum / ((2 ^ 53 : Nat) : ℚ) -
      ((List.range n).map fun t => (k t).expect f).sum / (n : ℚ)| ≤ _
    rw [hM]
    have h3 : (n : ℚ) * (1 / 2 ^ 53) ≤ (W : ℚ) * (1 / 2 ^ 53) :=
      mul_le_mul_of_nonneg_right (by exact_mod_cast hnW) (by positivity)
    have e : ((D + 1 : Nat) : ℚ) * W / 2 ^ 53 = (D : ℚ) * W / 2 ^ 53 + (W : ℚ) * (1 / 2 ^ 53) := by push_cast; ring
    rw [e]
    generalize ((List.range (2 ^ 53)).map fun j => (k ⌊scaledFloat n j⌋.toNat).floats.expect f).sum / 2 ^ 53 = A at *
    generalize ((List.range (2 ^ 53)).map fun j => (k ⌊scaledFloat n j⌋.toNat).expect f).sum / 2 ^ 53 = B at *
    have := abs_sub_le A B (((List.range n).map fun t => (k t).expect f).sum / (n : ℚ))
    linarith

/-- In floats nothing happens that could not happen with uniform draws. -/
theorem possible_of_floats {α : Type} {a : α} {W : Nat} (hW : W ≤ 2 ^ 53) {D : Nat} {r : Rand α} (h : r.Draws W D)
    (hp : Rand.Possible a r.floats) : Rand.Possible a r := by
  induction h with
  | pure D b => exact hp
  | draw D n k hn hnW _ ih =>
    cases hp with
    | draw j hj hp => exact .draw _ (drawn_lt (hnW.trans hW) hn hj) (ih _ (drawn_lt (hnW.trans hW) hn hj) hp)

/-- Every number below `n` is drawn for some value of `random()`. -/
theorem drawn_surjective {n x : Nat} (hn : n < 2 ^ 52) (hx : x < n) : ∃ j < 2 ^ 53, ⌊scaledFloat n j⌋.toNat = x := by
  have hn0 : 0 < n := by omega
  have h := between_near (n := n) (by omega) hn0 (Nat.le_succ x) hx
  by_contra hno
  push Not at hno
  have hz : (List.range (2 ^ 53)).countP (fun j => decide (x ≤ ⌊scaledFloat n j⌋.toNat ∧ ⌊scaledFloat n j⌋.toNat < x.succ)) = 0 := by
    rw [List.countP_eq_zero]
    intro j hj
    have := hno j (List.mem_range.mp hj)
    generalize ⌊scaledFloat n j⌋.toNat = y at this
    rw [decide_eq_true_eq]
    omega
  rw [hz, show ((x.succ : ℚ) - x) = 1 by push_cast; ring, Nat.cast_zero, zero_div, zero_sub, abs_neg, abs_of_nonneg (by positivity)] at h
  have hq : (0 : ℚ) < n := by exact_mod_cast hn0
  have h2 : (n : ℚ) < 2 ^ 52 := by exact_mod_cast hn
  have h3 : (1 : ℚ) / 2 ^ 52 < 1 / n := one_div_lt_one_div_of_lt hq h2
  linarith

/-- In floats everything happens that can happen with uniform draws. -/
theorem floats_of_possible {α : Type} {a : α} {W : Nat} (hW : W < 2 ^ 52) {D : Nat} {r : Rand α} (h : r.Draws W D)
    (hp : Rand.Possible a r) : Rand.Possible a r.floats := by
  induction h with
  | pure D b => exact hp
  | draw D n k hn hnW _ ih =>
    cases hp with
    | draw x hx hp =>
      obtain ⟨j, hj, rfl⟩ := drawn_surjective (lt_of_le_of_lt hnW hW) hx
      exact .draw j hj (ih _ hx hp)

/-! ### One die -/

theorem getElem_faces (before after : List (Int × Nat)) (v : Int) (w x : Nat) (hv : ∀ p ∈ before ++ after, p.1 ≠ v) :
    (facesOf (before ++ (v, w) :: after))[x]? = some v ↔ (before.map Prod.snd).sum ≤ x ∧ x < (before.map Prod.snd).sum + w := by
  have hf : facesOf (before ++ (v, w) :: after) = facesOf before ++ (List.replicate w v ++ facesOf after) := by simp [facesOf]
  have hno : ∀ l : List (Int × Nat), (∀ p ∈ l, p.1 ≠ v) → v ∉ facesOf l := by
    intro l hl hm
    obtain ⟨p, hp, h1, _⟩ := (mem_facesOf l v).mp hm
    exact hl p hp h1
  rw [hf]
  by_cases h1 : x < (before.map Prod.snd).sum
  · rw [List.getElem?_append_left (by rw [length_facesOf]; exact h1)]
    constructor
    · intro h
      exact absurd (List.mem_of_getElem? h) (hno before fun p hp => hv p (List.mem_append_left _ hp))
    · rintro ⟨h2, _⟩; omega
  · rw [List.getElem?_append_right (by rw [length_facesOf]; omega), length_facesOf]
    by_cases h2 : x - (before.map Prod.snd).sum < w
    · rw [List.getElem?_append_left (by simpa using h2), List.getElem?_replicate, if_pos h2]
      simp only [true_iff]
      omega
    · rw [List.getElem?_append_right (by simpa using h2)]
      constructor
      · intro h
        exact absurd (List.mem_of_getElem? h) (hno after fun p hp => hv p (List.mem_append_right _ hp))
      · rintro ⟨_, h3⟩; omega

theorem draw_prob {α : Type} (M : Nat) (g : Nat → α) (P : α → Bool) :
    (Rand.draw M fun j => .pure (g j)).prob P = ((List.range M).countP (fun j => P (g j)) : ℚ) / (M : ℚ) := by
  show ((List.range M).map fun j => if P (g j) then (1 : ℚ) else 0).sum / (M : ℚ) = _
  congr 1
  generalize List.range M = l
  induction l with
  | nil => rfl
  | cons j l ih =>
    rw [List.map_cons, List.sum_cons, ih, List.countP_cons]
    split <;> (push_cast; ring)

/-- Of one draw in floats, the probability as a count. -/
theorem one_draw {α : Type} (n : Nat) (g : Nat → α) (P : α → Bool) :
    (Rand.floats (.draw n fun x => .pure (g x))).prob P =
      ((List.range (2 ^ 53)).countP (fun j => P (g ⌊scaledFloat n j⌋.toNat)) : ℚ) / 2 ^ 53 := by
  have hM : (((2 ^ 53 : Nat)) : ℚ) = 2 ^ 53 := by exact_mod_cast rfl
  rw [Rand.floats]
  simp only [Rand.floats]
  rw [draw_prob, hM]

/-! ### What draws how often -/

theorem Rand.Draws.mono {α : Type} {W D : Nat} {r : Rand α} (h : r.Draws W D) : ∀ {E : Nat}, D ≤ E → r.Draws W E := by
  induction h with
  | pure D a => exact fun _ => .pure _ a
  | draw D n k hn hW _ ih =>
    intro E hE
    obtain ⟨E, rfl⟩ : ∃ F, E = F + 1 := ⟨E - 1, by omega⟩
    exact .draw E n k hn hW fun x hx => ih x hx (by omega)

theorem Rand.Draws.bind {α β : Type} {W D E : Nat} {r : Rand α} {f : α → Rand β} (h : r.Draws W D) (hf : ∀ a, (f a).Draws W E) :
    (r.bind f).Draws W (D + E) := by
  induction h with
  | pure D a => exact (hf a).mono (by omega)
  | draw D n k hn hW _ ih =>
    rw [show D + 1 + E = D + E + 1 by omega]
    exact .draw _ n _ hn hW ih

theorem draws_chooseMany {W total : Nat} (population : List Int) (cum : List Nat) (h0 : 0 < total) (hW : total ≤ W) : ∀ k,
    (chooseMany population cum total k).Draws W k
  | 0 => .pure _ _
  | k + 1 => by
    refine .draw k total _ h0 hW fun x _ => ?_
    cases choose population cum x with
    | error e => exact .pure _ _
    | ok v =>
      refine (Rand.Draws.bind (E := 0) (draws_chooseMany population cum h0 hW k) fun r => ?_).mono (by omega)
      cases r <;> exact .pure _ _

theorem draws_choices {W : Nat} (table : List (Int × Nat)) (hW : weightSum table ≤ W) (k : Nat) : (choices table k).Draws W k := by
  unfold choices
  by_cases hnil : table = []
  · subst hnil
    exact .pure _ _
  · have hl := accumulate_getLast 0 (table.map Prod.snd) (by simpa using hnil)
    simp only [hl, Nat.zero_add]
    split
    · exact .pure _ _
    · rename_i h
      exact draws_chooseMany _ _ (Nat.pos_of_ne_zero h) hW k

theorem draws_dice {W : Nat} (t : DiceTerm) (hW : weightSum t.table ≤ W) : t.roll.Draws W t.number := by
  refine (Rand.Draws.bind (E := 0) (draws_choices t.table hW t.number) fun r => ?_).mono (by omega)
  cases r <;> exact .pure _ _

section
variable [R : PyRuntime]

/-- A method that draws at most `D` times, from any state. -/
def RollDraws {α : Type} (W D : Nat) (m : RollM α) : Prop := ∀ s, (m s).Draws W D

theorem RollDraws.bind {α β : Type} {W D E : Nat} {m : RollM α} {f : α → RollM β} (h : RollDraws W D m) (hf : ∀ a, RollDraws W E (f a)) :
    RollDraws W (D + E) (m >>= f) := by
  intro s
  refine Rand.Draws.bind (h s) fun r => ?_
  obtain ⟨r, s'⟩ := r
  cases r with
  | ok a => exact hf a s'
  | error e => exact .pure _ _

theorem RollDraws.pure {α : Type} {W : Nat} (D : Nat) (a : α) : RollDraws W D (Pure.pure a : RollM α) := fun _ => .pure _ _

theorem RollDraws.ofEval {α : Type} {W : Nat} (D : Nat) (m : EvalM α) : RollDraws W D (RollM.ofEval m) := fun _ => .pure _ _

theorem RollDraws.ofRand {α : Type} {W D : Nat} {r : Rand (Res α)} (h : r.Draws W D) : RollDraws W D (RollM.ofRand r) := fun _ =>
  Rand.Draws.bind (E := 0) h fun _ => .pure _ _

theorem RollDraws.two {W D E : Nat} {m n : RollM Int} {g : Int → Int → Int} (h : RollDraws W D m) (h' : RollDraws W E n) :
    RollDraws W (D + E) (do let x ← m; let y ← n; return g x y) :=
  h.bind fun _ => RollDraws.bind (E := 0) h' fun _ => .pure _ _

theorem RollDraws.one {W D : Nat} {m : RollM Int} {g : Int → Int} (h : RollDraws W D m) : RollDraws W D (do return g (← m)) :=
  RollDraws.bind (E := 0) h fun _ => .pure _ _

theorem draws_expr {W : Nat} : ∀ e : Expr, e.WeightsWithin W → RollDraws W e.diceRolled e.roll
  | .paren e, h => draws_expr e h
  | .not e, h => (draws_expr e h).one (g := fun x => if x ≠ 0 then 0 else 1)
  | .dropKeep t, h => by
    refine RollDraws.ofRand ?_
    unfold Expr.WeightsWithin at h
    unfold DropKeepTerm.roll Expr.diceRolled
    cases hs : t.simplified with
    | dice d => rw [hs] at h; exact draws_dice d h
    | zero => exact .pure _ _
    | none =>
      rw [hs] at h
      refine (Rand.Draws.bind (E := 0) (draws_choices t.table h t.number) fun r => ?_).mono (by simp)
      cases r <;> exact .pure _ _
  | .dice t, h => RollDraws.ofRand (draws_dice t h)
  | .constInt _, _ => .ofEval _ _
  | .constBin _, _ => .pure _ _
  | .add a b, h => (draws_expr a h.1).two (draws_expr b h.2)
  | .sub a b, h => (draws_expr a h.1).two (draws_expr b h.2)
  | .mul a b, h => (draws_expr a h.1).two (draws_expr b h.2)
  | .div a b, h => by
    show RollDraws W (a.diceRolled + b.diceRolled) _
    rw [add_comm]
    refine (draws_expr b h.2).bind fun y => ?_
    by_cases hy : y = 0
    · rw [if_pos hy]; exact .ofEval _ _
    · rw [if_neg hy]; exact (draws_expr a h.1).one (g := fun x => x.fdiv y)
  | .bin op a b, h => (draws_expr a h.1).two (draws_expr b h.2) (g := fun x y => if op.onInts x y then 1 else 0)
  | .minmax k a b, h => (draws_expr a h.1).two (draws_expr b h.2)
  | .abs e, h => (draws_expr e h).one
  | .assign name e, h => RollDraws.bind (E := 0) (draws_expr e h) fun _ => RollDraws.bind (D := 0) (E := 0) (.ofEval _ _) fun _ => .pure _ _
  | .getVar _, _ => .ofEval _ _

theorem draws_lines {W : Nat} (parse : Str → Res Expr) : ∀ (lines : List Str) (es : List Expr), lines.map parse = es.map .ok →
    (∀ e ∈ es, e.WeightsWithin W) → RollDraws W (es.map Expr.diceRolled).sum (rollLines parse lines)
  | [], es, _, _ => .pure _ _
  | l :: ls, [], h, _ => by simp at h
  | l :: ls, e :: es, h, hw => by
    simp only [List.map_cons, List.cons.injEq] at h
    refine RollDraws.bind (D := e.diceRolled) ?_ fun _ => draws_lines parse ls es h.2 fun x hx => hw x (List.mem_cons_of_mem _ hx)
    unfold rollLine
    have : RollDraws W (0 + (e.diceRolled + 0)) (do
        let e ← RollM.ofEval (EvalM.ofRes (parse l))
        let v ← e.roll
        fun s => .pure (.ok (), { s with constants := dictSet s.constants stdoutName v }) : RollM Unit) := by
      rw [h.1]
      intro s
      have h1 : RollDraws W (e.diceRolled + 0) (e.roll >>= fun v => (fun s => .pure (.ok (), { s with constants := dictSet s.constants stdoutName v }) : RollM Unit)) :=
        (draws_expr e (hw e List.mem_cons_self)).bind fun _ _ => .pure _ _
      exact (h1 s).mono (by omega)
    simpa using this

theorem draws_program {W : Nat} (parse : Str → Res Expr) (lines : List Str) (es : List Expr) (hp : lines.map parse = es.map .ok)
    (hw : ∀ e ∈ es, e.WeightsWithin W) : RollDraws W (es.map Expr.diceRolled).sum (interpRoll parse lines) :=
  RollDraws.bind (E := 0) (draws_lines parse lines es hp hw) fun _ _ => .pure _ _

end

end PyDice
