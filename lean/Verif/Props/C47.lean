import Verif.Lemmas.Draws
import Verif.Props.C46
/-!
# C47: rolling in floating point
-/

namespace PyDice
open PyRuntime

/-- `random.choices` in floats is the computation with uniform draws, each draw below `n` being `floor(random() * n)` in floats. -/
theorem C47_choices (table : List (Int × Nat)) (h : weightSum table ≤ 2 ^ 53) (k : Nat) : choicesF table k = (choices table k).floats := by
  unfold choicesF choices
  by_cases hnil : table = []
  · subst hnil
    rfl
  · have hl := accumulate_getLast 0 (table.map Prod.snd) (by simpa using hnil)
    simp only [hl, Nat.zero_add]
    have hd : toDouble (((table.map Prod.snd).sum : Nat) : ℚ) = ((table.map Prod.snd).sum : Nat) := by
      have := toDouble_int (n := (((table.map Prod.snd).sum : Nat) : ℤ)) (by rw [abs_of_nonneg (by positivity)]; exact_mod_cast h)
      exact_mod_cast this
    have hf : toFloat (((table.map Prod.snd).sum : Nat) : ℚ) = .ok (((table.map Prod.snd).sum : Nat) : ℚ) := by
      unfold toFloat
      rw [hd, if_neg]
      rw [not_le, abs_of_nonneg (by positivity), pow2_eq]
      calc (((table.map Prod.snd).sum : Nat) : ℚ) ≤ (2 : ℚ) ^ (53 : ℤ) := by exact_mod_cast h
        _ < (2 : ℚ) ^ (1024 : ℤ) := zpow_lt_zpow_right₀ (by norm_num) (by norm_num)
    rw [hf]
    simp only
    split
    · rfl
    · exact chooseManyF_floats _ _ _ _

/-- One die: the chance of a face is within `2 ** -52` of its weight divided by the sum of the weights. -/
theorem C47_face (before after : List (Int × Nat)) (v : Int) (w : Nat) (hv : ∀ p ∈ before ++ after, p.1 ≠ v)
    (h0 : 0 < weightSum (before ++ (v, w) :: after)) (h : weightSum (before ++ (v, w) :: after) ≤ 2 ^ 53) :
    |(choicesF (before ++ (v, w) :: after) 1).prob (fun r => decide (r = .ok [v])) - (w : ℚ) / weightSum (before ++ (v, w) :: after)| ≤
      1 / 2 ^ 52 := by
  set t := before ++ (v, w) :: after with ht
  have hsum : weightSum t = (before.map Prod.snd).sum + w + (after.map Prod.snd).sum := by
    rw [ht]; simp [weightSum]; omega
  rw [C47_choices t h, choices_eq t h0]
  have hone : chooseMany (t.map Prod.fst) (accumulate 0 (t.map Prod.snd)) (t.map Prod.snd).sum 1 =
      .draw (weightSum t) fun x => .pure (match choose (t.map Prod.fst) (accumulate 0 (t.map Prod.snd)) x with
        | .ok u => .ok [u]
        | .error e => .error e) := by
    rw [chooseMany]
    congr 1
    funext x
    cases choose (t.map Prod.fst) (accumulate 0 (t.map Prod.snd)) x <;> rfl
  rw [hone, one_draw]
  have hn := between_near h h0 (a := (before.map Prod.snd).sum) (b := (before.map Prod.snd).sum + w) (by omega) (by omega)
  rw [show (((before.map Prod.snd).sum + w : Nat) : ℚ) - ((before.map Prod.snd).sum : Nat) = w by push_cast; ring] at hn
  have hc : (List.range (2 ^ 53)).countP (fun j => decide ((match choose (t.map Prod.fst) (accumulate 0 (t.map Prod.snd))
        ⌊scaledFloat (weightSum t) j⌋.toNat with
        | .ok u => (.ok [u] : Res (List Int))
        | .error e => .error e) = .ok [v])) =
      (List.range (2 ^ 53)).countP (fun j => decide ((before.map Prod.snd).sum ≤ ⌊scaledFloat (weightSum t) j⌋.toNat ∧
        ⌊scaledFloat (weightSum t) j⌋.toNat < (before.map Prod.snd).sum + w)) := by
    apply List.countP_congr
    intro j hj
    rw [decide_eq_true_eq, decide_eq_true_eq]
    have hlt := drawn_lt h h0 (List.mem_range.mp hj)
    generalize ⌊scaledFloat (weightSum t) j⌋.toNat = x at hlt
    have hx : x < (facesOf t).length := by rw [length_facesOf]; exact hlt
    have hce := choose_eq t 0 x _ (List.getElem?_eq_getElem hx)
    rw [Nat.zero_add] at hce
    rw [hce, ← getElem_faces before after v w x hv, List.getElem?_eq_getElem hx]
    simp
  rw [hc]
  exact hn

/-- In floats a list of faces comes up for some draws exactly if every face in it has positive weight. -/
theorem C47_support (table : List (Int × Nat)) (h0 : 0 < weightSum table) (h : weightSum table < 2 ^ 52) (k : Nat) (r : Res (List Int)) :
    Rand.Possible r (choicesF table k) ↔ ∃ l, r = .ok l ∧ l.length = k ∧ ∀ v ∈ l, ∃ p ∈ table, p.1 = v ∧ 0 < p.2 := by
  have h53 : weightSum table ≤ 2 ^ 53 := by omega
  have hd : (choices table k).Draws (weightSum table) k := draws_choices table le_rfl k
  have hp := chooseMany_possible table k r
  rw [← choices_eq table h0] at hp
  rw [C47_choices table h53]
  constructor
  · intro hr
    obtain ⟨l, hl, rfl⟩ := hp.mp (possible_of_floats h53 hd hr)
    rw [mem_tuples] at hl
    exact ⟨l, rfl, hl.1, fun v hv => (mem_facesOf table v).mp (hl.2 v hv)⟩
  · rintro ⟨l, rfl, hl, hv⟩
    exact floats_of_possible h hd (hp.mpr ⟨l, (mem_tuples _ _ _).mpr ⟨hl, fun v hm => (mem_facesOf table v).mpr (hv v hm)⟩, rfl⟩)

section
variable [R : PyRuntime]

/-- Any program: in floats the probability of any event about what `roll` returns or raises, and the state it leaves, differs from the
    one with exactly uniform dice by at most the number of dice times the greatest sum of weights times `2 ** -53`. -/
theorem C47_program (parse : Str → Res Expr) (lines : List Str) (es : List Expr) (hp : lines.map parse = es.map .ok) (W : Nat)
    (hW : W ≤ 2 ^ 53) (hw : ∀ e ∈ es, e.WeightsWithin W) (s : State) (P : Res (List (Str × Int)) × State → Bool) :
    |(interpRoll parse lines s).floats.prob P - (interpRoll parse lines s).prob P| ≤ ((es.map Expr.diceRolled).sum : ℚ) * W / 2 ^ 53 :=
  floats_near (fun a => by split <;> norm_num) hW (draws_program parse lines es hp hw s)

/-- What `roll` of a program can return or raise is the same in floats. -/
theorem C47_possible (parse : Str → Res Expr) (lines : List Str) (es : List Expr) (hp : lines.map parse = es.map .ok) (W : Nat)
    (hW : W < 2 ^ 52) (hw : ∀ e ∈ es, e.WeightsWithin W) (s : State) (r : Res (List (Str × Int)) × State) :
    Rand.Possible r (interpRoll parse lines s).floats ↔ Rand.Possible r (interpRoll parse lines s) :=
  ⟨possible_of_floats (by omega) (draws_program parse lines es hp hw s), floats_of_possible hW (draws_program parse lines es hp hw s)⟩

/-- The law of `roll` in floats: the probability of any event about the returned variables is that among the equally likely ways the
    dice can fall, up to the same error. -/
theorem C47_law (parse : Str → Res Expr) (lines : List Str) (es : List Expr) (hp : lines.map parse = es.map .ok) (W : Nat)
    (hW : W ≤ 2 ^ 53) (hw : ∀ e ∈ es, e.WeightsWithin W) (hl : ∀ e ∈ es, e.Loaded) (hs : SoundLines es Env.empty) (P : Env → Bool) :
    |(interpRoll parse lines State.new).floats.prob (fun r => match r.1 with | .ok dict => P (Env.ofDict dict) | .error _ => false) -
      ((lineOuts es Env.empty).countP (fun o => match o with | some env => P env | none => false) : ℚ) /
        ((lineOuts es Env.empty).length : ℚ)| ≤ ((es.map Expr.diceRolled).sum : ℚ) * W / 2 ^ 53 := by
  have h := C47_program parse lines es hp W hW hw State.new
    (fun r => match r.1 with | .ok dict => P (Env.ofDict dict) | .error _ => false)
  exact (congrArg (fun x => |_ - x|) (C46_program parse lines es hp hl hs P).symm).le.trans h

/-- Rolling in floats is rolling step by step in floats: sequencing commutes with the replacement of the draws. -/
theorem C47_steps {α β : Type} (m : RollM α) (f : α → RollM β) (s : State) :
    ((m >>= f : RollM β) s).floats = RollM.bind (fun s => (m s).floats) (fun a s => (f a s).floats) s := by
  refine (floats_bind (m s) _).trans ?_
  show _ = Rand.bind (m s).floats _
  congr 1
  funext r
  obtain ⟨r, s'⟩ := r
  cases r <;> rfl

end

/-! ### Examples and a refutation of exactness -/

/-- The chance of a face of `d6` in floats is not exactly 1/6: it is a multiple of `2 ** -53`. -/
theorem C47_exact_counterexample : (choicesF [(1, 1), (2, 1), (3, 1), (4, 1), (5, 1), (6, 1)] 1).prob (fun r => decide (r = .ok [1])) ≠ 1 / 6 := by
  set t : List (Int × Nat) := [(1, 1), (2, 1), (3, 1), (4, 1), (5, 1), (6, 1)] with ht
  have hw : weightSum t = 6 := rfl
  rw [C47_choices t (by rw [hw]; norm_num), choices_eq t (by rw [ht]; decide)]
  have hone : chooseMany (t.map Prod.fst) (accumulate 0 (t.map Prod.snd)) (t.map Prod.snd).sum 1 =
      .draw (weightSum t) fun x => .pure (match choose (t.map Prod.fst) (accumulate 0 (t.map Prod.snd)) x with
        | .ok u => .ok [u]
        | .error e => .error e) := by
    rw [chooseMany]
    congr 1
    funext x
    cases choose (t.map Prod.fst) (accumulate 0 (t.map Prod.snd)) x <;> rfl
  rw [hone, one_draw]
  generalize List.countP _ _ = N
  intro h
  rw [div_eq_div_iff (by norm_num) (by norm_num)] at h
  have : N * 6 = 2 ^ 53 := by
    have h' : (N : ℚ) * 6 = 2 ^ 53 := by rw [h]; ring
    exact_mod_cast h'
  omega

/-- `d6`, its face 1: within `2 ** -52` of 1/6. -/
example : |(choicesF ([] ++ (1, 1) :: [(2, 1), (3, 1), (4, 1), (5, 1), (6, 1)]) 1).prob (fun r => decide (r = .ok [1])) - 1 / 6| ≤ 1 / 2 ^ 52 := by
  have := C47_face [] [(2, 1), (3, 1), (4, 1), (5, 1), (6, 1)] 1 1 (by decide) (by decide) (by
    rw [show weightSum ([] ++ ((1 : Int), 1) :: [(2, 1), (3, 1), (4, 1), (5, 1), (6, 1)]) = 6 from rfl]; norm_num)
  rw [show weightSum ([] ++ ((1 : Int), 1) :: [(2, 1), (3, 1), (4, 1), (5, 1), (6, 1)]) = 6 from rfl] at this
  simpa using this

/-- `3d6k2 + d%` rolls 4 dice with at most 100 faces. -/
example : ∃ e, parse "3d6k2 + d%".toList = .ok e ∧ e.WeightsWithin 100 ∧ e.diceRolled = 4 := by
  have h : (match parse "3d6k2 + d%".toList with
    | .ok (.add (.dropKeep t) (.dice d)) =>
      decide (t.simplified = .none ∧ weightSum t.table ≤ 100 ∧ weightSum d.table ≤ 100 ∧ t.number + d.number = 4)
    | _ => false) = true := by decide +kernel
  generalize hp : parse "3d6k2 + d%".toList = r at h
  match r, h with
  | .ok (.add (.dropKeep t) (.dice d)), h =>
    obtain ⟨h1, h2, h3, h4⟩ := of_decide_eq_true h
    refine ⟨_, rfl, ⟨?_, h3⟩, ?_⟩
    · unfold Expr.WeightsWithin; rw [h1]; exact h2
    · simp only [Expr.diceRolled, h1]; exact h4

end PyDice
