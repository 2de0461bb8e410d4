import Verif.Lemmas.Unfold
import Verif.Lemmas.Claimed
import Verif.Lemmas.Frame
import Verif.Spec.Reckon
/-!
# The answers of `max` and `min` for any program
-/

namespace PyDice
open PyRuntime

theorem best_iff (isMax : Bool) (l : List Int) (v : Int) : best isMax l = some v ↔ v ∈ l ∧ ∀ x ∈ l, Within isMax x v := by
  cases isMax with
  | true => simp only [best, if_true, List.max?_eq_some_iff, Within]
  | false => simp only [best, Bool.false_eq_true, if_false, List.min?_eq_some_iff, Within]

section
variable [R : PyRuntime]

/-- The state holds what is known. -/
structure Ledgered (k : Ledger) (h : List Line) (s : State) : Prop where
  unfolded : Unfolded k.unfolding h s
  filed : ∀ n, dictGet? s.constants n = k.filed n

theorem Ledgered.start : Ledgered .start [] State.new := ⟨.start, fun _ => rfl⟩

theorem Unfolded.setConstant {u : Unfolding} {h : List Line} {s : State} (H : Unfolded u h s) (x : Str) (v : Int) :
    Unfolded u h (s.setConstant x v) :=
  ⟨H.good, H.prog, fun l hl => (later_setConstant s x v).used (H.used l hl), H.names, H.absent, H.present⟩

/-- What is answered for an expression. -/
def Answers (m : EvalM Int) (o : Option (Int × Ledger)) (s : State) : Prop :=
  match o with
  | none => ∀ v s', m s ≠ (.ok v, s')
  | some (v, k') => ∃ s' h', m s = (.ok v, s') ∧ Ledgered k' h' s'

theorem Unfolded.keys {u : Unfolding} {h : List Line} {s : State} (H : Unfolded u h s) {e : Expr} (he : e.Straight) {d : Dist}
    (hd : e.dist (stateOf h) = (.ok d, stateOf h)) (v : Int) : hasKey d.getResultMap v ↔ v ∈ u.values e := by
  rw [hasKey_run H.good (stateOf_matches h) he hd]
  unfold Unfolding.values
  rw [List.mem_flatMap, ← H.prog]
  constructor
  · rintro ⟨ω, h1, h2⟩; exact ⟨_, (mem_runs H.good _).mpr ⟨ω, h1, rfl⟩, h2⟩
  · rintro ⟨env, h1, h2⟩
    obtain ⟨ω, h3, rfl⟩ := (mem_runs H.good _).mp h1
    exact ⟨ω, h3, h2⟩

/-- Unfolding an expression whose terms may have no dice. -/
theorem amounts_made {e : Expr} (hm : e.Made) (hf : e.Faced) {u : Unfolding} {h : List Line} {s : State} (H : Unfolded u h s) :
    match e.oneDie.unfold u with
    | none => ∀ d s', e.dist s ≠ (.ok d, s')
    | some (e', u') => ∃ d s' h', e.dist s = (.ok d, s') ∧ Unfolded u' h' s' ∧ Extends h h' ∧ e'.Straight ∧
        e'.dist (stateOf h') = (.ok d, stateOf h') := by
  have := amounts e.oneDie (oneDie_faces hm hf) u h s H
  unfold Amounts at this
  rw [oneDie_dist hm] at this
  exact this

theorem answers_settle (isMax : Bool) {e : Expr} (hm : e.Made) (hf : e.Faced) {k : Ledger} {h : List Line} {s : State}
    (H : Ledgered k h s) : Answers (viaDist isMax e.dist) (k.settle isMax e) s := by
  have hA := amounts_made hm hf H.unfolded
  unfold Ledger.settle
  cases hu : e.oneDie.unfold k.unfolding with
  | none =>
    rw [hu] at hA
    intro v s' hv
    obtain ⟨d, s1, g1, _⟩ := evalBind_eq_ok.mp hv
    exact hA _ _ g1
  | some r =>
    rw [hu] at hA
    obtain ⟨d, s', h', m1, m2, m3, m4, m5⟩ := hA
    have hkeys := m2.keys m4 m5
    have hext : ∀ v, (if isMax then d.max else d.min) = .ok v ↔ best isMax (r.2.values r.1) = some v := by
      intro v
      rw [distExtreme_iff, best_iff, hkeys]
      exact and_congr_right fun _ => forall_congr' fun x => by rw [hkeys]
    have hvia : viaDist isMax e.dist s = ((if isMax then d.max else d.min), s') := by
      show (e.dist >>= _) s = _
      rw [evalBind_ok m1]
      rfl
    simp only [Option.bind_some]
    cases hb : best isMax (r.2.values r.1) with
    | none =>
      intro v s2 hv
      rw [hvia] at hv
      have := (hext v).mp (Prod.mk.inj hv).1
      rw [hb] at this
      cases this
    | some v =>
      refine ⟨s', h', by rw [hvia, (hext v).mpr hb], m2, fun n => ?_⟩
      have : s'.constants = s.constants := by have := sameConstants_dist e s; rw [m1] at this; exact this
      rw [this]
      exact H.filed n

theorem constDist_extreme (isMax : Bool) (w : Int) : ∃ d, constDist w = .ok d ∧ (if isMax then d.max else d.min) = .ok w := by
  obtain ⟨d, g1, _, _, g4⟩ := constDist_spec w
  refine ⟨d, g1, (distExtreme_iff isMax d w).mpr ⟨(g4 w).mpr rfl, fun x hx => ?_⟩⟩
  rw [(g4 x).mp hx]
  exact within_refl _ _

theorem constInt_via (isMax : Bool) (text : Str) : (Expr.constInt text).extreme isMax = viaDist isMax (Expr.constInt text).dist := by
  funext s
  cases hi : pyInt text with
  | error er =>
    refine Eq.trans (b := (.error er, s)) (by show (pyInt text, s) = _; rw [hi]) (Eq.symm ?_)
    refine evalBind_error (m := (Expr.constInt text).dist) ?_
    show ((pyInt text >>= constDist : Res Dist), s) = _
    rw [hi]; rfl
  | ok w =>
    obtain ⟨d, g1, g2⟩ := constDist_extreme isMax w
    refine Eq.symm (Eq.trans (evalBind_ok (m := (Expr.constInt text).dist) (a := d) (s := s) (s' := s) ?_) ?_)
    · show ((pyInt text >>= constDist : Res Dist), s) = _; rw [hi]; show (constDist w, s) = _; rw [g1]
    · show ((if isMax then d.max else d.min), s) = (pyInt text, s); rw [g2, hi]

theorem constBin_via (isMax : Bool) (text : Str) : (Expr.constBin text).extreme isMax = viaDist isMax (Expr.constBin text).dist := by
  funext s
  obtain ⟨d, g1, g2⟩ := constDist_extreme isMax (binValue text)
  refine Eq.symm (Eq.trans (evalBind_ok (m := (Expr.constBin text).dist) (a := d) (s := s) (s' := s) ?_) ?_)
  · show (constDist _, s) = _; rw [g1]
  · show ((if isMax then d.max else d.min), s) = _; rw [g2]; rfl

theorem dice_via (isMax : Bool) (t : DiceTerm) (h0 : t.number ≠ 0) (hne : t.table ≠ []) :
    (Expr.dice t).extreme isMax = viaDist isMax (Expr.dice t).dist := by
  funext s
  obtain ⟨d, a, b, h1, h2, h3, h4, h5⟩ := C13_max_min t (Nat.one_le_iff_ne_zero.mpr h0) hne
  refine Eq.symm (Eq.trans (evalBind_ok (m := (Expr.dice t).dist) (a := d) (s := s) (s' := s) ?_) ?_)
  · show (t.dist, s) = _; rw [h1]
  · show ((if isMax then d.max else d.min), s) = (t.extreme isMax, s)
    cases isMax
    · simp [h2, h4]
    · simp [h3, h5]

theorem dropKeep_via (isMax : Bool) (t : DropKeepTerm) (hm : ∃ form, mkDropKeep form = .ok t) (h0 : t.number ≠ 0) (hne : t.table ≠ []) :
    (Expr.dropKeep t).extreme isMax = viaDist isMax (Expr.dropKeep t).dist := by
  funext s
  obtain ⟨form, ht⟩ := hm
  obtain ⟨d, a, b, h1, h2, h3, h4, h5⟩ := C18_max_min form t ht (Nat.one_le_iff_ne_zero.mpr h0) hne
  refine Eq.symm (Eq.trans (evalBind_ok (m := (Expr.dropKeep t).dist) (a := d) (s := s) (s' := s) ?_) ?_)
  · show (t.dist, s) = _; rw [h1]
  · show ((if isMax then d.max else d.min), s) = (t.extreme isMax, s)
    cases isMax
    · simp [h2, h4]
    · simp [h3, h5]

omit R in
theorem minmaxOp_eq (k : Bool) (x y : Int) : minmaxOp k x y = if k then max x y else min x y := by
  cases k <;> simp only [minmaxOp, pyMax, pyMin, if_true, if_false, Bool.false_eq_true] <;> split <;> omega

/-- The answer of any expression. -/
theorem answers (isMax : Bool) : ∀ e : Expr, e.Made → e.Faced → ∀ k h s, Ledgered k h s →
    Answers (e.extreme isMax) (e.answer isMax k) s := by
  intro e
  induction e with
  | paren e ih => intro hm hf k h s H; exact ih hm hf k h s H
  | not e ih => intro hm hf k h s H; exact answers_settle (e := .not e) isMax hm hf H
  | abs e ih => intro hm hf k h s H; exact answers_settle (e := .abs e) isMax hm hf H
  | add a b iha ihb => intro hm hf k h s H; exact answers_settle (e := .add a b) isMax hm hf H
  | sub a b iha ihb => intro hm hf k h s H; exact answers_settle (e := .sub a b) isMax hm hf H
  | mul a b iha ihb => intro hm hf k h s H; exact answers_settle (e := .mul a b) isMax hm hf H
  | bin op a b iha ihb => intro hm hf k h s H; exact answers_settle (e := .bin op a b) isMax hm hf H
  | constInt text => intro hm hf k h s H; rw [constInt_via]; exact answers_settle (e := .constInt text) isMax hm hf H
  | constBin text => intro hm hf k h s H; rw [constBin_via]; exact answers_settle (e := .constBin text) isMax hm hf H
  | dice t =>
    intro hm hf k h s H
    by_cases h0 : t.number = 0
    · rw [Expr.answer, if_pos h0]
      exact ⟨s, h, by show (t.extreme isMax, s) = _; rw [dice_zero_extreme t isMax h0 hf], H⟩
    · rw [Expr.answer, if_neg h0, dice_via isMax t h0 hf]
      exact answers_settle (e := .dice t) isMax hm hf H
  | dropKeep t =>
    intro hm hf k h s H
    by_cases h0 : t.number = 0
    · rw [Expr.answer, if_pos h0]
      obtain ⟨form, ht⟩ := hm
      exact ⟨s, h, by show (t.extreme isMax, s) = _; rw [dropKeep_zero_extreme ht isMax h0 hf], H⟩
    · rw [Expr.answer, if_neg h0, dropKeep_via isMax t hm h0 hf]
      exact answers_settle (e := .dropKeep t) isMax hm hf H
  | getVar n =>
    intro hm hf k h s H
    rw [Expr.answer]
    have hg : (Expr.getVar n).extreme isMax s = (match dictGet? s.constants n with | some v => .ok v | none => .error .key, s) := rfl
    rw [H.filed] at hg
    cases hn : k.filed n with
    | none => intro v s' hv; rw [hg, hn] at hv; cases hv
    | some v => exact ⟨s, h, by rw [hg, hn], H⟩
  | minmax m a b iha ihb =>
    intro hm hf k h s H
    rw [Expr.answer]
    have hA := iha hm.1 hf.1 k h s H
    cases ha : a.answer isMax k with
    | none =>
      rw [ha] at hA
      intro v s' hv
      obtain ⟨x, s1, g1, _⟩ := evalBind_eq_ok.mp hv
      exact hA _ _ g1
    | some r =>
      rw [ha] at hA
      obtain ⟨s1, h1, m1, m2⟩ := hA
      have hB := ihb hm.2 hf.2 r.2 h1 s1 m2
      simp only [Option.bind_some]
      cases hb : b.answer isMax r.2 with
      | none =>
        rw [hb] at hB
        intro v s' hv
        obtain ⟨x, s2, g1, g2⟩ := evalBind_eq_ok.mp hv
        rw [m1] at g1
        cases g1
        obtain ⟨y, s3, g3, _⟩ := evalBind_eq_ok.mp g2
        exact hB _ _ g3
      | some w =>
        rw [hb] at hB
        obtain ⟨s2, h2, n1, n2⟩ := hB
        refine ⟨s2, h2, ?_, n2⟩
        show (a.extreme isMax >>= _) s = _
        rw [evalBind_ok m1]
        show (b.extreme isMax >>= _) s1 = _
        rw [evalBind_ok n1, ← minmaxOp_eq]
        rfl
  | div a b iha ihb =>
    intro hm hf k h s H
    rw [Expr.answer]
    have hB := amounts_made hm.2 hf.2 H.unfolded
    cases hb : b.oneDie.unfold k.unfolding with
    | none =>
      rw [hb] at hB
      intro v s' hv
      obtain ⟨x, s1, g1, _⟩ := evalBind_eq_ok.mp hv
      exact hB _ _ g1
    | some r =>
      rw [hb] at hB
      obtain ⟨db, s1, h1, m1, m2, m3, m4, m5⟩ := hB
      have hz : db.containsZero = true ↔ 0 ∈ r.2.values r.1 := by
        rw [C09_contains_zero, m2.keys m4 m5]
      have H1 : Ledgered ⟨r.2, k.filed⟩ h1 s1 := ⟨m2, fun n => by
        have : s1.constants = s.constants := by have := sameConstants_dist b s; rw [m1] at this; exact this
        rw [this]; exact H.filed n⟩
      have hstep : (Expr.div a b).extreme isMax s = (if db.containsZero then EvalM.ofRes (.error .zeroDivision)
          else viaDist isMax (Expr.dist (.div a b))) s1 := by
        show (b.dist >>= _) s = _
        rw [evalBind_ok m1]
      simp only [Option.bind_some]
      by_cases h0 : 0 ∈ r.2.values r.1
      · rw [if_pos h0]
        intro v s' hv
        rw [hstep, if_pos (hz.mpr h0)] at hv
        cases hv
      · rw [if_neg h0]
        have hA := answers_settle (e := .div a b) isMax hm hf H1
        have hstep' : (Expr.div a b).extreme isMax s = viaDist isMax (Expr.dist (.div a b)) s1 := by
          rw [hstep, if_neg (fun h => h0 (hz.mp h))]
        unfold Answers at hA ⊢
        rw [hstep']
        exact hA
  | assign x e ih =>
    intro hm hf k h s H
    rw [Expr.answer]
    have hA := ih hm hf k h s H
    cases ha : e.answer isMax k with
    | none =>
      rw [ha] at hA
      intro v s' hv
      obtain ⟨v1, s1, g1, _⟩ := evalBind_eq_ok.mp hv
      exact hA _ _ g1
    | some r =>
      rw [ha] at hA
      obtain ⟨s1, h1, m1, m2⟩ := hA
      have hU := amounts_made (e := e) hm hf (m2.unfolded.setConstant x r.1)
      have hset : EvalM.setConstant x r.1 s1 = (.ok (), s1.setConstant x r.1) := rfl
      simp only [Option.bind_some]
      cases hu : e.oneDie.unfold r.2.unfolding with
      | none =>
        rw [hu] at hU
        intro v s' hv
        obtain ⟨v1, s2, g1, g2⟩ := evalBind_eq_ok.mp hv
        rw [m1] at g1
        cases g1
        obtain ⟨_, s3, g3, g4⟩ := evalBind_eq_ok.mp g2
        rw [hset] at g3
        cases g3
        obtain ⟨d, s4, g5, _⟩ := evalBind_eq_ok.mp g4
        exact hU _ _ g5
      | some w =>
        rw [hu] at hU
        obtain ⟨d, s2, h2, n1, n2, n3, n4, n5⟩ := hU
        obtain ⟨h3, k1, _, _⟩ := n2.assign x n4 n5
        have hsv : EvalM.setVar x d s2 = (.ok (), (s2.setVar x d).2) := by
          show State.setVar _ _ _ = _
          rw [setVar_eq]
        refine ⟨(s2.setVar x d).2, h3, ?_, k1, fun n => ?_⟩
        · show (e.extreme isMax >>= _) s = _
          rw [evalBind_ok m1]
          show (EvalM.setConstant x r.1 >>= _) s1 = _
          rw [evalBind_ok hset]
          show (e.dist >>= _) _ = _
          rw [evalBind_ok n1]
          show (EvalM.setVar x d >>= _) s2 = _
          rw [evalBind_ok hsv]
          rfl
        · have h4 : (s2.setVar x d).2.constants = dictSet s1.constants x r.1 := by
            have h5 : s2.constants = (s1.setConstant x r.1).constants := by
              have := sameConstants_dist e (s1.setConstant x r.1); rw [n1] at this; exact this
            rw [setVar_eq]
            exact h5
          rw [h4, get_set]
          show _ = if n = x then some r.1 else r.2.filed n
          by_cases hn : n = x
          · rw [if_pos hn, if_pos hn.symm]
          · rw [if_neg hn, if_neg (fun h => hn h.symm)]
            exact m2.filed n

/-- The answers of the lines of a program. -/
theorem answers_lines (parse : Str → Res Expr) (isMax : Bool) : ∀ (lines : List Str) (es : List Expr), lines.map parse = es.map .ok →
    (∀ e ∈ es, e.Made ∧ e.Faced) → ∀ k h s, Ledgered k h s →
    match answerLines isMax es k with
    | none => ∀ s', extremeLines parse isMax lines s ≠ (.ok (), s')
    | some k' => ∃ s' h', extremeLines parse isMax lines s = (.ok (), s') ∧ Ledgered k' h' s' := by
  intro lines
  induction lines with
  | nil =>
    intro es hl hf k h s H
    have : es = [] := by cases es with | nil => rfl | cons e es => cases hl
    subst this
    exact ⟨s, h, rfl, H⟩
  | cons l lines ih =>
    intro es hl hf k h s H
    cases es with
    | nil => cases hl
    | cons e es =>
      simp only [List.map_cons, List.cons.injEq] at hl
      have hA := answers isMax e (hf e (by simp)).1 (hf e (by simp)).2 k h s H
      have hline : extremeLine parse isMax l s = (do let v ← e.extreme isMax
                                                     fun s => (.ok (), { s with constants := dictSet s.constants stdoutName v }) : EvalM Unit) s := by
        unfold extremeLine
        rw [hl.1]
        exact evalBind_ok (m := EvalM.ofRes (.ok e)) (a := e) (s := s) (s' := s) rfl
      rw [answerLines]
      cases hu : e.answer isMax k with
      | none =>
        rw [hu] at hA
        simp only [Option.bind_none]
        intro s' hs
        obtain ⟨_, s1, g1, _⟩ := evalBind_eq_ok.mp hs
        rw [hline] at g1
        obtain ⟨d, s2, g2, _⟩ := evalBind_eq_ok.mp g1
        exact hA _ _ g2
      | some r =>
        rw [hu] at hA
        obtain ⟨s1, h1, m1, m2⟩ := hA
        have hstep : extremeLine parse isMax l s = (.ok (), { s1 with constants := dictSet s1.constants stdoutName r.1 }) := by
          rw [hline]; exact evalBind_ok m1
        have H1 : Ledgered (r.2.file stdoutName r.1) h1 { s1 with constants := dictSet s1.constants stdoutName r.1 } := by
          refine ⟨⟨m2.unfolded.good, m2.unfolded.prog, m2.unfolded.used, m2.unfolded.names, m2.unfolded.absent, m2.unfolded.present⟩, fun n => ?_⟩
          simp only [Ledger.file]
          rw [get_set]
          by_cases hn : n = stdoutName
          · rw [if_pos hn, if_pos hn.symm]
          · rw [if_neg hn, if_neg (fun h => hn h.symm)]
            exact m2.filed n
        have hrest := ih es hl.2 (fun e' he' => hf e' (by simp [he'])) _ h1 _ H1
        simp only [Option.bind_some]
        cases hu2 : answerLines isMax es (r.2.file stdoutName r.1) with
        | none =>
          rw [hu2] at hrest
          intro s' hs
          obtain ⟨_, s2, g1, g2⟩ := evalBind_eq_ok.mp hs
          rw [hstep] at g1
          cases g1
          exact hrest _ g2
        | some k' =>
          rw [hu2] at hrest
          obtain ⟨s', h', k1, k2⟩ := hrest
          refine ⟨s', h', ?_, k2⟩
          show (extremeLine parse isMax l >>= _) s = _
          rw [evalBind_ok hstep]
          exact k1

end

end PyDice
