import Verif.Lemmas.Extreme
import Verif.Lemmas.OneDie
import Verif.Spec.Claimed
/-!
# Lemmas for `Props/C24_Law.lean`
-/

namespace PyDice
open PyRuntime

section
variable [R : PyRuntime]

theorem plainDist {e : Expr} (he : e.Plain) : e.oneDie.dist = e.dist := oneDie_dist he.made

omit R in
theorem oneDie_append (p q : Program) : Program.oneDie (p ++ q) = Program.oneDie p ++ Program.oneDie q := by
  simp [Program.oneDie]

/-- In max (min) mode the lines are executed with one die for none. -/
theorem extremeSession_oneDie {isMax : Bool} {p : Program} {s : State} (h : ExtremeSession isMax p s)
    (hp : ∀ l ∈ p, l.1 ≠ stdoutName ∧ l.2.Plain) : Session p.oneDie s := by
  induction h with
  | new => exact Session.new
  | @step p s s' x e v h hv ih =>
    have hs := ih (fun l hl => hp l (by simp [hl]))
    obtain ⟨hx, he⟩ := hp (x, e) (by simp)
    obtain ⟨v1, s1, g1, g2⟩ := evalBind_eq_ok.mp hv
    obtain ⟨_, s2, g3, g4⟩ := evalBind_eq_ok.mp g2
    obtain ⟨d1, s3, g5, g6⟩ := evalBind_eq_ok.mp g4
    obtain ⟨_, s4, g7, g8⟩ := evalBind_eq_ok.mp g6
    have e1 : s1 = s := by have := noAssign_extreme he.noAssign isMax s; rw [g1] at this; exact this
    subst e1
    have e2 : s2 = s1.setConstant x v1 := (Prod.mk.inj g3).2.symm
    have e4 : s4 = s' := (Prod.mk.inj g8).2
    subst e4
    have h2 : Session p.oneDie s2 := by
      rw [e2]
      exact Session.other hs (fun n _ => rfl) (later_setConstant s1 x v1)
    rw [oneDie_append]
    refine Session.dist (d := d1) h2 ?_
    show (e.oneDie.dist >>= _) s2 = _
    rw [plainDist he, evalBind_ok g5]
    show (EvalM.setVar x d1 >>= _) s3 = _
    rw [evalBind_ok g7]
    rfl
  | @other p s s' h hv hc ht ih => exact Session.other (ih hp) hv ht

/-- Values after the program with one die for none. -/
theorem reaches_iff {p : Program} (hp : ∀ l ∈ p, l.1 ≠ stdoutName ∧ l.2.Plain) {e : Expr} (he : e.Plain) {s s' : State}
    (hs : Session p.oneDie s) {d : Dist} (hd : e.dist s = (.ok d, s')) (v : Int) : hasKey d.getResultMap v ↔ Reaches p e v :=
  session_values (oneDie_straight hp) he.oneDie hs (by rw [plainDist he]; exact hd) v

theorem plain_defined {p : Program} (hp : ∀ l ∈ p, l.1 ≠ stdoutName ∧ l.2.Plain) {e : Expr} (he : e.Plain) {s : State}
    (hs : Session p.oneDie s) : (∃ d, e.dist s = (.ok d, s)) ↔ Defined p.oneDie e.oneDie := by
  obtain ⟨g, hg, h1, hm, _⟩ := session_lines hs (oneDie_straight hp)
  have := dist_defined hg hm e.oneDie he.oneDie
  rw [plainDist he, h1] at this
  rw [← this]
  constructor
  · rintro ⟨d, h⟩; exact ⟨d, s, h⟩
  · rintro ⟨d, s', h⟩
    have e1 : s' = s := by have := noAssign_dist he.noAssign s; rw [h] at this; exact this
    subst e1
    exact ⟨d, h⟩

theorem distExtreme_iff (isMax : Bool) (d : Dist) (v : Int) : (if isMax then d.max else d.min) = .ok v ↔
    hasKey d.getResultMap v ∧ ∀ x, hasKey d.getResultMap x → Within isMax x v := by
  cases isMax with
  | true => simpa [Within] using (C09_max_min d v).1
  | false => simpa [Within] using (C09_max_min d v).2

theorem extremal_iff {isMax : Bool} {p : Program} (hp : ∀ l ∈ p, l.1 ≠ stdoutName ∧ l.2.Plain) {e : Expr} (he : e.Plain) {s : State}
    (hs : Session p.oneDie s) (v : Int) :
    Extremal isMax p e v ↔ ∃ d, e.dist s = (.ok d, s) ∧ (if isMax then d.max else d.min) = .ok v := by
  constructor
  · rintro ⟨h1, h2, h3⟩
    obtain ⟨d, hd⟩ := (plain_defined hp he hs).mpr h1
    refine ⟨d, hd, (distExtreme_iff isMax d v).mpr ⟨(reaches_iff hp he hs hd v).mpr h2, fun x hx => ?_⟩⟩
    exact h3 x ((reaches_iff hp he hs hd x).mp hx)
  · rintro ⟨d, hd, h⟩
    obtain ⟨h1, h2⟩ := (distExtreme_iff isMax d v).mp h
    refine ⟨(plain_defined hp he hs).mp ⟨d, hd⟩, (reaches_iff hp he hs hd v).mp h1, fun x hx => ?_⟩
    exact h2 x ((reaches_iff hp he hs hd x).mpr hx)

theorem via_iff {isMax : Bool} {p : Program} (hp : ∀ l ∈ p, l.1 ≠ stdoutName ∧ l.2.Plain) {e : Expr} (he : e.Plain) {s : State}
    (hs : Session p.oneDie s) (v : Int) : (∃ s', viaDist isMax e.dist s = (.ok v, s')) ↔ Extremal isMax p e v := by
  rw [extremal_iff hp he hs]
  constructor
  · rintro ⟨s', h⟩
    obtain ⟨d, s1, h1, h2⟩ := evalBind_eq_ok.mp h
    have e1 : s1 = s := by have := noAssign_dist he.noAssign s; rw [h1] at this; exact this
    subst e1
    exact ⟨d, h1, (Prod.mk.inj h2).1⟩
  · rintro ⟨d, h1, h2⟩
    refine ⟨s, ?_⟩
    show (e.dist >>= _) s = _
    rw [evalBind_ok h1, h2]
    rfl

omit R in
theorem dice_zero_extreme (t : DiceTerm) (isMax : Bool) (h0 : t.number = 0) (hne : t.table ≠ []) : t.extreme isMax = .ok 0 := by
  unfold DiceTerm.extreme
  have hm : t.table.map Prod.fst ≠ [] := by simpa using hne
  cases isMax with
  | true =>
    obtain ⟨v, hv⟩ := listMax_nonempty hm
    simp only [if_true, hv, h0]
    show Except.ok _ = _
    simp
  | false =>
    obtain ⟨v, hv⟩ := listMin_nonempty hm
    simp only [Bool.false_eq_true, if_false, hv, h0]
    show Except.ok _ = _
    simp

omit R in
theorem dropKeep_zero_extreme {t : DropKeepTerm} {form : Str} (ht : mkDropKeep form = .ok t) (isMax : Bool) (h0 : t.number = 0)
    (hne : t.table ≠ []) : t.extreme isMax = .ok 0 := by
  obtain ⟨_, hp, hz, _⟩ := mkDropKeep_spec ht
  unfold DropKeepTerm.extreme
  cases hk : t.keep with
  | true =>
    obtain ⟨f, hf⟩ := hp (Or.inl ⟨hk, by omega⟩)
    rw [hf]
    exact dice_zero_extreme _ isMax h0 hne
  | false => rw [hz (Or.inr ⟨hk, by omega⟩)]

/-- The answer of `max` (`min`) of an expression. -/
theorem extreme_iff {isMax : Bool} {p : Program} (hp : ∀ l ∈ p, l.1 ≠ stdoutName ∧ l.2.Plain) {s : State} (hs : Session p.oneDie s)
    {known : Str → Int → Prop} (hk : ∀ n, n ≠ stdoutName → ∀ c, dictGet? s.constants n = some c ↔ known n c) :
    ∀ e : Expr, e.Plain → ∀ v, (∃ s', e.extreme isMax s = (.ok v, s')) ↔ Claim isMax p known e v := by
  intro e
  induction e with
  | paren e ih => intro he v; exact ih ⟨he.noAssign, he.reads, he.made, he.faced⟩ v
  | not e ih => intro he v; exact via_iff hp he hs v
  | abs e ih => intro he v; exact via_iff hp he hs v
  | add a b iha ihb => intro he v; exact via_iff hp he hs v
  | sub a b iha ihb => intro he v; exact via_iff hp he hs v
  | mul a b iha ihb => intro he v; exact via_iff hp he hs v
  | bin op a b iha ihb => intro he v; exact via_iff hp he hs v
  | assign x e ih => intro he; exact he.noAssign.elim
  | getVar n =>
    intro he v
    have hn : n ≠ stdoutName := by rintro rfl; exact he.reads (by simp [Expr.reads])
    rw [Claim, ← hk n hn v]
    show (∃ s', (s.getConstant n, s) = (.ok v, s')) ↔ _
    unfold State.getConstant
    cases dictGet? s.constants n <;> simp
  | constInt text =>
    intro he v
    rw [Claim, extremal_iff hp he hs]
    show (∃ s', (pyInt text, s) = (.ok v, s')) ↔ ∃ d, ((pyInt text >>= constDist : Res Dist), s) = (.ok d, s) ∧ _
    cases hi : pyInt text with
    | error err => constructor
                   · rintro ⟨s', h⟩; cases h
                   · rintro ⟨d, h, _⟩; cases (Prod.mk.inj h).1
    | ok w =>
      obtain ⟨d, g1, _, _, g4⟩ := constDist_spec w
      constructor
      · rintro ⟨s', h⟩
        cases h
        refine ⟨d, by show (constDist v, s) = _; rw [g1], (distExtreme_iff isMax d v).mpr ⟨(g4 v).mpr rfl, fun x hx => ?_⟩⟩
        rw [(g4 x).mp hx]; exact within_refl _ _
      · rintro ⟨d', h1, h2⟩
        have h1 : constDist w = .ok d' := (Prod.mk.inj h1).1
        rw [g1] at h1
        cases h1
        rw [(g4 v).mp ((distExtreme_iff isMax d v).mp h2).1]
        exact ⟨s, rfl⟩
  | constBin text =>
    intro he v
    rw [Claim, extremal_iff hp he hs]
    show (∃ s', ((.ok (binValue text) : Res Int), s) = (.ok v, s')) ↔ ∃ d, (constDist (binValue text), s) = (.ok d, s) ∧ _
    obtain ⟨d, g1, _, _, g4⟩ := constDist_spec (binValue text)
    constructor
    · rintro ⟨s', h⟩
      cases h
      refine ⟨d, by rw [g1], (distExtreme_iff isMax d _).mpr ⟨(g4 _).mpr rfl, fun x hx => ?_⟩⟩
      rw [(g4 x).mp hx]; exact within_refl _ _
    · rintro ⟨d', h1, h2⟩
      have h1 : constDist _ = .ok d' := (Prod.mk.inj h1).1
      rw [g1] at h1
      cases h1
      rw [(g4 v).mp ((distExtreme_iff isMax d v).mp h2).1]
      exact ⟨s, rfl⟩
  | dice t =>
    intro he v
    show (∃ s', (t.extreme isMax, s) = (.ok v, s')) ↔ _
    rw [Claim]
    by_cases h0 : t.number = 0
    · rw [if_pos h0, dice_zero_extreme t isMax h0 he.faced]
      constructor
      · rintro ⟨s', h⟩; cases h; rfl
      · rintro rfl; exact ⟨s, rfl⟩
    · rw [if_neg h0, extremal_iff hp he hs]
      obtain ⟨d, a, b, h1, h2, h3, h4, h5⟩ := C13_max_min t (Nat.one_le_iff_ne_zero.mpr h0) he.faced
      have hx : t.extreme isMax = if isMax then d.max else d.min := by
        cases isMax
        · simp [h2, h4]
        · simp [h3, h5]
      rw [hx]
      constructor
      · rintro ⟨s', h⟩; exact ⟨d, by show (t.dist, s) = _; rw [h1], (Prod.mk.inj h).1⟩
      · rintro ⟨d', g1, g2⟩
        have g1 : t.dist = .ok d' := (Prod.mk.inj g1).1
        rw [h1] at g1
        cases g1
        exact ⟨s, by rw [g2]⟩
  | dropKeep t =>
    intro he v
    obtain ⟨form, ht⟩ := he.made
    show (∃ s', (t.extreme isMax, s) = (.ok v, s')) ↔ _
    rw [Claim]
    by_cases h0 : t.number = 0
    · rw [if_pos h0, dropKeep_zero_extreme ht isMax h0 he.faced]
      constructor
      · rintro ⟨s', h⟩; cases h; rfl
      · rintro rfl; exact ⟨s, rfl⟩
    · rw [if_neg h0, extremal_iff hp he hs]
      obtain ⟨d, a, b, h1, h2, h3, h4, h5⟩ := C18_max_min form t ht (Nat.one_le_iff_ne_zero.mpr h0) he.faced
      have hx : t.extreme isMax = if isMax then d.max else d.min := by
        cases isMax
        · simp [h2, h4]
        · simp [h3, h5]
      rw [hx]
      constructor
      · rintro ⟨s', h⟩; exact ⟨d, by show (t.dist, s) = _; rw [h1], (Prod.mk.inj h).1⟩
      · rintro ⟨d', g1, g2⟩
        have g1 : t.dist = .ok d' := (Prod.mk.inj g1).1
        rw [h1] at g1
        cases g1
        exact ⟨s, by rw [g2]⟩
  | div a b iha ihb =>
    intro he v
    have hb : b.Plain := ⟨he.noAssign.2, fun h => he.reads (by simp [Expr.reads, h]), he.made.2, he.faced.2⟩
    rw [Claim]
    constructor
    · rintro ⟨s', h⟩
      obtain ⟨db, s1, h1, h2⟩ := evalBind_eq_ok.mp h
      have e1 : s1 = s := by have := noAssign_dist hb.noAssign s; rw [h1] at this; exact this
      subst e1
      cases hz : db.containsZero with
      | true => rw [hz] at h2; cases (Prod.mk.inj h2).1
      | false => rw [hz] at h2; exact (via_iff hp he hs v).mp ⟨s', h2⟩
    · intro h
      have hd := h.1
      obtain ⟨db, h1⟩ := (plain_defined hp hb hs).mpr hd.2.1
      obtain ⟨s', h2⟩ := (via_iff hp he hs v).mpr h
      refine ⟨s', ?_⟩
      show (b.dist >>= _) s = _
      rw [evalBind_ok h1]
      have hz : db.containsZero = false := by
        rw [← Bool.not_eq_true, C09_contains_zero, reaches_iff hp hb hs h1]
        rintro ⟨env, h3, h4⟩
        exact hd.2.2 env h3 h4
      rw [hz]
      exact h2
  | minmax k a b iha ihb =>
    intro he v
    have ha : a.Plain := ⟨he.noAssign.1, fun h => he.reads (by simp [Expr.reads, h]), he.made.1, he.faced.1⟩
    have hb : b.Plain := ⟨he.noAssign.2, fun h => he.reads (by simp [Expr.reads, h]), he.made.2, he.faced.2⟩
    have hop : ∀ x y, minmaxOp k x y = if k then max x y else min x y := by
      intro x y
      cases k <;> simp only [minmaxOp, pyMax, pyMin, if_true, if_false, Bool.false_eq_true] <;> split <;> omega
    rw [Claim]
    constructor
    · rintro ⟨s', h⟩
      obtain ⟨x, s1, h1, h2⟩ := evalBind_eq_ok.mp h
      obtain ⟨y, s2, h3, h4⟩ := evalBind_eq_ok.mp h2
      have e1 : s1 = s := by have := noAssign_extreme ha.noAssign isMax s; rw [h1] at this; exact this
      subst e1
      refine ⟨x, y, (iha ha x).mp ⟨_, h1⟩, (ihb hb y).mp ⟨_, h3⟩, ?_⟩
      rw [← hop]
      cases h4
      rfl
    · rintro ⟨x, y, h1, h2, rfl⟩
      obtain ⟨s1, h1⟩ := (iha ha x).mpr h1
      obtain ⟨s2, h2⟩ := (ihb hb y).mpr h2
      have e1 : s1 = s := by have := noAssign_extreme ha.noAssign isMax s; rw [h1] at this; exact this
      subst e1
      refine ⟨s2, ?_⟩
      show (a.extreme isMax >>= _) _ = _
      rw [evalBind_ok h1]
      show (b.extreme isMax >>= _) _ = _
      rw [evalBind_ok h2, ← hop]
      rfl

omit R in
theorem claims_names {isMax : Bool} {q : Program} {n : Str} {v : Int} (h : claims isMax q n v) : n ∈ q.map Prod.fst := by
  induction q with
  | nil => exact h.elim
  | cons l q ih =>
    obtain ⟨x, e⟩ := l
    rw [claims] at h
    by_cases hn : n = x
    · simp [hn]
    · rw [if_neg hn] at h; simp [ih h]

/-- The constants are the answers. -/
theorem claims_session {isMax : Bool} {p : Program} {s : State} (h : ExtremeSession isMax p s)
    (hp : ∀ l ∈ p, l.1 ≠ stdoutName ∧ l.2.Plain) :
    ∀ n, n ≠ stdoutName → ∀ c, dictGet? s.constants n = some c ↔ claims isMax p.reverse n c := by
  induction h with
  | new => intro n _ c; simp [State.new, dictGet?, claims]
  | @step p s s' x e v h hv ih =>
    have hp' : ∀ l ∈ p, l.1 ≠ stdoutName ∧ l.2.Plain := fun l hl => hp l (by simp [hl])
    have hk := ih hp'
    obtain ⟨hx, he⟩ := hp (x, e) (by simp)
    obtain ⟨v1, s1, g1, g2⟩ := evalBind_eq_ok.mp hv
    obtain ⟨_, s2, g3, g4⟩ := evalBind_eq_ok.mp g2
    obtain ⟨d1, s3, g5, g6⟩ := evalBind_eq_ok.mp g4
    obtain ⟨_, s4, g7, g8⟩ := evalBind_eq_ok.mp g6
    have e1 : s1 = s := by have := noAssign_extreme he.noAssign isMax s; rw [g1] at this; exact this
    subst e1
    have e2 : s2 = s1.setConstant x v1 := (Prod.mk.inj g3).2.symm
    have e3 : s3 = s2 := by have := noAssign_dist he.noAssign s2; rw [g5] at this; exact this
    subst e3
    have e4 : s' = (s3.setVar x d1).2 := by
      have : s4 = (s3.setVar x d1).2 := (congrArg Prod.snd g7).symm
      rw [← this]; exact (Prod.mk.inj g8).2.symm
    have hconst : s'.constants = dictSet s1.constants x v1 := by rw [e4, setVar_eq, e2]; rfl
    intro n hn c
    rw [hconst, List.reverse_append, List.reverse_singleton, List.singleton_append, claims, get_set]
    by_cases hnx : n = x
    · rw [if_pos hnx, if_pos (by simp [hnx]), List.reverse_reverse, ← extreme_iff hp' (extremeSession_oneDie h hp') hk e he c]
      constructor
      · intro h; cases h; exact ⟨_, g1⟩
      · rintro ⟨s', h⟩; rw [g1] at h; cases h; rfl
    · rw [if_neg hnx, if_neg (by simpa [eq_comm] using hnx)]
      exact hk n hn c
  | @other p s s' h hv hc ht ih =>
    intro n hn c
    rw [hc n hn]
    exact ih hp n hn c

theorem answer_iff {isMax : Bool} {p : Program} {s : State} (h : ExtremeSession isMax p s)
    (hp : ∀ l ∈ p, l.1 ≠ stdoutName ∧ l.2.Plain) (e : Expr) (he : e.Plain) (v : Int) :
    (∃ s', e.extreme isMax s = (.ok v, s')) ↔ ExtremeAnswer isMax p e v :=
  extreme_iff hp (extremeSession_oneDie h hp) (claims_session h hp) e he v

omit R in
/-- Where there is an answer, the distribution can be computed. -/
theorem claim_defined {isMax : Bool} {p : Program} {known : Str → Int → Prop} (hk : ∀ n c, known n c → n ∈ p.map Prod.fst) :
    ∀ e : Expr, e.Plain → ∀ v, Claim isMax p known e v → Defined p.oneDie e.oneDie := by
  intro e
  induction e with
  | paren e ih => intro he v h; exact ih ⟨he.noAssign, he.reads, he.made, he.faced⟩ v h
  | minmax k a b iha ihb =>
    rintro he v ⟨x, y, h1, h2, _⟩
    exact ⟨iha ⟨he.noAssign.1, fun h => he.reads (by simp [Expr.reads, h]), he.made.1, he.faced.1⟩ x h1,
      ihb ⟨he.noAssign.2, fun h => he.reads (by simp [Expr.reads, h]), he.made.2, he.faced.2⟩ y h2⟩
  | getVar n =>
    intro he v h
    show n ∈ (Program.oneDie p).map Prod.fst
    have := hk n v h
    simpa [Program.oneDie, Function.comp_def] using this
  | dice t => intro he v h; simp only [Expr.oneDie]; split <;> trivial
  | dropKeep t =>
    intro he v h
    simp only [Expr.oneDie]
    split
    · split
      · trivial
      · exact ⟨0, by decide⟩
    · trivial
  | assign x e ih => intro he; exact he.noAssign.elim
  | _ => intro he v h; exact h.1

theorem extreme_step {isMax : Bool} {p : Program} {s : State} (h : ExtremeSession isMax p s)
    (hp : ∀ l ∈ p, l.1 ≠ stdoutName ∧ l.2.Plain) (x : Str) (e : Expr) (he : e.Plain) (v : Int) :
    (∃ s', (Expr.assign x e).extreme isMax s = (.ok v, s')) ↔ ExtremeAnswer isMax p e v := by
  rw [← answer_iff h hp e he v]
  constructor
  · rintro ⟨s', hv⟩
    obtain ⟨v1, s1, g1, g2⟩ := evalBind_eq_ok.mp hv
    obtain ⟨_, s2, g3, g4⟩ := evalBind_eq_ok.mp g2
    obtain ⟨d1, s3, g5, g6⟩ := evalBind_eq_ok.mp g4
    obtain ⟨_, s4, g7, g8⟩ := evalBind_eq_ok.mp g6
    cases g8
    exact ⟨s1, g1⟩
  · rintro ⟨s1, g1⟩
    have e1 : s1 = s := by have := noAssign_extreme he.noAssign isMax s; rw [g1] at this; exact this
    subst e1
    have hd := claim_defined (fun n c h => by simpa using claims_names h) e he v ((answer_iff h hp e he v).mp ⟨_, g1⟩)
    have h2 : Session p.oneDie (s1.setConstant x v) :=
      Session.other (extremeSession_oneDie h hp) (fun n _ => rfl) (later_setConstant s1 x v)
    obtain ⟨d, g2⟩ := (plain_defined hp he h2).mpr hd
    refine ⟨((s1.setConstant x v).setVar x d).2, ?_⟩
    show (e.extreme isMax >>= _) s1 = _
    rw [evalBind_ok g1]
    show (EvalM.setConstant x v >>= _) s1 = _
    rw [evalBind_ok (show EvalM.setConstant x v s1 = (.ok (), s1.setConstant x v) from rfl)]
    show (e.dist >>= _) _ = _
    rw [evalBind_ok g2]
    have g3 : EvalM.setVar x d (s1.setConstant x v) = (.ok (), ((s1.setConstant x v).setVar x d).2) := by
      show State.setVar _ _ _ = _
      rw [setVar_eq]
    show (EvalM.setVar x d >>= _) _ = _
    rw [evalBind_ok g3]
    rfl

omit R in
theorem answered_snoc {isMax : Bool} {p : Program} {x : Str} {e : Expr} :
    ExtremeAnswered isMax (p ++ [(x, e)]) ↔ ExtremeAnswered isMax p ∧ ∃ v, ExtremeAnswer isMax p e v := by
  constructor
  · intro h
    exact ⟨fun b y d a heq => h b y d (a ++ [(x, e)]) (by simp [heq]), h p x e [] rfl⟩
  · rintro ⟨h1, h2⟩ b y d a heq
    rcases List.eq_nil_or_concat a with rfl | ⟨a, z, rfl⟩
    · obtain ⟨h3, h4⟩ := List.append_inj' heq rfl
      cases h4
      subst h3
      exact h2
    · rw [List.concat_eq_append, ← List.cons_append, ← List.append_assoc] at heq
      obtain ⟨h3, _⟩ := List.append_inj' heq rfl
      exact h1 b y d a h3

/-- The lines of a program run in max (min) mode exactly when every line has an answer. -/
theorem extremeLines_answered (parse : Str → Res Expr) {isMax : Bool} : ∀ (p : Program) (lines : List Str),
    (∀ l ∈ p, l.1 ≠ stdoutName ∧ l.2.Plain) → lines.map parse = p.map (fun l => .ok (.assign l.1 l.2)) →
    ((∃ s, extremeLines parse isMax lines State.new = (.ok (), s)) ↔ ExtremeAnswered isMax p) := by
  intro p
  induction p using List.reverseRecOn with
  | nil =>
    intro lines _ h
    have : lines = [] := by simpa using h
    subst this
    exact ⟨fun _ b x e a heq => by simp at heq, fun _ => ⟨_, rfl⟩⟩
  | append_singleton p l ih =>
    intro lines hp h
    obtain ⟨x, e⟩ := l
    have hp' : ∀ l ∈ p, l.1 ≠ stdoutName ∧ l.2.Plain := fun l hl => hp l (by simp [hl])
    obtain ⟨hx, he⟩ := hp (x, e) (by simp)
    rw [List.map_append] at h
    obtain ⟨as, bs, rfl, h1, h2⟩ := List.map_eq_append_iff.mp h
    obtain ⟨b, cs, rfl, h3, h4⟩ := List.map_eq_cons_iff.mp h2
    have h4 : cs = [] := by simpa using h4
    subst h4
    rw [answered_snoc, ← ih as hp' h1]
    rw [extremeLines_append]
    constructor
    · rintro ⟨s, h⟩
      obtain ⟨_, s1, h5, h6⟩ := evalBind_eq_ok.mp h
      refine ⟨⟨s1, h5⟩, ?_⟩
      obtain ⟨tr, h7⟩ := (extremeLines_ok parse isMax as State.new s1).mp h5
      have hs : ExtremeSession isMax p s1 := by simpa using session_extremes parse h7 ExtremeSession.new h1
      obtain ⟨_, s2, h8, _⟩ := evalBind_eq_ok.mp h6
      obtain ⟨e', s3, h9, h10⟩ := evalBind_eq_ok.mp h8
      obtain ⟨v, s4, h11, _⟩ := evalBind_eq_ok.mp h10
      have h12 := (Prod.mk.inj h9).1
      rw [h3] at h12
      cases h12
      cases (Prod.mk.inj h9).2
      exact ⟨v, (extreme_step hs hp' x e he v).mp ⟨s4, h11⟩⟩
    · rintro ⟨⟨s1, h5⟩, v, h6⟩
      obtain ⟨tr, h7⟩ := (extremeLines_ok parse isMax as State.new s1).mp h5
      have hs : ExtremeSession isMax p s1 := by simpa using session_extremes parse h7 ExtremeSession.new h1
      obtain ⟨s2, h8⟩ := (extreme_step hs hp' x e he v).mpr h6
      refine ⟨{ s2 with constants := dictSet s2.constants stdoutName v }, ?_⟩
      show (extremeLines parse isMax as >>= _) _ = _
      rw [evalBind_ok h5]
      show (extremeLine parse isMax b >>= _) s1 = _
      have h9 : extremeLine parse isMax b s1 = (.ok (), { s2 with constants := dictSet s2.constants stdoutName v }) := by
        show (EvalM.ofRes (parse b) >>= _) s1 = _
        rw [h3]
        exact (evalBind_ok h8 : ((Expr.assign x e).extreme isMax >>= fun v => (fun s : State =>
          ((.ok (), { s with constants := dictSet s.constants stdoutName v }) : Res Unit × State) : EvalM Unit)) s1 = _)
      rw [evalBind_ok h9]
      rfl

end
end PyDice
