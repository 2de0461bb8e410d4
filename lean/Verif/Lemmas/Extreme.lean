import Verif.Lemmas.Law
import Verif.Props.C16_C20
import Verif.Props.C34_C39
/-!
# Extremes of expressions after programs run in max or min mode
-/

namespace PyDice
open PyRuntime

theorem within_refl (isMax : Bool) (x : Int) : Within isMax x x := by cases isMax <;> simp [Within]

theorem within_op {isMax k : Bool} {x y x' y' v : Int} (hx : Within isMax x x') (hy : Within isMax y y')
    (hv : opValue (if k then .max else .min) x y = some v) : Within isMax v (minmaxOp k x' y') := by
  cases isMax <;> cases k <;> simp only [Within, opValue, minmaxOp, pyMax, pyMin, if_true, if_false, Bool.false_eq_true, Option.some.injEq] at * <;> (repeat' split at *) <;> omega

section
variable [R : PyRuntime]

omit R in
theorem Straight.two {e : Expr} {op : BinOp} {a b : Expr} (hB : Bin2 e op a b) (he : e.Straight) : a.Straight ∧ b.Straight := by
  have hr := he.reads
  rw [hB.reads, List.mem_append, not_or] at hr
  have hf := hB.faces he.faces
  have hn : a.NoAssign ∧ b.NoAssign := by have := he.noAssign; cases hB <;> exact this
  exact ⟨⟨hn.1, hr.1, hf.1⟩, ⟨hn.2, hr.2, hf.2⟩⟩

theorem dist_two {e : Expr} {op : BinOp} {a b : Expr} (hB : Bin2 e op a b) (he : e.NoAssign) {s s' : State} {d : Dist}
    (hd : e.dist s = (.ok d, s')) : ∃ da db, a.dist s = (.ok da, s) ∧ b.dist s = (.ok db, s) ∧ Dist.binop op da db = .ok d ∧ s' = s := by
  have key : ∀ (op : BinOp) (a b : Expr), a.NoAssign → b.NoAssign →
      (do let x ← a.dist; let y ← b.dist; EvalM.ofRes (Dist.binop op x y) : EvalM Dist) s = (.ok d, s') →
      ∃ da db, a.dist s = (.ok da, s) ∧ b.dist s = (.ok db, s) ∧ Dist.binop op da db = .ok d ∧ s' = s := by
    intro op a b hna hnb h
    obtain ⟨da, s1, g1, g2⟩ := evalBind_eq_ok.mp h
    obtain ⟨db, s2, g3, g4⟩ := evalBind_eq_ok.mp g2
    have e1 : s1 = s := by have := noAssign_dist hna s; rw [g1] at this; exact this
    subst e1
    have e2 : s2 = s1 := by have := noAssign_dist hnb s1; rw [g3] at this; exact this
    subst e2
    obtain ⟨g5, g6⟩ := Prod.mk.inj g4
    exact ⟨da, db, g1, g3, g5, g6.symm⟩
  cases hB with
  | add a b => exact key .add a b he.1 he.2 hd
  | sub a b => exact key .sub a b he.1 he.2 hd
  | mul a b => exact key .mul a b he.1 he.2 hd
  | div a b => exact key .floordiv a b he.1 he.2 hd
  | bin op a b => exact key op.toBinOp a b he.1 he.2 hd
  | minmax k a b => exact key _ a b he.1 he.2 hd

/-- After lines there is at least one run, so every expression has an outcome. -/
theorem expr_nonempty {h : List Line} (hg : Good h) {s s' : State} (hs : Matches h s) {e : Expr} (he : e.Straight) {d : Dist}
    (hd : e.dist s = (.ok d, s')) : ∃ v, hasKey d.getResultMap v := by
  have down : ∀ h : List Line, Down (fun _ => False) h := by
    intro h; induction h with
    | nil => trivial
    | cons l h ih => exact ⟨ih, fun h => h.elim⟩
  have run : ∀ (h : List Line) (ω : Str → Int), RunOn (fun _ => False) h ω := by
    intro h ω; induction h with
    | nil => trivial
    | cons l h ih => exact ⟨ih, fun h => h.elim⟩
  obtain ⟨ω, _, hr⟩ := extend_run hg (down h) (run h (fun _ => 0))
  obtain ⟨v, hv⟩ := List.exists_mem_of_ne_nil _ (expr_run hg hs he hd hr).2.1
  exact ⟨v, (hasKey_run hg hs he hd v).mpr ⟨ω, hr, hv⟩⟩

theorem dist_extreme (isMax : Bool) (d : Dist) (h : ∃ v, hasKey d.getResultMap v) : ∃ v, (if isMax then d.max else d.min) = .ok v ∧
    hasKey d.getResultMap v ∧ ∀ x, hasKey d.getResultMap x → Within isMax x v := by
  cases isMax with
  | true =>
    obtain ⟨v, hv⟩ := (C09_max_min_defined d).1.mpr h
    obtain ⟨h1, h2⟩ := (C09_max_min d v).1.mp hv
    exact ⟨v, by simpa using hv, h1, fun x hx => by simpa [Within] using h2 x hx⟩
  | false =>
    obtain ⟨v, hv⟩ := (C09_max_min_defined d).2.1.mpr h
    obtain ⟨h1, h2⟩ := (C09_max_min d v).2.mp hv
    exact ⟨v, by simpa using hv, h1, fun x hx => by simpa [Within] using h2 x hx⟩

theorem stored_isSome (h : List Line) (n : Str) : (∃ V, stored h n = some V) ↔ n ∈ (programOf h).map Prod.fst := by
  induction h with
  | nil => simp [stored, programOf]
  | cons l h ih =>
    simp only [stored, programOf, List.map_append, List.map_cons, List.map_nil, List.mem_append, List.mem_singleton]
    by_cases hn : n = l.x
    · simp [hn]
    · simp only [if_neg hn, hn, or_false]; exact ih

theorem binop_defined {op : BinOp} {da db : Dist} (hp : da.Proper) (hop : op = .floordiv → ¬ hasKey db.getResultMap 0) :
    ∃ d, Dist.binop op da db = .ok d := by
  refine (binop_ok_iff hp).mpr (fun p _ q hq => ?_)
  have : ∃ w, opValue op p.1.value q.1.value = some w := by
    cases op with
    | floordiv =>
      have h0 : q.1.value ≠ 0 := fun h0 => hop rfl ((hasKey_getResultMap _ _).mpr ⟨q, hq, h0⟩)
      exact ⟨_, if_neg h0⟩
    | _ => exact ⟨_, rfl⟩
  obtain ⟨w, hw⟩ := this
  exact ⟨w, (apply_opValue _ _ _ _).mpr hw⟩

/-- Whether the distribution can be computed, in terms of the runs of the program. -/
theorem dist_defined {h : List Line} (hg : Good h) {s : State} (hs : Matches h s) : ∀ e : Expr, e.Straight →
    ((∃ d s', e.dist s = (.ok d, s')) ↔ Defined (programOf h) e) := by
  have two : ∀ (e : Expr) (op : BinOp) (a b : Expr), Bin2 e op a b → e.Straight →
      (∀ da db d, a.dist s = (.ok da, s) → b.dist s = (.ok db, s) → Dist.binop op da db = .ok d → e.dist s = (.ok d, s)) →
      ((∃ d s', a.dist s = (.ok d, s')) ↔ Defined (programOf h) a) → ((∃ d s', b.dist s = (.ok d, s')) ↔ Defined (programOf h) b) →
      ((∃ d s', e.dist s = (.ok d, s')) ↔ Defined (programOf h) a ∧ Defined (programOf h) b ∧
        (op = .floordiv → ∀ env ∈ runs (programOf h) Env.empty, 0 ∉ vals b env)) := by
    intro e op a b hB he hmk iha ihb
    obtain ⟨ha, hb⟩ := Straight.two hB he
    have zero : ∀ db, b.dist s = (.ok db, s) → (hasKey db.getResultMap 0 ↔ ∃ env ∈ runs (programOf h) Env.empty, 0 ∈ vals b env) := by
      intro db hdb
      rw [hasKey_run hg hs hb hdb]
      constructor
      · rintro ⟨ω, h1, h2⟩; exact ⟨_, (mem_runs hg _).mpr ⟨ω, h1, rfl⟩, h2⟩
      · rintro ⟨env, h1, h2⟩
        obtain ⟨ω, h3, rfl⟩ := (mem_runs hg _).mp h1
        exact ⟨ω, h3, h2⟩
    constructor
    · rintro ⟨d, s', hd⟩
      obtain ⟨da, db, g1, g2, g3, rfl⟩ := dist_two hB he.noAssign hd
      refine ⟨iha.mp ⟨_, _, g1⟩, ihb.mp ⟨_, _, g2⟩, ?_⟩
      rintro rfl env henv h0
      obtain ⟨x, hx⟩ := expr_nonempty hg hs ha g1
      obtain ⟨p, hp, rfl⟩ := (hasKey_getResultMap _ _).mp hx
      obtain ⟨q, hq, hq0⟩ := (hasKey_getResultMap _ _).mp ((zero db g2).mpr ⟨env, henv, h0⟩)
      obtain ⟨w, hw⟩ := (binop_ok_iff (expr_tidy hg hs ha g1).proper).mp ⟨d, g3⟩ p hp q hq
      rw [hq0, apply_opValue] at hw
      simp [opValue] at hw
    · rintro ⟨h1, h2, h3⟩
      obtain ⟨da, s1, g1⟩ := iha.mpr h1
      obtain ⟨db, s2, g2⟩ := ihb.mpr h2
      have e1 : s1 = s := by have := noAssign_dist ha.noAssign s; rw [g1] at this; exact this
      have e2 : s2 = s := by have := noAssign_dist hb.noAssign s; rw [g2] at this; exact this
      subst e1; subst e2
      obtain ⟨d, hd⟩ := binop_defined (op := op) (db := db) (expr_tidy hg hs ha g1).proper (fun hop h0 => by
        obtain ⟨env, k1, k2⟩ := (zero db g2).mp h0
        exact h3 hop env k1 k2)
      exact ⟨d, _, hmk da db d g1 g2 hd⟩
  have mk : ∀ (op : BinOp) (a b : Expr) (da db d : Dist), a.dist s = (.ok da, s) → b.dist s = (.ok db, s) → Dist.binop op da db = .ok d →
      (do let x ← a.dist; let y ← b.dist; EvalM.ofRes (Dist.binop op x y) : EvalM Dist) s = (.ok d, s) := by
    intro op a b da db d h1 h2 h3
    rw [evalBind_ok h1, evalBind_ok h2]
    show (Dist.binop op da db, s) = _
    rw [h3]
  have triv : ∀ {P Q X : Prop} {op : BinOp}, op ≠ .floordiv → (P ∧ Q ∧ (op = .floordiv → X) ↔ P ∧ Q) := by
    intro P Q X op hop; simp [hop]
  intro e
  induction e with
  | paren e ih => intro he; exact ih ⟨he.noAssign, he.reads, he.faces⟩
  | not e ih =>
    intro he
    rw [show Defined (programOf h) (.not e) = Defined (programOf h) e from rfl, ← ih ⟨he.noAssign, he.reads, he.faces⟩]
    constructor
    · rintro ⟨d, s', hd⟩
      obtain ⟨d1, s1, g1, _⟩ := evalBind_eq_ok.mp hd
      exact ⟨d1, s1, g1⟩
    · rintro ⟨d, s', hd⟩
      refine ⟨d.notOp, s', ?_⟩
      show (e.dist >>= _) s = _
      rw [evalBind_ok hd]; rfl
  | abs e ih =>
    intro he
    rw [show Defined (programOf h) (.abs e) = Defined (programOf h) e from rfl, ← ih ⟨he.noAssign, he.reads, he.faces⟩]
    constructor
    · rintro ⟨d, s', hd⟩
      obtain ⟨d1, s1, g1, _⟩ := evalBind_eq_ok.mp hd
      exact ⟨d1, s1, g1⟩
    · rintro ⟨d, s', hd⟩
      refine ⟨d.absOp, s', ?_⟩
      show (e.dist >>= _) s = _
      rw [evalBind_ok hd]; rfl
  | dropKeep t =>
    intro he
    obtain ⟨⟨form, ht⟩, hn, hne⟩ := he.faces
    obtain ⟨d, _, _, h1, _⟩ := C18_max_min form t ht hn hne
    exact ⟨fun _ => trivial, fun _ => ⟨d, s, by show (t.dist, s) = _; rw [h1]⟩⟩
  | dice t =>
    intro he
    obtain ⟨hn, hne⟩ := he.faces
    obtain ⟨d, _, _, h1, _⟩ := C13_max_min t hn hne
    exact ⟨fun _ => trivial, fun _ => ⟨d, s, by show (t.dist, s) = _; rw [h1]⟩⟩
  | constInt text =>
    intro he
    constructor
    · rintro ⟨d, s', hd⟩
      obtain ⟨v, h1, _⟩ := bind_eq_ok.mp (Prod.mk.inj hd).1
      exact ⟨v, h1⟩
    · rintro ⟨v, hv⟩
      obtain ⟨d, g1, _⟩ := constDist_spec v
      refine ⟨d, s, ?_⟩
      show ((do constDist (← pyInt text) : Res Dist), s) = _
      rw [hv]
      exact Prod.ext g1 rfl
  | constBin text =>
    intro he
    obtain ⟨d, g1, _⟩ := constDist_spec (binValue text)
    exact ⟨fun _ => trivial, fun _ => ⟨d, s, Prod.ext g1 rfl⟩⟩
  | add a b iha ihb =>
    intro he
    obtain ⟨ha, hb⟩ := Straight.two (.add a b) he
    rw [two _ _ a b (.add a b) he (mk .add a b) (iha ha) (ihb hb), triv (by decide)]; rfl
  | sub a b iha ihb =>
    intro he
    obtain ⟨ha, hb⟩ := Straight.two (.sub a b) he
    rw [two _ _ a b (.sub a b) he (mk .sub a b) (iha ha) (ihb hb), triv (by decide)]; rfl
  | mul a b iha ihb =>
    intro he
    obtain ⟨ha, hb⟩ := Straight.two (.mul a b) he
    rw [two _ _ a b (.mul a b) he (mk .mul a b) (iha ha) (ihb hb), triv (by decide)]; rfl
  | bin op a b iha ihb =>
    intro he
    obtain ⟨ha, hb⟩ := Straight.two (.bin op a b) he
    rw [two _ _ a b (.bin op a b) he (mk op.toBinOp a b) (iha ha) (ihb hb), triv (by cases op <;> decide)]; rfl
  | minmax k a b iha ihb =>
    intro he
    obtain ⟨ha, hb⟩ := Straight.two (.minmax k a b) he
    rw [two _ _ a b (.minmax k a b) he (mk _ a b) (iha ha) (ihb hb), triv (by cases k <;> decide)]; rfl
  | div a b iha ihb =>
    intro he
    obtain ⟨ha, hb⟩ := Straight.two (.div a b) he
    rw [two _ _ a b (.div a b) he (mk .floordiv a b) (iha ha) (ihb hb)]
    simp only [true_implies]; rfl
  | assign x e ih => intro he; exact he.noAssign.elim
  | getVar n =>
    intro he
    have : Defined (programOf h) (.getVar n) ↔ n ∈ (programOf h).map Prod.fst := Iff.rfl
    rw [this, ← stored_isSome]
    have hm : ∀ V, s.getVar n = .ok V ↔ stored h n = some V := fun V => hs.getVar he (by simp [Expr.reads])
    constructor
    · rintro ⟨d, s', hd⟩; exact ⟨d, (hm d).mp (Prod.mk.inj hd).1⟩
    · rintro ⟨V, hV⟩; exact ⟨V, s, Prod.ext ((hm V).mpr hV) rfl⟩

/-- Expressions used by disjoint sets of lines depend on disjoint sets of marks. -/
theorem noShared_pins {h : List Line} (hg : Good h) : ∀ {A B : List Str},
    (∀ i, i < h.length → (usesRev (programOf h).reverse A)[i]? = some 0 ∨ (usesRev (programOf h).reverse B)[i]? = some 0) →
    ∀ t, ¬ (pins h A t ∧ pins h B t) := by
  induction hg with
  | nil => rintro A B _ t ⟨⟨n, _, hp⟩, _⟩; exact hp.elim
  | @cons l h s s' hg hfresh hx he hs hd ih =>
    intro A B hyp t ⟨h1, h2⟩
    have h0 := hyp 0 (by simp)
    simp only [usesRev_cons', List.getElem?_cons_zero, Option.some.injEq] at h0
    have hi : ∀ i, i < h.length → (usesRev (programOf h).reverse (before l A))[i]? = some 0 ∨
        (usesRev (programOf h).reverse (before l B))[i]? = some 0 := by
      intro i hi
      have := hyp (i + 1) (by simpa using hi)
      simpa only [usesRev_cons', List.getElem?_cons_succ] using this
    have hno : ¬ (l.x ∈ A ∧ l.x ∈ B) := by
      rintro ⟨ha, hb⟩
      have := List.count_pos_iff.mpr ha
      have := List.count_pos_iff.mpr hb
      omega
    rcases pins_cons.mp h1 with ⟨ha, rfl⟩ | h1
    · rcases pins_cons.mp h2 with ⟨hb, _⟩ | h2
      · exact hno ⟨ha, hb⟩
      · exact fresh_pins hfresh _ h2
    · rcases pins_cons.mp h2 with ⟨hb, rfl⟩ | h2
      · exact fresh_pins hfresh _ h1
      · exact ih hi t ⟨h1, h2⟩

theorem noShared_of {h : List Line} {a b : Expr} (hn : NoShared (programOf h) a b) : ∀ i, i < h.length →
    (usesRev (programOf h).reverse a.reads)[i]? = some 0 ∨ (usesRev (programOf h).reverse b.reads)[i]? = some 0 := by
  intro i hi
  have hrev : ∀ reads : List Str, ∀ j, j < h.length →
      (usesRev (programOf h).reverse reads).reverse[j]? = (usesRev (programOf h).reverse reads)[h.length - 1 - j]? := by
    intro reads j hj
    rw [List.getElem?_reverse (by rw [length_usesOf]; exact hj), length_usesOf]
  have := hn (h.length - 1 - i) (by rw [length_programOf]; omega)
  unfold uses at this
  rw [hrev _ _ (by omega), hrev _ _ (by omega)] at this
  rwa [show h.length - 1 - (h.length - 1 - i) = i by omega] at this

/-- The constants and the distributions of the variables fit: the constant bounds the outcomes. -/
def Fits (isMax : Bool) (h : List Line) (s : State) : Prop := ∀ n, n ≠ stdoutName → ∀ V, stored h n = some V →
  ∃ c, dictGet? s.constants n = some c ∧ ∀ x, hasKey V.getResultMap x → Within isMax x c

/-- The constants are outcomes. -/
def Attained (h : List Line) (s : State) : Prop := ∀ n, n ≠ stdoutName → ∀ V, stored h n = some V → ∀ c,
  dictGet? s.constants n = some c → hasKey V.getResultMap c

theorem extreme_sound {isMax : Bool} {h : List Line} (hg : Good h) {s : State} (hs : Matches h s) (hf : Fits isMax h s) :
    ∀ e : Expr, e.Straight → ∀ d s', e.dist s = (.ok d, s') → ∃ v, e.extreme isMax s = (.ok v, s) ∧
      (∀ x, hasKey d.getResultMap x → Within isMax x v) ∧
      (Attained h s → Apart isMax (programOf h) e → hasKey d.getResultMap v) := by
  have via : ∀ e : Expr, e.Straight → e.extreme isMax = viaDist isMax e.dist → ∀ d s', e.dist s = (.ok d, s') →
      ∃ v, e.extreme isMax s = (.ok v, s) ∧ (∀ x, hasKey d.getResultMap x → Within isMax x v) ∧
      (Attained h s → Apart isMax (programOf h) e → hasKey d.getResultMap v) := by
    intro e he hvia d s' hd
    obtain ⟨v, h1, h2, h3⟩ := dist_extreme isMax d (expr_nonempty hg hs he hd)
    have e1 : s' = s := by have := noAssign_dist he.noAssign s; rw [hd] at this; exact this
    refine ⟨v, ?_, h3, fun _ _ => h2⟩
    rw [hvia]
    show (e.dist >>= _) s = _
    rw [evalBind_ok hd]
    show (EvalM.ofRes (if isMax then d.max else d.min)) s' = _
    rw [h1, e1]; rfl
  intro e
  induction e with
  | paren e ih =>
    intro he d s' hd
    exact ih ⟨he.noAssign, he.reads, he.faces⟩ d s' hd
  | not e ih => intro he; exact via _ he rfl
  | abs e ih => intro he; exact via _ he rfl
  | dropKeep t =>
    intro he d s' hd
    obtain ⟨⟨form, ht⟩, hn, hne⟩ := he.faces
    obtain ⟨d', a, b, h1, h2, h3, h4, h5⟩ := C18_max_min form t ht hn hne
    have hd' : t.dist = .ok d := (Prod.mk.inj hd).1
    rw [h1] at hd'; cases hd'
    cases isMax with
    | true =>
      obtain ⟨g1, g2⟩ := (C09_max_min _ b).1.mp h5
      exact ⟨b, by show (t.extreme true, s) = _; rw [h3], fun x hx => by simpa [Within] using g2 x hx, fun _ _ => g1⟩
    | false =>
      obtain ⟨g1, g2⟩ := (C09_max_min _ a).2.mp h4
      exact ⟨a, by show (t.extreme false, s) = _; rw [h2], fun x hx => by simpa [Within] using g2 x hx, fun _ _ => g1⟩
  | dice t =>
    intro he d s' hd
    obtain ⟨hn, hne⟩ := he.faces
    obtain ⟨d', a, b, h1, h2, h3, h4, h5⟩ := C13_max_min t hn hne
    have hd' : t.dist = .ok d := (Prod.mk.inj hd).1
    rw [h1] at hd'; cases hd'
    cases isMax with
    | true =>
      obtain ⟨g1, g2⟩ := (C09_max_min _ b).1.mp h5
      exact ⟨b, by show (t.extreme true, s) = _; rw [h3], fun x hx => by simpa [Within] using g2 x hx, fun _ _ => g1⟩
    | false =>
      obtain ⟨g1, g2⟩ := (C09_max_min _ a).2.mp h4
      exact ⟨a, by show (t.extreme false, s) = _; rw [h2], fun x hx => by simpa [Within] using g2 x hx, fun _ _ => g1⟩
  | constInt text =>
    intro he d s' hd
    obtain ⟨v, h1, h2⟩ := bind_eq_ok.mp (Prod.mk.inj hd).1
    obtain ⟨d', g1, _, _, g4⟩ := constDist_spec v
    rw [h2] at g1; cases g1
    refine ⟨v, by show (pyInt text, s) = _; rw [h1], fun x hx => ?_, fun _ _ => (g4 v).mpr rfl⟩
    rw [(g4 x).mp hx]; exact within_refl _ _
  | constBin text =>
    intro he d s' hd
    have h2 : constDist (binValue text) = .ok d := (Prod.mk.inj hd).1
    obtain ⟨d', g1, _, _, g4⟩ := constDist_spec (binValue text)
    rw [h2] at g1; cases g1
    refine ⟨binValue text, rfl, fun x hx => ?_, fun _ _ => (g4 _).mpr rfl⟩
    rw [(g4 x).mp hx]; exact within_refl _ _
  | add a b iha ihb => intro he; exact via _ he rfl
  | sub a b iha ihb => intro he; exact via _ he rfl
  | mul a b iha ihb => intro he; exact via _ he rfl
  | bin op a b iha ihb => intro he; exact via _ he rfl
  | div a b iha ihb =>
    intro he d s' hd
    obtain ⟨ha, hb⟩ := Straight.two (.div a b) he
    obtain ⟨da, db, g1, g2, g3, g4⟩ := dist_two (.div a b) he.noAssign hd
    obtain ⟨v, h1, h2, h3⟩ := dist_extreme isMax d (expr_nonempty hg hs he hd)
    refine ⟨v, ?_, h3, fun _ _ => h2⟩
    have hz : db.containsZero = false := by
      rw [← Bool.not_eq_true, C09_contains_zero]
      intro h0
      obtain ⟨x, hx⟩ := expr_nonempty hg hs ha g1
      obtain ⟨p, hp, rfl⟩ := (hasKey_getResultMap _ _).mp hx
      obtain ⟨q, hq, hq0⟩ := (hasKey_getResultMap _ _).mp h0
      obtain ⟨w, hw⟩ := (binop_ok_iff (expr_tidy hg hs ha g1).proper).mp ⟨d, g3⟩ p hp q hq
      rw [hq0, apply_opValue] at hw
      simp [opValue] at hw
    show (b.dist >>= _) s = _
    rw [evalBind_ok g2, hz]
    show (Expr.dist (.div a b) >>= _) s = _
    rw [evalBind_ok hd, g4]
    show (EvalM.ofRes (if isMax then d.max else d.min)) s = _
    rw [h1]; rfl
  | minmax k a b iha ihb =>
    intro he d s' hd
    obtain ⟨ha, hb⟩ := Straight.two (.minmax k a b) he
    obtain ⟨da, db, g1, g2, g3, g4⟩ := dist_two (.minmax k a b) he.noAssign hd
    obtain ⟨x, x1, x2, x3⟩ := iha ha da s g1
    obtain ⟨y, y1, y2, y3⟩ := ihb hb db s g2
    have hpa := (expr_tidy hg hs ha g1).proper
    refine ⟨minmaxOp k x y, ?_, ?_, ?_⟩
    · show (a.extreme isMax >>= _) s = _
      rw [evalBind_ok x1]
      show (b.extreme isMax >>= _) s = _
      rw [evalBind_ok y1]; rfl
    · intro v hv
      obtain ⟨p, hp, rfl⟩ := (hasKey_getResultMap _ _).mp hv
      obtain ⟨p1, hp1, q, hq, hv', _⟩ := binop_mem g3 hpa hp
      exact within_op (x2 _ ((hasKey_getResultMap _ _).mpr ⟨p1, hp1, rfl⟩)) (y2 _ ((hasKey_getResultMap _ _).mpr ⟨q, hq, rfl⟩))
        ((apply_opValue _ _ _ _).mp hv')
    · rintro hat ⟨hap, hapa, hapb⟩
      have hx := x3 hat hapa
      have hy := y3 hat hapb
      by_cases hk : k = isMax
      · -- the larger of the two is attained together with some value of the other
        obtain ⟨p, hp, hpx⟩ := (hasKey_getResultMap _ _).mp hx
        obtain ⟨q, hq, hqy⟩ := (hasKey_getResultMap _ _).mp hy
        obtain ⟨ω, hr, hsat⟩ := outcome_run hg hs ha g1 hp
        obtain ⟨ω', hr', hsat'⟩ := outcome_run hg hs hb g2 hq
        obtain ⟨w, hw⟩ := List.exists_mem_of_ne_nil _ (expr_run hg hs hb g2 hr).2.1
        obtain ⟨w', hw'⟩ := List.exists_mem_of_ne_nil _ (expr_run hg hs ha g1 hr').2.1
        have s1 := ((expr_run hg hs hb g2 hr).1 w).mpr hw
        have s2 := ((expr_run hg hs ha g1 hr').1 w').mpr hw'
        have b1 : Within isMax w y := by
          obtain ⟨q', hq', rfl, _⟩ := s1
          exact y2 _ ((hasKey_getResultMap _ _).mpr ⟨q', hq', rfl⟩)
        have b2 : Within isMax w' x := by
          obtain ⟨q', hq', rfl, _⟩ := s2
          exact x2 _ ((hasKey_getResultMap _ _).mpr ⟨q', hq', rfl⟩)
        have key : opValue (if k then .max else .min) x w = some (minmaxOp k x y) ∨
            opValue (if k then .max else .min) w' y = some (minmaxOp k x y) := by
          subst hk
          cases k <;> simp only [Within, opValue, minmaxOp, pyMax, pyMin, if_true, if_false, Bool.false_eq_true, Option.some.injEq] at * <;> (repeat' split at *) <;> omega
        rcases key with key | key
        · obtain ⟨r, hr1, hr2, _⟩ := (supp_binop g3 hpa ω (minmaxOp k x y)).mpr ⟨x, w, ⟨p, hp, hpx, hsat⟩, s1, key⟩
          exact (hasKey_getResultMap _ _).mpr ⟨r, hr1, hr2⟩
        · obtain ⟨r, hr1, hr2, _⟩ := (supp_binop g3 hpa ω' (minmaxOp k x y)).mpr ⟨w', y, s2, ⟨q, hq, hqy, hsat'⟩, key⟩
          exact (hasKey_getResultMap _ _).mpr ⟨r, hr1, hr2⟩
      · have hns := noShared_pins hg (noShared_of (hap.resolve_left hk))
        classical
        obtain ⟨p, hp, hpx⟩ := (hasKey_getResultMap _ _).mp hx
        obtain ⟨q, hq, hqy⟩ := (hasKey_getResultMap _ _).mp hy
        obtain ⟨ρ, hρ⟩ := (expr_tidy hg hs ha g1).pins p hp
        obtain ⟨σ, hσ⟩ := (expr_tidy hg hs hb g2).pins q hq
        have s1 : Sat (fun t => if pins h a.reads t then ρ t else σ t) p.1.cs := (hρ _).mpr (fun n hn => by simp [hn])
        have s2 : Sat (fun t => if pins h a.reads t then ρ t else σ t) q.1.cs :=
          (hσ _).mpr (fun n hn => if_neg (fun hn' => hns n ⟨hn', hn⟩))
        have key : opValue (if k then .max else .min) x y = some (minmaxOp k x y) := by
          cases k <;> simp only [opValue, minmaxOp, pyMax, pyMin, if_true, if_false, Bool.false_eq_true, Option.some.injEq] <;> (repeat' split) <;> omega
        obtain ⟨r, hr1, hr2, _⟩ := (supp_binop g3 hpa _ (minmaxOp k x y)).mpr ⟨x, y, ⟨p, hp, hpx, s1⟩, ⟨q, hq, hqy, s2⟩, key⟩
        exact (hasKey_getResultMap _ _).mpr ⟨r, hr1, hr2⟩
  | assign x e ih => intro he; exact he.noAssign.elim
  | getVar n =>
    intro he d s' hd
    have hn : n ≠ stdoutName := by
      rintro rfl; exact he.reads (by simp [Expr.reads])
    have hV : stored h n = some d := (hs.getVar he (by simp [Expr.reads])).mp (Prod.mk.inj hd).1
    obtain ⟨c, hc, hb⟩ := hf n hn d hV
    refine ⟨c, ?_, hb, fun hat _ => hat n hn d hV c hc⟩
    show (s.getConstant n, s) = _
    unfold State.getConstant
    rw [hc]

/-- The constants and the distributions have the same names. -/
def SameNames (h : List Line) (s : State) : Prop := ∀ n, n ≠ stdoutName → ∀ c, dictGet? s.constants n = some c → ∃ V, stored h n = some V

theorem extreme_defined {isMax : Bool} {h : List Line} (hg : Good h) {s : State} (hs : Matches h s) (hc : SameNames h s) :
    ∀ e : Expr, e.Straight → ∀ v s', e.extreme isMax s = (.ok v, s') → Defined (programOf h) e := by
  have via : ∀ e : Expr, e.Straight → e.extreme isMax = viaDist isMax e.dist → ∀ v s', e.extreme isMax s = (.ok v, s') →
      Defined (programOf h) e := by
    intro e he hvia v s' hv
    rw [hvia] at hv
    obtain ⟨d, s1, g1, _⟩ := evalBind_eq_ok.mp hv
    exact (dist_defined hg hs e he).mp ⟨d, s1, g1⟩
  intro e
  induction e with
  | paren e ih => intro he; exact ih ⟨he.noAssign, he.reads, he.faces⟩
  | not e ih => intro he; exact via _ he rfl
  | abs e ih => intro he; exact via _ he rfl
  | dropKeep t => intro _ _ _ _; trivial
  | dice t => intro _ _ _ _; trivial
  | constInt text => intro he v s' hv; exact ⟨v, (Prod.mk.inj hv).1⟩
  | constBin text => intro _ _ _ _; trivial
  | add a b iha ihb => intro he; exact via _ he rfl
  | sub a b iha ihb => intro he; exact via _ he rfl
  | mul a b iha ihb => intro he; exact via _ he rfl
  | bin op a b iha ihb => intro he; exact via _ he rfl
  | div a b iha ihb =>
    intro he v s' hv
    obtain ⟨db, s1, g1, g2⟩ := evalBind_eq_ok.mp hv
    have e1 : s1 = s := by have := noAssign_dist he.noAssign.2 s; rw [g1] at this; exact this
    subst e1
    cases hz : db.containsZero with
    | true => rw [hz] at g2; cases g2
    | false =>
      rw [hz] at g2
      obtain ⟨d, s2, g3, _⟩ := evalBind_eq_ok.mp g2
      exact (dist_defined hg hs _ he).mp ⟨d, s2, g3⟩
  | minmax k a b iha ihb =>
    intro he v s' hv
    obtain ⟨ha, hb⟩ := Straight.two (.minmax k a b) he
    obtain ⟨x, s1, g1, g2⟩ := evalBind_eq_ok.mp hv
    have e1 : s1 = s := by have := noAssign_extreme ha.noAssign isMax s; rw [g1] at this; exact this
    subst e1
    obtain ⟨y, s2, g3, _⟩ := evalBind_eq_ok.mp g2
    exact ⟨iha ha x _ g1, ihb hb y _ g3⟩
  | assign x e ih => intro he; exact he.noAssign.elim
  | getVar n =>
    intro he v s' hv
    have hn : n ≠ stdoutName := by rintro rfl; exact he.reads (by simp [Expr.reads])
    have hv' : s.getConstant n = .ok v := (Prod.mk.inj hv).1
    unfold State.getConstant at hv'
    split at hv'
    · rename_i c hcc; exact (stored_isSome h n).mp (hc n hn c hcc)
    · cases hv'

theorem hasKey_tagged {A : Str → Prop} {d : Dist} (h : Tidy A d) {t : Str} (hn : ¬ A t) (v : Int) :
    hasKey (tagged t d).getResultMap v ↔ hasKey d.getResultMap v := by
  rw [hasKey_getResultMap, hasKey_getResultMap, tagged_resultMap h hn]
  constructor
  · rintro ⟨p, hp, rfl⟩
    obtain ⟨q, hq, rfl⟩ := List.mem_map.mp hp
    exact ⟨q, hq, rfl⟩
  · rintro ⟨q, hq, rfl⟩
    exact ⟨_, List.mem_map.mpr ⟨q, hq, rfl⟩, rfl⟩

theorem Expr.Straight.steady {e : Expr} (he : e.Straight) {s t : State} (h : ∀ n, n ≠ stdoutName → dictGet? s.var n = dictGet? t.var n) :
    (e.dist s).1 = (e.dist t).1 := by
  obtain ⟨r, hr⟩ := dist_varSteady s e he.noAssign
  rw [hr s (fun _ _ => rfl), hr t (fun n hn => h n (fun heq => he.reads (by rw [← heq, ← C35_contained e he.noAssign]; exact hn)))]

/-- A program run in max (min) mode: lines, constants that bound the outcomes and, under the condition on `MIN` and `MAX`, are
    attained. -/
theorem extremeSession_lines {isMax : Bool} {p : Program} {s : State} (h : ExtremeSession isMax p s) (hp : Straight p) :
    ∃ g, Good g ∧ programOf g = p ∧ Matches g s ∧ (∀ l ∈ g, s.Used l.tag) ∧ Fits isMax g s ∧ (ApartProgram isMax p → Attained g s) ∧
      SameNames g s := by
  induction h with
  | new =>
    exact ⟨[], .nil, rfl, fun n _ => by simp [State.new, dictGet?, stored], by simp, fun n _ V hV => by simp [stored] at hV,
      fun _ n _ V hV => by simp [stored] at hV, fun n _ c hc => by simp [State.new, dictGet?] at hc⟩
  | @step p s s' x e v h hv ih =>
    obtain ⟨g, h1, h2, h3, h4, h5, h6, h7⟩ := ih (fun l hl => hp l (by simp [hl]))
    obtain ⟨hx, he⟩ := hp (x, e) (by simp)
    obtain ⟨v1, s1, g1, g2⟩ := evalBind_eq_ok.mp hv
    obtain ⟨_, s2, g3, g4⟩ := evalBind_eq_ok.mp g2
    obtain ⟨d1, s3, g5, g6⟩ := evalBind_eq_ok.mp g4
    obtain ⟨_, s4, g7, g8⟩ := evalBind_eq_ok.mp g6
    have e1 : s1 = s := by have := noAssign_extreme he.noAssign isMax s; rw [g1] at this; exact this
    subst e1
    have e2 : s2 = s1.setConstant x v1 := (Prod.mk.inj g3).2.symm
    have e3 : s3 = s2 := by have := noAssign_dist he.noAssign s2; rw [g5] at this; exact this
    subst e3
    have e4 : s' = (s3.setVar x d1).2 := by
      have : s4 = (s3.setVar x d1).2 := (congrArg Prod.snd g7).symm
      rw [← this]; exact (Prod.mk.inj g8).2.symm
    have h3' : Matches g s3 := by intro n hn; rw [e2]; exact h3 n hn
    have h4' : ∀ l ∈ g, s3.Used l.tag := fun l hl => by rw [e2]; exact (later_setConstant s1 x v1).used (h4 l hl)
    have hd1 : e.dist s1 = (.ok d1, s1) := by
      have := he.steady (s := s1) (t := s3) (fun n _ => by rw [e2]; rfl)
      rw [g5] at this
      exact Prod.ext this (noAssign_dist he.noAssign s1)
    obtain ⟨v2, k1, k2, k3⟩ := extreme_sound h1 h3 h5 e he d1 s1 hd1
    rw [g1] at k1
    obtain rfl : v1 = v2 := by cases k1; rfl
    have hgood : Good (⟨x, e, versionName x (s3.times x + 1), d1⟩ :: g) :=
      .cons h1 (fun l hl heq => fresh_version s3 x ((show l.tag = versionName x (s3.times x + 1) from heq) ▸ h4' l hl)) hx he h3' g5
    obtain ⟨t1, t2⟩ := hgood.line_tidy
    have hconst : s'.constants = dictSet s1.constants x v1 := by rw [e4, setVar_eq, e2]; rfl
    refine ⟨_, hgood, by simp [programOf, h2], ?_, ?_, ?_, ?_, ?_⟩
    · rw [e4]; exact matches_setVar h3' x hx e d1
    · intro l hl
      rw [e4]
      rcases List.mem_cons.mp hl with rfl | hl
      · exact ⟨x, s3.times x + 1, rfl, by omega, by rw [times_setVar]; simp⟩
      · exact (later_setVar s3 x d1).used (h4' l hl)
    · intro n hn V hV
      rw [hconst]
      simp only [stored] at hV
      by_cases hnx : n = x
      · rw [if_pos hnx] at hV
        injection hV with hV
        refine ⟨v1, by rw [hnx, get_set]; simp, fun y hy => k2 y ?_⟩
        rw [← hV] at hy
        exact (hasKey_tagged t1 t2 y).mp hy
      · rw [if_neg hnx] at hV
        obtain ⟨c, c1, c2⟩ := h5 n hn V hV
        exact ⟨c, by rw [get_set, if_neg (by simpa [eq_comm] using hnx)]; exact c1, c2⟩
    · intro hap n hn V hV c hc
      have hatt := h6 (fun bef y d aft heq => hap bef y d (aft ++ [(x, e)]) (by simp [heq]))
      rw [hconst] at hc
      simp only [stored] at hV
      by_cases hnx : n = x
      · rw [if_pos hnx] at hV
        injection hV with hV
        rw [hnx, get_set] at hc
        simp only [if_true, Option.some.injEq] at hc
        rw [← hV, ← hc]
        exact (hasKey_tagged t1 t2 _).mpr (k3 hatt (by rw [h2]; exact hap p x e [] rfl))
      · rw [if_neg hnx] at hV
        rw [get_set, if_neg (by simpa [eq_comm] using hnx)] at hc
        exact hatt n hn V hV c hc
    · intro n hn c hc
      rw [hconst] at hc
      simp only [stored]
      by_cases hnx : n = x
      · exact ⟨_, if_pos hnx⟩
      · rw [get_set, if_neg (by simpa [eq_comm] using hnx)] at hc
        rw [if_neg hnx]; exact h7 n hn c hc
  | @other p s s' h hv hc ht ih =>
    obtain ⟨g, h1, h2, h3, h4, h5, h6, h7⟩ := ih hp
    have hl : Later s s' := ht
    refine ⟨g, h1, h2, fun n hn => (hv n hn).trans (h3 n hn), fun l hl' => hl.used (h4 l hl'), ?_, ?_, ?_⟩
    · intro n hn V hV
      rw [hc n hn]; exact h5 n hn V hV
    · intro hap n hn V hV c hcc
      rw [hc n hn] at hcc
      exact h6 hap n hn V hV c hcc
    · intro n hn c hcc
      rw [hc n hn] at hcc
      exact h7 n hn c hcc

/-- The outcomes of an expression after a program are its values in the runs. -/
theorem session_values {p : Program} {e : Expr} (hp : Straight p) (he : e.Straight) {s s' : State} (hs : Session p s) {d : Dist}
    (hd : e.dist s = (.ok d, s')) (v : Int) : hasKey d.getResultMap v ↔ ∃ env ∈ runs p Env.empty, v ∈ vals e env := by
  obtain ⟨g, hg, rfl, hm, _⟩ := session_lines hs hp
  rw [hasKey_run hg hm he hd]
  constructor
  · rintro ⟨ω, h1, h2⟩
    exact ⟨_, (mem_runs hg _).mpr ⟨ω, h1, rfl⟩, h2⟩
  · rintro ⟨env, h1, h2⟩
    obtain ⟨ω, h3, rfl⟩ := (mem_runs hg _).mp h1
    exact ⟨ω, h3, h2⟩

theorem interpExtreme_last (parse : Str → Res Expr) {isMax : Bool} {lines : List Str} {last : Str} {e : Expr}
    (hlast : parse last = .ok e) {s s' : State} {dict : List (Str × Int)}
    (h : interpExtreme parse isMax (lines ++ [last]) s = (.ok dict, s')) :
    ∃ v s1 s2, extremeLines parse isMax lines s = (.ok (), s1) ∧ e.extreme isMax s1 = (.ok v, s2) ∧
      dictGet? dict stdoutName = some v := by
  obtain ⟨h1, h2⟩ := (interpExtreme_ok parse).mp h
  rw [extremeLines_append] at h1
  obtain ⟨_, s1, h3, h4⟩ := evalBind_eq_ok.mp h1
  obtain ⟨_, s4, h5, h6⟩ := evalBind_eq_ok.mp h4
  obtain ⟨e', v, s2, h7, h8, h9⟩ := (extremeLine_ok parse).mp h5
  rw [hlast] at h7
  cases h7
  have e3 : s4 = s' := (Prod.mk.inj h6).2
  refine ⟨v, s1, s2, h3, h8, ?_⟩
  rw [h2, constantsReturned, if_neg (by simp), ← e3, h9]
  show dictGet? (dictSet s2.constants stdoutName v) stdoutName = _
  rw [get_set]; simp

/-- The extremes of an expression without variables do not depend on the state. -/
theorem extreme_free {e : Expr} (hn : e.NoAssign) (hr : e.reads = []) (isMax : Bool) (s t : State) :
    e.extreme isMax s = ((e.extreme isMax t).1, s) := by
  obtain ⟨r, h⟩ := extreme_steady isMax s e hn
  have hc : e.contained = [] := by rw [C35_contained e hn, hr]
  rw [h s (fun n hn => by simp [hc] at hn), h t (fun n hn => by simp [hc] at hn)]

end

end PyDice
