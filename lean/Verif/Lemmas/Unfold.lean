import Verif.Lemmas.OneDie
import Verif.Spec.Unfold
/-!
# Every program amounts to a straight-line program
-/

namespace PyDice
open PyRuntime

theorem slot_inj {i j : Nat} (h : slot i = slot j) : i = j := by
  have := congrArg List.length h
  simpa [slot] using this

theorem slot_ne_stdout (i : Nat) : slot i ≠ stdoutName := by
  intro h
  have h2 : 's' ∈ slot i := by rw [h]; decide
  have := (List.mem_replicate.mp h2).2
  exact absurd this (by decide)

theorem straight_two {e : Expr} {op : BinOp} {a b : Expr} (h : Bin2 e op a b) (ha : a.Straight) (hb : b.Straight) : e.Straight := by
  cases h <;> exact ⟨⟨ha.noAssign, hb.noAssign⟩, by simp [Expr.reads, ha.reads, hb.reads], ⟨ha.faces, hb.faces⟩⟩

section
variable [R : PyRuntime]

/-- A state with the distributions of the lines. -/
noncomputable def stateOf (h : List Line) : State :=
  { var := h.map fun l => (l.x, tagged l.tag l.d), constants := [], timesSet := [] }

theorem stateOf_get (h : List Line) (n : Str) : dictGet? (stateOf h).var n = stored h n := by
  induction h with
  | nil => rfl
  | cons l h ih =>
    show dictGet? ((l.x, tagged l.tag l.d) :: h.map fun l => (l.x, tagged l.tag l.d)) n = _
    unfold stored
    rw [← ih]
    by_cases hn : n = l.x
    · subst hn; simp [dictGet?]
    · have h1 : ¬ l.x = n := fun h => hn h.symm
      simp [dictGet?, hn, h1, stateOf]

theorem stateOf_matches (h : List Line) : Matches h (stateOf h) := fun n _ => stateOf_get h n

/-- The later lines keep what is stored. -/
def Extends (h h' : List Line) : Prop := ∀ n V, stored h n = some V → stored h' n = some V

omit R in
theorem two_dist_mk [R : PyRuntime] {op : BinOp} {a b : Expr} {s s1 s2 : State} {da db d : Dist} (h1 : a.dist s = (.ok da, s1))
    (h2 : b.dist s1 = (.ok db, s2)) (h3 : Dist.binop op da db = .ok d) :
    (do let x ← a.dist; let y ← b.dist; EvalM.ofRes (Dist.binop op x y) : EvalM Dist) s = (.ok d, s2) := by
  rw [evalBind_ok h1, evalBind_ok h2]
  show (Dist.binop op da db, s2) = _
  rw [h3]

/-- More variables do not change a distribution that can be computed. -/
theorem dist_more : ∀ {e : Expr}, e.NoAssign → ∀ {s t : State} {d : Dist}, (∀ n V, dictGet? s.var n = some V → dictGet? t.var n = some V) →
    e.dist s = (.ok d, s) → e.dist t = (.ok d, t) := by
  have two : ∀ (op : BinOp) (a b : Expr), a.NoAssign → b.NoAssign → ∀ (s t : State) (d : Dist),
      (∀ {d : Dist}, a.dist s = (.ok d, s) → a.dist t = (.ok d, t)) → (∀ {d : Dist}, b.dist s = (.ok d, s) → b.dist t = (.ok d, t)) →
      (do let x ← a.dist; let y ← b.dist; EvalM.ofRes (Dist.binop op x y) : EvalM Dist) s = (.ok d, s) →
      (do let x ← a.dist; let y ← b.dist; EvalM.ofRes (Dist.binop op x y) : EvalM Dist) t = (.ok d, t) := by
    intro op a b hna hnb s t d iha ihb h
    obtain ⟨da, s1, g1, g2⟩ := evalBind_eq_ok.mp h
    obtain ⟨db, s2, g3, g4⟩ := evalBind_eq_ok.mp g2
    have e1 : s1 = s := by have := noAssign_dist hna s; rw [g1] at this; exact this
    subst e1
    have e2 : s2 = s1 := by have := noAssign_dist hnb s1; rw [g3] at this; exact this
    subst e2
    exact two_dist_mk (iha g1) (ihb g3) (Prod.mk.inj g4).1
  intro e
  induction e with
  | paren e ih => intro hn s t d hv h; exact ih hn hv h
  | not e ih =>
    intro hn s t d hv h
    obtain ⟨d1, s1, g1, g2⟩ := evalBind_eq_ok.mp h
    have e1 : s1 = s := by have := noAssign_dist (e := e) hn s; rw [g1] at this; exact this
    subst e1
    show (e.dist >>= _) t = _
    rw [evalBind_ok (ih hn hv g1)]
    exact Prod.ext (Prod.mk.inj g2).1 rfl
  | abs e ih =>
    intro hn s t d hv h
    obtain ⟨d1, s1, g1, g2⟩ := evalBind_eq_ok.mp h
    have e1 : s1 = s := by have := noAssign_dist (e := e) hn s; rw [g1] at this; exact this
    subst e1
    show (e.dist >>= _) t = _
    rw [evalBind_ok (ih hn hv g1)]
    exact Prod.ext (Prod.mk.inj g2).1 rfl
  | dropKeep x => intro hn s t d hv h; exact Prod.ext (Prod.mk.inj h).1 rfl
  | dice x => intro hn s t d hv h; exact Prod.ext (Prod.mk.inj h).1 rfl
  | constInt text => intro hn s t d hv h; exact Prod.ext (Prod.mk.inj h).1 rfl
  | constBin text => intro hn s t d hv h; exact Prod.ext (Prod.mk.inj h).1 rfl
  | add a b iha ihb => intro hn s t d hv h; exact two _ a b hn.1 hn.2 s t d (iha hn.1 hv) (ihb hn.2 hv) h
  | sub a b iha ihb => intro hn s t d hv h; exact two _ a b hn.1 hn.2 s t d (iha hn.1 hv) (ihb hn.2 hv) h
  | mul a b iha ihb => intro hn s t d hv h; exact two _ a b hn.1 hn.2 s t d (iha hn.1 hv) (ihb hn.2 hv) h
  | div a b iha ihb => intro hn s t d hv h; exact two _ a b hn.1 hn.2 s t d (iha hn.1 hv) (ihb hn.2 hv) h
  | bin op a b iha ihb => intro hn s t d hv h; exact two _ a b hn.1 hn.2 s t d (iha hn.1 hv) (ihb hn.2 hv) h
  | minmax k a b iha ihb => intro hn s t d hv h; exact two _ a b hn.1 hn.2 s t d (iha hn.1 hv) (ihb hn.2 hv) h
  | assign x e ih => intro hn; exact hn.elim
  | getVar n =>
    intro hn s t d hv h
    have h1 : s.getVar n = .ok d := (Prod.mk.inj h).1
    exact Prod.ext ((getVar_ok).mpr (hv n d ((getVar_ok).mp h1))) rfl

theorem dist_grows {e : Expr} (hn : e.NoAssign) {h h' : List Line} (hg : Extends h h') {d : Dist}
    (hd : e.dist (stateOf h) = (.ok d, stateOf h)) : e.dist (stateOf h') = (.ok d, stateOf h') :=
  dist_more hn (fun n V => by rw [stateOf_get, stateOf_get]; exact hg n V) hd

/-- The state holds the distributions of what the names stand for. -/
structure Unfolded (u : Unfolding) (h : List Line) (s : State) : Prop where
  good : Good h
  prog : programOf h = u.prog
  used : ∀ l ∈ h, s.Used l.tag
  names : ∀ l ∈ h, ∃ i, i < h.length ∧ l.x = slot i
  absent : ∀ n, u.now n = none → dictGet? s.var n = none
  present : ∀ n e, u.now n = some e → e.Straight ∧ ∃ d, e.dist (stateOf h) = (.ok d, stateOf h) ∧ dictGet? s.var n = some d

theorem Unfolded.start : Unfolded .start [] State.new :=
  ⟨.nil, rfl, by simp, by simp, fun _ _ => rfl, by intro n e h; cases h⟩

theorem Unfolded.let' {u : Unfolding} {h : List Line} {s : State} (H : Unfolded u h s) (x : Str) {e : Expr} (he : e.Straight) {d : Dist}
    (hd : e.dist (stateOf h) = (.ok d, stateOf h)) : Unfolded (u.let' x e) h { s with var := dictSet s.var x d } := by
  refine ⟨H.good, H.prog, H.used, H.names, ?_, ?_⟩
  · intro n hn
    simp only [Unfolding.let'] at hn
    by_cases h1 : n = x
    · simp [h1] at hn
    · rw [if_neg h1] at hn
      simp only
      rw [get_set, if_neg (fun h => h1 h.symm)]
      exact H.absent n hn
  · intro n e' hn
    simp only [Unfolding.let'] at hn
    by_cases h1 : n = x
    · rw [if_pos h1] at hn
      cases hn
      exact ⟨he, d, hd, by simp only; rw [get_set, if_pos h1.symm]⟩
    · rw [if_neg h1] at hn
      obtain ⟨k1, d', k2, k3⟩ := H.present n e' hn
      exact ⟨k1, d', k2, by simp only; rw [get_set, if_neg (fun h => h1 h.symm)]; exact k3⟩

theorem Unfolded.assign {u : Unfolding} {h : List Line} {s : State} (H : Unfolded u h s) (x : Str) {e : Expr} (he : e.Straight) {d : Dist}
    (hd : e.dist (stateOf h) = (.ok d, stateOf h)) :
    ∃ h', Unfolded (u.assign x e) h' (s.setVar x d).2 ∧ Extends h h' ∧ e.dist (stateOf h') = (.ok d, stateOf h') := by
  have hlen : u.prog.length = h.length := by rw [← H.prog]; exact length_programOf h
  have hnew : ∀ n, stored h n ≠ none → n ≠ slot h.length := by
    intro n hn heq
    obtain ⟨V, hV⟩ := Option.ne_none_iff_exists'.mp hn
    have h1 := (stored_isSome h n).mp ⟨V, hV⟩
    have h2 : ∀ g : List Line, n ∈ (programOf g).map Prod.fst → ∃ l ∈ g, l.x = n := by
      intro g
      induction g with
      | nil => intro h; simp [programOf] at h
      | cons l g ih =>
        intro h
        simp only [programOf, List.map_append, List.mem_append, List.map_cons, List.map_nil, List.mem_singleton] at h
        rcases h with h | h
        · obtain ⟨l', k1, k2⟩ := ih h; exact ⟨l', by simp [k1], k2⟩
        · exact ⟨l, by simp, h.symm⟩
    obtain ⟨l, k1, k2⟩ := h2 h h1
    obtain ⟨i, k3, k4⟩ := H.names l k1
    have := slot_inj (k4.symm.trans (k2.trans heq))
    omega
  let l : Line := ⟨slot h.length, e, versionName x (s.times x + 1), d⟩
  have hgrow : Extends h (l :: h) := by
    intro n V hV
    unfold stored
    rw [if_neg (hnew n (by rw [hV]; simp))]
    exact hV
  have hgood : Good (l :: h) := .cons H.good
    (fun l' hl heq => fresh_version s x ((show l'.tag = versionName x (s.times x + 1) from heq) ▸ H.used l' hl))
    (slot_ne_stdout _) he (stateOf_matches h) hd
  have hs : (s.setVar x d).2 = { var := dictSet s.var x (tagged (versionName x (s.times x + 1)) d), constants := s.constants, timesSet := bump s.timesSet x } := by
    rw [setVar_eq]
  have hvar : (Expr.getVar (slot h.length)).dist (stateOf (l :: h)) = (.ok (tagged l.tag d), stateOf (l :: h)) := by
    refine Prod.ext ?_ rfl
    show (stateOf (l :: h)).getVar (slot h.length) = _
    rw [getVar_ok, stateOf_get]
    show (if slot h.length = l.x then some (tagged l.tag l.d) else stored h _) = _
    rw [if_pos rfl]
  have base : Unfolded ⟨u.prog ++ [(slot h.length, e)], u.now⟩ (l :: h) { s with timesSet := bump s.timesSet x } := by
    refine ⟨hgood, by rw [← H.prog]; rfl, ?_, ?_, H.absent, ?_⟩
    · intro l' hl
      have hb : ∀ m, (s.setVar x d).2.Used m → State.Used { s with timesSet := bump s.timesSet x } m := by
        rintro m ⟨n, k, k1, k2, k3⟩
        refine ⟨n, k, k1, k2, ?_⟩
        rw [hs] at k3
        exact k3
      rcases List.mem_cons.mp hl with rfl | hl
      · exact hb _ ⟨x, s.times x + 1, rfl, by omega, by rw [times_setVar]; simp⟩
      · exact hb _ ((later_setVar s x d).used (H.used l' hl))
    · intro l' hl
      rcases List.mem_cons.mp hl with rfl | hl
      · exact ⟨h.length, by simp, rfl⟩
      · obtain ⟨i, k1, k2⟩ := H.names l' hl
        exact ⟨i, by simp only [List.length_cons]; omega, k2⟩
    · intro n e' hn
      obtain ⟨k1, d', k2, k3⟩ := H.present n e' hn
      exact ⟨k1, d', dist_grows k1.noAssign hgrow k2, k3⟩
  refine ⟨l :: h, ?_, hgrow, dist_grows he.noAssign hgrow hd⟩
  have := base.let' x (e := .getVar (slot h.length)) ⟨trivial, by simp [Expr.reads]; exact fun h => slot_ne_stdout _ h.symm, trivial⟩ hvar
  rw [hs]
  unfold Unfolding.assign
  rw [hlen]
  exact this

/-- What an expression amounts to. -/
def Amounts (e : Expr) (u : Unfolding) (h : List Line) (s : State) : Prop :=
  match e.unfold u with
  | none => ∀ d s', e.dist s ≠ (.ok d, s')
  | some (e', u') => ∃ d s' h', e.dist s = (.ok d, s') ∧ Unfolded u' h' s' ∧ Extends h h' ∧ e'.Straight ∧
      e'.dist (stateOf h') = (.ok d, stateOf h')

theorem Amounts.of_some {e : Expr} {u : Unfolding} {h : List Line} {s : State} (H : Amounts e u h s) {e' : Expr} {u' : Unfolding}
    (hu : e.unfold u = some (e', u')) : ∃ d s' h', e.dist s = (.ok d, s') ∧ Unfolded u' h' s' ∧ Extends h h' ∧ e'.Straight ∧
      e'.dist (stateOf h') = (.ok d, stateOf h') := by unfold Amounts at H; rw [hu] at H; exact H

theorem Amounts.of_none {e : Expr} {u : Unfolding} {h : List Line} {s : State} (H : Amounts e u h s)
    (hu : e.unfold u = none) : ∀ d s', e.dist s ≠ (.ok d, s') := by unfold Amounts at H; rw [hu] at H; exact H

theorem Amounts.mk_some {e : Expr} {u : Unfolding} {h : List Line} {s : State} {e' : Expr} {u' : Unfolding}
    (hu : e.unfold u = some (e', u')) (H : ∃ d s' h', e.dist s = (.ok d, s') ∧ Unfolded u' h' s' ∧ Extends h h' ∧ e'.Straight ∧
      e'.dist (stateOf h') = (.ok d, stateOf h')) : Amounts e u h s := by unfold Amounts; rw [hu]; exact H

theorem Amounts.mk_none {e : Expr} {u : Unfolding} {h : List Line} {s : State}
    (hu : e.unfold u = none) (H : ∀ d s', e.dist s ≠ (.ok d, s')) : Amounts e u h s := by unfold Amounts; rw [hu]; exact H

theorem amounts_two {e : Expr} {op : BinOp} {a b : Expr} {mk : Expr → Expr → Expr} (cond : Expr → Unfolding → Prop)
    [∀ e u, Decidable (cond e u)]
    (hdist : e.dist = (do let x ← a.dist; let y ← b.dist; EvalM.ofRes (Dist.binop op x y) : EvalM Dist))
    (hmk : ∀ a b, (mk a b).dist = (do let x ← a.dist; let y ← b.dist; EvalM.ofRes (Dist.binop op x y) : EvalM Dist))
    (hstr : ∀ a b : Expr, a.Straight → b.Straight → (mk a b).Straight)
    (hdef : ∀ p a b, Defined p (mk a b) ↔ Defined p a ∧ Defined p b ∧ ∀ now, cond b ⟨p, now⟩)
    (hcond : ∀ e u now, cond e u → cond e ⟨u.prog, now⟩)
    (hun : ∀ u, e.unfold u = (a.unfold u).bind fun x => (b.unfold x.2).bind fun y =>
      if cond y.1 y.2 then some (mk x.1 y.1, y.2) else none)
    (iha : ∀ u h s, Unfolded u h s → Amounts a u h s) (ihb : ∀ u h s, Unfolded u h s → Amounts b u h s) :
    ∀ u h s, Unfolded u h s → Amounts e u h s := by
  intro u h s H
  have fails : ∀ d s', e.dist s = (.ok d, s') → ∃ da s1 db s2, a.dist s = (.ok da, s1) ∧ b.dist s1 = (.ok db, s2) ∧
      Dist.binop op da db = .ok d ∧ s2 = s' := by
    intro d s' hd
    rw [hdist] at hd
    obtain ⟨da, s1, g1, g2⟩ := evalBind_eq_ok.mp hd
    obtain ⟨db, s2, g3, g4⟩ := evalBind_eq_ok.mp g2
    exact ⟨da, s1, db, s2, g1, g3, (Prod.mk.inj g4).1, (Prod.mk.inj g4).2⟩
  cases ha : a.unfold u with
  | none =>
    refine .mk_none (by rw [hun, ha]; rfl) fun d s' hd => ?_
    obtain ⟨da, s1, db, s2, g1, _⟩ := fails d s' hd
    exact (iha u h s H).of_none ha _ _ g1
  | some x =>
    obtain ⟨a', u1⟩ := x
    obtain ⟨da, s1, h1, m1, m2, m3, m4, m5⟩ := (iha u h s H).of_some ha
    cases hb : b.unfold u1 with
    | none =>
      refine .mk_none (by rw [hun, ha]; simp [hb]) fun d s' hd => ?_
      obtain ⟨da', s1', db, s2, g1, g2, _⟩ := fails d s' hd
      rw [m1] at g1
      cases g1
      exact (ihb u1 h1 s1 m2).of_none hb _ _ g2
    | some y =>
      obtain ⟨b', u2⟩ := y
      obtain ⟨db, s2, h2, n1, n2, n3, n4, n5⟩ := (ihb u1 h1 s1 m2).of_some hb
      have m5' := dist_grows m4.noAssign n3 m5
      have hst := hstr a' b' m4 n4
      have hdd := dist_defined n2.good (stateOf_matches h2)
      have da' := (hdd a' m4).mp ⟨_, _, m5'⟩
      have db' := (hdd b' n4).mp ⟨_, _, n5⟩
      by_cases hc : cond b' u2
      · have hD : Defined (programOf h2) (mk a' b') := by
          rw [hdef]
          refine ⟨da', db', fun now => ?_⟩
          rw [n2.prog]
          exact hcond b' u2 now hc
        obtain ⟨d, s', hd⟩ := (hdd _ hst).mpr hD
        have hd' := hd
        rw [hmk] at hd
        obtain ⟨da2, t1, g1, g2⟩ := evalBind_eq_ok.mp hd
        obtain ⟨db2, t2, g3, g4⟩ := evalBind_eq_ok.mp g2
        rw [m5'] at g1
        cases g1
        rw [n5] at g3
        cases g3
        have hop : Dist.binop op da db = .ok d := (Prod.mk.inj g4).1
        refine .mk_some (by rw [hun, ha]; simp [hb, hc]) ⟨d, s2, h2, ?_, n2, fun n V hV => n3 n V (m3 n V hV), hst, ?_⟩
        · rw [hdist]; exact two_dist_mk m1 n1 hop
        · rw [hmk]; exact two_dist_mk m5' n5 hop
      · refine .mk_none (by rw [hun, ha]; simp [hb, hc]) fun d s' hd => hc ?_
        obtain ⟨da2, t1, db2, t2, g1, g2, g3, _⟩ := fails d s' hd
        rw [m1] at g1
        cases g1
        rw [n1] at g2
        cases g2
        have h1 : (mk a' b').dist (stateOf h2) = (.ok d, stateOf h2) := by rw [hmk]; exact two_dist_mk m5' n5 g3
        have h2 := ((hdef _ _ _).mp ((hdd _ hst).mp ⟨_, _, h1⟩)).2.2 u2.now
        rw [n2.prog] at h2
        exact h2

omit R in
theorem bind_if_true {α β : Type} (o : Option α) (f : α → β) : (o.bind fun y => if True then some (f y) else none) = o.map f := by
  cases o <;> simp

theorem amounts : ∀ e : Expr, e.Faces → ∀ u h s, Unfolded u h s → Amounts e u h s := by
  have one : ∀ (e : Expr) (mk : Expr → Expr) (f : Dist → Dist) (e0 : Expr), (∀ s, e0.dist s = (do return f (← e.dist) : EvalM Dist) s) →
      (∀ e s, (mk e).dist s = (do return f (← e.dist) : EvalM Dist) s) → (∀ e : Expr, e.Straight → (mk e).Straight) →
      (∀ u, e0.unfold u = (e.unfold u).map fun r => (mk r.1, r.2)) → (∀ u h s, Unfolded u h s → Amounts e u h s) →
      ∀ u h s, Unfolded u h s → Amounts e0 u h s := by
    intro e mk f e0 h0 hmk hstr hun ih u h s H
    cases hu : e.unfold u with
    | none =>
      refine .mk_none (by rw [hun, hu]; rfl) fun d s' hd => ?_
      rw [h0] at hd
      obtain ⟨d1, s1, g1, _⟩ := evalBind_eq_ok.mp hd
      exact (ih u h s H).of_none hu _ _ g1
    | some r =>
      obtain ⟨e', u'⟩ := r
      obtain ⟨d, s', h', m1, m2, m3, m4, m5⟩ := (ih u h s H).of_some hu
      refine .mk_some (by rw [hun, hu]; rfl) ⟨f d, s', h', ?_, m2, m3, hstr e' m4, ?_⟩
      · rw [h0, evalBind_ok m1]; rfl
      · rw [hmk, evalBind_ok m5]; rfl
  have leaf : ∀ (e : Expr) (r : Res Dist), (∀ s, e.dist s = (r, s)) → (∀ u, e.unfold u = r.toOption.map fun _ => (e, u)) → e.Straight →
      ∀ u h s, Unfolded u h s → Amounts e u h s := by
    intro e r hd hu he u h s H
    cases hr : r with
    | error er =>
      refine .mk_none (by rw [hu, hr]; rfl) fun d s' hd' => ?_
      rw [hd, hr] at hd'
      cases hd'
    | ok d =>
      exact .mk_some (by rw [hu, hr]; rfl) ⟨d, s, h, by rw [hd, hr], H, fun n V h => h, he, by rw [hd, hr]⟩
  intro e
  induction e with
  | paren e ih =>
    intro hf u h s H
    cases hu : e.unfold u with
    | none => exact .mk_none (by simp only [Expr.unfold, hu]; rfl) fun d s' hd => (ih hf u h s H).of_none hu _ _ hd
    | some r =>
      obtain ⟨d, s', h', m1, m2, m3, m4, m5⟩ := (ih hf u h s H).of_some hu
      exact .mk_some (e' := .paren r.1) (u' := r.2) (by simp only [Expr.unfold, hu]; rfl)
        ⟨d, s', h', m1, m2, m3, ⟨m4.noAssign, m4.reads, m4.faces⟩, m5⟩
  | not e ih =>
    intro hf
    exact one e .not Dist.notOp _ (fun _ => rfl) (fun _ _ => rfl) (fun e h => ⟨h.noAssign, h.reads, h.faces⟩) (fun _ => rfl) (ih hf)
  | abs e ih =>
    intro hf
    exact one e .abs Dist.absOp _ (fun _ => rfl) (fun _ _ => rfl) (fun e h => ⟨h.noAssign, h.reads, h.faces⟩) (fun _ => rfl) (ih hf)
  | dropKeep t =>
    intro hf
    obtain ⟨⟨form, ht⟩, hn, hne⟩ := hf
    obtain ⟨d, _, _, h1, _⟩ := C18_max_min form t ht hn hne
    exact leaf _ t.dist (fun s => rfl) (fun u => by rw [h1]; rfl) ⟨trivial, by simp [Expr.reads], ⟨form, ht⟩, hn, hne⟩
  | dice t =>
    intro hf
    obtain ⟨hn, hne⟩ := hf
    obtain ⟨d, _, _, h1, _⟩ := C13_max_min t hn hne
    exact leaf _ t.dist (fun s => rfl) (fun u => by rw [h1]; rfl) ⟨trivial, by simp [Expr.reads], hn, hne⟩
  | constInt text =>
    intro hf
    refine leaf _ (do constDist (← pyInt text)) (fun s => rfl) (fun u => ?_) ⟨trivial, by simp [Expr.reads], trivial⟩
    simp only [Expr.unfold]
    cases pyInt text with
    | error er => rfl
    | ok v =>
      obtain ⟨d, g1, _⟩ := constDist_spec v
      show _ = (constDist v).toOption.map _
      rw [g1]; rfl
  | constBin text =>
    intro hf
    obtain ⟨d, g1, _⟩ := constDist_spec (binValue text)
    exact leaf _ (constDist (binValue text)) (fun s => rfl) (fun u => by rw [g1]; rfl) ⟨trivial, by simp [Expr.reads], trivial⟩
  | add a b iha ihb =>
    intro hf
    exact amounts_two (mk := .add) (fun _ _ => True) rfl (fun _ _ => rfl) (fun a b ha hb => straight_two (.add a b) ha hb)
      (fun p a b => by simp [Defined]) (by simp) (fun u => by simp only [Expr.unfold, bind_if_true]) (iha hf.1) (ihb hf.2)
  | sub a b iha ihb =>
    intro hf
    exact amounts_two (mk := .sub) (fun _ _ => True) rfl (fun _ _ => rfl) (fun a b ha hb => straight_two (.sub a b) ha hb)
      (fun p a b => by simp [Defined]) (by simp) (fun u => by simp only [Expr.unfold, bind_if_true]) (iha hf.1) (ihb hf.2)
  | mul a b iha ihb =>
    intro hf
    exact amounts_two (mk := .mul) (fun _ _ => True) rfl (fun _ _ => rfl) (fun a b ha hb => straight_two (.mul a b) ha hb)
      (fun p a b => by simp [Defined]) (by simp) (fun u => by simp only [Expr.unfold, bind_if_true]) (iha hf.1) (ihb hf.2)
  | bin op a b iha ihb =>
    intro hf
    exact amounts_two (mk := .bin op) (fun _ _ => True) rfl (fun _ _ => rfl) (fun a b ha hb => straight_two (.bin op a b) ha hb)
      (fun p a b => by simp [Defined]) (by simp) (fun u => by simp only [Expr.unfold, bind_if_true]) (iha hf.1) (ihb hf.2)
  | minmax k a b iha ihb =>
    intro hf
    exact amounts_two (mk := .minmax k) (fun _ _ => True) rfl (fun _ _ => rfl) (fun a b ha hb => straight_two (.minmax k a b) ha hb)
      (fun p a b => by simp [Defined]) (by simp) (fun u => by simp only [Expr.unfold, bind_if_true]) (iha hf.1) (ihb hf.2)
  | div a b iha ihb =>
    intro hf
    exact amounts_two (mk := .div) (fun e u => ∀ env ∈ runs u.prog Env.empty, 0 ∉ vals e env) rfl (fun _ _ => rfl)
      (fun a b ha hb => straight_two (.div a b) ha hb)
      (fun p a b => by simp [Defined]) (fun e u now h => h) (fun u => rfl) (iha hf.1) (ihb hf.2)
  | assign x e ih =>
    intro hf u h s H
    cases hu : e.unfold u with
    | none =>
      refine .mk_none (by simp only [Expr.unfold, hu]; rfl) fun d s' hd => ?_
      obtain ⟨d1, s1, g1, _⟩ := evalBind_eq_ok.mp hd
      exact (ih hf u h s H).of_none hu _ _ g1
    | some r =>
      obtain ⟨d, s', h', m1, m2, m3, m4, m5⟩ := (ih hf u h s H).of_some hu
      obtain ⟨h2, k1, k2, k3⟩ := m2.assign x m4 m5
      refine .mk_some (e' := r.1) (u' := r.2.assign x r.1) (by simp only [Expr.unfold, hu]; rfl)
        ⟨d, (s'.setVar x d).2, h2, ?_, k1, fun n V hV => k2 n V (m3 n V hV), m4, k3⟩
      show (e.dist >>= _) s = _
      rw [evalBind_ok m1]
      have : EvalM.setVar x d s' = (.ok (), (s'.setVar x d).2) := Prod.ext (by rw [show EvalM.setVar x d s' = s'.setVar x d from rfl, setVar_eq]) rfl
      exact evalBind_ok this
  | getVar n =>
    intro hf u h s H
    cases hu : u.now n with
    | none =>
      refine .mk_none (by simp only [Expr.unfold, hu]; rfl) fun d s' hd => ?_
      have h1 : s.getVar n = .ok d := (Prod.mk.inj hd).1
      rw [getVar_ok, H.absent n hu] at h1
      cases h1
    | some e' =>
      obtain ⟨k1, d, k2, k3⟩ := H.present n e' hu
      exact .mk_some (by simp only [Expr.unfold, hu]; rfl) ⟨d, s, h, Prod.ext (getVar_ok.mpr k3) rfl, H, fun n V h => h, k1, k2⟩

/-- What the lines of a program amount to. -/
theorem amounts_lines (parse : Str → Res Expr) : ∀ (lines : List Str) (es : List Expr), lines.map parse = es.map .ok →
    (∀ e ∈ es, e.Faces) → ∀ u h s, Unfolded u h s →
    match unfoldLines es u with
    | none => ∀ s', distLines parse lines s ≠ (.ok (), s')
    | some u' => ∃ s' h', distLines parse lines s = (.ok (), s') ∧ Unfolded u' h' s' := by
  intro lines
  induction lines with
  | nil =>
    intro es hl hf u h s H
    have : es = [] := by cases es with | nil => rfl | cons e es => cases hl
    subst this
    exact ⟨s, h, rfl, H⟩
  | cons l lines ih =>
    intro es hl hf u h s H
    cases es with
    | nil => cases hl
    | cons e es =>
      simp only [List.map_cons, List.cons.injEq] at hl
      have hA := amounts e (hf e (by simp)) u h s H
      have hline : distLine parse l s = (do let d ← e.dist; fun s => (.ok (), { s with var := dictSet s.var stdoutName d }) : EvalM Unit) s := by
        unfold distLine
        rw [hl.1]
        exact evalBind_ok (m := EvalM.ofRes (.ok e)) (a := e) (s := s) (s' := s) rfl
      cases hu : e.unfold u with
      | none =>
        simp only [unfoldLines, hu, Option.bind_none]
        intro s' hs
        obtain ⟨_, s1, g1, _⟩ := evalBind_eq_ok.mp hs
        rw [hline] at g1
        obtain ⟨d, s2, g2, _⟩ := evalBind_eq_ok.mp g1
        exact hA.of_none hu _ _ g2
      | some r =>
        obtain ⟨d, s1, h1, m1, m2, m3, m4, m5⟩ := hA.of_some hu
        have hstep : distLine parse l s = (.ok (), { s1 with var := dictSet s1.var stdoutName d }) := by
          rw [hline]; exact evalBind_ok m1
        have hrest := ih es hl.2 (fun e' he' => hf e' (by simp [he'])) _ h1 _ (m2.let' stdoutName m4 m5)
        simp only [unfoldLines, hu, Option.bind_some]
        cases hu2 : unfoldLines es (r.2.let' stdoutName r.1) with
        | none =>
          rw [hu2] at hrest
          intro s' hs
          obtain ⟨_, s2, g1, g2⟩ := evalBind_eq_ok.mp hs
          rw [hstep] at g1
          cases g1
          exact hrest _ g2
        | some u' =>
          rw [hu2] at hrest
          obtain ⟨s', h', k1, k2⟩ := hrest
          refine ⟨s', h', ?_, k2⟩
          show (distLine parse l >>= _) s = _
          rw [evalBind_ok hstep]
          exact k1

/-- What `e'` was found to be, in terms of the program. -/
theorem Unfolded.law {u : Unfolding} {h : List Line} {s : State} (H : Unfolded u h s) {n : Str} {e : Expr} (hn : u.now n = .some e) :
    ∃ d, dictGet? s.var n = .some d ∧ (∀ v, hasKey d.getResultMap v ↔ ∃ env ∈ runs u.prog Env.empty, v ∈ vals e env) ∧
      (progWays u.prog e ≠ [] → ∃ f, d.getDictForm = .ok f ∧ Option.none ∉ progWays u.prog e ∧ 0 < usedTotal u.prog e ∧
        ∀ v, (dictGet? f v).getD 0 = (usedCount u.prog e v : ℚ) / (usedTotal u.prog e : ℚ)) := by
  obtain ⟨k1, d, k2, k3⟩ := H.present n e hn
  refine ⟨d, k3, fun v => ?_, fun hw => ?_⟩
  · rw [hasKey_run H.good (stateOf_matches h) k1 k2, ← H.prog]
    constructor
    · rintro ⟨ω, h1, h2⟩; exact ⟨_, (mem_runs H.good _).mpr ⟨ω, h1, rfl⟩, h2⟩
    · rintro ⟨env, h1, h2⟩
      obtain ⟨ω, h3, rfl⟩ := (mem_runs H.good _).mp h1
      exact ⟨ω, h3, h2⟩
  · rw [← H.prog] at hw ⊢
    exact reported_lines H.good k1 (stateOf_matches h) k2 hw

omit R in
theorem map_oneDie (parse : Str → Res Expr) {lines : List Str} {es : List Expr} (hlines : lines.map parse = es.map .ok) :
    lines.map (fun l => (parse l).map Expr.oneDie) = (es.map Expr.oneDie).map .ok := by
  have h1 : lines.map (fun l => (parse l).map Expr.oneDie) = (lines.map parse).map (fun r => r.map Expr.oneDie) := by
    rw [List.map_map]; rfl
  rw [h1, hlines, List.map_map, List.map_map]
  rfl

theorem every_program (parse : Str → Res Expr) (lines : List Str) (es : List Expr) (hlines : lines.map parse = es.map .ok)
    (hm : ∀ e ∈ es, e.Made ∧ e.Faced) :
    match unfoldLines (es.map Expr.oneDie) .start with
    | none => ∀ dict s', interpDists parse lines State.new ≠ (.ok dict, s')
    | some u => ∃ s' h, interpDists parse lines State.new = (.ok (if lines = [] then [] else s'.var), s') ∧ Unfolded u h s' := by
  have hmade : ∀ l ∈ lines, ∀ e, parse l = .ok e → e.Made := by
    intro l hl e he
    have h1 : parse l ∈ lines.map parse := List.mem_map_of_mem hl
    rw [hlines, he] at h1
    obtain ⟨e', h2, h3⟩ := List.mem_map.mp h1
    cases h3
    exact (hm e h2).1
  rw [oneDie_interp parse lines hmade]
  have hA := amounts_lines (fun l => (parse l).map Expr.oneDie) lines (es.map Expr.oneDie) (map_oneDie parse hlines)
    (by
      intro e he
      obtain ⟨e', h1, rfl⟩ := List.mem_map.mp he
      exact oneDie_faces (hm e' h1).1 (hm e' h1).2) .start [] State.new .start
  cases hu : unfoldLines (es.map Expr.oneDie) .start with
  | none =>
    rw [hu] at hA
    intro dict s' h
    obtain ⟨_, s1, g1, _⟩ := evalBind_eq_ok.mp h
    exact hA _ g1
  | some u =>
    rw [hu] at hA
    obtain ⟨s', h', k1, k2⟩ := hA
    exact ⟨s', h', (evalBind_ok k1 : (distLines _ lines >>= _) State.new = _), k2⟩

/-- The same when every term has a die. -/
theorem every_faces (parse : Str → Res Expr) (lines : List Str) (es : List Expr) (hlines : lines.map parse = es.map .ok)
    (hm : ∀ e ∈ es, e.Faces) (u : Unfolding) (hu : unfoldLines es .start = some u) :
    ∃ s' h, interpDists parse lines State.new = (.ok (if lines = [] then [] else s'.var), s') ∧ Unfolded u h s' := by
  have hA := amounts_lines parse lines es hlines hm .start [] State.new .start
  rw [hu] at hA
  obtain ⟨s', h', k1, k2⟩ := hA
  exact ⟨s', h', (evalBind_ok k1 : (distLines _ lines >>= _) State.new = _), k2⟩

/-- Everything in the unfolding has dice that can be thrown. -/
def Unfolding.Loaded (u : Unfolding) : Prop := (∀ l ∈ u.prog, l.2.Loaded) ∧ ∀ n e, u.now n = some e → e.Loaded

omit R in
theorem Unfolding.Loaded.let' {u : Unfolding} (h : u.Loaded) (x : Str) {e : Expr} (he : e.Loaded) : (u.let' x e).Loaded := by
  refine ⟨h.1, fun n e' hn => ?_⟩
  simp only [Unfolding.let'] at hn
  split at hn
  · cases hn; exact he
  · exact h.2 n e' hn

omit R in
theorem unfold_loaded : ∀ e : Expr, e.Loaded → ∀ u : Unfolding, u.Loaded → ∀ r, e.unfold u = some r → r.1.Loaded ∧ r.2.Loaded := by
  have two : ∀ (a b : Expr) (mk : Expr → Expr → Expr), (∀ a b : Expr, a.Loaded → b.Loaded → (mk a b).Loaded) →
      (∀ u : Unfolding, u.Loaded → ∀ r, a.unfold u = some r → r.1.Loaded ∧ r.2.Loaded) →
      (∀ u : Unfolding, u.Loaded → ∀ r, b.unfold u = some r → r.1.Loaded ∧ r.2.Loaded) →
      ∀ u : Unfolding, u.Loaded → ∀ r, ((a.unfold u).bind fun x => (b.unfold x.2).map fun y => (mk x.1 y.1, y.2)) = some r →
        r.1.Loaded ∧ r.2.Loaded := by
    intro a b mk hmk iha ihb u hu r hr
    obtain ⟨x, hx, hr⟩ := Option.bind_eq_some_iff.mp hr
    obtain ⟨y, hy, rfl⟩ := Option.map_eq_some_iff.mp hr
    obtain ⟨h1, h2⟩ := iha u hu x hx
    obtain ⟨h3, h4⟩ := ihb x.2 h2 y hy
    exact ⟨hmk _ _ h1 h3, h4⟩
  intro e
  induction e with
  | paren e ih =>
    intro he u hu r hr
    obtain ⟨x, hx, rfl⟩ := Option.map_eq_some_iff.mp hr
    exact ih he u hu x hx
  | not e ih =>
    intro he u hu r hr
    obtain ⟨x, hx, rfl⟩ := Option.map_eq_some_iff.mp hr
    exact ih he u hu x hx
  | abs e ih =>
    intro he u hu r hr
    obtain ⟨x, hx, rfl⟩ := Option.map_eq_some_iff.mp hr
    exact ih he u hu x hx
  | dropKeep t => intro he u hu r hr; cases hr; exact ⟨he, hu⟩
  | dice t => intro he u hu r hr; cases hr; exact ⟨he, hu⟩
  | constInt text =>
    intro he u hu r hr
    obtain ⟨x, hx, rfl⟩ := Option.map_eq_some_iff.mp hr
    exact ⟨trivial, hu⟩
  | constBin text => intro he u hu r hr; cases hr; exact ⟨trivial, hu⟩
  | add a b iha ihb => intro he; exact two a b .add (fun _ _ h1 h2 => ⟨h1, h2⟩) (iha he.1) (ihb he.2)
  | sub a b iha ihb => intro he; exact two a b .sub (fun _ _ h1 h2 => ⟨h1, h2⟩) (iha he.1) (ihb he.2)
  | mul a b iha ihb => intro he; exact two a b .mul (fun _ _ h1 h2 => ⟨h1, h2⟩) (iha he.1) (ihb he.2)
  | bin op a b iha ihb => intro he; exact two a b (.bin op) (fun _ _ h1 h2 => ⟨h1, h2⟩) (iha he.1) (ihb he.2)
  | minmax k a b iha ihb => intro he; exact two a b (.minmax k) (fun _ _ h1 h2 => ⟨h1, h2⟩) (iha he.1) (ihb he.2)
  | div a b iha ihb =>
    intro he u hu r hr
    obtain ⟨x, hx, hr⟩ := Option.bind_eq_some_iff.mp hr
    obtain ⟨y, hy, hr⟩ := Option.bind_eq_some_iff.mp hr
    obtain ⟨h1, h2⟩ := iha he.1 u hu x hx
    obtain ⟨h3, h4⟩ := ihb he.2 x.2 h2 y hy
    split at hr
    · cases hr; exact ⟨⟨h1, h3⟩, h4⟩
    · cases hr
  | assign x e ih =>
    intro he u hu r hr
    obtain ⟨y, hy, rfl⟩ := Option.map_eq_some_iff.mp hr
    obtain ⟨h1, h2⟩ := ih he u hu y hy
    refine ⟨h1, Unfolding.Loaded.let' (u := ⟨y.2.prog ++ [(slot y.2.prog.length, y.1)], y.2.now⟩) ⟨fun l hl => ?_, h2.2⟩ x
      (e := .getVar (slot y.2.prog.length)) trivial⟩
    rcases List.mem_append.mp hl with h | h
    · exact h2.1 l h
    · rw [List.mem_singleton.mp h]; exact h1
  | getVar n =>
    intro he u hu r hr
    obtain ⟨y, hy, rfl⟩ := Option.map_eq_some_iff.mp hr
    exact ⟨hu.2 n y hy, hu⟩

omit R in
theorem unfoldLines_loaded : ∀ (es : List Expr), (∀ e ∈ es, e.Loaded) → ∀ u : Unfolding, u.Loaded → ∀ u', unfoldLines es u = some u' →
    u'.Loaded := by
  intro es
  induction es with
  | nil => intro _ u hu u' h; cases h; exact hu
  | cons e es ih =>
    intro he u hu u' h
    obtain ⟨r, hr, h⟩ := Option.bind_eq_some_iff.mp h
    obtain ⟨h1, h2⟩ := unfold_loaded e (he e (by simp)) u hu r hr
    exact ih (fun e' h' => he e' (by simp [h'])) _ (h2.let' stdoutName h1) u' h

end

end PyDice
