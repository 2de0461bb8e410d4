import Verif.Spec.Sources
import Verif.Lemmas.Naming
import Verif.Lemmas.Runs
import Verif.Lemmas.Convolve
import Verif.Lemmas.Identities
/-!
# Helper lemmas: expressions without common dice
-/

namespace PyDice
open PyRuntime

section
variable [R : PyRuntime]

/-- Every stored distribution fixes only tags that belong to its sources; the tags of different lines are different. -/
def Sourced (s : State) (o : Sources) (n : Nat) : Prop := ∃ pins : Nat → Str → Prop,
  (∀ i m, pins i m → i < n ∧ s.Used m) ∧ (∀ i j m, pins i m → pins j m → i = j) ∧
    ∀ x V, dictGet? s.var x = some V → ∃ A, Tidy A V ∧ ∀ m, A m → ∃ i ∈ o x, pins i m

theorem sourced_start {s : State} (h : TidyState s) : Sourced s (fun _ => {0}) 1 := by
  refine ⟨fun i m => i = 0 ∧ s.Used m, fun i m h => ⟨by omega, h.2⟩, fun i j m h1 h2 => h1.1.trans h2.1.symm, ?_⟩
  intro x V hV
  obtain ⟨A, hA, hU⟩ := h x V hV
  exact ⟨A, hA, fun m hm => ⟨0, rfl, rfl, hU m hm⟩⟩

/-- The distribution of an expression fixes only tags of its sources. -/
theorem sourced_expr {s : State} {o : Sources} {pins : Nat → Str → Prop}
    (h : ∀ x V, dictGet? s.var x = some V → ∃ A, Tidy A V ∧ ∀ m, A m → ∃ i ∈ o x, pins i m) {e : Expr} (hn : e.NoAssign)
    {d : Dist} {s' : State} (hd : e.dist s = (.ok d, s')) : ∃ A, Tidy A d ∧ ∀ m, A m → ∃ i ∈ o.of e, pins i m := by
  have hc : ∀ x, ∃ A : Str → Prop, (∀ V, dictGet? s.var x = some V → Tidy A V) ∧ ∀ m, A m → ∃ i ∈ o x, pins i m := by
    intro x
    cases hV : dictGet? s.var x with
    | none => exact ⟨fun _ => False, fun V hV' => by simp at hV', fun _ h => h.elim⟩
    | some V =>
      obtain ⟨A, hA, hm⟩ := h x V hV
      exact ⟨A, fun W hW => by injection hW with hW; exact hW ▸ hA, hm⟩
  choose A hA hm using hc
  refine ⟨_, dist_tidy (A := A) e hn ?_ d s' hd, ?_⟩
  · intro n _ V hV
    unfold State.getVar at hV
    split at hV
    · rename_i W hW; cases hV; exact hA n _ hW
    · cases hV
  · rintro m ⟨n, hn, hAm⟩
    obtain ⟨i, hi, hp⟩ := hm n m hAm
    exact ⟨i, ⟨n, hn, hi⟩, hp⟩

/-- Storing the result of a line. -/
theorem sourced_plain {s : State} {o : Sources} {n : Nat} (h : Sourced s o n) {e : Expr} (hn : e.NoAssign) {d : Dist}
    (hd : e.dist s = (.ok d, s)) :
    Sourced { s with var := dictSet s.var stdoutName d } (fun x => if x = stdoutName then insert n (o.of e) else o x) (n + 1) := by
  obtain ⟨pins, h1, h2, h3⟩ := h
  refine ⟨pins, fun i m h => ⟨Nat.lt_succ_of_lt (h1 i m h).1, (h1 i m h).2⟩, h2, ?_⟩
  intro x V hV
  simp only [get_set] at hV
  by_cases hx : x = stdoutName
  · rw [if_pos hx.symm] at hV
    cases hV
    obtain ⟨A, hA, hm⟩ := sourced_expr h3 hn hd
    refine ⟨A, hA, fun m hAm => ?_⟩
    obtain ⟨i, hi, hp⟩ := hm m hAm
    exact ⟨i, by simp only [hx, if_true]; exact Set.mem_insert_of_mem _ hi, hp⟩
  · rw [if_neg (Ne.symm hx)] at hV
    obtain ⟨A, hA, hm⟩ := h3 x V hV
    exact ⟨A, hA, fun m hAm => by simpa [hx] using hm m hAm⟩

theorem sourced_assign {s t : State} {o : Sources} {n : Nat} (h : Sourced s o n) {x : Str} {e : Expr} (hn : e.NoAssign) {d : Dist}
    (hd : (Expr.assign x e).dist s = (.ok d, t)) :
    Sourced { t with var := dictSet t.var stdoutName d } (o.step n (.assign x e)) (n + 1) := by
  obtain ⟨he, rfl⟩ := assign_dist_parts hn hd
  obtain ⟨pins, h1, h2, h3⟩ := h
  have hl := later_setVar s x d
  have hnew : (s.setVar x d).2.Used (versionName x (s.times x + 1)) :=
    ⟨x, s.times x + 1, rfl, by omega, by rw [times_setVar]; simp⟩
  obtain ⟨A, hA, hm⟩ := sourced_expr h3 hn he
  have hf : ¬ A (versionName x (s.times x + 1)) := by
    intro hAm
    obtain ⟨i, _, hp⟩ := hm _ hAm
    exact fresh_version s x (h1 i _ hp).2
  refine ⟨fun i m => pins i m ∨ (i = n ∧ m = versionName x (s.times x + 1)), ?_, ?_, ?_⟩
  · rintro i m (hp | ⟨rfl, rfl⟩)
    · exact ⟨Nat.lt_succ_of_lt (h1 i m hp).1, hl.used (h1 i m hp).2⟩
    · exact ⟨Nat.lt_succ_self _, hnew⟩
  · rintro i j m (hp | ⟨rfl, rfl⟩) (hq | ⟨rfl, hq⟩)
    · exact h2 i j m hp hq
    · subst hq; exact absurd (h1 i _ hp).2 (fresh_version s x)
    · exact absurd (h1 j _ hq).2 (fresh_version s x)
    · rfl
  · intro y V hV
    simp only [get_set, setVar_eq] at hV
    simp only [Sources.step]
    by_cases hy : y = stdoutName
    · rw [if_pos hy.symm] at hV
      cases hV
      refine ⟨A, hA, fun m hAm => ?_⟩
      obtain ⟨i, hi, hp⟩ := hm m hAm
      exact ⟨i, by rw [if_pos (Or.inl hy)]; exact Set.mem_insert_of_mem _ hi, Or.inl hp⟩
    · rw [if_neg (Ne.symm hy)] at hV
      by_cases hyx : y = x
      · rw [if_pos hyx.symm] at hV
        cases hV
        refine ⟨_, tidy_tagged hA hf, ?_⟩
        rintro m (rfl | hAm)
        · exact ⟨n, by rw [if_pos (Or.inr hyx)]; exact Set.mem_insert _ _, Or.inr ⟨rfl, rfl⟩⟩
        · obtain ⟨i, hi, hp⟩ := hm m hAm
          exact ⟨i, by rw [if_pos (Or.inr hyx)]; exact Set.mem_insert_of_mem _ hi, Or.inl hp⟩
      · rw [if_neg (Ne.symm hyx)] at hV
        obtain ⟨B, hB, hBm⟩ := h3 y V hV
        refine ⟨B, hB, fun m hAm => ?_⟩
        obtain ⟨i, hi, hp⟩ := hBm m hAm
        exact ⟨i, by rw [if_neg (by simp [hy, hyx])]; exact hi, Or.inl hp⟩

theorem sourced_line {s t : State} {o : Sources} {n : Nat} (h : Sourced s o n) {e : Expr} (he : e.IsLine) {d : Dist}
    (hd : e.dist s = (.ok d, t)) : Sourced { t with var := dictSet t.var stdoutName d } (o.step n e) (n + 1) := by
  have plain : e.NoAssign → o.step n e = (fun x => if x = stdoutName then insert n (o.of e) else o x) →
      Sourced { t with var := dictSet t.var stdoutName d } (o.step n e) (n + 1) := by
    intro hn hs
    have hst := noAssign_dist hn s
    rw [hd] at hst
    obtain rfl : t = s := hst
    rw [hs]
    exact sourced_plain h hn hd
  cases e with
  | assign x e => exact sourced_assign h he hd
  | _ => exact plain he rfl

/-- The numbers of the lines' expressions. -/
theorem sourced_run {parse : Str → Res Expr} {s t : State} {ls : List Str} {tr : List (Expr × Dist)} (hr : DistRun parse s ls tr t) :
    ∀ {o : Sources} {n : Nat}, Sourced s o n → (∀ p ∈ tr, p.1.IsLine) →
      Sourced t (o.after n (tr.map Prod.fst)) (n + tr.length) := by
  induction hr with
  | nil => intro o n h _; exact h
  | @cons s s1 s2 l ls e d tr hp hs hr ih =>
    intro o n h hl
    have := ih (sourced_line h (hl (e, d) (by simp)) hs) (fun p hp => hl p (by simp [hp]))
    have hk : n + 1 + tr.length = n + ((e, d) :: tr).length := by simp; omega
    rw [hk] at this
    exact this

/-- Outcomes of two expressions without a common source can always hold together. -/
theorem sourced_compatible {s : State} {o : Sources} {n : Nat} (h : Sourced s o n) {a b : Expr} (ha : a.NoAssign) (hb : b.NoAssign)
    (hd : Disjoint (o.of a) (o.of b)) {da db : Dist} {s' s'' : State} (ea : a.dist s = (.ok da, s')) (eb : b.dist s = (.ok db, s'')) :
    da.Proper ∧ ∀ p ∈ da.resultMap, ∀ q ∈ db.resultMap, ∃ ω, Sat ω p.1.cs ∧ Sat ω q.1.cs := by
  classical
  obtain ⟨pins, h1, h2, h3⟩ := h
  obtain ⟨A, hA, hAm⟩ := sourced_expr h3 ha ea
  obtain ⟨B, hB, hBm⟩ := sourced_expr h3 hb eb
  refine ⟨hA.proper, ?_⟩
  intro p hp q hq
  obtain ⟨ρ, hρ⟩ := hA.pins p hp
  obtain ⟨σ, hσ⟩ := hB.pins q hq
  refine ⟨fun m => if A m then ρ m else σ m, (hρ _).mpr (fun m hm => if_pos hm), (hσ _).mpr (fun m hm => if_neg ?_)⟩
  intro hm'
  obtain ⟨i, hi, hpi⟩ := hAm m hm'
  obtain ⟨j, hj, hpj⟩ := hBm m hm
  obtain rfl := h2 i j m hpi hpj
  exact Set.disjoint_left.mp hd hi hj

/-! ### Combining distributions whose outcomes can always hold together -/

/-- All pairs of outcomes can hold together. -/
structure Unlinked (a b : Dist) : Prop where
  left : a.Constructed
  right : b.Constructed
  proper : a.Proper
  both : ∀ p ∈ a.resultMap, ∀ q ∈ b.resultMap, ∃ ω, Sat ω p.1.cs ∧ Sat ω q.1.cs

theorem NoCommonDice.unlinked {parse : Str → Res Expr} {t : State} {a b : Expr} (h : NoCommonDice parse t a b) {da db : Dist}
    {s' s'' : State} (ea : a.dist t = (.ok da, s')) (eb : b.dist t = (.ok db, s'')) : Unlinked da db := by
  obtain ⟨s, ls, tr, h1, h2, h3, h4, h5, h6⟩ := h
  have hs := sourced_run h2 (sourced_start (tidy_reachable parse h1)) h3
  obtain ⟨g1, g2⟩ := sourced_compatible hs h4 h5 h6 ea eb
  obtain ⟨pins, k1, k2, k3⟩ := hs
  obtain ⟨A, hA, _⟩ := sourced_expr k3 h4 ea
  obtain ⟨B, hB, _⟩ := sourced_expr k3 h5 eb
  exact ⟨hA.constructed, hB.constructed, g1, g2⟩

theorem Unlinked.total {op : BinOp} {a b d : Dist} (h : Unlinked a b) (hd : Dist.binop op a b = .ok d) :
    d.outcomeCount = a.outcomeCount * b.outcomeCount := by
  have hok := (binop_ok_iff h.proper).mp ⟨d, hd⟩
  rw [← E_one d (binop_constructed hd), binop_E_all hd h.proper h.both]
  have : ∀ p ∈ a.resultMap, b.E (fun y => onOk (op.apply p.1.value y) (fun _ => (1 : Nat))) = b.outcomeCount := by
    intro p hp
    rw [← E_one b h.right]
    unfold Dist.E
    apply wsum_congr
    intro q hq
    obtain ⟨v, hv⟩ := hok p hp q hq
    show onOk (op.apply p.1.value q.1.value) _ = _
    rw [hv]; rfl
  unfold Dist.E at this ⊢
  rw [wsum_congr (g := fun _ => b.outcomeCount) this, outcomeCount_constructed h.left]
  generalize a.resultMap = l
  induction l with
  | nil => simp
  | cons p l ih => rw [wsum_cons, ih, wsum_cons, Nat.add_mul]; simp

theorem Unlinked.hasKey {op : BinOp} {a b d : Dist} (h : Unlinked a b) (hd : Dist.binop op a b = .ok d) (v : Int) :
    PyDice.hasKey d.getResultMap v ↔
      ∃ x y, PyDice.hasKey a.getResultMap x ∧ PyDice.hasKey b.getResultMap y ∧ op.apply x y = .ok v := by
  simp only [hasKey_getResultMap]
  constructor
  · rintro ⟨e, he, hv⟩
    obtain ⟨p, hp, q, hq, h1, _⟩ := binop_mem hd h.proper he
    exact ⟨_, _, ⟨p, hp, rfl⟩, ⟨q, hq, rfl⟩, hv ▸ h1⟩
  · rintro ⟨_, _, ⟨p, hp, rfl⟩, ⟨q, hq, rfl⟩, h1⟩
    obtain ⟨ω, w1, w2⟩ := h.both p hp q hq
    obtain ⟨e, he, hv, _⟩ := (binop_support_given hd h.proper ω v).mpr ⟨p, hp, q, hq, h1, w1, w2⟩
    exact ⟨e, he, hv⟩

theorem Unlinked.count {op : BinOp} {a b d : Dist} (h : Unlinked a b) (hd : Dist.binop op a b = .ok d) (v : Int) :
    countOf d.getResultMap v = pairCount op a.getResultMap b.getResultMap v := by
  rw [countOf_getResultMap, binop_E_all hd h.proper h.both, pairCount_wsum, wsum_getResultMap]
  simp only [wsum_getResultMap]

theorem Unlinked.mean {op : BinOp} {g : Int → Int → Int} (hop : ∀ x y, op.apply x y = .ok (g x y)) {a b : Dist} (h : Unlinked a b) :
    ∃ d, Dist.binop op a b = .ok d ∧ d.Constructed ∧ d.outcomeCount = a.outcomeCount * b.outcomeCount ∧
      ∀ f, d.mean f = a.mean (fun x => b.mean (fun y => f (g x y))) := by
  obtain ⟨d, hd⟩ := (binop_ok_iff (op := op) (b := b) h.proper).mpr (fun p _ q _ => ⟨_, hop _ _⟩)
  refine ⟨d, hd, binop_constructed hd, h.total hd, ?_⟩
  intro f
  have hE := binop_E_all hd h.proper h.both f
  simp only [hop, onOk] at hE
  unfold Dist.mean
  rw [hE, h.total hd]
  have : a.E (fun x => b.E (fun y => f (g x y)) / (b.outcomeCount : ℚ)) =
      a.E (fun x => b.E (fun y => f (g x y))) / (b.outcomeCount : ℚ) := by
    unfold Dist.E
    generalize a.resultMap = l
    induction l with
    | nil => simp
    | cons p l ih => rw [wsum_cons, wsum_cons, ih]; simp only [nsmul_eq_mul]; ring
  rw [this, div_div]
  push_cast
  rw [mul_comm (b.outcomeCount : ℚ)]

/-! ### Means -/

theorem mean_add (d : Dist) (f g : Int → ℚ) : d.mean (fun x => f x + g x) = d.mean f + d.mean g := by
  have : d.E (fun x => f x + g x) = d.E f + d.E g := by
    unfold Dist.E
    generalize d.resultMap = l
    induction l with
    | nil => simp
    | cons p l ih => rw [wsum_cons, wsum_cons, wsum_cons, ih]; simp only [nsmul_eq_mul]; ring
  unfold Dist.mean
  rw [this, add_div]

theorem mean_smul (d : Dist) (c : ℚ) (f : Int → ℚ) : d.mean (fun x => c * f x) = c * d.mean f := by
  have : d.E (fun x => c * f x) = c * d.E f := by
    unfold Dist.E
    generalize d.resultMap = l
    induction l with
    | nil => simp
    | cons p l ih => rw [wsum_cons, wsum_cons, ih]; simp only [nsmul_eq_mul]; ring
  unfold Dist.mean
  rw [this, mul_div_assoc]

theorem mean_const {d : Dist} (hc : d.Constructed) (h : 0 < d.outcomeCount) (c : ℚ) : d.mean (fun _ => c) = c := by
  have h1 : d.mean (fun _ => 1) = 1 := by
    have := E_one d hc
    unfold Dist.mean
    have h2 : d.E (fun _ => (1 : ℚ)) = (d.outcomeCount : ℚ) := by
      rw [← this]
      unfold Dist.E
      rw [wsum_cast]
      simp
    rw [h2, div_self (by exact_mod_cast h.ne')]
  have := mean_smul d c (fun _ => 1)
  simpa [h1] using this

theorem mean_mono (d : Dist) {f g : Int → ℚ} (h : ∀ x, f x ≤ g x) : d.mean f ≤ d.mean g := by
  unfold Dist.mean
  refine div_le_div_of_nonneg_right ?_ (by positivity)
  unfold Dist.E
  generalize d.resultMap = l
  induction l with
  | nil => simp
  | cons p l ih => rw [wsum_cons, wsum_cons]; exact add_le_add (nsmul_le_nsmul_right (h _) _) ih

/-- The average exists exactly when something is counted. -/
theorem average_ok {d : Dist} {p : ℚ} (h : d.average = .ok p) : 0 < d.outcomeCount ∧ p = d.mean (fun x => (x : ℚ)) := by
  by_cases h0 : d.outcomeCount = 0
  · unfold Dist.average at h; simp [h0] at h
  · have := average_mean d (by omega)
    rw [h] at this
    injection this with this
    exact ⟨by omega, this⟩

/-- A constant shares no dice with anything. -/
theorem noCommonDice_free {parse : Str → Res Expr} {t : State} (h : Reachable parse t) {a b : Expr} (ha : a.NoAssign) (hb : b.NoAssign)
    (hr : b.reads = []) : NoCommonDice parse t a b := by
  refine ⟨t, [], [], h, .nil _, by simp, ha, hb, ?_⟩
  rw [Set.disjoint_left]
  rintro i _ ⟨n, hn, _⟩
  simp [hr] at hn

theorem const_unlinked {parse : Str → Res Expr} {t : State} (h : Reachable parse t) {a : Expr} (ha : a.NoAssign) (k : Int) {d : Dist}
    (hd : a.dist t = (.ok d, t)) : ∃ c, (Expr.constInt (intStr k)).dist t = (.ok c, t) ∧ Unlinked d c ∧ 0 < c.outcomeCount ∧
      ∀ f, c.mean f = f k := by
  obtain ⟨c, h1, h2, h3, _⟩ := constDist_spec (R := R) k
  have hc : (Expr.constInt (intStr k)).dist t = (.ok c, t) := by
    show EvalM.ofRes (do constDist (← pyInt (intStr k))) t = _
    rw [pyInt_intStr]
    exact congrArg (fun r => (r, t)) h1
  have h4 : c.outcomeCount = 1 := by rw [← E_one c h2.constructed, h3]
  refine ⟨c, hc, (noCommonDice_free (b := .constInt (intStr k)) h ha trivial rfl).unlinked hd hc, by omega, fun f => ?_⟩
  unfold Dist.mean
  rw [h3, h4]
  simp

/-- A binary operator that cannot fail, applied to expressions without common dice. -/
theorem op_mean {parse : Str → Res Expr} {op : BinOp} {g : Int → Int → Int} (hop : ∀ x y, op.apply x y = .ok (g x y)) {t : State}
    {a b : Expr} (h : NoCommonDice parse t a b) {da db : Dist} (ha : a.dist t = (.ok da, t)) (hb : b.dist t = (.ok db, t)) :
    ∃ r, (opExpr op a b).dist t = (.ok r, t) ∧ r.Constructed ∧ r.outcomeCount = da.outcomeCount * db.outcomeCount ∧
      ∀ f, r.mean f = da.mean (fun x => db.mean (fun y => f (g x y))) := by
  obtain ⟨r, h1, h2, h3, h4⟩ := (h.unlinked ha hb).mean hop
  refine ⟨r, ?_, h2, h3, h4⟩
  obtain ⟨_, _, _, _, _, _, na, nb, _⟩ := h
  rw [opExpr_dist op na nb, ha, hb]
  exact congrArg (fun r => (r, t)) h1

theorem op_average {parse : Str → Res Expr} {op : BinOp} {g : Int → Int → Int} (hop : ∀ x y, op.apply x y = .ok (g x y)) {t : State}
    {a b : Expr} (h : NoCommonDice parse t a b) {da db : Dist} (ha : a.dist t = (.ok da, t)) (hb : b.dist t = (.ok db, t))
    (pa : 0 < da.outcomeCount) (pb : 0 < db.outcomeCount) :
    ∃ r, (opExpr op a b).dist t = (.ok r, t) ∧ r.average = .ok (da.mean (fun x => db.mean (fun y => (g x y : ℚ)))) := by
  obtain ⟨r, h1, h2, h3, h4⟩ := op_mean hop h ha hb
  exact ⟨r, h1, by rw [average_mean r (by rw [h3]; exact Nat.mul_pos pa pb), h4]⟩

theorem mean_mul (d : Dist) (c : ℚ) (f : Int → ℚ) : d.mean (fun x => f x * c) = d.mean f * c := by
  rw [mul_comm, ← mean_smul]
  simp only [mul_comm]

theorem mean_sub (d : Dist) (f g : Int → ℚ) : d.mean (fun x => f x - g x) = d.mean f - d.mean g := by
  have := mean_add d (fun x => f x - g x) g
  simp only [sub_add_cancel] at this
  rw [this]; ring

end

/-! ### For the examples -/

/-- The distribution of an expression, when there is one. -/
def distOf [R : PyRuntime] (e : Expr) (s : State) : Dist := match (e.dist s).1 with | .ok d => d | .error _ => mkDist []

theorem distOf_eq [R : PyRuntime] {e : Expr} {s : State} (h : (match (e.dist s).1 with | .ok _ => true | .error _ => false) = true) :
    e.dist s = (.ok (distOf e s), (e.dist s).2) := by
  unfold distOf
  rcases hr : e.dist s with ⟨r, s'⟩
  rw [hr] at h
  cases r with
  | ok d => rfl
  | error er => simp at h

/-- The state after a line. -/
def lineState [R : PyRuntime] (e : Expr) (s : State) : State :=
  { (e.dist s).2 with var := dictSet (e.dist s).2.var stdoutName (distOf e s) }

end PyDice
