import Verif.Spec.Errors
import Verif.Lemmas.Extreme
import Verif.Lemmas.Print
import Verif.Props.C05_C07
/-!
# What can go wrong, and why
-/

namespace PyDice
open PyRuntime

section
variable [R : PyRuntime]

/-! ### Names are never forgotten -/

/-- No name is lost. -/
def Grows (s t : State) : Prop := ∀ n, (s.hasVar n = true → t.hasVar n = true) ∧ (s.hasConstant n = true → t.hasConstant n = true)

theorem pre_grows : Pre Grows := ⟨fun _ _ => ⟨id, id⟩, fun h h' n => ⟨fun x => (h' n).1 ((h n).1 x), fun x => (h' n).2 ((h n).2 x)⟩⟩

theorem grows_setConstant (x : Str) (v : Int) : Rel Grows (EvalM.setConstant x v) := by
  intro s n
  refine ⟨id, fun h => ?_⟩
  simp only [EvalM.setConstant, State.setConstant, State.hasConstant, get_set] at h ⊢
  split <;> simp_all

theorem grows_setVar (x : Str) (d : Dist) : Rel Grows (EvalM.setVar x d) := by
  intro s n
  unfold EvalM.setVar
  rw [setVar_eq]
  refine ⟨fun h => ?_, id⟩
  simp only [State.hasVar, get_set] at h ⊢
  split <;> simp_all

theorem grows_dist (e : Expr) : Rel Grows e.dist := rel_dist pre_grows e fun x _ d => grows_setVar x d
theorem grows_extreme (isMax : Bool) (e : Expr) : Rel Grows (e.extreme isMax) :=
  rel_extreme pre_grows isMax e (fun x _ d => grows_setVar x d) fun x _ v => grows_setConstant x v
theorem grows_cost (e : Expr) : Rel Grows e.cost := rel_cost pre_grows e fun x _ v => grows_setConstant x v
theorem grows_roll (e : Expr) : RRel Grows e.roll := rrel_roll pre_grows e fun x _ v => grows_setConstant x v

theorem Grows.missingVar {s t : State} (h : Grows s t) {n : Str} (hn : t.hasVar n = false) : s.hasVar n = false := by
  cases hs : s.hasVar n with
  | false => rfl
  | true => rw [(h n).1 hs] at hn; cases hn

theorem Grows.missingConstant {s t : State} (h : Grows s t) {n : Str} (hn : t.hasConstant n = false) : s.hasConstant n = false := by
  cases hs : s.hasConstant n with
  | false => rfl
  | true => rw [(h n).2 hs] at hn; cases hn

/-! ### Dice -/

theorem dropKeep_cases {form : Str} {t : DropKeepTerm} (ht : mkDropKeep form = .ok t) :
    (0 < t.count ∧ t.count < t.number ∧ t.simplified = .none) ∨ (∃ f, t.simplified = .dice ⟨f, t.table, t.number⟩) ∨
      t.simplified = .zero := by
  by_cases hn : 1 ≤ t.number
  · exact count_cases ht hn
  · obtain ⟨_, hp, hz, _⟩ := mkDropKeep_spec ht
    cases hk : t.keep with
    | true => exact .inr (.inl (hp (Or.inl ⟨hk, by omega⟩)))
    | false => exact .inr (.inr (hz (Or.inr ⟨hk, by omega⟩)))

omit R in
theorem tuples_nonempty {fs : List Int} (h : fs ≠ []) (n : Nat) : ∃ l, l ∈ tuples fs n := by
  obtain ⟨x, hx⟩ := List.exists_mem_of_ne_nil _ h
  exact ⟨_, replicate_mem_tuples hx n⟩

theorem diceDist_nonempty {t : DiceTerm} (h : t.table ≠ []) {d : Dist} (hd : t.dist = .ok d) : ∃ v, hasKey d.getResultMap v := by
  have main : ∀ t : DiceTerm, t.table ≠ [] → 1 ≤ t.number → ∀ d, t.dist = .ok d → ∃ v, hasKey d.getResultMap v := by
    intro t h hn d hd
    obtain ⟨d', h1, _, _, h2⟩ := diceDist_spec (R := R) t hn
    rw [hd] at h1
    cases h1
    obtain ⟨l, hl⟩ := tuples_nonempty (fs := t.table.map Prod.fst) (by simpa using h) t.number
    exact ⟨_, (h2 _).mpr ⟨l, hl, rfl⟩⟩
  by_cases hn : 1 ≤ t.number
  · exact main t h hn d hd
  · rw [diceDist_zero t (by omega)] at hd
    exact main { t with number := 1 } h (le_refl 1) d hd

theorem dropKeepDist_nonempty {form : Str} {t : DropKeepTerm} (ht : mkDropKeep form = .ok t) (h : ¬ (t.simplified ≠ .zero ∧ t.table = []))
    {d : Dist} (hd : t.dist = .ok d) : ∃ v, hasKey d.getResultMap v := by
  rcases dropKeep_cases ht with ⟨h0, h1, hs⟩ | ⟨f, hs⟩ | hs
  · obtain ⟨d', g1, _, _, g2⟩ := dropKeepDist_spec (R := R) t hs (by omega)
    rw [hd] at g1
    cases g1
    have ht : t.table ≠ [] := fun h' => h ⟨by rw [hs]; simp, h'⟩
    obtain ⟨l, hl⟩ := tuples_nonempty (fs := t.table.map Prod.fst) (by simpa using ht) t.number
    exact ⟨_, (g2 _).mpr ⟨l, hl, rfl⟩⟩
  · have ht : t.table ≠ [] := fun h' => h ⟨by rw [hs]; simp, h'⟩
    unfold DropKeepTerm.dist at hd
    rw [hs] at hd
    exact diceDist_nonempty (t := ⟨f, t.table, t.number⟩) ht hd
  · unfold DropKeepTerm.dist at hd
    rw [hs] at hd
    obtain ⟨d', g1, _, _, g2⟩ := constDist_spec (R := R) 0
    rw [show constDist 0 = .ok d from hd] at g1
    cases g1
    exact ⟨0, (g2 0).mpr rfl⟩

omit R in
theorem listExt_error {isMax : Bool} {l : List Int} {er : Err} (h : (if isMax then listMax else listMin) l = .error er) :
    er = .value ∧ l = [] := by
  by_cases hl : l = []
  · subst hl
    cases isMax <;> · cases h; exact ⟨rfl, rfl⟩
  · cases isMax with
    | true => obtain ⟨v, hv, _⟩ := listMax_ok hl; simp only [if_true] at h; rw [hv] at h; cases h
    | false =>
      obtain ⟨v, hv, _⟩ := listMin_ok hl
      simp only [Bool.false_eq_true, if_false] at h
      rw [hv] at h; cases h

omit R in
theorem diceExtreme_error {isMax : Bool} {t : DiceTerm} {er : Err} (h : t.extreme isMax = .error er) : er = .value ∧ t.table = [] := by
  unfold DiceTerm.extreme at h
  cases hv : (if isMax then listMax else listMin) (t.table.map Prod.fst) with
  | ok v => rw [hv] at h; cases h
  | error e =>
    rw [hv] at h
    cases h
    have := listExt_error hv
    exact ⟨this.1, by simpa using this.2⟩

omit R in
theorem dropKeepExtreme_error {isMax : Bool} {form : Str} {t : DropKeepTerm} (ht : mkDropKeep form = .ok t) {er : Err}
    (h : t.extreme isMax = .error er) : er = .value ∧ t.simplified ≠ .zero ∧ t.table = [] := by
  have hc : (t.simplified = .none) ∨ (∃ f, t.simplified = .dice ⟨f, t.table, t.number⟩) ∨ t.simplified = .zero := by
    by_cases hn : 1 ≤ t.number
    · rcases count_cases ht hn with h | h
      · exact .inl h.2.2
      · exact .inr h
    · obtain ⟨_, hp, hz, _⟩ := mkDropKeep_spec ht
      cases hk : t.keep with
      | true => exact .inr (.inl (hp (Or.inl ⟨hk, by omega⟩)))
      | false => exact .inr (.inr (hz (Or.inr ⟨hk, by omega⟩)))
  unfold DropKeepTerm.extreme at h
  rcases hc with hs | ⟨f, hs⟩ | hs <;> rw [hs] at h
  · cases hv : (if isMax then listMax else listMin) (t.table.map Prod.fst) with
    | ok v => simp only [hv] at h; cases h
    | error e =>
      simp only [hv] at h
      cases h
      have := listExt_error hv
      exact ⟨this.1, by rw [hs]; simp, by simpa using this.2⟩
  · have := diceExtreme_error h
    exact ⟨this.1, by rw [hs]; simp, this.2⟩
  · cases h

omit R in
theorem choices_error {table : List (Int × Nat)} {n : Nat} {er : Err} (h : Rand.Possible (.error er) (choices table n)) :
    (er = .value ∧ Weightless table) ∨ (er = .index ∧ Faceless table) := by
  by_cases hw : 0 < (table.map Prod.snd).sum
  · rw [choices_eq _ hw] at h
    obtain ⟨l, _, hl⟩ := (chooseMany_possible _ _ _).mp h
    cases hl
  · by_cases ht : table = []
    · subst ht
      have h' : (Except.error er : Res (List Int)) = .error .index := Rand.possible_pure.mp h
      cases h'
      exact .inr ⟨rfl, rfl⟩
    · have h0 : (table.map Prod.snd).sum = 0 := by omega
      unfold choices at h
      simp only [accumulate_getLast 0 (table.map Prod.snd) (by simpa using ht), Nat.zero_add, h0, if_true] at h
      have h' := Rand.possible_pure.mp h
      cases h'
      exact .inl ⟨rfl, ht, h0⟩

omit R in
theorem diceRoll_error {t : DiceTerm} {er : Err} (h : Rand.Possible (.error er) t.roll) :
    (er = .value ∧ Weightless t.table) ∨ (er = .index ∧ Faceless t.table) := by
  unfold DiceTerm.roll at h
  obtain ⟨a, ha, h⟩ := Rand.possible_bind.mp h
  cases a with
  | ok l => cases Rand.possible_pure.mp h
  | error e =>
    cases Rand.possible_pure.mp h
    exact choices_error ha

omit R in
theorem dropKeepRoll_error {form : Str} {t : DropKeepTerm} (ht : mkDropKeep form = .ok t) {er : Err}
    (h : Rand.Possible (.error er) t.roll) :
    t.simplified ≠ .zero ∧ ((er = .value ∧ Weightless t.table) ∨ (er = .index ∧ Faceless t.table)) := by
  unfold DropKeepTerm.roll at h
  rcases @dropKeep_cases listRuntime form t ht with ⟨_, _, hs⟩ | ⟨f, hs⟩ | hs <;> rw [hs] at h
  · obtain ⟨a, ha, h⟩ := Rand.possible_bind.mp h
    refine ⟨by rw [hs]; simp, ?_⟩
    cases a with
    | ok l => cases Rand.possible_pure.mp h
    | error e =>
      cases Rand.possible_pure.mp h
      exact choices_error ha
  · exact ⟨by rw [hs]; simp, diceRoll_error (t := ⟨f, t.table, t.number⟩) h⟩
  · cases Rand.possible_pure.mp h

/-! ### Distributions -/

/-- A condition on the state before, which holds already before if it holds after something has been done. -/
def Early (C : State → Err → Prop) : Prop := ∀ {s t : State}, Grows s t → ∀ er, C t er → C s er

theorem early_distFault (e : Expr) : Early (DistFault e) := by
  intro s t h er hc
  cases er with
  | key => obtain ⟨n, hn, hm⟩ := hc; exact ⟨n, hn, h.missingVar hm⟩
  | _ => exact hc

theorem early_extremeFault (e : Expr) : Early (ExtremeFault e) := by
  intro s t h er hc
  cases er with
  | key => obtain ⟨n, hn, hm⟩ := hc; exact ⟨n, hn, hm.imp h.missingVar h.missingConstant⟩
  | _ => exact hc

theorem early_costFault (e : Expr) : Early (CostFault e) := by
  intro s t h er hc
  cases er with
  | key => obtain ⟨n, hn, hm⟩ := hc; exact ⟨n, hn, h.missingConstant hm⟩
  | _ => exact hc

theorem early_rollFault (e : Expr) : Early (RollFault e) := by
  intro s t h er hc
  cases er with
  | key => obtain ⟨n, hn, hm⟩ := hc; exact ⟨n, hn, h.missingConstant hm⟩
  | _ => exact hc

theorem distFault_of {e e' : Expr} (hr : ∀ n ∈ e'.reads, n ∈ e.reads) (hd : e'.HasDiv → e.HasDiv) {s : State} {er : Err}
    (h : DistFault e' s er) : DistFault e s er := by
  cases er with
  | key => obtain ⟨n, hn, hm⟩ := h; exact ⟨n, hr n hn, hm⟩
  | zeroDivision => exact hd h
  | _ => exact h.elim

theorem binop_raises {op : BinOp} {a b : Dist} (ha : a.Proper) {er : Err} (h : Dist.binop op a b = .error er) :
    op = .floordiv ∧ er = .zeroDivision := by
  by_cases hop : op = .floordiv
  · subst hop
    refine ⟨rfl, ?_⟩
    by_cases h' : (∃ x, hasKey a.getResultMap x) ∧ hasKey b.getResultMap 0
    · rw [(C11_floordiv_error a b ha).mpr h'] at h; cases h; rfl
    · have : ∃ d, Dist.binop .floordiv a b = .ok d := by
        rw [binop_ok_iff ha]
        intro p hp q hq
        have : q.1.value ≠ 0 := fun h0 => h' ⟨⟨_, (hasKey_getResultMap _ _).mpr ⟨p, hp, rfl⟩⟩, (hasKey_getResultMap _ _).mpr ⟨q, hq, h0⟩⟩
        exact ⟨_, if_neg this⟩
      obtain ⟨d, hd⟩ := this
      rw [hd] at h; cases h
  · obtain ⟨d, hd⟩ := binop_ok_of_total hop (b := b) ha
    rw [hd] at h; cases h

theorem dist_fault : ∀ e : Expr, e.Numeric → e.Built → ∀ (s s' : State) (er : Err), TidyState s → e.dist s = (.error er, s') →
    DistFault e s er := by
  have two : ∀ (a b e : Expr) (op : BinOp), (∀ n ∈ a.reads, n ∈ e.reads) → (∀ n ∈ b.reads, n ∈ e.reads) →
      (a.HasDiv → e.HasDiv) → (b.HasDiv → e.HasDiv) → (op = .floordiv → e.HasDiv) →
      (∀ (s s' : State) (er : Err), TidyState s → a.dist s = (.error er, s') → DistFault a s er) →
      (∀ (s s' : State) (er : Err), TidyState s → b.dist s = (.error er, s') → DistFault b s er) →
      ∀ (s s' : State) (er : Err), TidyState s →
        (do let x ← a.dist; let y ← b.dist; EvalM.ofRes (Dist.binop op x y) : EvalM Dist) s = (.error er, s') → DistFault e s er := by
    intro a b e op ra rb da db hop ha hb s s' er hs h
    rcases evalBind_eq_error.mp h with h | ⟨x, s1, h1, h⟩
    · exact distFault_of ra da (ha _ _ _ hs h)
    · have k1 := keeps_dist a s hs
      have g1 := grows_dist a s
      rw [h1] at k1 g1
      rcases evalBind_eq_error.mp h with h | ⟨y, s2, h2, h⟩
      · exact distFault_of rb db (early_distFault b g1 er (hb _ _ _ k1.1 h))
      · obtain ⟨A, hA, _⟩ := k1.2.2 x rfl
        obtain ⟨h3, rfl⟩ := binop_raises hA.proper (Prod.mk.inj h).1
        exact hop h3
  intro e
  induction e with
  | paren e ih => exact ih
  | not e ih =>
    intro hn hb s s' er hs h
    rcases evalBind_eq_error.mp h with h | ⟨x, s1, h1, h⟩
    · exact ih hn hb _ _ _ hs h
    · cases (Prod.mk.inj h).1
  | abs e ih =>
    intro hn hb s s' er hs h
    rcases evalBind_eq_error.mp h with h | ⟨x, s1, h1, h⟩
    · exact ih hn hb _ _ _ hs h
    · cases (Prod.mk.inj h).1
  | dropKeep t =>
    intro _ hb s s' er _ h
    obtain ⟨f, hf⟩ := hb
    obtain ⟨d, hd⟩ := dropKeepDist_ok (R := R) hf
    have := (Prod.mk.inj h).1
    rw [hd] at this; cases this
  | dice t =>
    intro _ _ s s' er _ h
    obtain ⟨d, hd⟩ := diceDist_ok (R := R) t
    have := (Prod.mk.inj h).1
    rw [hd] at this; cases this
  | constInt t =>
    intro hn _ s s' er _ h
    obtain ⟨v, hv⟩ := hn
    obtain ⟨d, hd⟩ := constDist_ok (R := R) v
    have := (Prod.mk.inj h).1
    rw [hv, ok_bind, hd] at this; cases this
  | constBin t =>
    intro _ _ s s' er _ h
    obtain ⟨d, hd⟩ := constDist_ok (R := R) (binValue t)
    have := (Prod.mk.inj h).1
    rw [hd] at this; cases this
  | add a b iha ihb =>
    intro hn hb
    exact two a b _ .add (by simp +contextual [Expr.reads]) (by simp +contextual [Expr.reads]) Or.inl Or.inr (by simp) (iha hn.1 hb.1) (ihb hn.2 hb.2)
  | sub a b iha ihb =>
    intro hn hb
    exact two a b _ .sub (by simp +contextual [Expr.reads]) (by simp +contextual [Expr.reads]) Or.inl Or.inr (by simp) (iha hn.1 hb.1) (ihb hn.2 hb.2)
  | mul a b iha ihb =>
    intro hn hb
    exact two a b _ .mul (by simp +contextual [Expr.reads]) (by simp +contextual [Expr.reads]) Or.inl Or.inr (by simp) (iha hn.1 hb.1) (ihb hn.2 hb.2)
  | div a b iha ihb =>
    intro hn hb
    exact two a b _ .floordiv (by simp +contextual [Expr.reads]) (by simp +contextual [Expr.reads]) (fun _ => trivial) (fun _ => trivial)
      (fun _ => trivial) (iha hn.1 hb.1) (ihb hn.2 hb.2)
  | bin op a b iha ihb =>
    intro hn hb
    exact two a b _ op.toBinOp (by simp +contextual [Expr.reads]) (by simp +contextual [Expr.reads]) Or.inl Or.inr
      (by cases op <;> simp [CmpOp.toBinOp]) (iha hn.1 hb.1) (ihb hn.2 hb.2)
  | minmax k a b iha ihb =>
    intro hn hb
    exact two a b _ (if k then .max else .min) (by simp +contextual [Expr.reads]) (by simp +contextual [Expr.reads]) Or.inl Or.inr
      (by cases k <;> simp) (iha hn.1 hb.1) (ihb hn.2 hb.2)
  | assign x e ih =>
    intro hn hb s s' er hs h
    rcases evalBind_eq_error.mp h with h | ⟨d, s1, h1, h⟩
    · exact ih hn hb _ _ _ hs h
    · rcases evalBind_eq_error.mp h with h | ⟨_, s2, h2, h⟩
      · unfold EvalM.setVar at h
        rw [setVar_eq] at h
        cases (Prod.mk.inj h).1
      · cases (Prod.mk.inj h).1
  | getVar n =>
    intro _ _ s s' er _ h
    simp only [Expr.dist, EvalM.read, State.getVar] at h
    split at h
    · cases (Prod.mk.inj h).1
    · rename_i hv
      cases (Prod.mk.inj h).1
      exact ⟨n, by simp [Expr.reads], by simp [State.hasVar, hv]⟩

/-! ### Expressions that read nothing always have outcomes -/

theorem closed_nonempty : ∀ e : Expr, e.Built → e.reads = [] → ¬ e.AnyDie Faceless → ∀ (s s' : State) (d : Dist),
    e.dist s = (.ok d, s') → d.Untied ∧ d.Proper ∧ ∃ v, hasKey d.getResultMap v := by
  have two : ∀ (a b : Expr) (op : BinOp),
      (∀ (s s' : State) (d : Dist), a.dist s = (.ok d, s') → d.Untied ∧ d.Proper ∧ ∃ v, hasKey d.getResultMap v) →
      (∀ (s s' : State) (d : Dist), b.dist s = (.ok d, s') → d.Untied ∧ d.Proper ∧ ∃ v, hasKey d.getResultMap v) →
      ∀ (s s' : State) (d : Dist), (do let x ← a.dist; let y ← b.dist; EvalM.ofRes (Dist.binop op x y) : EvalM Dist) s = (.ok d, s') →
        d.Untied ∧ d.Proper ∧ ∃ v, hasKey d.getResultMap v := by
    intro a b op ha hb s s' d h
    obtain ⟨x, s1, h1, h⟩ := evalBind_eq_ok.mp h
    obtain ⟨y, s2, h2, h⟩ := evalBind_eq_ok.mp h
    obtain ⟨h3, _⟩ := Prod.mk.inj h
    obtain ⟨ux, px, v, hv⟩ := ha _ _ _ h1
    obtain ⟨uy, py, w, hw⟩ := hb _ _ _ h2
    refine ⟨binop_untied h3 px ux uy, binop_proper h3 px, ?_⟩
    obtain ⟨p, hp, rfl⟩ := (hasKey_getResultMap _ _).mp hv
    obtain ⟨q, hq, rfl⟩ := (hasKey_getResultMap _ _).mp hw
    obtain ⟨z, hz⟩ := (binop_ok_iff px).mp ⟨d, h3⟩ p hp q hq
    exact ⟨z, (C05_binop_support op x y d h3 px ux uy z).mpr ⟨_, _, hv, hw, (apply_yields _ _ _ _).mp hz⟩⟩
  have unary : ∀ (g : Int → Int) (d : Dist), (d.Untied ∧ d.Proper ∧ ∃ v, hasKey d.getResultMap v) →
      (d.mapValue g).Untied ∧ (d.mapValue g).Proper ∧ ∃ v, hasKey (d.mapValue g).getResultMap v := by
    rintro g d ⟨u, p, v, hv⟩
    exact ⟨mapValue_untied g u, mapValue_proper g p, g v, (mapValue_support g d _).mpr ⟨v, hv, rfl⟩⟩
  have const : ∀ (c : Int) (d : Dist), constDist c = .ok d → d.Untied ∧ d.Proper ∧ ∃ v, hasKey d.getResultMap v := by
    intro c d h
    obtain ⟨d', g1, _, _, g2⟩ := constDist_spec (R := R) c
    rw [h] at g1
    cases g1
    have := untied_mkDistInt h
    exact ⟨this.1, this.2, c, (g2 c).mpr rfl⟩
  intro e
  induction e with
  | paren e ih => exact ih
  | not e ih =>
    intro hb hr hf s s' d h
    obtain ⟨x, s1, h1, h⟩ := evalBind_eq_ok.mp h
    cases (Prod.mk.inj h).1
    rw [notOp_eq]
    exact unary _ _ (ih hb hr hf _ _ _ h1)
  | abs e ih =>
    intro hb hr hf s s' d h
    obtain ⟨x, s1, h1, h⟩ := evalBind_eq_ok.mp h
    cases (Prod.mk.inj h).1
    rw [absOp_eq]
    exact unary _ _ (ih hb hr hf _ _ _ h1)
  | dropKeep t =>
    intro hb _ hf s s' d h
    obtain ⟨f, hf'⟩ := hb
    have h' := (Prod.mk.inj h).1
    have := untied_dropKeep h'
    exact ⟨this.1, this.2, dropKeepDist_nonempty hf' hf h'⟩
  | dice t =>
    intro _ _ hf s s' d h
    have h' := (Prod.mk.inj h).1
    have := untied_dice h'
    exact ⟨this.1, this.2, diceDist_nonempty hf h'⟩
  | constInt t =>
    intro _ _ _ s s' d h
    obtain ⟨v, _, h'⟩ := bind_eq_ok.mp (Prod.mk.inj h).1
    exact const v d h'
  | constBin t => intro _ _ _ s s' d h; exact const _ d (Prod.mk.inj h).1
  | add a b iha ihb =>
    intro hb hr hf
    have hr := List.append_eq_nil_iff.mp hr
    have hf := not_or.mp hf
    exact two a b .add (iha hb.1 hr.1 hf.1) (ihb hb.2 hr.2 hf.2)
  | sub a b iha ihb =>
    intro hb hr hf
    have hr := List.append_eq_nil_iff.mp hr
    have hf := not_or.mp hf
    exact two a b .sub (iha hb.1 hr.1 hf.1) (ihb hb.2 hr.2 hf.2)
  | mul a b iha ihb =>
    intro hb hr hf
    have hr := List.append_eq_nil_iff.mp hr
    have hf := not_or.mp hf
    exact two a b .mul (iha hb.1 hr.1 hf.1) (ihb hb.2 hr.2 hf.2)
  | div a b iha ihb =>
    intro hb hr hf
    have hr := List.append_eq_nil_iff.mp hr
    have hf := not_or.mp hf
    exact two a b .floordiv (iha hb.1 hr.1 hf.1) (ihb hb.2 hr.2 hf.2)
  | bin op a b iha ihb =>
    intro hb hr hf
    have hr := List.append_eq_nil_iff.mp hr
    have hf := not_or.mp hf
    exact two a b op.toBinOp (iha hb.1 hr.1 hf.1) (ihb hb.2 hr.2 hf.2)
  | minmax k a b iha ihb =>
    intro hb hr hf
    have hr := List.append_eq_nil_iff.mp hr
    have hf := not_or.mp hf
    exact two a b (if k then .max else .min) (iha hb.1 hr.1 hf.1) (ihb hb.2 hr.2 hf.2)
  | assign x e ih =>
    intro hb hr hf s s' d h
    obtain ⟨d', s1, h1, h⟩ := evalBind_eq_ok.mp h
    obtain ⟨_, s2, h2, h⟩ := evalBind_eq_ok.mp h
    cases (Prod.mk.inj h).1
    exact ih hb hr hf _ _ _ h1
  | getVar n => intro _ hr; simp [Expr.reads] at hr

/-! ### Extremes, costs and rolls -/

theorem extremeFault_of {e e' : Expr} (hr : ∀ n ∈ e'.reads, n ∈ e.reads) (hd : e'.HasDiv → e.HasDiv)
    (hf : e'.AnyDie Faceless → e.AnyDie Faceless) {s : State} {er : Err} (h : ExtremeFault e' s er) : ExtremeFault e s er := by
  cases er with
  | key => obtain ⟨n, hn, hm⟩ := h; exact ⟨n, hr n hn, hm⟩
  | zeroDivision => exact hd h
  | value =>
    refine Or.imp hf (fun h0 => ?_) h
    obtain ⟨n, hn⟩ := List.exists_mem_of_ne_nil _ h0
    exact List.ne_nil_of_mem (hr n hn)
  | _ => exact h.elim

theorem DistFault.extreme {e : Expr} {s : State} {er : Err} (h : DistFault e s er) : ExtremeFault e s er := by
  cases er with
  | key => obtain ⟨n, hn, hm⟩ := h; exact ⟨n, hn, .inl hm⟩
  | zeroDivision => exact h
  | _ => exact h.elim

theorem extreme_fault (isMax : Bool) : ∀ e : Expr, e.Numeric → e.Built → ∀ (s s' : State) (er : Err), TidyState s →
    e.extreme isMax s = (.error er, s') → ExtremeFault e s er := by
  have via : ∀ e : Expr, e.Numeric → e.Built → ∀ (s s' : State) (er : Err), TidyState s →
      viaDist isMax e.dist s = (.error er, s') → ExtremeFault e s er := by
    intro e hn hb s s' er hs h
    rcases evalBind_eq_error.mp h with h | ⟨d, s1, h1, h⟩
    · exact (dist_fault e hn hb _ _ _ hs h).extreme
    · have h2 := (Prod.mk.inj h).1
      by_cases hk : ∃ v, hasKey d.getResultMap v
      · obtain ⟨v, hv, _⟩ := dist_extreme isMax d hk
        rw [hv] at h2; cases h2
      · have h0 : d.getResultMap = [] := by
          by_contra h0
          obtain ⟨p, hp⟩ := List.exists_mem_of_ne_nil _ h0
          exact hk ⟨p.1, List.mem_map_of_mem hp⟩
        have h3 := (C09_max_min_defined d).2.2 h0
        have : er = .value := by
          cases isMax
          · simp only [Bool.false_eq_true, if_false, h3.2] at h2; cases h2; rfl
          · simp only [if_true, h3.1] at h2; cases h2; rfl
        subst this
        by_contra hc
        obtain ⟨hc1, hc2⟩ := not_or.mp hc
        exact hk (closed_nonempty e hb (by simpa using hc2) hc1 _ _ _ h1).2.2
  intro e
  induction e with
  | paren e ih => exact ih
  | not e ih => intro hn hb; exact via (.not e) hn hb
  | abs e ih => intro hn hb; exact via (.abs e) hn hb
  | dropKeep t =>
    intro _ hb s s' er _ h
    obtain ⟨f, hf⟩ := hb
    obtain ⟨rfl, h1, h2⟩ := dropKeepExtreme_error hf (Prod.mk.inj h).1
    exact .inl ⟨h1, h2⟩
  | dice t =>
    intro _ _ s s' er _ h
    obtain ⟨rfl, h2⟩ := diceExtreme_error (Prod.mk.inj h).1
    exact .inl h2
  | constInt t =>
    intro hn _ s s' er _ h
    obtain ⟨v, hv⟩ := hn
    have := (Prod.mk.inj h).1
    rw [hv] at this; cases this
  | constBin t => intro _ _ s s' er _ h; cases (Prod.mk.inj h).1
  | add a b _ _ => intro hn hb; exact via (.add a b) hn hb
  | sub a b _ _ => intro hn hb; exact via (.sub a b) hn hb
  | mul a b _ _ => intro hn hb; exact via (.mul a b) hn hb
  | div a b _ _ =>
    intro hn hb s s' er hs h
    rcases evalBind_eq_error.mp h with h | ⟨d, s1, h1, h⟩
    · exact (distFault_of (e := .div a b) (by simp +contextual [Expr.reads]) (fun _ => trivial) (dist_fault b hn.2 hb.2 _ _ _ hs h)).extreme
    · split at h
      · cases (Prod.mk.inj h).1; exact trivial
      · have k1 := keeps_dist b s hs
        have g1 := grows_dist b s
        rw [h1] at k1 g1
        exact early_extremeFault _ g1 _ (via (.div a b) hn hb _ _ _ k1.1 h)
  | bin op a b _ _ => intro hn hb; exact via (.bin op a b) hn hb
  | minmax k a b iha ihb =>
    intro hn hb s s' er hs h
    rcases evalBind_eq_error.mp h with h | ⟨x, s1, h1, h⟩
    · exact extremeFault_of (by simp +contextual [Expr.reads]) Or.inl Or.inl (iha hn.1 hb.1 _ _ _ hs h)
    · have k1 := keeps_extreme isMax a s hs
      have g1 := grows_extreme isMax a s
      rw [h1] at k1 g1
      rcases evalBind_eq_error.mp h with h | ⟨y, s2, h2, h⟩
      · exact extremeFault_of (by simp +contextual [Expr.reads]) Or.inr Or.inr (early_extremeFault _ g1 _ (ihb hn.2 hb.2 _ _ _ k1.1 h))
      · cases (Prod.mk.inj h).1
  | assign x e ih =>
    intro hn hb s s' er hs h
    rcases evalBind_eq_error.mp h with h | ⟨v, s1, h1, h⟩
    · exact ih hn hb _ _ _ hs h
    · have k1 := keeps_extreme isMax e s hs
      have g1 := grows_extreme isMax e s
      rw [h1] at k1 g1
      rcases evalBind_eq_error.mp h with h | ⟨_, s2, h2, h⟩
      · cases (Prod.mk.inj h).1
      · have g2 := grows_setConstant x v s1
        obtain ⟨_, rfl⟩ := Prod.mk.inj h2
        rcases evalBind_eq_error.mp h with h | ⟨d, s3, h3, h⟩
        · exact early_extremeFault (.assign x e) (pre_grows.trans g1 g2) _
            (dist_fault e hn hb _ _ _ (tidyState_setConstant k1.1 x v) h).extreme
        · rcases evalBind_eq_error.mp h with h | ⟨_, s4, h4, h⟩
          · unfold EvalM.setVar at h
            rw [setVar_eq] at h
            cases (Prod.mk.inj h).1
          · cases (Prod.mk.inj h).1
  | getVar n =>
    intro _ _ s s' er _ h
    simp only [Expr.extreme, EvalM.read, State.getConstant] at h
    split at h
    · cases (Prod.mk.inj h).1
    · rename_i hv
      cases (Prod.mk.inj h).1
      exact ⟨n, by simp [Expr.reads], .inr (by simp [State.hasConstant, hv])⟩

theorem costFault_of {e e' : Expr} (hr : ∀ n ∈ e'.reads, n ∈ e.reads) (hn : e'.HasNot → e.HasNot) {s : State} {er : Err}
    (h : CostFault e' s er) : CostFault e s er := by
  cases er with
  | key => obtain ⟨n, hn, hm⟩ := h; exact ⟨n, hr n hn, hm⟩
  | overflow => exact hn h
  | _ => exact h.elim

theorem notCost_raises {c : Int} {er : Err} (h : notCost c = .error er) : er = .overflow := by
  have key : ∀ {q : ℚ} {er : Err}, toFloat q = .error er → er = .overflow := by
    intro q er h
    unfold toFloat at h
    split at h
    · cases h; rfl
    · cases h
  unfold notCost at h
  cases hx : toFloat (c : ℚ) with
  | error e => rw [hx] at h; cases h; exact key hx
  | ok x =>
    rw [hx] at h
    cases hp : toFloat (x * toDouble (11 / 10)) with
    | error e => simp only [bind, Except.bind, hp] at h; cases h; exact key hp
    | ok p => simp only [bind, Except.bind, hp] at h; cases h

theorem cost_fault : ∀ (e : Expr) (s s' : State) (er : Err), e.cost s = (.error er, s') → CostFault e s er := by
  have two : ∀ (a b e : Expr), (∀ n ∈ a.reads, n ∈ e.reads) → (∀ n ∈ b.reads, n ∈ e.reads) → (a.HasNot ∨ b.HasNot → e.HasNot) →
      (∀ (s s' : State) (er : Err), a.cost s = (.error er, s') → CostFault a s er) →
      (∀ (s s' : State) (er : Err), b.cost s = (.error er, s') → CostFault b s er) →
      ∀ (s s' : State) (er : Err), (do let x ← a.cost; let y ← b.cost; return x + y : EvalM Int) s = (.error er, s') → CostFault e s er := by
    intro a b e ra rb rn ha hb s s' er h
    rcases evalBind_eq_error.mp h with h | ⟨x, s1, h1, h⟩
    · exact costFault_of ra (fun h => rn (.inl h)) (ha _ _ _ h)
    · have g1 := grows_cost a s
      rw [h1] at g1
      rcases evalBind_eq_error.mp h with h | ⟨y, s2, h2, h⟩
      · exact costFault_of rb (fun h => rn (.inr h)) (early_costFault b g1 er (hb _ _ _ h))
      · cases (Prod.mk.inj h).1
  intro e
  induction e with
  | paren e ih => exact ih
  | not e ih =>
    intro s s' er h
    rcases evalBind_eq_error.mp h with h | ⟨x, s1, h1, h⟩
    · exact costFault_of (e := .not e) (e' := e) (fun _ h => h) (fun _ => trivial) (ih _ _ _ h)
    · have := notCost_raises (Prod.mk.inj h).1
      subst this
      trivial
  | abs e ih => exact ih
  | dropKeep t => intro s s' er h; cases (Prod.mk.inj h).1
  | dice t => intro s s' er h; cases (Prod.mk.inj h).1
  | constInt t => intro s s' er h; cases (Prod.mk.inj h).1
  | constBin t => intro s s' er h; cases (Prod.mk.inj h).1
  | add a b iha ihb => exact two a b _ (by simp +contextual [Expr.reads]) (by simp +contextual [Expr.reads]) id iha ihb
  | sub a b iha ihb => exact two a b _ (by simp +contextual [Expr.reads]) (by simp +contextual [Expr.reads]) id iha ihb
  | mul a b iha ihb => exact two a b _ (by simp +contextual [Expr.reads]) (by simp +contextual [Expr.reads]) id iha ihb
  | div a b iha ihb => exact two a b _ (by simp +contextual [Expr.reads]) (by simp +contextual [Expr.reads]) id iha ihb
  | bin op a b iha ihb => exact two a b _ (by simp +contextual [Expr.reads]) (by simp +contextual [Expr.reads]) id iha ihb
  | minmax k a b iha ihb => exact two a b _ (by simp +contextual [Expr.reads]) (by simp +contextual [Expr.reads]) id iha ihb
  | assign x e ih =>
    intro s s' er h
    rcases evalBind_eq_error.mp h with h | ⟨v, s1, h1, h⟩
    · exact ih _ _ _ h
    · rcases evalBind_eq_error.mp h with h | ⟨_, s2, h2, h⟩
      · cases (Prod.mk.inj h).1
      · cases (Prod.mk.inj h).1
  | getVar n =>
    intro s s' er h
    simp only [Expr.cost, EvalM.read, State.getConstant] at h
    split at h
    · cases (Prod.mk.inj h).1
    · rename_i hv
      cases (Prod.mk.inj h).1
      exact ⟨n, by simp [Expr.reads], by simp [State.hasConstant, hv]⟩

theorem rollFault_of {e e' : Expr} (hr : ∀ n ∈ e'.reads, n ∈ e.reads) (hd : e'.HasDiv → e.HasDiv)
    (hf : ∀ P, e'.AnyDie P → e.AnyDie P) {s : State} {er : Err} (h : RollFault e' s er) : RollFault e s er := by
  cases er with
  | key => obtain ⟨n, hn, hm⟩ := h; exact ⟨n, hr n hn, hm⟩
  | zeroDivision => exact hd h
  | value => exact hf _ h
  | index => exact hf _ h
  | _ => exact h.elim

theorem ofRand_error {α : Type} {r : Rand (Res α)} {s s' : State} {er : Err} (h : Rand.Possible (.error er, s') (RollM.ofRand r s)) :
    Rand.Possible (.error er) r := by
  obtain ⟨a, ha, h⟩ := Rand.possible_bind.mp h
  cases Rand.possible_pure.mp h
  exact ha

theorem roll_fault : ∀ e : Expr, e.Numeric → e.Built → ∀ (s s' : State) (er : Err), Rand.Possible (.error er, s') (e.roll s) →
    RollFault e s er := by
  have two : ∀ (a b e : Expr) (g : Int → Int → Int), (∀ n ∈ a.reads, n ∈ e.reads) → (∀ n ∈ b.reads, n ∈ e.reads) →
      (a.HasDiv → e.HasDiv) → (b.HasDiv → e.HasDiv) → (∀ P, a.AnyDie P → e.AnyDie P) → (∀ P, b.AnyDie P → e.AnyDie P) →
      (∀ (s s' : State) (er : Err), Rand.Possible (.error er, s') (a.roll s) → RollFault a s er) →
      (∀ (s s' : State) (er : Err), Rand.Possible (.error er, s') (b.roll s) → RollFault b s er) →
      ∀ (s s' : State) (er : Err), Rand.Possible (.error er, s') ((do let x ← a.roll; let y ← b.roll; return g x y : RollM Int) s) →
        RollFault e s er := by
    intro a b e g ra rb da db fa fb ha hb s s' er h
    rcases possible_bind_error.mp h with h | ⟨x, s1, h1, h⟩
    · exact rollFault_of ra da fa (ha _ _ _ h)
    · have g1 := grows_roll a s _ h1
      rcases possible_bind_error.mp h with h | ⟨y, s2, h2, h⟩
      · exact rollFault_of rb db fb (early_rollFault b g1 er (hb _ _ _ h))
      · cases (Prod.mk.inj (Rand.possible_pure.mp h)).1
  intro e
  induction e with
  | paren e ih => exact ih
  | not e ih =>
    intro hn hb s s' er h
    rcases possible_bind_error.mp h with h | ⟨x, s1, h1, h⟩
    · exact ih hn hb _ _ _ h
    · cases (Prod.mk.inj (Rand.possible_pure.mp h)).1
  | abs e ih =>
    intro hn hb s s' er h
    rcases possible_bind_error.mp h with h | ⟨x, s1, h1, h⟩
    · exact ih hn hb _ _ _ h
    · cases (Prod.mk.inj (Rand.possible_pure.mp h)).1
  | dropKeep t =>
    intro _ hb s s' er h
    obtain ⟨f, hf⟩ := hb
    obtain ⟨h1, ⟨rfl, h2⟩ | ⟨rfl, h2⟩⟩ := dropKeepRoll_error hf (ofRand_error h)
    · exact ⟨h1, h2⟩
    · exact ⟨h1, h2⟩
  | dice t =>
    intro _ _ s s' er h
    rcases diceRoll_error (ofRand_error h) with ⟨rfl, h2⟩ | ⟨rfl, h2⟩
    · exact h2
    · exact h2
  | constInt t =>
    intro hn _ s s' er h
    obtain ⟨v, hv⟩ := hn
    have := (Prod.mk.inj (Rand.possible_pure.mp h)).1
    rw [hv] at this; cases this
  | constBin t => intro _ _ s s' er h; cases (Prod.mk.inj (Rand.possible_pure.mp h)).1
  | add a b iha ihb =>
    intro hn hb
    exact two a b _ _ (by simp +contextual [Expr.reads]) (by simp +contextual [Expr.reads]) Or.inl Or.inr (fun _ => Or.inl) (fun _ => Or.inr)
      (iha hn.1 hb.1) (ihb hn.2 hb.2)
  | sub a b iha ihb =>
    intro hn hb
    exact two a b _ _ (by simp +contextual [Expr.reads]) (by simp +contextual [Expr.reads]) Or.inl Or.inr (fun _ => Or.inl) (fun _ => Or.inr)
      (iha hn.1 hb.1) (ihb hn.2 hb.2)
  | mul a b iha ihb =>
    intro hn hb
    exact two a b _ _ (by simp +contextual [Expr.reads]) (by simp +contextual [Expr.reads]) Or.inl Or.inr (fun _ => Or.inl) (fun _ => Or.inr)
      (iha hn.1 hb.1) (ihb hn.2 hb.2)
  | div a b iha ihb =>
    intro hn hb s s' er h
    rcases possible_bind_error.mp h with h | ⟨y, s1, h1, h⟩
    · exact rollFault_of (e := .div a b) (by simp +contextual [Expr.reads]) (fun _ => trivial) (fun _ => Or.inr) (ihb hn.2 hb.2 _ _ _ h)
    · have g1 := grows_roll b s _ h1
      split at h
      · cases (Prod.mk.inj (Rand.possible_pure.mp h)).1; exact trivial
      · rcases possible_bind_error.mp h with h | ⟨x, s2, h2, h⟩
        · exact rollFault_of (e := .div a b) (by simp +contextual [Expr.reads]) (fun _ => trivial) (fun _ => Or.inl)
            (early_rollFault a g1 er (iha hn.1 hb.1 _ _ _ h))
        · cases (Prod.mk.inj (Rand.possible_pure.mp h)).1
  | bin op a b iha ihb =>
    intro hn hb
    exact two a b _ _ (by simp +contextual [Expr.reads]) (by simp +contextual [Expr.reads]) Or.inl Or.inr (fun _ => Or.inl) (fun _ => Or.inr)
      (iha hn.1 hb.1) (ihb hn.2 hb.2)
  | minmax k a b iha ihb =>
    intro hn hb
    exact two a b _ _ (by simp +contextual [Expr.reads]) (by simp +contextual [Expr.reads]) Or.inl Or.inr (fun _ => Or.inl) (fun _ => Or.inr)
      (iha hn.1 hb.1) (ihb hn.2 hb.2)
  | assign x e ih =>
    intro hn hb s s' er h
    rcases possible_bind_error.mp h with h | ⟨v, s1, h1, h⟩
    · exact ih hn hb _ _ _ h
    · rcases possible_bind_error.mp h with h | ⟨_, s2, h2, h⟩
      · cases (Prod.mk.inj (Rand.possible_pure.mp h)).1
      · cases (Prod.mk.inj (Rand.possible_pure.mp h)).1
  | getVar n =>
    intro _ _ s s' er h
    have h := Rand.possible_pure.mp h
    simp only [EvalM.read, State.getConstant] at h
    split at h
    · cases (Prod.mk.inj h).1
    · rename_i hv
      cases (Prod.mk.inj h).1
      exact ⟨n, by simp [Expr.reads], by simp [State.hasConstant, hv]⟩

/-! ### A variable that is read must be there -/

theorem dist_needs {s : State} {n : Str} : ∀ {e : Expr}, e.NoAssign → n ∈ e.reads → s.hasVar n = false → ∃ er, (e.dist s).1 = .error er := by
  intro e hn hr hv
  rcases h : e.dist s with ⟨r, s'⟩
  cases r with
  | error er => exact ⟨er, rfl⟩
  | ok d =>
    exfalso
    have two : ∀ (a b : Expr) (op : BinOp), a.NoAssign → (∀ d s', a.dist s = (.ok d, s') → n ∉ a.reads) →
        (∀ d s', b.dist s = (.ok d, s') → n ∉ b.reads) → ∀ (d : Dist) (s' : State),
        (do let x ← a.dist; let y ← b.dist; EvalM.ofRes (Dist.binop op x y) : EvalM Dist) s = (.ok d, s') → n ∉ a.reads ++ b.reads := by
      intro a b op hna ha hb d s' h
      obtain ⟨x, s1, h1, h'⟩ := evalBind_eq_ok.mp h
      have hs : s1 = s := by have := noAssign_dist hna s; rwa [h1] at this
      subst hs
      obtain ⟨y, s2, h2, _⟩ := evalBind_eq_ok.mp h'
      simp [ha _ _ h1, hb _ _ h2]
    have main : ∀ e : Expr, e.NoAssign → ∀ d s', e.dist s = (.ok d, s') → n ∉ e.reads := by
      intro e
      induction e with
      | paren e ih => exact ih
      | not e ih => intro hn d s' h; obtain ⟨x, s1, h1, _⟩ := evalBind_eq_ok.mp h; exact ih hn _ _ h1
      | abs e ih => intro hn d s' h; obtain ⟨x, s1, h1, _⟩ := evalBind_eq_ok.mp h; exact ih hn _ _ h1
      | dropKeep t => intro _ _ _ _; simp [Expr.reads]
      | dice t => intro _ _ _ _; simp [Expr.reads]
      | constInt t => intro _ _ _ _; simp [Expr.reads]
      | constBin t => intro _ _ _ _; simp [Expr.reads]
      | add a b iha ihb => intro hn; exact two a b .add hn.1 (iha hn.1) (ihb hn.2)
      | sub a b iha ihb => intro hn; exact two a b .sub hn.1 (iha hn.1) (ihb hn.2)
      | mul a b iha ihb => intro hn; exact two a b .mul hn.1 (iha hn.1) (ihb hn.2)
      | div a b iha ihb => intro hn; exact two a b .floordiv hn.1 (iha hn.1) (ihb hn.2)
      | bin op a b iha ihb => intro hn; exact two a b op.toBinOp hn.1 (iha hn.1) (ihb hn.2)
      | minmax k a b iha ihb => intro hn; exact two a b (if k then .max else .min) hn.1 (iha hn.1) (ihb hn.2)
      | assign x e _ => intro hn; exact hn.elim
      | getVar m =>
        intro _ d s' h hm
        obtain rfl : n = m := by simpa [Expr.reads] using hm
        simp only [Expr.dist, EvalM.read, State.getVar] at h
        split at h
        · rename_i hd; simp [State.hasVar, hd] at hv
        · cases (Prod.mk.inj h).1
    exact main e hn d s' h hr

theorem cost_needs {s : State} {n : Str} : ∀ {e : Expr}, e.NoAssign → n ∈ e.reads → s.hasConstant n = false → ∃ er, (e.cost s).1 = .error er := by
  intro e hn hr hv
  rcases h : e.cost s with ⟨r, s'⟩
  cases r with
  | error er => exact ⟨er, rfl⟩
  | ok d =>
    exfalso
    have two : ∀ (a b : Expr), a.NoAssign → (∀ d s', a.cost s = (.ok d, s') → n ∉ a.reads) →
        (∀ d s', b.cost s = (.ok d, s') → n ∉ b.reads) → ∀ (d : Int) (s' : State),
        (do let x ← a.cost; let y ← b.cost; return x + y : EvalM Int) s = (.ok d, s') → n ∉ a.reads ++ b.reads := by
      intro a b hna ha hb d s' h
      obtain ⟨x, s1, h1, h'⟩ := evalBind_eq_ok.mp h
      have hs : s1 = s := by have := noAssign_cost hna s; rwa [h1] at this
      subst hs
      obtain ⟨y, s2, h2, _⟩ := evalBind_eq_ok.mp h'
      simp [ha _ _ h1, hb _ _ h2]
    have main : ∀ e : Expr, e.NoAssign → ∀ d s', e.cost s = (.ok d, s') → n ∉ e.reads := by
      intro e
      induction e with
      | paren e ih => exact ih
      | not e ih => intro hn d s' h; obtain ⟨x, s1, h1, _⟩ := evalBind_eq_ok.mp h; exact ih hn _ _ h1
      | abs e ih => exact ih
      | dropKeep t => intro _ _ _ _; simp [Expr.reads]
      | dice t => intro _ _ _ _; simp [Expr.reads]
      | constInt t => intro _ _ _ _; simp [Expr.reads]
      | constBin t => intro _ _ _ _; simp [Expr.reads]
      | add a b iha ihb => intro hn; exact two a b hn.1 (iha hn.1) (ihb hn.2)
      | sub a b iha ihb => intro hn; exact two a b hn.1 (iha hn.1) (ihb hn.2)
      | mul a b iha ihb => intro hn; exact two a b hn.1 (iha hn.1) (ihb hn.2)
      | div a b iha ihb => intro hn; exact two a b hn.1 (iha hn.1) (ihb hn.2)
      | bin op a b iha ihb => intro hn; exact two a b hn.1 (iha hn.1) (ihb hn.2)
      | minmax k a b iha ihb => intro hn; exact two a b hn.1 (iha hn.1) (ihb hn.2)
      | assign x e _ => intro hn; exact hn.elim
      | getVar m =>
        intro _ d s' h hm
        obtain rfl : n = m := by simpa [Expr.reads] using hm
        simp only [Expr.cost, EvalM.read, State.getConstant] at h
        split at h
        · rename_i hd; simp [State.hasConstant, hd] at hv
        · cases (Prod.mk.inj h).1
    exact main e hn d s' h hr

theorem roll_needs {s : State} {n : Str} {e : Expr} (hn : e.NoAssign) (hr : n ∈ e.reads) (hv : s.hasConstant n = false)
    (x : Res Int × State) (hx : Rand.Possible x (e.roll s)) : ∃ er, x.1 = .error er := by
  obtain ⟨r, s'⟩ := x
  cases r with
  | error er => exact ⟨er, rfl⟩
  | ok v =>
    exfalso
    have two : ∀ (a b : Expr) (g : Int → Int → Int), a.NoAssign → (∀ v s', Rand.Possible (.ok v, s') (a.roll s) → n ∉ a.reads) →
        (∀ v s', Rand.Possible (.ok v, s') (b.roll s) → n ∉ b.reads) → ∀ (v : Int) (s' : State),
        Rand.Possible (.ok v, s') ((do let x ← a.roll; let y ← b.roll; return g x y : RollM Int) s) → n ∉ a.reads ++ b.reads := by
      intro a b g hna ha hb d s' h
      obtain ⟨x, s1, h1, h'⟩ := possible_bind_ok.mp h
      have hs : s1 = s := noAssign_roll hna h1
      subst hs
      obtain ⟨y, s2, h2, _⟩ := possible_bind_ok.mp h'
      simp [ha _ _ h1, hb _ _ h2]
    have main : ∀ e : Expr, e.NoAssign → ∀ v s', Rand.Possible (.ok v, s') (e.roll s) → n ∉ e.reads := by
      intro e
      induction e with
      | paren e ih => exact ih
      | not e ih => intro hn d s' h; obtain ⟨x, s1, h1, _⟩ := possible_bind_ok.mp h; exact ih hn _ _ h1
      | abs e ih => intro hn d s' h; obtain ⟨x, s1, h1, _⟩ := possible_bind_ok.mp h; exact ih hn _ _ h1
      | dropKeep t => intro _ _ _ _; simp [Expr.reads]
      | dice t => intro _ _ _ _; simp [Expr.reads]
      | constInt t => intro _ _ _ _; simp [Expr.reads]
      | constBin t => intro _ _ _ _; simp [Expr.reads]
      | add a b iha ihb => intro hn; exact two a b _ hn.1 (iha hn.1) (ihb hn.2)
      | sub a b iha ihb => intro hn; exact two a b _ hn.1 (iha hn.1) (ihb hn.2)
      | mul a b iha ihb => intro hn; exact two a b _ hn.1 (iha hn.1) (ihb hn.2)
      | div a b iha ihb =>
        intro hn d s' h
        obtain ⟨y, s1, h1, h'⟩ := possible_bind_ok.mp h
        have hs : s1 = s := noAssign_roll hn.2 h1
        subst hs
        split at h'
        · cases (Prod.mk.inj (Rand.possible_pure.mp h')).1
        · obtain ⟨x, s2, h2, _⟩ := possible_bind_ok.mp h'
          simp [Expr.reads, iha hn.1 _ _ h2, ihb hn.2 _ _ h1]
      | bin op a b iha ihb => intro hn; exact two a b _ hn.1 (iha hn.1) (ihb hn.2)
      | minmax k a b iha ihb => intro hn; exact two a b _ hn.1 (iha hn.1) (ihb hn.2)
      | assign x e _ => intro hn; exact hn.elim
      | getVar m =>
        intro _ d s' h hm
        obtain rfl : n = m := by simpa [Expr.reads] using hm
        have h := Rand.possible_pure.mp h
        simp only [EvalM.read, State.getConstant] at h
        split at h
        · rename_i hd; simp [State.hasConstant, hd] at hv
        · cases (Prod.mk.inj h).1
    exact main e hn v s' hx hr

/-! ### Averages and dict forms -/

omit R in
theorem mapM_raises {α β : Type} (f : α → Res β) {er : Err} : ∀ {l : List α}, l.mapM f = .error er → ∃ a ∈ l, f a = .error er := by
  intro l
  induction l with
  | nil => intro h; cases h
  | cons a l ih =>
    intro h
    rw [List.mapM_cons] at h
    cases ha : f a with
    | error e =>
      rw [ha] at h
      cases h
      exact ⟨a, by simp, ha⟩
    | ok b =>
      rw [ha, ok_bind] at h
      cases hl : l.mapM f with
      | error e =>
        rw [hl] at h
        cases h
        obtain ⟨a', h1, h2⟩ := ih hl
        exact ⟨a', by simp [h1], h2⟩
      | ok bs => rw [hl] at h; cases h

omit R in
theorem mapValues_raises {α β : Type} {f : α → Res β} {d : List (Str × α)} {er : Err} (h : mapValues f d = .error er) :
    ∃ p ∈ d, f p.2 = .error er := by
  obtain ⟨p, hp, h1⟩ := mapM_raises _ h
  refine ⟨p, hp, ?_⟩
  cases hf : f p.2 with
  | error e => rw [hf] at h1; cases h1; rfl
  | ok b => rw [hf] at h1; cases h1

theorem getDictForm_raises {d : Dist} {er : Err} (h : d.getDictForm = .error er) : er = .zeroDivision ∧ d.outcomeCount = 0 := by
  obtain ⟨p, _, h1⟩ := mapM_raises _ h
  split at h1
  · rename_i h0; cases h1; exact ⟨rfl, h0⟩
  · cases h1

theorem average_raises {d : Dist} {er : Err} (h : d.average = .error er) : er = .zeroDivision ∧ d.outcomeCount = 0 := by
  unfold Dist.average at h
  dsimp only at h
  split at h
  · rename_i h0; cases h; exact ⟨rfl, h0⟩
  · cases h

end

/-! ### Parsed expressions -/

theorem spelt_numeric : ∀ {e : Expr}, Spelt e → e.Numeric ∧ e.Built := by
  intro e
  induction e with
  | paren e ih => exact ih
  | not e ih => exact ih
  | abs e ih => exact ih
  | dropKeep t => intro h; exact ⟨trivial, _, h.1⟩
  | dice t => intro h; exact ⟨trivial, _, h.1⟩
  | constInt t => rintro ⟨n, hn, rfl⟩; exact ⟨⟨_, pyInt_num hn⟩, trivial⟩
  | constBin t => intro _; exact ⟨trivial, trivial⟩
  | add a b iha ihb => intro h; exact ⟨⟨(iha h.1).1, (ihb h.2).1⟩, (iha h.1).2, (ihb h.2).2⟩
  | sub a b iha ihb => intro h; exact ⟨⟨(iha h.1).1, (ihb h.2).1⟩, (iha h.1).2, (ihb h.2).2⟩
  | mul a b iha ihb => intro h; exact ⟨⟨(iha h.1).1, (ihb h.2).1⟩, (iha h.1).2, (ihb h.2).2⟩
  | div a b iha ihb => intro h; exact ⟨⟨(iha h.1).1, (ihb h.2).1⟩, (iha h.1).2, (ihb h.2).2⟩
  | bin op a b iha ihb => intro h; exact ⟨⟨(iha h.1).1, (ihb h.2).1⟩, (iha h.1).2, (ihb h.2).2⟩
  | minmax k a b iha ihb => intro h; exact ⟨⟨(iha h.1).1, (ihb h.2).1⟩, (iha h.1).2, (ihb h.2).2⟩
  | assign x e ih => intro h; exact ih h.2
  | getVar n => intro _; exact ⟨trivial, trivial⟩

end PyDice
