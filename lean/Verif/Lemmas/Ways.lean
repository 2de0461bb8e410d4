import Verif.Spec.Program
import Verif.Lemmas.DropKeepTerm
import Verif.Lemmas.Tidy
import Verif.Lemmas.Frame
/-!
# Distributions of expressions and their meaning, for given values of the variables
-/

namespace PyDice
open PyRuntime

/-- `f` of the value, 0 for a failure. -/
def onSome {M : Type} [Zero M] (f : Int → M) : Option Int → M
  | some v => f v
  | none => 0

/-- Sum over the results. -/
def waySum {M : Type} [AddCommMonoid M] (l : List (Option Int)) (f : Int → M) : M := (l.map (onSome f)).sum

theorem opValue_yields (op : BinOp) (x y v : Int) : opValue op x y = some v ↔ OpYields op x y v := by
  cases op <;> simp only [opValue, OpYields]
  case floordiv =>
    by_cases hy : y = 0
    · simp [hy]
    · simp [hy, eq_comm]
  case max => simp only [Option.some.injEq]; omega
  case min => simp only [Option.some.injEq]; omega
  case add => simp [eq_comm]
  case sub => simp [eq_comm]
  case mul => simp [eq_comm]
  all_goals
    simp only [Option.some.injEq]
    split <;> constructor <;> intro h <;> omega

theorem apply_opValue (op : BinOp) (x y v : Int) : op.apply x y = .ok v ↔ opValue op x y = some v := by
  rw [apply_yields, opValue_yields]

theorem onOk_apply {M : Type} [Zero M] (op : BinOp) (x y : Int) (f : Int → M) :
    onOk (op.apply x y) f = onSome f (opValue op x y) := by
  cases h : op.apply x y with
  | ok v => rw [(apply_opValue op x y v).mp h]; rfl
  | error e =>
    cases h' : opValue op x y with
    | none => rfl
    | some v => rw [(apply_opValue op x y v).mpr h'] at h; cases h

theorem onSome_smul {M : Type} [AddCommMonoid M] (k : Nat) (f : Int → M) (o : Option Int) :
    onSome (fun x => k • f x) o = k • onSome f o := by
  cases o <;> simp [onSome]

theorem waySum_smul {M : Type} [AddCommMonoid M] (l : List (Option Int)) (k : Nat) (f : Int → M) :
    waySum l (fun x => k • f x) = k • waySum l f := by
  unfold waySum
  induction l with
  | nil => simp
  | cons a l ih => simp only [List.map_cons, List.sum_cons, onSome_smul, ih, smul_add]

theorem waySum_combine {M : Type} [AddCommMonoid M] (g : Int → Int → Option Int) (as bs : List (Option Int)) (f : Int → M) :
    waySum (combineWays g as bs) f = waySum as (fun x => waySum bs (fun y => onSome f (g x y))) := by
  unfold waySum combineWays
  induction as with
  | nil => simp
  | cons a as ih =>
    simp only [List.flatMap_cons, List.map_append, List.sum_append, List.map_cons, List.sum_cons]
    rw [ih]
    congr 1
    cases a with
    | none =>
      have : (List.map (onSome f) (bs.map fun _ => (none : Option Int))).sum = 0 := by
        induction bs with
        | nil => rfl
        | cons b bs ihb => simp [onSome] 
      simpa [onSome] using this
    | some x =>
      simp only [Option.bind_some, onSome, List.map_map]
      congr 1
      apply List.map_congr_left
      intro y _
      cases y <;> rfl

theorem waySum_map {M : Type} [AddCommMonoid M] (g : Int → Int) (l : List (Option Int)) (f : Int → M) :
    waySum (l.map (Option.map g)) f = waySum l (fun x => f (g x)) := by
  unfold waySum
  rw [List.map_map]
  congr 1
  apply List.map_congr_left
  intro y _
  cases y <;> rfl

theorem sumHighest_all {k : Nat} {l : List Int} (h : l.length ≤ k) : sumHighest k l = l.sum := by
  rw [sumHighest_eq]
  unfold topK
  rw [Nat.sub_eq_zero_of_le h, List.drop_zero]
  exact (sortInts_perm l).sum_eq

theorem sumLowest_all {k : Nat} {l : List Int} (h : l.length ≤ k) : sumLowest k l = l.sum := by
  rw [sumLowest_eq]
  unfold lowK
  rw [List.take_of_length_le (by rw [length_sortInts]; exact h)]
  exact (sortInts_perm l).sum_eq

section
variable [R : PyRuntime]

/-- The outcome `v` is listed and agrees with the assignment. -/
def Supp (d : Dist) (ω : Str → Int) (v : Int) : Prop := ∃ p ∈ d.resultMap, p.1.value = v ∧ Sat ω p.1.cs

theorem supp_untied {d : Dist} (h : d.Untied) (ω : Str → Int) (v : Int) : Supp d ω v ↔ hasKey d.getResultMap v := by
  rw [hasKey_getResultMap]
  constructor
  · rintro ⟨p, hp, hv, _⟩; exact ⟨p, hp, hv⟩
  · rintro ⟨p, hp, hv⟩; exact ⟨p, hp, hv, h p hp ω⟩

theorem supp_binop {op : BinOp} {a b d : Dist} (h : Dist.binop op a b = .ok d) (ha : a.Proper) (ω : Str → Int) (v : Int) :
    Supp d ω v ↔ ∃ x y, Supp a ω x ∧ Supp b ω y ∧ opValue op x y = some v := by
  unfold Supp
  rw [binop_support_given h ha ω v]
  constructor
  · rintro ⟨p, hp, q, hq, hv, s1, s2⟩
    exact ⟨_, _, ⟨p, hp, rfl, s1⟩, ⟨q, hq, rfl, s2⟩, (apply_opValue _ _ _ _).mp hv⟩
  · rintro ⟨_, _, ⟨p, hp, rfl, s1⟩, ⟨q, hq, rfl, s2⟩, hv⟩
    exact ⟨p, hp, q, hq, (apply_opValue _ _ _ _).mpr hv, s1, s2⟩

theorem supp_mapValue (g : Int → Int) (d : Dist) (ω : Str → Int) (v : Int) :
    Supp (d.mapValue g) ω v ↔ ∃ x, Supp d ω x ∧ g x = v := by
  unfold Supp
  have hR : Resp (fun o : Outcome => o.value = v ∧ Sat ω o.cs) := by
    intro a b h
    obtain ⟨h1, h2⟩ := outcome_beq.mp h
    simp only [Sat, h1, h2]
  rw [mapValue_exists g d (fun o => o.value = v ∧ Sat ω o.cs) hR]
  constructor
  · rintro ⟨p, hp, hv, hs⟩; exact ⟨_, ⟨p, hp, rfl, hs⟩, hv⟩
  · rintro ⟨_, ⟨p, hp, rfl, hs⟩, hv⟩; exact ⟨p, hp, hv, hs⟩

/-- The six kinds of binary nodes and their operators. -/
inductive Bin2 : Expr → BinOp → Expr → Expr → Prop where
  | add (a b : Expr) : Bin2 (.add a b) .add a b
  | sub (a b : Expr) : Bin2 (.sub a b) .sub a b
  | mul (a b : Expr) : Bin2 (.mul a b) .mul a b
  | div (a b : Expr) : Bin2 (.div a b) .floordiv a b
  | bin (op : CmpOp) (a b : Expr) : Bin2 (.bin op a b) op.toBinOp a b
  | minmax (k : Bool) (a b : Expr) : Bin2 (.minmax k a b) (if k then .max else .min) a b

omit R in
theorem Bin2.ways {e : Expr} {op : BinOp} {a b : Expr} (h : Bin2 e op a b) (env : Env) :
    PyDice.ways e env = combineWays (opValue op) (PyDice.ways a env) (PyDice.ways b env) := by cases h <;> rfl
omit R in
theorem Bin2.vals {e : Expr} {op : BinOp} {a b : Expr} (h : Bin2 e op a b) (env : Env) :
    PyDice.vals e env = (PyDice.vals a env).flatMap fun x => (PyDice.vals b env).filterMap fun y => opValue op x y := by
  cases h <;> rfl
omit R in
theorem Bin2.reads {e : Expr} {op : BinOp} {a b : Expr} (h : Bin2 e op a b) : e.reads = a.reads ++ b.reads := by cases h <;> rfl
omit R in
theorem Bin2.faces {e : Expr} {op : BinOp} {a b : Expr} (h : Bin2 e op a b) (hf : e.Faces) : a.Faces ∧ b.Faces := by
  cases h <;> exact hf
omit R in
theorem Bin2.weighted {e : Expr} {op : BinOp} {a b : Expr} (h : Bin2 e op a b) (hf : e.Weighted) : a.Weighted ∧ b.Weighted := by
  cases h <;> exact hf

/-- Induction over the computation of a distribution. -/
theorem dist_induction {P : Expr → Dist → Prop} {s : State}
    (hparen : ∀ e d, P e d → P (.paren e) d)
    (hnot : ∀ e d, P e d → P (.not e) (d.mapValue notVal))
    (habs : ∀ e d, P e d → P (.abs e) (d.mapValue absVal))
    (hdice : ∀ t d, t.dist = .ok d → P (.dice t) d)
    (hdk : ∀ t d, t.dist = .ok d → P (.dropKeep t) d)
    (hint : ∀ text v d, pyInt text = .ok v → constDist v = .ok d → P (.constInt text) d)
    (hbin : ∀ text d, constDist (binValue text) = .ok d → P (.constBin text) d)
    (h2 : ∀ e op a b da db d, Bin2 e op a b → P a da → P b db → Dist.binop op da db = .ok d → P e d)
    (hvar : ∀ n V, s.getVar n = .ok V → P (.getVar n) V) :
    ∀ e : Expr, e.NoAssign → ∀ d s', e.dist s = (.ok d, s') → P e d := by
  intro e
  induction e with
  | paren e ih => intro hn d s' h; exact hparen e d (ih hn d s' h)
  | not e ih =>
    intro hn d s' h
    obtain ⟨d1, s1, h1, h2⟩ := evalBind_eq_ok.mp h
    cases h2
    exact hnot e d1 (ih hn _ _ h1)
  | abs e ih =>
    intro hn d s' h
    obtain ⟨d1, s1, h1, h2⟩ := evalBind_eq_ok.mp h
    cases h2
    exact habs e d1 (ih hn _ _ h1)
  | dropKeep t => intro hn d s' h; exact hdk t d (Prod.mk.inj h).1
  | dice t => intro hn d s' h; exact hdice t d (Prod.mk.inj h).1
  | constInt text =>
    intro hn d s' h
    obtain ⟨v, h1, h2⟩ := bind_eq_ok.mp (Prod.mk.inj h).1
    exact hint text v d h1 h2
  | constBin text => intro hn d s' h; exact hbin text d (Prod.mk.inj h).1
  | assign x e ih => intro hn; exact hn.elim
  | getVar n => intro hn d s' h; exact hvar n d (Prod.mk.inj h).1
  | add a b iha ihb =>
    intro hn d s' h
    obtain ⟨da, s1, g1, g2⟩ := evalBind_eq_ok.mp h
    obtain ⟨db, s2, g3, g4⟩ := evalBind_eq_ok.mp g2
    have e1 : s1 = s := by have := noAssign_dist hn.1 s; rw [g1] at this; exact this
    subst e1
    exact h2 _ _ a b da db d (.add a b) (iha hn.1 _ _ g1) (ihb hn.2 _ _ g3) (Prod.mk.inj g4).1
  | sub a b iha ihb =>
    intro hn d s' h
    obtain ⟨da, s1, g1, g2⟩ := evalBind_eq_ok.mp h
    obtain ⟨db, s2, g3, g4⟩ := evalBind_eq_ok.mp g2
    have e1 : s1 = s := by have := noAssign_dist hn.1 s; rw [g1] at this; exact this
    subst e1
    exact h2 _ _ a b da db d (.sub a b) (iha hn.1 _ _ g1) (ihb hn.2 _ _ g3) (Prod.mk.inj g4).1
  | mul a b iha ihb =>
    intro hn d s' h
    obtain ⟨da, s1, g1, g2⟩ := evalBind_eq_ok.mp h
    obtain ⟨db, s2, g3, g4⟩ := evalBind_eq_ok.mp g2
    have e1 : s1 = s := by have := noAssign_dist hn.1 s; rw [g1] at this; exact this
    subst e1
    exact h2 _ _ a b da db d (.mul a b) (iha hn.1 _ _ g1) (ihb hn.2 _ _ g3) (Prod.mk.inj g4).1
  | div a b iha ihb =>
    intro hn d s' h
    obtain ⟨da, s1, g1, g2⟩ := evalBind_eq_ok.mp h
    obtain ⟨db, s2, g3, g4⟩ := evalBind_eq_ok.mp g2
    have e1 : s1 = s := by have := noAssign_dist hn.1 s; rw [g1] at this; exact this
    subst e1
    exact h2 _ _ a b da db d (.div a b) (iha hn.1 _ _ g1) (ihb hn.2 _ _ g3) (Prod.mk.inj g4).1
  | bin op a b iha ihb =>
    intro hn d s' h
    obtain ⟨da, s1, g1, g2⟩ := evalBind_eq_ok.mp h
    obtain ⟨db, s2, g3, g4⟩ := evalBind_eq_ok.mp g2
    have e1 : s1 = s := by have := noAssign_dist hn.1 s; rw [g1] at this; exact this
    subst e1
    exact h2 _ _ a b da db d (.bin op a b) (iha hn.1 _ _ g1) (ihb hn.2 _ _ g3) (Prod.mk.inj g4).1
  | minmax k a b iha ihb =>
    intro hn d s' h
    obtain ⟨da, s1, g1, g2⟩ := evalBind_eq_ok.mp h
    obtain ⟨db, s2, g3, g4⟩ := evalBind_eq_ok.mp g2
    have e1 : s1 = s := by have := noAssign_dist hn.1 s; rw [g1] at this; exact this
    subst e1
    exact h2 _ _ a b da db d (.minmax k a b) (iha hn.1 _ _ g1) (ihb hn.2 _ _ g3) (Prod.mk.inj g4).1

/-- What a dice node contributes. -/
theorem dice_leaf (t : DiceTerm) (hf : (Expr.dice t).Faces) {d : Dist} (hd : t.dist = .ok d) (env : Env) :
    d.Plain ∧ (∀ {M : Type} [AddCommMonoid M] (f : Int → M), d.E f = waySum (ways (.dice t) env) f) ∧
    ∀ v, hasKey d.getResultMap v ↔ v ∈ vals (.dice t) env := by
  obtain ⟨d', h1, h2, h3, h4⟩ := diceDist_spec t hf.1
  rw [hd] at h1; cases h1
  refine ⟨h2, ?_, ?_⟩
  · intro M _ f
    rw [h3]
    simp only [waySum, ways, List.map_map]
    rfl
  · intro v
    rw [h4]
    simp only [vals, List.mem_map]
    exact exists_congr fun l => and_congr_right fun _ => eq_comm

/-- What a keep or drop node contributes. -/
theorem dropKeep_leaf (t : DropKeepTerm) (hf : (Expr.dropKeep t).Faces) {d : Dist} (hd : t.dist = .ok d) (env : Env) :
    d.Plain ∧ (∀ {M : Type} [AddCommMonoid M] (f : Int → M), d.E f = waySum (ways (.dropKeep t) env) f) ∧
    ∀ v, hasKey d.getResultMap v ↔ v ∈ vals (.dropKeep t) env := by
  obtain ⟨⟨form, ht⟩, hn, hne⟩ := hf
  obtain ⟨hkeep, hp, hz, hnone⟩ := mkDropKeep_spec ht
  have hsc : t.score = t.result := rfl
  by_cases hc : t.counted = 0
  · have hs : t.simplified = .zero := by
      apply hz
      unfold DropKeepTerm.counted at hc
      cases hk : t.keep with
      | true => rw [hk] at hc; simp at hc; exact Or.inl ⟨rfl, hc, by omega⟩
      | false => rw [hk] at hc; simp at hc; exact Or.inr ⟨rfl, by omega⟩
    obtain ⟨d', h1, h2, h3, h4⟩ := constDist_spec 0
    have : t.dist = .ok d' := by unfold DropKeepTerm.dist; rw [hs]; exact h1
    rw [hd] at this; cases this
    refine ⟨h2, ?_, ?_⟩
    · intro M _ f; rw [h3]; simp [waySum, ways, hc, onSome]
    · intro v; rw [h4]; simp [vals, hc]
  · by_cases hs : t.simplified = .none
    · have hle : t.count ≤ t.number := by
        by_contra hlt
        cases hk : t.keep with
        | true =>
          obtain ⟨f, hf⟩ := hp (Or.inl ⟨hk, by omega⟩)
          rw [hs] at hf; cases hf
        | false =>
          have := hz (Or.inr ⟨hk, by omega⟩)
          rw [hs] at this; cases this
      obtain ⟨d', h1, h2, h3, h4⟩ := dropKeepDist_spec t hs hle
      rw [hd] at h1; cases h1
      refine ⟨h2, ?_, ?_⟩
      · intro M _ f
        rw [h3]
        simp only [waySum, ways, hc, if_false, List.map_map]
        rfl
      · intro v
        rw [h4]
        simp only [vals, hc, if_false, List.mem_map]
        exact exists_congr fun l => and_congr_right fun _ => eq_comm
    · have hcase : (t.keep = true ∧ t.number ≤ t.count) ∨ (t.keep = false ∧ t.count = 0) := by
        cases hk : t.keep with
        | true =>
          refine Or.inl ⟨rfl, ?_⟩
          by_contra hlt
          unfold DropKeepTerm.counted at hc
          rw [hk] at hc
          simp at hc
          exact hs (hnone (by omega) (by omega))
        | false =>
          refine Or.inr ⟨rfl, ?_⟩
          by_contra h0
          unfold DropKeepTerm.counted at hc
          rw [hk] at hc
          simp at hc
          exact hs (hnone (by omega) (by omega))
      obtain ⟨f0, hf0⟩ := hp (hcase.imp id (fun h => ⟨h.1, h.2, by omega⟩))
      have hsum : ∀ l : List Int, l.length = t.number → t.result l = l.sum := by
        intro l hl
        unfold DropKeepTerm.result
        rcases hcase with ⟨h1, h2⟩ | ⟨h1, h2⟩
        · rw [h1, if_pos rfl]; exact sumHighest_all (by omega)
        · rw [h1, if_neg (by simp)]; exact sumLowest_all (by omega)
      obtain ⟨d', h1, h2, h3, h4⟩ := diceDist_spec ⟨f0, t.table, t.number⟩ hn
      have : t.dist = .ok d' := by unfold DropKeepTerm.dist; rw [hf0]; exact h1
      rw [hd] at this; cases this
      refine ⟨h2, ?_, ?_⟩
      · intro M _ f
        rw [h3]
        simp only [waySum, ways, hc, if_false, List.map_map]
        congr 1
        apply List.map_congr_left
        intro l hl
        simp only [Function.comp, onSome, hsum l ((mem_tuples _ _ _).mp hl).1]
      · intro v
        rw [h4]
        simp only [vals, hc, if_false, List.mem_map]
        refine exists_congr fun l => and_congr_right fun hl => ?_
        rw [hsum l ((mem_tuples _ _ _).mp hl).1]
        exact eq_comm

omit R in
theorem notVal_eq (x : Int) : notVal x = if 0 < x then 0 else 1 := by
  unfold notVal valueToBinary
  by_cases h : 0 < x <;> simp [h]

omit R in
theorem absVal_eq (x : Int) : absVal x = |x| := by
  unfold absVal
  split
  · rw [abs_of_neg (by assumption)]
  · rw [abs_of_nonneg (by omega)]

/-- The weighted sum over the outcomes agreeing with an assignment is a multiple of the sum over the equally likely results; the
    factor is the product of the factors of the variables read. -/
theorem dist_ways {s : State} {ω : Str → Int} {env : Env} {w : Str → Nat} (e : Expr) (hn : e.NoAssign) (hf : e.Faces)
    (hv : ∀ n ∈ e.reads, ∀ V, s.getVar n = .ok V → V.Proper ∧ ∃ a, env n = some a ∧
      ∀ {M : Type} [AddCommMonoid M] (f : Int → M), V.EGiven ω f = w n • f a) (d : Dist) (s' : State) (hd : e.dist s = (.ok d, s')) :
    d.Proper ∧ ∀ {M : Type} [AddCommMonoid M] (f : Int → M),
      d.EGiven ω f = (e.reads.map w).prod • waySum (ways e env) f := by
  refine dist_induction (s := s) (P := fun e d => e.Faces → (∀ n ∈ e.reads, ∀ V, s.getVar n = .ok V → V.Proper ∧
      ∃ a, env n = some a ∧ ∀ {M : Type} [AddCommMonoid M] (f : Int → M), V.EGiven ω f = w n • f a) →
      d.Proper ∧ ∀ {M : Type} [AddCommMonoid M] (f : Int → M),
      d.EGiven ω f = (e.reads.map w).prod • waySum (ways e env) f) ?_ ?_ ?_ ?_ ?_ ?_ ?_ ?_ ?_ e hn d s' hd hf hv
  · intro e d ih hf hv; exact ih hf hv
  · intro e d ih hf hv
    obtain ⟨h1, h2⟩ := ih hf hv
    refine ⟨mapValue_proper _ h1, fun f => ?_⟩
    rw [mapValue_EGiven, h2]
    show _ = (e.reads.map w).prod • waySum ((ways e env).map (Option.map _)) f
    rw [waySum_map]
    simp only [notVal_eq]
  · intro e d ih hf hv
    obtain ⟨h1, h2⟩ := ih hf hv
    refine ⟨mapValue_proper _ h1, fun f => ?_⟩
    rw [mapValue_EGiven, h2]
    show _ = (e.reads.map w).prod • waySum ((ways e env).map (Option.map _)) f
    rw [waySum_map]
    simp only [absVal_eq]
  · intro t d hd hf _
    obtain ⟨h1, h2, _⟩ := dice_leaf t hf hd env
    exact ⟨h1.proper, fun f => by rw [EGiven_untied h1.untied, h2]; simp [Expr.reads]⟩
  · intro t d hd hf _
    obtain ⟨h1, h2, _⟩ := dropKeep_leaf t hf hd env
    exact ⟨h1.proper, fun f => by rw [EGiven_untied h1.untied, h2]; simp [Expr.reads]⟩
  · intro text v d hp hd _ _
    obtain ⟨d', h1, h2, h3, h4⟩ := constDist_spec v
    rw [hd] at h1; cases h1
    exact ⟨h2.proper, fun f => by
      rw [EGiven_untied h2.untied, h3]; simp [Expr.reads, ways, hp, waySum, onSome, Except.toOption]⟩
  · intro text d hd _ _
    obtain ⟨d', h1, h2, h3, h4⟩ := constDist_spec (binValue text)
    rw [hd] at h1; cases h1
    exact ⟨h2.proper, fun f => by
      rw [EGiven_untied h2.untied, h3]; simp [Expr.reads, ways, waySum, onSome, binValue]⟩
  · intro e op a b da db d hB iha ihb hd hf hv
    rw [hB.reads] at hv ⊢
    obtain ⟨a1, a2⟩ := iha (hB.faces hf).1 (fun n hn => hv n (by simp [hn]))
    obtain ⟨b1, b2⟩ := ihb (hB.faces hf).2 (fun n hn => hv n (by simp [hn]))
    refine ⟨binop_proper hd a1, fun f => ?_⟩
    rw [binop_EGiven hd a1, hB.ways, waySum_combine]
    simp only [b2, onOk_apply]
    rw [a2, waySum_smul, List.map_append, List.prod_append, mul_smul]
  · intro n V hV _ hv
    obtain ⟨h1, a, h2, h3⟩ := hv n (by simp [Expr.reads]) V hV
    exact ⟨h1, fun f => by rw [h3]; simp [Expr.reads, ways, waySum, h2, onSome]⟩

omit R in
theorem mem_combine {g : Int → Int → Option Int} {as bs : List (Option Int)} {o : Option Int} :
    o ∈ combineWays g as bs ↔ ∃ x ∈ as, ∃ y ∈ bs, o = x.bind fun a => y.bind fun b => g a b := by
  unfold combineWays
  simp only [List.mem_flatMap, List.mem_map]
  exact exists_congr fun x => and_congr_right fun _ => exists_congr fun y => and_congr_right fun _ => eq_comm

/-- The outcomes agreeing with an assignment are the values the expression can take; the expression can take some value and cannot
    fail. -/
theorem dist_vals {s : State} {ω : Str → Int} {env : Env} (e : Expr) (hn : e.NoAssign) (hf : e.Faces)
    (hv : ∀ n ∈ e.reads, ∀ V, s.getVar n = .ok V → V.Proper ∧ ∃ a, env n = some a ∧ ∀ v, Supp V ω v ↔ v = a)
    (d : Dist) (s' : State) (hd : e.dist s = (.ok d, s')) :
    d.Proper ∧ (∀ v, Supp d ω v ↔ v ∈ vals e env) ∧ vals e env ≠ [] ∧ ∀ o ∈ ways e env, ∃ v ∈ vals e env, o = some v := by
  refine dist_induction (s := s) (P := fun e d => e.Faces → (∀ n ∈ e.reads, ∀ V, s.getVar n = .ok V → V.Proper ∧
      ∃ a, env n = some a ∧ ∀ v, Supp V ω v ↔ v = a) →
      d.Proper ∧ (∀ v, Supp d ω v ↔ v ∈ vals e env) ∧ vals e env ≠ [] ∧ ∀ o ∈ ways e env, ∃ v ∈ vals e env, o = some v)
      ?_ ?_ ?_ ?_ ?_ ?_ ?_ ?_ ?_ e hn d s' hd hf hv
  · intro e d ih hf hv; exact ih hf hv
  · intro e d ih hf hv
    obtain ⟨h1, h2, h3, h4⟩ := ih hf hv
    refine ⟨mapValue_proper _ h1, fun v => ?_, by simpa [vals] using h3, ?_⟩
    · rw [supp_mapValue]
      simp only [h2, vals, List.mem_map, notVal_eq]
    · intro o ho
      obtain ⟨o', ho', rfl⟩ := List.mem_map.mp ho
      obtain ⟨v, hv, rfl⟩ := h4 o' ho'
      exact ⟨_, List.mem_map.mpr ⟨v, hv, rfl⟩, rfl⟩
  · intro e d ih hf hv
    obtain ⟨h1, h2, h3, h4⟩ := ih hf hv
    refine ⟨mapValue_proper _ h1, fun v => ?_, by simpa [vals] using h3, ?_⟩
    · rw [supp_mapValue]
      simp only [h2, vals, List.mem_map, absVal_eq]
    · intro o ho
      obtain ⟨o', ho', rfl⟩ := List.mem_map.mp ho
      obtain ⟨v, hv, rfl⟩ := h4 o' ho'
      exact ⟨_, List.mem_map.mpr ⟨v, hv, rfl⟩, rfl⟩
  · intro t d hd hf _
    obtain ⟨h1, _, h3⟩ := dice_leaf t hf hd env
    refine ⟨h1.proper, fun v => by rw [supp_untied h1.untied, h3], ?_, ?_⟩
    · obtain ⟨p, hp⟩ := List.exists_mem_of_ne_nil _ hf.2
      exact List.ne_nil_of_mem (List.mem_map.mpr ⟨_, replicate_mem_tuples (List.mem_map.mpr ⟨p, hp, rfl⟩) t.number, rfl⟩)
    · intro o ho
      obtain ⟨l, hl, rfl⟩ := List.mem_map.mp ho
      refine ⟨l.sum, List.mem_map.mpr ⟨l, ?_, rfl⟩, rfl⟩
      rw [mem_tuples] at hl ⊢
      exact ⟨hl.1, fun x hx => facesOf_subset (hl.2 x hx)⟩
  · intro t d hd hf _
    obtain ⟨h1, _, h3⟩ := dropKeep_leaf t hf hd env
    refine ⟨h1.proper, fun v => by rw [supp_untied h1.untied, h3], ?_, ?_⟩
    · by_cases hc : t.counted = 0
      · simp [vals, hc]
      · obtain ⟨p, hp⟩ := List.exists_mem_of_ne_nil _ hf.2.2
        simp only [vals, hc, if_false]
        exact List.ne_nil_of_mem (List.mem_map.mpr ⟨_, replicate_mem_tuples (List.mem_map.mpr ⟨p, hp, rfl⟩) t.number, rfl⟩)
    · intro o ho
      by_cases hc : t.counted = 0
      · simp [ways, hc] at ho
        exact ⟨0, by simp [vals, hc], ho⟩
      · simp only [ways, hc, if_false] at ho
        obtain ⟨l, hl, rfl⟩ := List.mem_map.mp ho
        simp only [vals, hc, if_false]
        refine ⟨t.result l, List.mem_map.mpr ⟨l, ?_, rfl⟩, rfl⟩
        rw [mem_tuples] at hl ⊢
        exact ⟨hl.1, fun x hx => facesOf_subset (hl.2 x hx)⟩
  · intro text v d hp hd _ _
    obtain ⟨d', h1, h2, h3, h4⟩ := constDist_spec v
    rw [hd] at h1; cases h1
    refine ⟨h2.proper, fun x => ?_, by simp [vals, hp, Except.toOption], ?_⟩
    · rw [supp_untied h2.untied, h4]; simp [vals, hp, Except.toOption]
    · intro o ho
      refine ⟨v, by simp [vals, hp, Except.toOption], by simpa [ways, hp, Except.toOption] using ho⟩
  · intro text d hd _ _
    obtain ⟨d', h1, h2, h3, h4⟩ := constDist_spec (binValue text)
    rw [hd] at h1; cases h1
    refine ⟨h2.proper, fun x => ?_, by simp [vals], ?_⟩
    · rw [supp_untied h2.untied, h4]; simp [vals, binValue]
    · intro o ho
      exact ⟨binValue text, by simp [vals, binValue], by simpa [ways, binValue] using ho⟩
  · intro e op a b da db d hB iha ihb hd hf hv
    rw [hB.reads] at hv
    obtain ⟨a1, a2, a3, a4⟩ := iha (hB.faces hf).1 (fun n hn => hv n (by simp [hn]))
    obtain ⟨b1, b2, b3, b4⟩ := ihb (hB.faces hf).2 (fun n hn => hv n (by simp [hn]))
    have hok : ∀ x ∈ vals a env, ∀ y ∈ vals b env, ∃ v, opValue op x y = some v := by
      intro x hx y hy
      obtain ⟨p, hp, rfl, _⟩ := (a2 x).mpr hx
      obtain ⟨q, hq, rfl, _⟩ := (b2 y).mpr hy
      obtain ⟨v, hv⟩ := (binop_ok_iff a1).mp ⟨d, hd⟩ p hp q hq
      exact ⟨v, (apply_opValue _ _ _ _).mp hv⟩
    have hmem : ∀ v, v ∈ vals e env ↔ ∃ x y, x ∈ vals a env ∧ y ∈ vals b env ∧ opValue op x y = some v := by
      intro v
      rw [hB.vals]
      simp only [List.mem_flatMap, List.mem_filterMap]
      constructor
      · rintro ⟨x, hx, y, hy, h⟩; exact ⟨x, y, hx, hy, h⟩
      · rintro ⟨x, y, hx, hy, h⟩; exact ⟨x, hx, y, hy, h⟩
    refine ⟨binop_proper hd a1, fun v => ?_, ?_, ?_⟩
    · rw [supp_binop hd a1, hmem]
      simp only [a2, b2]
    · obtain ⟨x, hx⟩ := List.exists_mem_of_ne_nil _ a3
      obtain ⟨y, hy⟩ := List.exists_mem_of_ne_nil _ b3
      obtain ⟨v, hv⟩ := hok x hx y hy
      exact List.ne_nil_of_mem ((hmem v).mpr ⟨x, y, hx, hy, hv⟩)
    · intro o ho
      rw [hB.ways, mem_combine] at ho
      obtain ⟨ox, hox, oy, hoy, rfl⟩ := ho
      obtain ⟨x, hx, rfl⟩ := a4 ox hox
      obtain ⟨y, hy, rfl⟩ := b4 oy hoy
      obtain ⟨v, hv⟩ := hok x hx y hy
      exact ⟨v, (hmem v).mpr ⟨x, y, hx, hy, hv⟩, hv⟩
  · intro n V hV _ hv
    obtain ⟨h1, a, h2, h3⟩ := hv n (by simp [Expr.reads]) V hV
    refine ⟨h1, fun v => by rw [h3]; simp [vals, h2, eq_comm], by simp [vals, h2], fun o ho => ?_⟩
    exact ⟨a, by simp [vals, h2], by simpa [ways, h2] using ho⟩

/-- The distribution fixes what the distributions of the variables read fix. -/
theorem dist_tidy {s : State} {A : Str → Str → Prop} (e : Expr) (hn : e.NoAssign)
    (hv : ∀ n ∈ e.reads, ∀ V, s.getVar n = .ok V → Tidy (A n) V) (d : Dist) (s' : State) (hd : e.dist s = (.ok d, s')) :
    Tidy (fun t => ∃ n ∈ e.reads, A n t) d := by
  have congr : ∀ {B C : Str → Prop} {d : Dist}, (∀ t, B t ↔ C t) → Tidy B d → Tidy C d := by
    intro B C d h hB
    have : B = C := funext fun t => propext (h t)
    rw [← this]; exact hB
  have none : ∀ {d : Dist}, Tidy (fun _ => False) d → Tidy (fun t => ∃ n ∈ ([] : List Str), A n t) d :=
    fun h => congr (fun t => by simp) h
  have hdice : ∀ (t : DiceTerm) (d : Dist), t.dist = .ok d → Tidy (fun _ => False) d := by
    intro t d h
    obtain ⟨A, hA, hU⟩ := tidyIn_dice State.new h
    refine congr (fun t => ⟨fun h => ?_, False.elim⟩) hA
    obtain ⟨n, k, _, h1, h2⟩ := hU t h
    simp [State.times, State.new, dictGet?] at h2
    omega
  have hdk : ∀ (t : DropKeepTerm) (d : Dist), t.dist = .ok d → Tidy (fun _ => False) d := by
    intro t d h
    obtain ⟨A, hA, hU⟩ := tidyIn_dropKeep State.new h
    refine congr (fun t => ⟨fun h => ?_, False.elim⟩) hA
    obtain ⟨n, k, _, h1, h2⟩ := hU t h
    simp [State.times, State.new, dictGet?] at h2
    omega
  refine dist_induction (s := s) (P := fun e d => (∀ n ∈ e.reads, ∀ V, s.getVar n = .ok V → Tidy (A n) V) →
      Tidy (fun t => ∃ n ∈ e.reads, A n t) d) ?_ ?_ ?_ ?_ ?_ ?_ ?_ ?_ ?_ e hn d s' hd hv
  · intro e d ih hv; exact ih hv
  · intro e d ih hv; exact tidy_mapValue _ (ih hv)
  · intro e d ih hv; exact tidy_mapValue _ (ih hv)
  · intro t d hd _; exact none (hdice t d hd)
  · intro t d hd _; exact none (hdk t d hd)
  · intro text v d _ hd _; exact none (tidy_mkDistInt hd)
  · intro text d hd _; exact none (tidy_mkDistInt hd)
  · intro e op a b da db d hB iha ihb hd hv
    rw [hB.reads] at hv ⊢
    refine congr (fun t => ?_) (tidy_binop (iha (fun n hn => hv n (by simp [hn]))) (ihb (fun n hn => hv n (by simp [hn]))) hd)
    simp only [List.mem_append]
    constructor
    · rintro (⟨n, h1, h2⟩ | ⟨n, h1, h2⟩)
      · exact ⟨n, Or.inl h1, h2⟩
      · exact ⟨n, Or.inr h1, h2⟩
    · rintro ⟨n, h1 | h1, h2⟩
      · exact Or.inl ⟨n, h1, h2⟩
      · exact Or.inr ⟨n, h1, h2⟩
  · intro n V hV hv
    exact congr (fun t => by simp [Expr.reads]) (hv n (by simp [Expr.reads]) V hV)

/-- An outcome of the expression agreeing with an assignment contains an outcome of every variable read agreeing with it. -/
theorem dist_closed {s : State} {ω : Str → Int} (e : Expr) (hn : e.NoAssign)
    (hv : ∀ n ∈ e.reads, ∀ V, s.getVar n = .ok V → V.Proper) (d : Dist) (s' : State) (hd : e.dist s = (.ok d, s')) :
    d.Proper ∧ ∀ v, Supp d ω v → ∀ n ∈ e.reads, ∃ V u, s.getVar n = .ok V ∧ Supp V ω u := by
  have hplain : ∀ (t : DiceTerm) (d : Dist), t.dist = .ok d → d.Proper := by
    intro t d h
    obtain ⟨A, hA, _⟩ := tidyIn_dice State.new h
    exact hA.proper
  have hplain' : ∀ (t : DropKeepTerm) (d : Dist), t.dist = .ok d → d.Proper := by
    intro t d h
    obtain ⟨A, hA, _⟩ := tidyIn_dropKeep State.new h
    exact hA.proper
  refine dist_induction (s := s) (P := fun e d => (∀ n ∈ e.reads, ∀ V, s.getVar n = .ok V → V.Proper) →
      d.Proper ∧ ∀ v, Supp d ω v → ∀ n ∈ e.reads, ∃ V u, s.getVar n = .ok V ∧ Supp V ω u)
      ?_ ?_ ?_ ?_ ?_ ?_ ?_ ?_ ?_ e hn d s' hd hv
  · intro e d ih hv; exact ih hv
  · intro e d ih hv
    obtain ⟨h1, h2⟩ := ih hv
    refine ⟨mapValue_proper _ h1, fun v hs => ?_⟩
    obtain ⟨x, hx, _⟩ := (supp_mapValue _ _ _ _).mp hs
    exact h2 x hx
  · intro e d ih hv
    obtain ⟨h1, h2⟩ := ih hv
    refine ⟨mapValue_proper _ h1, fun v hs => ?_⟩
    obtain ⟨x, hx, _⟩ := (supp_mapValue _ _ _ _).mp hs
    exact h2 x hx
  · intro t d hd _; exact ⟨hplain t d hd, fun _ _ n hn => by simp [Expr.reads] at hn⟩
  · intro t d hd _; exact ⟨hplain' t d hd, fun _ _ n hn => by simp [Expr.reads] at hn⟩
  · intro text v d _ hd _; exact ⟨(tidy_mkDistInt hd).proper, fun _ _ n hn => by simp [Expr.reads] at hn⟩
  · intro text d hd _; exact ⟨(tidy_mkDistInt hd).proper, fun _ _ n hn => by simp [Expr.reads] at hn⟩
  · intro e op a b da db d hB iha ihb hd hv
    rw [hB.reads] at hv ⊢
    obtain ⟨a1, a2⟩ := iha (fun n hn => hv n (by simp [hn]))
    obtain ⟨b1, b2⟩ := ihb (fun n hn => hv n (by simp [hn]))
    refine ⟨binop_proper hd a1, fun v hs n hn => ?_⟩
    obtain ⟨x, y, hx, hy, _⟩ := (supp_binop hd a1 _ _).mp hs
    rcases List.mem_append.mp hn with h | h
    · exact a2 x hx n h
    · exact b2 y hy n h
  · intro n V hV hv
    refine ⟨hv n (by simp [Expr.reads]) V hV, fun v hs m hm => ?_⟩
    simp [Expr.reads] at hm
    subst hm
    exact ⟨V, v, hV, hs⟩

/-- Every variable read has a distribution. -/
theorem dist_reads {s : State} (e : Expr) (hn : e.NoAssign) (d : Dist) (s' : State) (hd : e.dist s = (.ok d, s')) :
    ∀ n ∈ e.reads, ∃ V, s.getVar n = .ok V := by
  refine dist_induction (s := s) (P := fun e d => ∀ n ∈ e.reads, ∃ V, s.getVar n = .ok V)
      ?_ ?_ ?_ ?_ ?_ ?_ ?_ ?_ ?_ e hn d s' hd
  · intro e d ih; exact ih
  · intro e d ih; exact ih
  · intro e d ih; exact ih
  · intro t d _ n hn; simp [Expr.reads] at hn
  · intro t d _ n hn; simp [Expr.reads] at hn
  · intro text v d _ _ n hn; simp [Expr.reads] at hn
  · intro text d _ n hn; simp [Expr.reads] at hn
  · intro e op a b da db d hB iha ihb _ n hn
    rw [hB.reads] at hn
    rcases List.mem_append.mp hn with h | h
    · exact iha n h
    · exact ihb n h
  · intro n V hV m hm
    simp [Expr.reads] at hm
    subst hm
    exact ⟨V, hV⟩

end

end PyDice
