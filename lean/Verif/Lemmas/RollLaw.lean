import Verif.Lemmas.Extreme
import Verif.Lemmas.Logic
import Verif.Props.C22
/-!
# The law of a roll
-/

namespace PyDice
open PyRuntime

/-- Average. -/
def avg {α : Type} (l : List α) (φ : α → ℚ) : ℚ := (l.map φ).sum / (l.length : ℚ)

theorem avg_congr {α : Type} {l : List α} {φ ψ : α → ℚ} (h : ∀ o ∈ l, φ o = ψ o) : avg l φ = avg l ψ := by
  unfold avg; rw [List.map_congr_left h]

theorem avg_const {α : Type} {l : List α} (h : l ≠ []) (c : ℚ) : avg l (fun _ => c) = c := by
  unfold avg
  have : (l.length : ℚ) ≠ 0 := by
    have := List.length_pos_iff.mpr h
    exact_mod_cast (Nat.ne_of_gt this)
  simp only [List.map_const', List.sum_replicate, nsmul_eq_mul]
  field_simp

theorem avg_single {α : Type} (o : α) (φ : α → ℚ) : avg [o] φ = φ o := by simp [avg]

theorem avg_map (g : Option Int → Option Int) (l : List (Option Int)) (φ : Option Int → ℚ) :
    avg (l.map g) φ = avg l (fun o => φ (g o)) := by simp [avg, Function.comp_def]

theorem avg_flatMap {α β : Type} (l : List α) (h : α → List β) (n : Nat) (hn : ∀ x ∈ l, (h x).length = n) (φ : β → ℚ) :
    avg (l.flatMap h) φ = avg l (fun x => avg (h x) φ) := by
  have hlen : (l.flatMap h).length = l.length * n := by
    induction l with
    | nil => simp
    | cons a l ih =>
      rw [List.flatMap_cons, List.length_append, ih (fun x hx => hn x (by simp [hx])), hn a (by simp), List.length_cons]; ring
  have hsum : ((l.flatMap h).map φ).sum = (l.map fun x => ((h x).map φ).sum).sum := by
    clear hn hlen
    induction l with
    | nil => simp
    | cons a l ih => simp only [List.flatMap_cons, List.map_append, List.sum_append, List.map_cons, List.sum_cons, ih]
  have hin : (l.map fun x => ((h x).map φ).sum / ((h x).length : ℚ)).sum = (l.map fun x => ((h x).map φ).sum).sum / (n : ℚ) := by
    clear hlen hsum
    induction l with
    | nil => simp
    | cons a l ih =>
      simp only [List.map_cons, List.sum_cons]
      rw [ih (fun x hx => hn x (by simp [hx])), hn a (by simp), add_div]
  unfold avg
  rw [hsum, hlen, hin, div_div]
  push_cast
  rw [mul_comm]

theorem sum_map_div (l : List (Option Int)) (f : Option Int → ℚ) (c : ℚ) : (l.map fun o => f o / c).sum = (l.map f).sum / c := by
  induction l with
  | nil => simp
  | cons a l ih => simp only [List.map_cons, List.sum_cons, ih, add_div]

theorem avg_pairs (as bs : List (Option Int)) (h : Option Int → Option Int → Option Int) (φ : Option Int → ℚ) :
    avg (as.flatMap fun x => bs.map fun y => h x y) φ = avg as (fun x => avg bs (fun y => φ (h x y))) := by
  unfold avg
  rw [sum_map_div, div_div, List.map_flatMap]
  congr 1
  · induction as with
    | nil => simp
    | cons a as ih => rw [List.flatMap_cons, List.sum_append, List.map_cons, List.sum_cons, ih, List.map_map]; rfl
  · have : (as.flatMap fun x => bs.map fun y => h x y).length = as.length * bs.length := by
      induction as with
      | nil => simp
      | cons a as ih => simp only [List.flatMap_cons, List.length_append, List.length_map, ih, List.length_cons]; ring
    rw [this]; push_cast; ring

theorem avg_swap (as bs : List (Option Int)) (f : Option Int → Option Int → ℚ) :
    avg as (fun x => avg bs (fun y => f x y)) = avg bs (fun y => avg as (fun x => f x y)) := by
  unfold avg
  rw [sum_map_div, sum_map_div, div_div, div_div, mul_comm (bs.length : ℚ)]
  congr 1
  induction as with
  | nil => simp
  | cons a as ih =>
    simp only [List.map_cons, List.sum_cons, ih]
    clear ih
    induction bs with
    | nil => simp
    | cons b bs ihb => simp only [List.map_cons, List.sum_cons] at *; rw [← ihb]; ring

/-- The value of a result, or the constant for a failure. -/
def onRes [PyRuntime] (F : Res Int × State → ℚ) (s : State) (c : ℚ) : Option Int → ℚ
  | some v => F (.ok v, s)
  | none => c

section
variable [R : PyRuntime]

omit R in
theorem loaded_ways : ∀ (e : Expr) (env : Env), e.Loaded → ways e env ≠ [] := by
  have two : ∀ (f : Int → Int → Option Int) (as bs : List (Option Int)), as ≠ [] → bs ≠ [] → combineWays f as bs ≠ [] := by
    intro f as bs ha hb h
    have := length_combine f as bs
    rw [h] at this
    exact absurd this.symm (Nat.ne_of_gt (Nat.mul_pos (List.length_pos_iff.mpr ha) (List.length_pos_iff.mpr hb)))
  intro e env
  induction e with
  | paren e ih => exact ih
  | not e ih => intro h; simpa [ways] using ih h
  | abs e ih => intro h; simpa [ways] using ih h
  | dropKeep t =>
    intro h
    simp only [ways]
    split
    · simp
    · simpa using tuples_ne_nil t.table h.2.2 t.number
  | dice t => intro h; simpa [ways] using tuples_ne_nil t.table h.2 t.number
  | constInt text => simp [ways]
  | constBin text => simp [ways]
  | add a b iha ihb => intro h; exact two _ _ _ (iha h.1) (ihb h.2)
  | sub a b iha ihb => intro h; exact two _ _ _ (iha h.1) (ihb h.2)
  | mul a b iha ihb => intro h; exact two _ _ _ (iha h.1) (ihb h.2)
  | div a b iha ihb => intro h; exact two _ _ _ (iha h.1) (ihb h.2)
  | bin op a b iha ihb => intro h; exact two _ _ _ (iha h.1) (ihb h.2)
  | minmax k a b iha ihb => intro h; exact two _ _ _ (iha h.1) (ihb h.2)
  | assign x e ih => exact ih
  | getVar n => simp [ways]

omit R in
theorem Expr.Loaded.faces : ∀ {e : Expr}, e.Loaded → e.Faces := by
  intro e
  induction e with
  | paren e ih => exact ih
  | not e ih => exact ih
  | abs e ih => exact ih
  | dropKeep t => rintro ⟨h1, h2, h3⟩; exact ⟨h1, h2, by rintro h; simp [h] at h3⟩
  | dice t => rintro ⟨h2, h3⟩; exact ⟨h2, by rintro h; simp [h] at h3⟩
  | constInt text => exact id
  | constBin text => exact id
  | add a b iha ihb => exact fun h => ⟨iha h.1, ihb h.2⟩
  | sub a b iha ihb => exact fun h => ⟨iha h.1, ihb h.2⟩
  | mul a b iha ihb => exact fun h => ⟨iha h.1, ihb h.2⟩
  | div a b iha ihb => exact fun h => ⟨iha h.1, ihb h.2⟩
  | bin op a b iha ihb => exact fun h => ⟨iha h.1, ihb h.2⟩
  | minmax k a b iha ihb => exact fun h => ⟨iha h.1, ihb h.2⟩
  | assign x e ih => exact ih
  | getVar n => exact id

theorem expect_rollBind {α β : Type} (m : RollM α) (f : α → RollM β) (s : State) (F : Res β × State → ℚ) :
    ((m >>= f) s).expect F = (m s).expect (fun r => match r with
      | (.ok a, s') => (f a s').expect F
      | (.error e, s') => F (.error e, s')) := by
  rw [rollBind, Rand.expect_bind]
  congr 1
  funext r
  rcases r with ⟨a | a, s'⟩ <;> rfl

omit R in
theorem onInts_yields (op : CmpOp) (x y : Int) (ha : op = .and → (x = 0 ∨ x = 1) ∧ (y = 0 ∨ y = 1)) (ho : op = .or → 0 ≤ x ∧ 0 ≤ y) :
    OpYields op.toBinOp x y (if op.onInts x y then 1 else 0) := by
  cases op with
  | and =>
    have := bitAnd_small x y (ha rfl).1 (ha rfl).2
    simp only [CmpOp.onInts, CmpOp.toBinOp, OpYields, decide_eq_true_eq]
    rw [← this]
    split <;> simp_all
  | or =>
    have := bitOr_nonneg x y (ho rfl).1 (ho rfl).2
    simp only [CmpOp.onInts, CmpOp.toBinOp, OpYields, decide_eq_true_eq]
    rw [← this]
    split <;> simp_all
  | _ =>
    simp only [CmpOp.onInts, CmpOp.toBinOp, OpYields, decide_eq_true_eq]
    split <;> simp_all

/-- The averages over the results of a roll are those over the equally likely ways. -/
def RollLaw (e : Expr) (env : Env) (s : State) : Prop := ∀ (F : Res Int × State → ℚ) (c : ℚ), (∀ err, F (.error err, s) = c) →
  (e.roll s).expect F = avg (ways e env) (onRes F s c)

theorem rollLaw_two {e a b : Expr} {op : BinOp} {g : Int → Int → Int} {env : Env} {s : State} (hB : Bin2 e op a b)
    (he : e.roll = (do let x ← a.roll; let y ← b.roll; return g x y)) (ha : RollLaw a env s) (hb : RollLaw b env s)
    (hlb : ways b env ≠ [])
    (hg : ∀ x y, some x ∈ ways a env → some y ∈ ways b env → opValue op x y = some (g x y)) : RollLaw e env s := by
  intro F c hc
  rw [he, expect_rollBind]
  refine (ha _ c ?_).trans ?_
  · exact fun err => hc err
  rw [hB.ways]
  show _ = avg ((ways a env).flatMap _) _
  rw [avg_pairs]
  apply avg_congr
  intro x hx
  cases x with
  | none => simp only [onRes, Option.bind_none]; exact (avg_const hlb c).symm
  | some x =>
    simp only [onRes, Option.bind_some]
    rw [expect_rollBind]
    refine (hb _ c ?_).trans ?_
    · exact fun err => hc err
    apply avg_congr
    intro y hy
    cases y with
    | none => simp [onRes]
    | some y =>
      simp only [onRes, Option.bind_some, hg x y hx hy]
      rfl

theorem rollLaw_one {e a : Expr} {g h : Int → Int} {env : Env} {s : State}
    (he : e.roll = (do return g (← a.roll))) (hw : ways e env = (ways a env).map (Option.map h)) (ha : RollLaw a env s)
    (hg : ∀ x, some x ∈ ways a env → h x = g x) : RollLaw e env s := by
  intro F c hc
  rw [he, expect_rollBind]
  refine (ha _ c ?_).trans ?_
  · exact fun err => hc err
  rw [hw, avg_map]
  apply avg_congr
  intro x hx
  cases x with
  | none => rfl
  | some x => simp only [onRes, Option.map_some, hg x hx]; rfl

theorem roll_law (env : Env) (s : State) : ∀ e : Expr, e.NoAssign → e.Loaded → Truthful env e →
    (∀ n ∈ e.reads, env n = dictGet? s.constants n) → RollLaw e env s := by
  have sides : ∀ {a b : Expr}, (∀ n ∈ a.reads ++ b.reads, env n = dictGet? s.constants n) →
      (∀ n ∈ a.reads, env n = dictGet? s.constants n) ∧ ∀ n ∈ b.reads, env n = dictGet? s.constants n :=
    fun h => ⟨fun n hn => h n (by simp [hn]), fun n hn => h n (by simp [hn])⟩
  intro e
  induction e with
  | paren e ih => intro hn hl ht hr; exact ih hn hl ht hr
  | not e ih =>
    intro hn hl ht hr
    refine rollLaw_one (g := fun x => if x ≠ 0 then 0 else 1) rfl rfl (ih hn hl ht.2 hr) (fun x hx => ?_)
    have := ht.1 x hx
    by_cases h0 : x = 0
    · subst h0; rfl
    · rw [if_pos (by omega), if_pos h0]
  | abs e ih =>
    intro hn hl ht hr
    refine rollLaw_one (g := pyAbs) rfl rfl (ih hn hl ht hr) (fun x hx => ?_)
    unfold pyAbs
    split
    · rw [abs_of_neg (by assumption)]
    · rw [abs_of_nonneg (by omega)]
  | dropKeep t =>
    intro hn hl ht hr F c hc
    obtain ⟨⟨form, hform⟩, hnum, hw⟩ := hl
    show (Rand.bind t.roll _).expect F = _
    rw [Rand.expect_bind]
    show t.roll.expect (fun a => F (a, s)) = _
    obtain ⟨hkeep, hp, hz, hnone⟩ := mkDropKeep_spec hform
    simp only [ways]
    by_cases hcz : t.counted = 0
    · have hs : t.simplified = .zero := by
        apply hz
        unfold DropKeepTerm.counted at hcz
        cases hk : t.keep with
        | true => rw [hk] at hcz; simp at hcz; exact Or.inl ⟨rfl, hcz, by omega⟩
        | false => rw [hk] at hcz; simp at hcz; exact Or.inr ⟨rfl, by omega⟩
      rw [if_pos hcz, avg_single]
      simp [DropKeepTerm.roll, hs, Rand.expect, onRes]
    · rw [if_neg hcz]
      by_cases hs : t.simplified = .none
      · have h0 : 0 < t.count := by
          rcases Nat.eq_zero_or_pos t.count with h0 | h0
          · cases hk : t.keep with
            | true => have := hz (Or.inl ⟨hk, h0, by omega⟩); rw [hs] at this; cases this
            | false => obtain ⟨f, hf⟩ := hp (Or.inr ⟨hk, h0, by omega⟩); rw [hs] at hf; cases hf
          · exact h0
        rw [dropKeepRoll_eq t hs h0 hw]
        simp only [avg, List.map_map, List.length_map, length_tuples]
        push_cast
        rfl
      · have hcase : (t.keep = true ∧ t.number ≤ t.count) ∨ (t.keep = false ∧ t.count = 0) := by
          cases hk : t.keep with
          | true =>
            refine Or.inl ⟨rfl, ?_⟩
            by_contra hlt
            unfold DropKeepTerm.counted at hcz
            rw [hk] at hcz
            simp at hcz
            exact hs (hnone (by omega) (by omega))
          | false =>
            refine Or.inr ⟨rfl, ?_⟩
            by_contra h0
            unfold DropKeepTerm.counted at hcz
            rw [hk] at hcz
            simp at hcz
            exact hs (hnone (by omega) (by omega))
        obtain ⟨f, hf⟩ := hp (hcase.imp id (fun h => ⟨h.1, h.2, by omega⟩))
        have hres : ∀ l : List Int, l.length = t.number → t.result l = l.sum := by
          intro l hl
          unfold DropKeepTerm.result
          rcases hcase with ⟨h1, h2⟩ | ⟨h1, h2⟩
          · rw [h1, if_pos rfl]; exact sumHighest_all (by omega)
          · rw [h1, if_neg (by simp)]; exact sumLowest_all (by omega)
        have := roll_expect ⟨f, t.table, t.number⟩ hw (fun a => F (a, s))
        unfold DropKeepTerm.roll
        rw [hf]
        refine this.trans ?_
        simp only [avg, List.map_map, List.length_map, length_tuples]
        push_cast
        congr 2
        apply List.map_congr_left
        intro l hl
        simp only [Function.comp_apply, onRes, hres l ((mem_tuples _ _ _).mp hl).1]
  | dice t =>
    intro hn hl ht hr F c hc
    show (Rand.bind t.roll _).expect F = _
    rw [Rand.expect_bind]
    show t.roll.expect (fun a => F (a, s)) = _
    rw [roll_expect t hl.2]
    simp only [ways, avg, List.map_map, List.length_map, length_tuples]
    push_cast
    rfl
  | constInt text =>
    intro hn hl ht hr F c hc
    simp only [ways, avg_single]
    show F (pyInt text, s) = _
    cases h : pyInt text with
    | ok v => rfl
    | error e => exact hc e
  | constBin text =>
    intro hn hl ht hr F c hc
    simp only [ways, avg_single]
    rfl
  | add a b iha ihb =>
    intro hn hl ht hr
    exact rollLaw_two (.add a b) rfl (iha hn.1 hl.1 ht.1 (sides hr).1) (ihb hn.2 hl.2 ht.2 (sides hr).2) (loaded_ways _ _ hl.2)
      (fun _ _ _ _ => rfl)
  | sub a b iha ihb =>
    intro hn hl ht hr
    exact rollLaw_two (.sub a b) rfl (iha hn.1 hl.1 ht.1 (sides hr).1) (ihb hn.2 hl.2 ht.2 (sides hr).2) (loaded_ways _ _ hl.2)
      (fun _ _ _ _ => rfl)
  | mul a b iha ihb =>
    intro hn hl ht hr
    exact rollLaw_two (.mul a b) rfl (iha hn.1 hl.1 ht.1 (sides hr).1) (ihb hn.2 hl.2 ht.2 (sides hr).2) (loaded_ways _ _ hl.2)
      (fun _ _ _ _ => rfl)
  | bin op a b iha ihb =>
    intro hn hl ht hr
    refine rollLaw_two (.bin op a b) rfl (iha hn.1 hl.1 ht.2.2.1 (sides hr).1) (ihb hn.2 hl.2 ht.2.2.2 (sides hr).2)
      (loaded_ways _ _ hl.2) (fun x y hx hy => ?_)
    rw [opValue_yields]
    exact onInts_yields op x y (fun h => ⟨ht.1 h x (.inl hx), ht.1 h y (.inr hy)⟩) (fun h => ⟨ht.2.1 h x (.inl hx), ht.2.1 h y (.inr hy)⟩)
  | minmax k a b iha ihb =>
    intro hn hl ht hr
    refine rollLaw_two (.minmax k a b) rfl (iha hn.1 hl.1 ht.1 (sides hr).1) (ihb hn.2 hl.2 ht.2 (sides hr).2) (loaded_ways _ _ hl.2)
      (fun x y _ _ => ?_)
    cases k <;> simp only [opValue, minmaxOp, pyMax, pyMin, if_true, if_false, Bool.false_eq_true, Option.some.injEq] <;>
      (repeat' split) <;> omega
  | div a b iha ihb =>
    intro hn hl ht hr F c hc
    have ha := iha hn.1 hl.1 ht.1 (sides hr).1
    have hb := ihb hn.2 hl.2 ht.2 (sides hr).2
    show ((b.roll >>= _) s).expect F = _
    rw [expect_rollBind]
    refine (hb _ c ?_).trans ?_
    · exact fun err => hc err
    show _ = avg ((ways a env).flatMap _) _
    rw [avg_pairs, avg_swap]
    apply avg_congr
    intro y hy
    cases y with
    | none =>
      simp only [onRes, Option.bind_none]
      rw [avg_congr (ψ := fun _ => c), avg_const (loaded_ways _ _ hl.1)]
      intro x _; cases x <;> rfl
    | some y =>
      simp only [onRes, Option.bind_some]
      by_cases h0 : y = 0
      · subst h0
        rw [avg_congr (ψ := fun _ => c), avg_const (loaded_ways _ _ hl.1)]
        · exact hc _
        · intro x _; cases x <;> simp [opValue, onRes]
      · rw [if_neg h0, expect_rollBind]
        refine (ha _ c ?_).trans ?_
        · exact fun err => hc err
        apply avg_congr
        intro x _
        cases x with
        | none => rfl
        | some x =>
          have : opValue .floordiv x y = some (x.fdiv y) := by
            rw [← apply_opValue]; simp [BinOp.apply, h0]
          simp only [onRes, Option.bind_some, this]
          rfl
  | assign x e ih => intro hn; exact hn.elim
  | getVar n =>
    intro hn hl ht hr F c hc
    simp only [ways, avg_single]
    show F (s.getConstant n, s) = _
    rw [hr n (by simp [Expr.reads])]
    unfold State.getConstant
    cases dictGet? s.constants n with
    | none => exact hc _
    | some v => rfl

theorem Rand.expect_nonneg {α : Type} {r : Rand α} {F : α → ℚ} (h : ∀ a, 0 ≤ F a) : 0 ≤ r.expect F := by
  induction r with
  | pure a => exact h a
  | draw n k ih =>
    simp only [Rand.expect]
    apply div_nonneg
    · apply List.sum_nonneg
      intro x hx
      obtain ⟨t, _, rfl⟩ := List.mem_map.mp hx
      exact ih t
    · exact_mod_cast Nat.zero_le n

/-- What can happen has positive probability. -/
theorem Rand.possible_pos {α : Type} {a : α} {r : Rand α} (h : Rand.Possible a r) {F : α → ℚ} (hF : ∀ b, 0 ≤ F b) (ha : 0 < F a) :
    0 < r.expect F := by
  induction h with
  | pure => exact ha
  | @draw n k t ht h ih =>
    simp only [Rand.expect]
    have hn : 0 < (n : ℚ) := by exact_mod_cast (Nat.lt_of_le_of_lt (Nat.zero_le t) ht)
    apply div_pos _ hn
    have hle : (k t).expect F ≤ ((List.range n).map fun t => (k t).expect F).sum := by
      apply List.single_le_sum
      · intro x hx
        obtain ⟨t, _, rfl⟩ := List.mem_map.mp hx
        exact Rand.expect_nonneg hF
      · exact List.mem_map.mpr ⟨t, List.mem_range.mpr ht, rfl⟩
    exact lt_of_lt_of_le ih hle

/-- When no way fails, no roll fails. -/
theorem noFail {e : Expr} {env : Env} {s : State} (hlaw : RollLaw e env s) (hw : ways e env ≠ []) (hno : none ∉ ways e env)
    (hn : e.NoAssign) (err : Err) (s' : State) : ¬ Rand.Possible (.error err, s') (e.roll s) := by
  intro h
  have := Rand.possible_pos h (F := fun r => match r.1 with | .ok _ => 0 | .error _ => 1)
    (by rintro ⟨a | a, t⟩ <;> simp) (by simp)
  rw [hlaw _ 1 (fun _ => rfl), avg_congr (ψ := fun _ => 0), avg_const hw] at this
  · exact lt_irrefl _ this
  · intro o ho
    cases o with
    | none => exact absurd ho hno
    | some v => rfl

/-! ### Programs -/

omit R in
theorem envWays_length : ∀ (p : Program) (env env' : Env), (envWays p env).length = (envWays p env').length := by
  intro p
  induction p with
  | nil => intro env env'; rfl
  | cons l p ih =>
    obtain ⟨x, e⟩ := l
    intro env env'
    have h : ∀ env : Env, (envWays ((x, e) :: p) env).length = (ways e env).length * (envWays p Env.empty).length := by
      intro env
      simp only [envWays, List.length_flatMap]
      have : ∀ l : List (Option Int), (l.map fun v => (envWays p (env.set x v)).length).sum = l.length * (envWays p Env.empty).length := by
        intro l
        induction l with
        | nil => simp
        | cons a l ihl => rw [List.map_cons, List.sum_cons, ihl, ih (env.set x a) Env.empty, List.length_cons]; ring
      exact this _
    rw [h, h, ways_length e env env']

/-- The constants other than `stdout` are the values. -/
def Holds (env : Env) (s : State) : Prop := ∀ n, n ≠ stdoutName → env n = dictGet? s.constants n

/-- Nothing fails in the lines, and the logical operators agree. -/
def Smooth (p : Program) (env : Env) : Prop := ∀ before x e after, p = before ++ (x, e) :: after → ∀ env' ∈ envWays before env,
  Truthful env' e ∧ none ∉ ways e env'

omit R in
theorem Smooth.head {x : Str} {e : Expr} {p : Program} {env : Env} (h : Smooth ((x, e) :: p) env) :
    (Truthful env e ∧ none ∉ ways e env) ∧ ∀ v ∈ ways e env, Smooth p (env.set x v) := by
  refine ⟨h [] x e p rfl env (by simp [envWays]), fun v hv before y d after hp env' henv' => ?_⟩
  exact h ((x, e) :: before) y d after (by rw [hp]; rfl) env' (by
    simp only [envWays, List.mem_flatMap]; exact ⟨v, hv, henv'⟩)

theorem program_law (parse : Str → Res Expr) : ∀ (p : Program) (lines : List Str) (s : State) (env : Env),
    lines.map parse = p.map (fun l => .ok (.assign l.1 l.2)) → Straight p → (∀ l ∈ p, l.2.Loaded) → Smooth p env → Holds env s →
    ∀ (F : Res Unit × State → ℚ) (Φ : Env → ℚ), (∀ env' ∈ envWays p env, ∀ s', Holds env' s' → F (.ok (), s') = Φ env') →
    (rollLines parse lines s).expect F = avg (envWays p env) Φ := by
  intro p
  induction p with
  | nil =>
    intro lines s env hl hst hld hsm hh F Φ hF
    have : lines = [] := by simpa using hl
    subst this
    simp only [envWays, avg_single]
    exact hF env (by simp [envWays]) s hh
  | cons l p ih =>
    obtain ⟨x, e⟩ := l
    intro lines s env hl hst hld hsm hh F Φ hF
    cases lines with
    | nil => simp at hl
    | cons l lines =>
      simp only [List.map_cons, List.cons.injEq] at hl
      obtain ⟨hl1, hl2⟩ := hl
      obtain ⟨hx, he⟩ := hst (x, e) (by simp)
      obtain ⟨⟨ht, hno⟩, hrest⟩ := hsm.head
      have hlaw := roll_law env s e he.noAssign (hld (x, e) (by simp)) ht
        (fun n hn => hh n (by rintro rfl; exact he.reads hn))
      have hline : ∀ G : Res Unit × State → ℚ, (rollLine parse l s).expect G = (e.roll s).expect (fun r => match r with
          | (.ok v, s') => G (.ok (), { s'.setConstant x v with constants := dictSet (s'.setConstant x v).constants stdoutName v })
          | (.error err, s') => G (.error err, s')) := by
        intro G
        unfold rollLine
        rw [hl1]
        refine (expect_rollBind (Expr.assign x e).roll _ s G).trans ?_
        refine (expect_rollBind e.roll _ s _).trans ?_
        congr 1
        funext r
        rcases r with ⟨a | a, s'⟩ <;> rfl
      show ((rollLine parse l >>= fun _ => rollLines parse lines) s).expect F = _
      rw [expect_rollBind, hline]
      rw [show envWays ((x, e) :: p) env = (ways e env).flatMap fun v => envWays p (env.set x v) from rfl,
        avg_flatMap _ _ (envWays p Env.empty).length (fun v _ => envWays_length p _ _)]
      -- failures do not occur, so any constant will do for them
      have key : ∀ (H : Res Int × State → ℚ) (c : ℚ), (e.roll s).expect H =
          avg (ways e env) (onRes H s c) := by
        intro H c
        have h1 := hlaw (fun r => match r with | (.ok v, s') => H (.ok v, s') | (.error _, _) => c) c (fun _ => rfl)
        have hposs : ∀ r, Rand.Possible r (e.roll s) → ∃ v s', r = (.ok v, s') := by
          intro r hr
          rcases r with ⟨err | v, s'⟩
          · exact absurd hr (noFail hlaw (loaded_ways e env (hld (x, e) (by simp))) hno he.noAssign err s')
          · exact ⟨v, s', rfl⟩
        rw [Rand.expect_congr (G := fun r => match r with | (.ok v, s') => H (.ok v, s') | (.error _, _) => c), h1]
        · apply avg_congr
          intro o _
          cases o <;> rfl
        · intro r hr
          obtain ⟨v, s', rfl⟩ := hposs r hr
          rfl
      rw [key _ 0]
      apply avg_congr
      intro v hv
      cases v with
      | none => exact absurd hv hno
      | some v =>
        simp only [onRes]
        refine ih lines _ (env.set x (some v)) hl2 (fun l hl => hst l (by simp [hl])) (fun l hl => hld l (by simp [hl]))
          (hrest (some v) hv) ?_ F Φ ?_
        · intro n hn
          show _ = dictGet? (dictSet (dictSet s.constants x v) stdoutName v) n
          rw [get_set, if_neg (by simpa [eq_comm] using hn), get_set]
          unfold Env.set
          by_cases hnx : n = x
          · simp [hnx]
          · rw [if_neg hnx, if_neg (by simpa [eq_comm] using hnx)]; exact hh n hn
        · intro env' henv' s' hs'
          exact hF env' (by simp only [envWays, List.mem_flatMap]; exact ⟨some v, hv, henv'⟩) s' hs'

theorem interpRoll_law (parse : Str → Res Expr) (lines : List Str) (last : Str) (p : Program) (e : Expr) (hp : Straight p)
    (he : e.Straight) (hlp : ∀ l ∈ p, l.2.Loaded) (hle : e.Loaded) (hsm : Smooth p Env.empty)
    (hte : ∀ env ∈ envWays p Env.empty, Truthful env e)
    (hlines : lines.map parse = p.map (fun l => .ok (.assign l.1 l.2))) (hlast : parse last = .ok e) (G : Option Int → ℚ) :
    (interpRoll parse (lines ++ [last]) State.new).expect (fun r => G (stdoutOf r)) = avg (progWays p e) G := by
  unfold interpRoll
  rw [rollLines_append]
  refine (expect_rollBind _ _ _ _).trans ?_
  refine (expect_rollBind _ _ _ _).trans ?_
  unfold progWays
  rw [avg_flatMap _ _ (ways e Env.empty).length (fun env _ => ways_length e _ _)]
  apply program_law parse p lines State.new Env.empty hlines hp hlp hsm (fun n _ => by simp [Env.empty, State.new, dictGet?])
  intro env henv s' hs'
  show ((rollLines parse [last]) s').expect _ = _
  show (((rollLine parse last >>= fun _ => rollLines parse [])) s').expect _ = _
  rw [expect_rollBind]
  have hline : ∀ G : Res Unit × State → ℚ, (rollLine parse last s').expect G = (e.roll s').expect (fun r => match r with
      | (.ok v, s') => G (.ok (), s'.setStdout v)
      | (.error err, s') => G (.error err, s')) := by
    intro G
    unfold rollLine
    rw [hlast]
    refine (expect_rollBind e.roll _ s' G).trans ?_
    congr 1
    funext r
    rcases r with ⟨a | a, t⟩ <;> rfl
  rw [hline]
  have hlaw := roll_law env s' e he.noAssign hle (hte env henv) (fun n hn => hs' n (by rintro rfl; exact he.reads hn))
  refine (hlaw _ (G none) ?_).trans ?_
  · exact fun err => rfl
  apply avg_congr
  intro o _
  cases o with
  | none => rfl
  | some v =>
    show G (stdoutOf (.ok (constantsReturned (lines ++ [last]) (s'.setStdout v)), _)) = _
    unfold stdoutOf constantsReturned
    rw [if_neg (by simp)]
    show G (dictGet? (dictSet s'.constants stdoutName v) stdoutName) = _
    rw [get_set]; simp

omit R in
theorem avg_count (l : List (Option Int)) (o : Option Int) : avg l (fun x => if decide (x = o) then 1 else 0) = (l.count o : ℚ) / (l.length : ℚ) := by
  unfold avg
  congr 1
  induction l with
  | nil => simp
  | cons a l ih =>
    rw [List.map_cons, List.sum_cons, ih, List.count_cons]
    by_cases h : a = o <;> simp [h, add_comm]

/-- A program whose distributions could be computed has no failing ways. -/
theorem lines_smooth {g : List Line} (hg : Good g) (ht : TruthfulProgram (programOf g)) : Smooth (programOf g) Env.empty := by
  intro before x e after hp env henv
  refine ⟨ht before x e after hp env henv, fun hno => ?_⟩
  have key : ∀ {g : List Line}, Good g → ∀ after, programOf g = before ++ (x, e) :: after → False := by
    clear hp after
    intro g hg after
    induction hg generalizing after with
    | nil => intro h; simp [programOf] at h
    | @cons l h s s' hg hfresh hx he hs hd ih =>
      intro hp'
      simp only [programOf] at hp'
      rcases List.eq_nil_or_concat after with rfl | ⟨after', z, rfl⟩
      · obtain ⟨h1, h2⟩ := List.append_inj' hp' rfl
        simp only [List.cons.injEq, and_true, Prod.mk.injEq] at h2
        obtain ⟨_, h3⟩ := h2
        subst h1
        obtain ⟨ω, h4, rfl⟩ := envWays_runs hg env henv
        rw [← h3] at hno
        obtain ⟨v, _, h5⟩ := (expr_run hg hs he hd h4).2.2 _ hno
        cases h5
      · have : programOf h = before ++ (x, e) :: after' := by
          have : before ++ (x, e) :: after'.concat z = (before ++ (x, e) :: after') ++ [z] := by simp
          rw [this] at hp'
          exact (List.append_inj' hp' rfl).1
        exact ih after' this
  exact key hg after hp

omit R in
theorem program_ways {p : Program} {e : Expr} (hp : ∀ l ∈ p, l.2.Loaded) (he : e.Loaded) : progWays p e ≠ [] := by
  have key : ∀ (p : Program) (env : Env), (∀ l ∈ p, l.2.Loaded) → envWays p env ≠ [] := by
    intro p
    induction p with
    | nil => intro env _; simp [envWays]
    | cons l p ih =>
      obtain ⟨x, e⟩ := l
      intro env h
      obtain ⟨v, hv⟩ := List.exists_mem_of_ne_nil _ (loaded_ways e env (h (x, e) (by simp)))
      obtain ⟨env', h'⟩ := List.exists_mem_of_ne_nil _ (ih (env.set x v) (fun l hl => h l (by simp [hl])))
      exact List.ne_nil_of_mem (List.mem_flatMap.mpr ⟨v, hv, h'⟩)
  obtain ⟨env, h1⟩ := List.exists_mem_of_ne_nil _ (key p Env.empty hp)
  obtain ⟨v, h2⟩ := List.exists_mem_of_ne_nil _ (loaded_ways e env he)
  exact List.ne_nil_of_mem (List.mem_flatMap.mpr ⟨env, h1, h2⟩)

/-- The distribution of an expression without variables does not depend on the state. -/
theorem dist_free {e : Expr} (hn : e.NoAssign) (hr : e.reads = []) (s t : State) : e.dist s = ((e.dist t).1, s) := by
  obtain ⟨r, h⟩ := dist_varSteady s e hn
  have hc : e.contained = [] := by rw [C35_contained e hn, hr]
  rw [h s (fun n hn => by simp [hc] at hn), h t (fun n hn => by simp [hc] at hn)]

/-- Anything can have happened outside of the stored distributions. -/
theorem session_nil (s : State) : Session [] ({ s with var := [] } : State) :=
  Session.other Session.new (fun n _ => by simp [State.new, dictGet?]) (fun n => by simp [State.new, dictGet?])

end

end PyDice
