import Verif.Lemmas.RollLaw
import Verif.Spec.RollWays
/-!
# The law of a roll, without conditions on the logical operators
-/

namespace PyDice
open PyRuntime

/-! ### Binary digits -/

theorem ldiff_eq (a b : Nat) : Nat.ldiff a b = a &&& (a ^^^ (a &&& b)) := by
  apply Nat.eq_of_testBit_eq
  intro i
  simp only [Nat.testBit_ldiff, Nat.testBit_and, Nat.testBit_xor]
  cases a.testBit i <;> cases b.testBit i <;> rfl

theorem pyBitAnd_land (x y : Int) : pyBitAnd x y = Int.land x y := by
  cases x with
  | ofNat a => cases y with
    | ofNat b => rfl
    | negSucc b => simp only [pyBitAnd, Int.land, ldiff_eq]; rfl
  | negSucc a => cases y with
    | ofNat b => simp only [pyBitAnd, Int.land, ldiff_eq]; rfl
    | negSucc b => rfl

theorem pyBitOr_zero (x y : Int) : pyBitOr x y = 0 ↔ x = 0 ∧ y = 0 := by
  have key : ∀ u v : Int, pyBitAnd u v = -1 ↔ u = -1 ∧ v = -1 := by
    intro u v
    have hneg : ∀ n : Nat, ¬ ((n : Int) = -1) := by intro n; omega
    cases u with
    | ofNat a => cases v with
      | ofNat b => simp only [pyBitAnd, Int.ofNat_eq_natCast]; constructor
                   · intro h; exact absurd h (hneg _)
                   · intro h; exact absurd h.1 (hneg _)
      | negSucc b => simp only [pyBitAnd, Int.ofNat_eq_natCast]; constructor
                     · intro h; exact absurd h (hneg _)
                     · intro h; exact absurd h.1 (hneg _)
    | negSucc a => cases v with
      | ofNat b => simp only [pyBitAnd, Int.ofNat_eq_natCast]; constructor
                   · intro h; exact absurd h (hneg _)
                   · intro h; exact absurd h.2 (hneg _)
      | negSucc b =>
        simp only [pyBitAnd]
        have h1 : ∀ n : Nat, Int.negSucc n = -1 ↔ n = 0 := by intro n; constructor <;> intro h <;> omega
        rw [h1, h1, h1, Nat.or_eq_zero_iff]
  unfold pyBitOr
  have := key (-1 - x) (-1 - y)
  constructor
  · intro h; have := this.mp (by omega); omega
  · intro h; have := this.mpr (by omega); omega

theorem land_digits (x y : Int) : Int.land x y ≠ 0 ↔ ∃ k, x.testBit k = true ∧ y.testBit k = true := by
  constructor
  · intro h
    by_contra hno
    apply h
    push Not at hno
    have hb : ∀ k, (Int.land x y).testBit k = false := by
      intro k
      rw [Int.testBit_land]
      cases hx : x.testBit k with
      | false => rfl
      | true => simpa using hno k hx
    revert hb
    generalize Int.land x y = z
    intro hb
    cases z with
    | ofNat n =>
      have : n = 0 := by
        apply Nat.eq_of_testBit_eq
        intro k
        have := hb k
        simpa [Int.testBit] using this
      subst this; rfl
    | negSucc n =>
      exfalso
      have h1 := hb n
      simp only [Int.testBit, Bool.not_eq_false'] at h1
      have := Nat.testBit_lt_two_pow (x := n) (i := n) Nat.lt_two_pow_self
      rw [this] at h1
      cases h1
  · rintro ⟨k, hx, hy⟩ h0
    have := Int.testBit_land x y k
    rw [h0, hx, hy] at this
    simp [Int.testBit] at this

theorem onInts_roll (op : CmpOp) (x y : Int) : rollOpValue op.toBinOp x y = some (if op.onInts x y then 1 else 0) := by
  cases op with
  | and =>
    simp only [CmpOp.toBinOp, rollOpValue, CmpOp.onInts, pyBitAnd_land, decide_eq_true_eq]
    split <;> simp_all
  | or =>
    simp only [CmpOp.toBinOp, rollOpValue, CmpOp.onInts, ne_eq, pyBitOr_zero, decide_eq_true_eq]
    split <;> simp_all
  | ne =>
    simp only [CmpOp.toBinOp, rollOpValue, opValue, CmpOp.onInts, decide_eq_true_eq]
    split <;> simp_all
  | _ => simp only [CmpOp.toBinOp, rollOpValue, opValue, CmpOp.onInts, decide_eq_true_eq]

/-! ### Lengths -/

theorem length_combineWays (f : Int → Int → Option Int) (as bs : List (Option Int)) :
    (combineWays f as bs).length = as.length * bs.length := length_combine f as bs

theorem tuples_faces_ne_nil {F : List Int} (h : F ≠ []) (n : Nat) : tuples F n ≠ [] := by
  intro h0
  have := length_tuples F n
  rw [h0] at this
  exact absurd this.symm (Nat.ne_of_gt (Nat.pow_pos (List.length_pos_iff.mpr h)))

theorem rollWays_ne_nil (e : Expr) (env : Env) : rollWays e env ≠ [] := by
  have two : ∀ (f : Int → Int → Option Int) (as bs : List (Option Int)), as ≠ [] → bs ≠ [] → combineWays f as bs ≠ [] := by
    intro f as bs ha hb h
    have := length_combine f as bs
    rw [h] at this
    exact absurd this.symm (Nat.ne_of_gt (Nat.mul_pos (List.length_pos_iff.mpr ha) (List.length_pos_iff.mpr hb)))
  induction e with
  | paren e ih => exact ih
  | not e ih => simpa [rollWays] using ih
  | abs e ih => simpa [rollWays] using ih
  | dropKeep t =>
    simp only [rollWays]
    split
    · simp
    · split
      · simp
      · rename_i h; simpa using tuples_faces_ne_nil h t.number
  | dice t =>
    simp only [rollWays]
    split
    · simp
    · rename_i h; simpa using tuples_faces_ne_nil h t.number
  | constInt text => simp [rollWays]
  | constBin text => simp [rollWays]
  | add a b iha ihb => exact two _ _ _ iha ihb
  | sub a b iha ihb => exact two _ _ _ iha ihb
  | mul a b iha ihb => exact two _ _ _ iha ihb
  | div a b iha ihb => exact two _ _ _ iha ihb
  | bin op a b iha ihb => exact two _ _ _ iha ihb
  | minmax k a b iha ihb => exact two _ _ _ iha ihb
  | assign x e ih => exact ih
  | getVar n => simp [rollWays]

theorem rollWays_length (e : Expr) (env env' : Env) : (rollWays e env).length = (rollWays e env').length := by
  induction e with
  | paren e ih => exact ih
  | not e ih => simpa [rollWays] using ih
  | abs e ih => simpa [rollWays] using ih
  | dropKeep t => rfl
  | dice t => rfl
  | constInt text => rfl
  | constBin text => rfl
  | add a b iha ihb => simp only [rollWays, length_combine, iha, ihb]
  | sub a b iha ihb => simp only [rollWays, length_combine, iha, ihb]
  | mul a b iha ihb => simp only [rollWays, length_combine, iha, ihb]
  | div a b iha ihb => simp only [rollWays, length_combine, iha, ihb]
  | bin op a b iha ihb => simp only [rollWays, length_combine, iha, ihb]
  | minmax k a b iha ihb => simp only [rollWays, length_combine, iha, ihb]
  | assign x e ih => exact ih
  | getVar n => rfl

/-! ### One expression -/

section
variable [R : PyRuntime]

/-- The averages over the results of a roll are those over the list; the state stays. -/
def RollsAs (W : List (Option Int)) (e : Expr) (s : State) : Prop := ∀ (F : Res Int × State → ℚ) (c : ℚ),
  (∀ err, F (.error err, s) = c) → (e.roll s).expect F = avg W (onRes F s c)

theorem rollsAs_two {e a b : Expr} {f : Int → Int → Option Int} {g : Int → Int → Int} {A B : List (Option Int)} {s : State}
    (he : e.roll = (do let x ← a.roll; let y ← b.roll; return g x y)) (ha : RollsAs A a s) (hb : RollsAs B b s)
    (hB : B ≠ []) (hg : ∀ x y, f x y = some (g x y)) : RollsAs (combineWays f A B) e s := by
  intro F c hc
  rw [he, expect_rollBind]
  refine (ha _ c ?_).trans ?_
  · exact fun err => hc err
  show _ = avg (A.flatMap _) _
  rw [avg_pairs]
  apply avg_congr
  intro x hx
  cases x with
  | none => simp only [onRes, Option.bind_none]; exact (avg_const hB c).symm
  | some x =>
    simp only [onRes, Option.bind_some]
    rw [expect_rollBind]
    refine (hb _ c ?_).trans ?_
    · exact fun err => hc err
    apply avg_congr
    intro y hy
    cases y with
    | none => simp [onRes]
    | some y =>
      simp only [onRes, Option.bind_some, hg x y]
      rfl

theorem rollsAs_one {e a : Expr} {g h : Int → Int} {A : List (Option Int)} {s : State}
    (he : e.roll = (do return g (← a.roll))) (ha : RollsAs A a s) (hg : ∀ x, h x = g x) : RollsAs (A.map (Option.map h)) e s := by
  intro F c hc
  rw [he, expect_rollBind]
  refine (ha _ c ?_).trans ?_
  · exact fun err => hc err
  rw [avg_map]
  apply avg_congr
  intro x hx
  cases x with
  | none => rfl
  | some x => simp only [onRes, Option.map_some, hg x]; rfl

omit R in
theorem faces_nil {t : List (Int × Nat)} : facesOf t = [] ↔ (t.map Prod.snd).sum = 0 := by
  rw [← List.length_eq_zero_iff, length_facesOf]

omit R in
/-- Dice that cannot be thrown raise an exception. -/
theorem choices_fail {t : List (Int × Nat)} (h : facesOf t = []) (k : Nat) : ∃ err, choices t k = .pure (.error err) := by
  have hw := faces_nil.mp h
  unfold choices
  by_cases h0 : t.map Prod.snd = []
  · rw [h0]; exact ⟨.index, rfl⟩
  · simp only [accumulate_getLast 0 _ h0, Nat.zero_add]
    exact ⟨.value, if_pos hw⟩

omit R in
theorem dice_fail {t : DiceTerm} (h : facesOf t.table = []) (F : Res Int → ℚ) {c : ℚ} (hc : ∀ err, F (.error err) = c) :
    t.roll.expect F = c := by
  obtain ⟨err, h1⟩ := choices_fail h t.number
  unfold DiceTerm.roll
  rw [h1]
  exact hc err

/-- The law of a roll: only the values of the constants that are read matter. -/
theorem roll_exact (env : Env) (s : State) : ∀ e : Expr, e.NoAssign → e.Made →
    (∀ n ∈ e.reads, env n = dictGet? s.constants n) → RollsAs (rollWays e env) e s := by
  have sides : ∀ {a b : Expr}, (∀ n ∈ a.reads ++ b.reads, env n = dictGet? s.constants n) →
      (∀ n ∈ a.reads, env n = dictGet? s.constants n) ∧ ∀ n ∈ b.reads, env n = dictGet? s.constants n :=
    fun h => ⟨fun n hn => h n (by simp [hn]), fun n hn => h n (by simp [hn])⟩
  intro e
  induction e with
  | paren e ih => intro hn hl hr; exact ih hn hl hr
  | not e ih =>
    intro hn hl hr
    refine rollsAs_one (g := fun x => if x ≠ 0 then 0 else 1) rfl (ih hn hl hr) (fun x => ?_)
    by_cases h0 : x = 0 <;> simp [h0]
  | abs e ih =>
    intro hn hl hr
    refine rollsAs_one (g := pyAbs) rfl (ih hn hl hr) (fun x => ?_)
    unfold pyAbs
    split
    · rw [abs_of_neg (by assumption)]
    · rw [abs_of_nonneg (by omega)]
  | dropKeep t =>
    intro hn hl hr F c hc
    obtain ⟨form, hform⟩ := hl
    show (Rand.bind t.roll _).expect F = _
    rw [Rand.expect_bind]
    show t.roll.expect (fun a => F (a, s)) = _
    obtain ⟨hkeep, hp, hz, hnone⟩ := mkDropKeep_spec hform
    simp only [rollWays]
    by_cases hcz : t.idle
    · rw [if_pos hcz, avg_single]
      simp [DropKeepTerm.roll, hz hcz, Rand.expect, onRes]
    · rw [if_neg hcz]
      by_cases hs : t.simplified = .none
      · have h0 : 0 < t.count := by
          rcases Nat.eq_zero_or_pos t.count with h0 | h0
          · exfalso
            rcases Nat.eq_zero_or_pos t.number with h1 | h1
            · cases hk : t.keep with
              | true => obtain ⟨f, hf⟩ := hp (Or.inl ⟨hk, by omega⟩); rw [hs] at hf; cases hf
              | false => exact hcz (Or.inr ⟨hk, by omega⟩)
            · cases hk : t.keep with
              | true => exact hcz (Or.inl ⟨hk, h0, h1⟩)
              | false => obtain ⟨f, hf⟩ := hp (Or.inr ⟨hk, h0, h1⟩); rw [hs] at hf; cases hf
          · exact h0
        by_cases hw : facesOf t.table = []
        · rw [if_pos hw, avg_single]
          obtain ⟨err, h1⟩ := choices_fail hw t.number
          unfold DropKeepTerm.roll
          rw [hs]
          simp only
          rw [h1]
          exact hc err
        · rw [if_neg hw, dropKeepRoll_eq t hs h0 (Nat.pos_of_ne_zero (fun h => hw (faces_nil.mpr h)))]
          simp only [avg, List.map_map, List.length_map, length_tuples]
          push_cast
          rfl
      · have hcase : (t.keep = true ∧ t.number ≤ t.count) ∨ (t.keep = false ∧ t.count = 0 ∧ 0 < t.number) := by
          cases hk : t.keep with
          | true =>
            refine Or.inl ⟨rfl, ?_⟩
            by_contra hlt
            have : t.count ≠ 0 := fun h0 => hcz (Or.inl ⟨hk, h0, by omega⟩)
            exact hs (hnone (by omega) (by omega))
          | false =>
            have : t.count < t.number := by
              by_contra h0
              exact hcz (Or.inr ⟨hk, by omega⟩)
            refine Or.inr ⟨rfl, ?_, by omega⟩
            by_contra h0
            exact hs (hnone (by omega) (by omega))
        obtain ⟨f, hf⟩ := hp hcase
        have hres : ∀ l : List Int, l.length = t.number → t.result l = l.sum := by
          intro l hl
          unfold DropKeepTerm.result
          rcases hcase with ⟨h1, h2⟩ | ⟨h1, h2, _⟩
          · rw [h1, if_pos rfl]; exact sumHighest_all (by omega)
          · rw [h1, if_neg (by simp)]; exact sumLowest_all (by omega)
        unfold DropKeepTerm.roll
        rw [hf]
        by_cases hw : facesOf t.table = []
        · rw [if_pos hw, avg_single]
          exact dice_fail (t := ⟨f, t.table, t.number⟩) hw (fun a => F (a, s)) hc
        · rw [if_neg hw]
          refine (roll_expect ⟨f, t.table, t.number⟩ (Nat.pos_of_ne_zero (fun h => hw (faces_nil.mpr h))) (fun a => F (a, s))).trans ?_
          simp only [avg, List.map_map, List.length_map, length_tuples]
          push_cast
          congr 2
          apply List.map_congr_left
          intro l hl
          simp only [Function.comp_apply, onRes, hres l ((mem_tuples _ _ _).mp hl).1]
  | dice t =>
    intro hn hl hr F c hc
    show (Rand.bind t.roll _).expect F = _
    rw [Rand.expect_bind]
    show t.roll.expect (fun a => F (a, s)) = _
    simp only [rollWays]
    by_cases hw : facesOf t.table = []
    · rw [if_pos hw, avg_single]
      exact dice_fail hw (fun a => F (a, s)) hc
    · rw [if_neg hw, roll_expect t (Nat.pos_of_ne_zero (fun h => hw (faces_nil.mpr h)))]
      simp only [avg, List.map_map, List.length_map, length_tuples]
      push_cast
      rfl
  | constInt text =>
    intro hn hl hr F c hc
    simp only [rollWays, avg_single]
    show F (pyInt text, s) = _
    cases h : pyInt text with
    | ok v => rfl
    | error e => exact hc e
  | constBin text =>
    intro hn hl hr F c hc
    simp only [rollWays, avg_single]
    rfl
  | add a b iha ihb =>
    intro hn hl hr
    exact rollsAs_two rfl (iha hn.1 hl.1 (sides hr).1) (ihb hn.2 hl.2 (sides hr).2) (rollWays_ne_nil _ _) (fun _ _ => rfl)
  | sub a b iha ihb =>
    intro hn hl hr
    exact rollsAs_two rfl (iha hn.1 hl.1 (sides hr).1) (ihb hn.2 hl.2 (sides hr).2) (rollWays_ne_nil _ _) (fun _ _ => rfl)
  | mul a b iha ihb =>
    intro hn hl hr
    exact rollsAs_two rfl (iha hn.1 hl.1 (sides hr).1) (ihb hn.2 hl.2 (sides hr).2) (rollWays_ne_nil _ _) (fun _ _ => rfl)
  | bin op a b iha ihb =>
    intro hn hl hr
    exact rollsAs_two rfl (iha hn.1 hl.1 (sides hr).1) (ihb hn.2 hl.2 (sides hr).2) (rollWays_ne_nil _ _) (fun x y => onInts_roll op x y)
  | minmax k a b iha ihb =>
    intro hn hl hr
    refine rollsAs_two rfl (iha hn.1 hl.1 (sides hr).1) (ihb hn.2 hl.2 (sides hr).2) (rollWays_ne_nil _ _) (fun x y => ?_)
    cases k <;> simp only [rollOpValue, opValue, minmaxOp, pyMax, pyMin, if_true, if_false, Bool.false_eq_true, Option.some.injEq] <;>
      (repeat' split) <;> omega
  | div a b iha ihb =>
    intro hn hl hr F c hc
    have ha := iha hn.1 hl.1 (sides hr).1
    have hb := ihb hn.2 hl.2 (sides hr).2
    show ((b.roll >>= _) s).expect F = _
    rw [expect_rollBind]
    refine (hb _ c ?_).trans ?_
    · exact fun err => hc err
    show _ = avg ((rollWays a env).flatMap _) _
    rw [avg_pairs, avg_swap]
    apply avg_congr
    intro y hy
    cases y with
    | none =>
      simp only [onRes, Option.bind_none]
      rw [avg_congr (ψ := fun _ => c), avg_const (rollWays_ne_nil _ _)]
      intro x _; cases x <;> rfl
    | some y =>
      simp only [onRes, Option.bind_some]
      by_cases h0 : y = 0
      · subst h0
        rw [avg_congr (ψ := fun _ => c), avg_const (rollWays_ne_nil _ _)]
        · exact hc _
        · intro x _; cases x <;> simp [rollOpValue, opValue]
      · rw [if_neg h0, expect_rollBind]
        refine (ha _ c ?_).trans ?_
        · exact fun err => hc err
        apply avg_congr
        intro x _
        cases x with
        | none => rfl
        | some x =>
          have : rollOpValue .floordiv x y = some (x.fdiv y) := by
            show opValue .floordiv x y = _
            rw [← apply_opValue]; simp [BinOp.apply, h0]
          simp only [onRes, Option.bind_some, this]
          rfl
  | assign x e ih => intro hn; exact hn.elim
  | getVar n =>
    intro hn hl hr F c hc
    simp only [rollWays, avg_single]
    show F (s.getConstant n, s) = _
    rw [hr n (by simp [Expr.reads])]
    unfold State.getConstant
    cases dictGet? s.constants n with
    | none => exact hc _
    | some v => rfl

/-! ### Programs -/

omit R in
theorem runRolls_length : ∀ (p : List AnyLine) (env env' : Env), (runRolls p env).length = (runRolls p env').length := by
  intro p
  induction p with
  | nil => intro env env'; rfl
  | cons l p ih =>
    obtain ⟨x, e⟩ := l
    have h : ∀ env : Env, (runRolls ((x, e) :: p) env).length = (rollWays e env).length * (runRolls p Env.empty).length := by
      intro env
      simp only [runRolls, List.length_flatMap]
      generalize rollWays e env = l
      induction l with
      | nil => simp
      | cons a l ihl =>
        rw [List.map_cons, List.sum_cons, ihl, List.length_cons]
        cases a with
        | none => simp only [List.length_replicate]; ring
        | some v => simp only [ih (env.after x v) Env.empty]; ring
    intro env env'
    rw [h, h, rollWays_length e env env']

omit R in
theorem runRolls_ne_nil : ∀ (p : List AnyLine) (env : Env), runRolls p env ≠ [] := by
  intro p
  induction p with
  | nil => intro env; simp [runRolls]
  | cons l p ih =>
    obtain ⟨x, e⟩ := l
    intro env
    obtain ⟨v, hv⟩ := List.exists_mem_of_ne_nil _ (rollWays_ne_nil e env)
    simp only [runRolls]
    cases v with
    | none =>
      exact List.ne_nil_of_mem (List.mem_flatMap.mpr ⟨none, hv, List.mem_replicate.mpr
        ⟨fun h => ih _ (List.length_eq_zero_iff.mp h), rfl⟩⟩)
    | some v =>
      obtain ⟨o, ho⟩ := List.exists_mem_of_ne_nil _ (ih (env.after x v))
      exact List.ne_nil_of_mem (List.mem_flatMap.mpr ⟨some v, hv, ho⟩)

/-- The lines are expressions without inner assignments, made of texts. -/
def Plainly (p : List AnyLine) : Prop := ∀ l ∈ p, l.2.NoAssign ∧ l.2.Made

theorem rollLines_exact (parse : Str → Res Expr) : ∀ (p : List AnyLine) (lines : List Str) (s : State),
    lines.map parse = p.map (fun l => .ok l.expr) → Plainly p →
    ∀ (F : Res Unit × State → ℚ) (Φ : Option Env → ℚ), (∀ err s', F (.error err, s') = Φ none) →
      (∀ s', F (.ok (), s') = Φ (some (dictGet? s'.constants))) →
    (rollLines parse lines s).expect F = avg (runRolls p (dictGet? s.constants)) Φ := by
  intro p
  induction p with
  | nil =>
    intro lines s hl hp F Φ hE hF
    have : lines = [] := by simpa using hl
    subst this
    simp only [runRolls, avg_single]
    exact hF s
  | cons l p ih =>
    obtain ⟨x, e⟩ := l
    intro lines s hl hp F Φ hE hF
    cases lines with
    | nil => simp at hl
    | cons l lines =>
      simp only [List.map_cons, List.cons.injEq] at hl
      obtain ⟨hl1, hl2⟩ := hl
      have hlaw := roll_exact (dictGet? s.constants) s e (hp (x, e) (by simp)).1 (hp (x, e) (by simp)).2 (fun _ _ => rfl)
      let after : State → Int → State := fun s' v =>
        (match x with | none => s' | some x => s'.setConstant x v).setStdout v
      have hline : ∀ G : Res Unit × State → ℚ, (rollLine parse l s).expect G = (e.roll s).expect (fun r => match r with
          | (.ok v, s') => G (.ok (), after s' v)
          | (.error err, s') => G (.error err, s')) := by
        intro G
        unfold rollLine
        rw [hl1]
        cases x with
        | none =>
          refine (expect_rollBind e.roll _ s G).trans ?_
          congr 1
          funext r
          rcases r with ⟨a | a, s'⟩ <;> rfl
        | some x =>
          refine (expect_rollBind (Expr.assign x e).roll _ s G).trans ?_
          refine (expect_rollBind e.roll _ s _).trans ?_
          congr 1
          funext r
          rcases r with ⟨a | a, s'⟩ <;> rfl
      show ((rollLine parse l >>= fun _ => rollLines parse lines) s).expect F = _
      rw [expect_rollBind, hline]
      refine (hlaw _ (Φ none) (fun err => hE err s)).trans ?_
      simp only [runRolls]
      rw [avg_flatMap _ _ (runRolls p Env.empty).length]
      · apply avg_congr
        intro v hv
        cases v with
        | none =>
          simp only [onRes]
          have hne : List.replicate (runRolls p Env.empty).length (none : Option Env) ≠ [] := by
            simpa [List.replicate_eq_nil_iff] using runRolls_ne_nil p Env.empty
          rw [avg_congr (ψ := fun _ => Φ none), avg_const hne]
          intro o ho
          rw [(List.mem_replicate.mp ho).2]
        | some v =>
          simp only [onRes]
          refine (ih lines _ hl2 (fun l hl => hp l (by simp [hl])) F Φ hE hF).trans ?_
          have : dictGet? (after s v).constants = Env.after (dictGet? s.constants) x v := by
            funext n
            cases x with
            | none =>
              show dictGet? (dictSet s.constants stdoutName v) n = _
              rw [get_set]
              unfold Env.after Env.set
              by_cases h : stdoutName = n
              · simp [h]
              · simp [h, Ne.symm h]
            | some x =>
              show dictGet? (dictSet (dictSet s.constants x v) stdoutName v) n = _
              rw [get_set, get_set]
              unfold Env.after Env.set
              by_cases h : stdoutName = n
              · simp [h]
              · by_cases h' : x = n
                · subst h'; simp [h, Ne.symm h]
                · simp [h, Ne.symm h, h', Ne.symm h']
          rw [this]
      · intro v hv
        cases v with
        | none => simp
        | some v => exact runRolls_length p _ _

/-- The law of a run of the interpreter: for every function of the returned dictionary. -/
theorem interpRoll_exact (parse : Str → Res Expr) (lines : List Str) (p : List AnyLine) (s : State)
    (hlines : lines.map parse = p.map (fun l => .ok l.expr)) (hp : Plainly p) (hne : lines ≠ []) (G : Option Env → ℚ) :
    (interpRoll parse lines s).expect (fun r => G (r.1.toOption.map dictGet?)) = avg (runRolls p (dictGet? s.constants)) G := by
  unfold interpRoll
  refine (expect_rollBind _ _ _ _).trans ?_
  refine rollLines_exact parse p lines s hlines hp _ G (fun err s' => rfl) (fun s' => ?_)
  show G (some (dictGet? (constantsReturned lines s'))) = _
  unfold constantsReturned
  rw [if_neg hne]

/-! ### Where rolls and distributions agree -/

omit R in
theorem rollOp_agrees (op : BinOp) (x y : Int) (ha : op = .and → (x = 0 ∨ x = 1) ∧ (y = 0 ∨ y = 1)) (ho : op = .or → 0 ≤ x ∧ 0 ≤ y) :
    rollOpValue op x y = opValue op x y := by
  cases op with
  | and =>
    obtain ⟨rfl | rfl, rfl | rfl⟩ := ha rfl <;> rfl
  | or =>
    obtain ⟨h1, h2⟩ := ho rfl
    simp only [rollOpValue, opValue, Option.some.injEq]
    (repeat' split) <;> omega
  | _ => rfl

omit R in
theorem combine_agrees {f g : Int → Int → Option Int} {A A' B B' : List (Option Int)} (hA : A = A') (hB : B = B')
    (h : ∀ x y, some x ∈ A' → some y ∈ B' → f x y = g x y) : combineWays f A B = combineWays g A' B' := by
  subst hA; subst hB
  unfold combineWays
  rw [List.flatMap_def, List.flatMap_def]
  congr 1
  apply List.map_congr_left
  intro x hx
  apply List.map_congr_left
  intro y hy
  cases x with
  | none => rfl
  | some x => cases y with
    | none => rfl
    | some y => exact h x y hx hy

omit R in
theorem idle_counted {t : DropKeepTerm} (h : 1 ≤ t.number) : t.idle ↔ t.counted = 0 := by
  unfold DropKeepTerm.idle DropKeepTerm.counted
  cases t.keep <;> simp <;> omega

omit R in
/-- With truth values only, rolls mean what distributions mean. -/
theorem rollWays_truthful (env : Env) : ∀ e : Expr, e.Loaded → Truthful env e → rollWays e env = ways e env := by
  intro e
  induction e with
  | paren e ih => exact ih
  | not e ih =>
    intro hl ht
    simp only [rollWays, ways, ih hl ht.2]
    apply List.map_congr_left
    intro o ho
    cases o with
    | none => rfl
    | some v =>
      have := ht.1 v ho
      simp only [Option.map_some, Option.some.injEq]
      (repeat' split) <;> omega
  | abs e ih => intro hl ht; simp only [rollWays, ways, ih hl ht]
  | dropKeep t =>
    intro hl ht
    simp only [rollWays, ways]
    have hf : facesOf t.table ≠ [] := fun h => by have := faces_nil.mp h; have := hl.2.2; omega
    by_cases h : t.idle
    · rw [if_pos h, if_pos ((idle_counted hl.2.1).mp h)]
    · rw [if_neg h, if_neg (fun h' => h ((idle_counted hl.2.1).mpr h')), if_neg hf]
  | dice t =>
    intro hl ht
    have hf : facesOf t.table ≠ [] := fun h => by have := faces_nil.mp h; have := hl.2; omega
    simp only [rollWays, ways, if_neg hf]
  | constInt text => intro _ _; rfl
  | constBin text => intro _ _; rfl
  | add a b iha ihb => intro hl ht; exact combine_agrees (iha hl.1 ht.1) (ihb hl.2 ht.2) (fun _ _ _ _ => rfl)
  | sub a b iha ihb => intro hl ht; exact combine_agrees (iha hl.1 ht.1) (ihb hl.2 ht.2) (fun _ _ _ _ => rfl)
  | mul a b iha ihb => intro hl ht; exact combine_agrees (iha hl.1 ht.1) (ihb hl.2 ht.2) (fun _ _ _ _ => rfl)
  | div a b iha ihb => intro hl ht; exact combine_agrees (iha hl.1 ht.1) (ihb hl.2 ht.2) (fun _ _ _ _ => rfl)
  | bin op a b iha ihb =>
    intro hl ht
    refine combine_agrees (iha hl.1 ht.2.2.1) (ihb hl.2 ht.2.2.2) (fun x y hx hy => ?_)
    apply rollOp_agrees
    · intro h
      have h : op = .and := by cases op <;> simp_all [CmpOp.toBinOp]
      exact ⟨ht.1 h x (.inl hx), ht.1 h y (.inr hy)⟩
    · intro h
      have h : op = .or := by cases op <;> simp_all [CmpOp.toBinOp]
      exact ⟨ht.2.1 h x (.inl hx), ht.2.1 h y (.inr hy)⟩
  | minmax k a b iha ihb => intro hl ht; exact combine_agrees (iha hl.1 ht.1) (ihb hl.2 ht.2) (fun _ _ _ _ => by cases k <;> rfl)
  | assign x e ih => exact ih
  | getVar n => intro _ _; rfl

omit R in
theorem rollWays_ways_length (env env' : Env) : ∀ e : Expr, e.Loaded → (rollWays e env).length = (ways e env').length := by
  intro e
  induction e with
  | paren e ih => exact ih
  | not e ih => intro hl; simpa [rollWays, ways] using ih hl
  | abs e ih => intro hl; simpa [rollWays, ways] using ih hl
  | dropKeep t => intro hl; rw [show rollWays (.dropKeep t) env = ways (.dropKeep t) env' from rollWays_truthful _ _ hl trivial]
  | dice t => intro hl; rw [show rollWays (.dice t) env = ways (.dice t) env' from rollWays_truthful _ _ hl trivial]
  | constInt text => intro _; rfl
  | constBin text => intro _; rfl
  | add a b iha ihb => intro hl; simp only [rollWays, ways, length_combine, iha hl.1, ihb hl.2]
  | sub a b iha ihb => intro hl; simp only [rollWays, ways, length_combine, iha hl.1, ihb hl.2]
  | mul a b iha ihb => intro hl; simp only [rollWays, ways, length_combine, iha hl.1, ihb hl.2]
  | div a b iha ihb => intro hl; simp only [rollWays, ways, length_combine, iha hl.1, ihb hl.2]
  | bin op a b iha ihb => intro hl; simp only [rollWays, ways, length_combine, iha hl.1, ihb hl.2]
  | minmax k a b iha ihb => intro hl; simp only [rollWays, ways, length_combine, iha hl.1, ihb hl.2]
  | assign x e ih => exact ih
  | getVar n => intro _; rfl

omit R in
theorem Expr.Loaded.made : ∀ {e : Expr}, e.Loaded → e.Made := by
  intro e
  induction e with
  | paren e ih => exact ih
  | not e ih => exact ih
  | abs e ih => exact ih
  | dropKeep t => exact fun h => h.1
  | dice t => exact fun _ => trivial
  | constInt text => exact id
  | constBin text => exact id
  | add a b iha ihb => exact fun h => ⟨iha h.1, ihb h.2⟩
  | sub a b iha ihb => exact fun h => ⟨iha h.1, ihb h.2⟩
  | mul a b iha ihb => exact fun h => ⟨iha h.1, ihb h.2⟩
  | div a b iha ihb => exact fun h => ⟨iha h.1, ihb h.2⟩
  | bin op a b iha ihb => exact fun h => ⟨iha h.1, ihb h.2⟩
  | minmax k a b iha ihb => exact fun h => ⟨iha h.1, ihb h.2⟩
  | assign x e ih => exact ih
  | getVar n => exact id

/-- The program as lines, with the expression after it. -/
def linesOf (p : Program) (e : Expr) : List AnyLine := p.map (fun l => (some l.1, l.2)) ++ [(none, e)]

omit R in
theorem runRolls_linesOf_length (p : Program) (e : Expr) (hp : ∀ l ∈ p, l.2.Loaded) (he : e.Loaded) :
    (runRolls (linesOf p e) Env.empty).length = (progWays p e).length := by
  have h1 : ∀ (x : Option Str) (d : Expr) (q : List AnyLine) (env : Env),
      (runRolls ((x, d) :: q) env).length = (rollWays d env).length * (runRolls q Env.empty).length := by
    intro x d q env
    simp only [runRolls, List.length_flatMap]
    generalize rollWays d env = l
    induction l with
    | nil => simp
    | cons a l ihl =>
      rw [List.map_cons, List.sum_cons, ihl, List.length_cons]
      cases a with
      | none => simp only [List.length_replicate]; ring
      | some v => simp only [runRolls_length q (env.after x v) Env.empty]; ring
  have h2 : ∀ (q : Program) (env : Env), ((envWays q env).flatMap fun env => ways e env).length =
      (envWays q env).length * (ways e Env.empty).length := by
    intro q env
    rw [List.length_flatMap]
    generalize envWays q env = l
    induction l with
    | nil => simp
    | cons a l ihl => rw [List.map_cons, List.sum_cons, ihl, List.length_cons, ways_length e a Env.empty]; ring
  have h3 : ∀ (x : Str) (d : Expr) (q : Program) (env : Env),
      (envWays ((x, d) :: q) env).length = (ways d env).length * (envWays q Env.empty).length := by
    intro x d q env
    simp only [envWays, List.length_flatMap]
    generalize ways d env = l
    induction l with
    | nil => simp
    | cons a l ihl => rw [List.map_cons, List.sum_cons, ihl, envWays_length q (env.set x a) Env.empty, List.length_cons]; ring
  unfold progWays
  rw [h2]
  unfold linesOf
  induction p with
  | nil =>
    simp only [List.map_nil, List.nil_append]
    rw [h1, rollWays_ways_length _ Env.empty e he]
    simp [runRolls, envWays]
  | cons l p ih =>
    obtain ⟨x, d⟩ := l
    simp only [List.map_cons, List.cons_append]
    rw [h1, ih (fun l hl => hp l (by simp [hl])), h3, rollWays_ways_length _ Env.empty d (hp (x, d) (by simp))]
    ring

omit R in
theorem avg_of_map {α β : Type} (g : α → β) (l : List α) (φ : β → ℚ) : avg (l.map g) φ = avg l (fun o => φ (g o)) := by
  simp [avg, Function.comp_def]

end

end PyDice
