import Verif.Spec.Rolls
import Verif.Lemmas.RollLaw
/-!
# The law of a roll, for any program
-/

namespace PyDice
open PyRuntime

theorem avg_mapped {α β : Type} (g : α → β) (l : List α) (φ : β → ℚ) : avg (l.map g) φ = avg l (fun o => φ (g o)) := by
  simp [avg, Function.comp_def]

theorem length_flatMap_const {α β : Type} {l : List α} {h : α → List β} {n : Nat} (hn : ∀ x ∈ l, (h x).length = n) :
    (l.flatMap h).length = l.length * n := by
  induction l with
  | nil => simp
  | cons a l ih =>
    rw [List.flatMap_cons, List.length_append, ih (fun x hx => hn x (by simp [hx])), hn a (by simp), List.length_cons]; ring

/-- How many outcomes there are does not depend on the variables. -/
theorem length_outs : ∀ (e : Expr) (env env' : Env), (outs e env).length = (outs e env').length := by
  have two : ∀ {a b : Expr} (f : Int → Int → Option Int), (∀ env env', (outs a env).length = (outs a env').length) →
      (∀ env env', (outs b env).length = (outs b env').length) → ∀ env env', (thenWays f (outs a env) (outs b)).length =
        (thenWays f (outs a env') (outs b)).length := by
    intro a b f ha hb env env'
    unfold thenWays
    rw [length_flatMap_const (n := (outs b env).length) (by intro o _; rw [List.length_map]; exact hb _ _),
      length_flatMap_const (n := (outs b env).length) (by intro o _; rw [List.length_map]; exact hb _ _), ha env env']
  intro e
  induction e with
  | paren e ih => exact ih
  | not e ih => intro env env'; simpa [outs] using ih env env'
  | abs e ih => intro env env'; simpa [outs] using ih env env'
  | assign x e ih => intro env env'; simpa [outs] using ih env env'
  | dropKeep t => intro env env'; simp [outs, ways]
  | dice t => intro env env'; simp [outs, ways]
  | constInt text => intro env env'; rfl
  | constBin text => intro env env'; rfl
  | getVar n => intro env env'; rfl
  | add a b iha ihb => exact two _ iha ihb
  | sub a b iha ihb => exact two _ iha ihb
  | mul a b iha ihb => exact two _ iha ihb
  | div a b iha ihb => exact two _ ihb iha
  | bin op a b iha ihb => exact two _ iha ihb
  | minmax k a b iha ihb => exact two _ iha ihb

theorem outs_ne_nil : ∀ (e : Expr) (env : Env), e.Loaded → outs e env ≠ [] := by
  have two : ∀ {a b : Expr} (f : Int → Int → Option Int) (env : Env), (outs a env ≠ []) → (∀ env, outs b env ≠ []) →
      thenWays f (outs a env) (outs b) ≠ [] := by
    intro a b f env ha hb h
    obtain ⟨o, ho⟩ := List.exists_mem_of_ne_nil _ ha
    obtain ⟨o', ho'⟩ := List.exists_mem_of_ne_nil _ (hb o.2)
    have : (o.1.bind fun a => o'.1.bind fun b => f a b, o'.2) ∈ thenWays f (outs a env) (outs b) :=
      List.mem_flatMap.mpr ⟨o, ho, List.mem_map.mpr ⟨o', ho', rfl⟩⟩
    rw [h] at this; cases this
  intro e
  induction e with
  | paren e ih => exact ih
  | not e ih => intro env h; simpa [outs] using ih env h
  | abs e ih => intro env h; simpa [outs] using ih env h
  | assign x e ih => intro env h; simpa [outs] using ih env h
  | dropKeep t => intro env h; simpa [outs] using loaded_ways (.dropKeep t) env h
  | dice t => intro env h; simpa [outs] using loaded_ways (.dice t) env h
  | constInt text => intro env _; simp [outs]
  | constBin text => intro env _; simp [outs]
  | getVar n => intro env _; simp [outs]
  | add a b iha ihb => intro env h; exact two _ _ (iha env h.1) (fun env => ihb env h.2)
  | sub a b iha ihb => intro env h; exact two _ _ (iha env h.1) (fun env => ihb env h.2)
  | mul a b iha ihb => intro env h; exact two _ _ (iha env h.1) (fun env => ihb env h.2)
  | div a b iha ihb => intro env h; exact two _ _ (ihb env h.2) (fun env => iha env h.1)
  | bin op a b iha ihb => intro env h; exact two _ _ (iha env h.1) (fun env => ihb env h.2)
  | minmax k a b iha ihb => intro env h; exact two _ _ (iha env h.1) (fun env => ihb env h.2)

/-- A figure of an outcome; failures count as `c`. -/
def onOut {α : Type} (G : α → Env → ℚ) (c : ℚ) : Option α × Env → ℚ
  | (some v, env) => G v env
  | (none, _) => c

section
variable [R : PyRuntime]

/-- The values of the variables that rolls use. -/
def envAt (s : State) : Env := fun n => dictGet? s.constants n

theorem possible_steps {α β : Type} {m : RollM α} {f : α → RollM β} {s : State} {r : Res β × State} (h : Rand.Possible r ((m >>= f) s)) :
    (∃ a s1, Rand.Possible (.ok a, s1) (m s) ∧ Rand.Possible r (f a s1)) ∨ ∃ er, r.1 = .error er := by
  rw [rollBind, Rand.possible_bind] at h
  obtain ⟨⟨a | a, s1⟩, h1, h2⟩ := h
  · exact .inr ⟨a, by rw [Rand.possible_pure.mp h2]⟩
  · exact .inl ⟨a, s1, h1, h2⟩

/-- The averages over the results of a roll are those over the equally likely outcomes. -/
def OutsLaw (e : Expr) (s : State) : Prop := ∀ (F : Res Int × State → ℚ) (G : Int → Env → ℚ) (c : ℚ),
  (∀ err s', F (.error err, s') = c) →
  (∀ v env', (some v, env') ∈ outs e (envAt s) → ∀ s', envAt s' = env' → F (.ok v, s') = G v env') →
  (e.roll s).expect F = avg (outs e (envAt s)) (onOut G c)

theorem envAt_set (s : State) (x : Str) (v : Int) : envAt { s with constants := dictSet s.constants x v } = (envAt s).set x (some v) := by
  funext n
  show dictGet? (dictSet s.constants x v) n = if n = x then some v else dictGet? s.constants n
  rw [get_set]
  by_cases h : n = x
  · subst h; simp
  · rw [if_neg (fun h' => h h'.symm), if_neg h]

theorem outs_two {a b e : Expr} {f : Int → Int → Option Int} {g : Int → Int → Int} {s : State}
    (he : e.roll = (do let x ← a.roll; let y ← b.roll; return g x y)) (ho : ∀ env, outs e env = thenWays f (outs a env) (outs b))
    (hlb : ∀ env, outs b env ≠ []) (ha : OutsLaw a s) (hb : ∀ o ∈ outs a (envAt s), ∀ s', envAt s' = o.2 → OutsLaw b s')
    (hg : ∀ o ∈ outs a (envAt s), ∀ o' ∈ outs b o.2, ∀ x y, o.1 = some x → o'.1 = some y → f x y = some (g x y)) : OutsLaw e s := by
  intro F G c hc hG
  rw [ho] at hG ⊢
  rw [he, expect_rollBind]
  unfold thenWays
  rw [avg_flatMap _ _ (outs b (envAt s)).length (by intro o _; rw [List.length_map]; exact length_outs _ _ _)]
  refine (ha _ (fun x env1 => avg (outs b env1) (onOut (fun y env2 => G (g x y) env2) c)) c ?_ ?_).trans ?_
  · intro err s'; exact hc err s'
  · intro x env1 hx s' hs'
    subst hs'
    show ((b.roll >>= _) s').expect F = _
    rw [expect_rollBind]
    refine hb _ hx s' rfl _ _ c ?_ ?_
    · intro err s2; exact hc err s2
    · intro y env2 hy s2 hs2
      show F (.ok (g x y), s2) = _
      refine hG (g x y) env2 ?_ s2 hs2
      refine List.mem_flatMap.mpr ⟨_, hx, List.mem_map.mpr ⟨_, hy, ?_⟩⟩
      simp only [Option.bind_some]
      rw [hg _ hx _ hy x y rfl rfl]
  · apply avg_congr
    intro o hmem
    obtain ⟨x, env1⟩ := o
    rw [avg_mapped]
    cases x with
    | none =>
      simp only [onOut, Option.bind_none]
      exact (avg_const (hlb _) c).symm
    | some x =>
      simp only [onOut]
      apply avg_congr
      intro o' hmem'
      obtain ⟨y, env2⟩ := o'
      cases y with
      | none => simp [onOut]
      | some y =>
        simp only [Option.bind_some, hg _ hmem _ hmem' x y rfl rfl, onOut]

theorem outs_one {a e : Expr} {g h : Int → Int} {s : State}
    (he : e.roll = (do return g (← a.roll))) (ho : ∀ env, outs e env = (outs a env).map fun o => (o.1.map h, o.2)) (ha : OutsLaw a s)
    (hg : ∀ o ∈ outs a (envAt s), ∀ x, o.1 = some x → h x = g x) : OutsLaw e s := by
  intro F G c hc hG
  rw [ho] at hG ⊢
  rw [he, expect_rollBind, avg_mapped]
  refine (ha _ (fun x env => G (g x) env) c ?_ ?_).trans ?_
  · intro err s'; exact hc err s'
  · intro x env' hx s' hs'
    exact hG (g x) env' (List.mem_map.mpr ⟨_, hx, by simp [hg _ hx x rfl]⟩) s' hs'
  · apply avg_congr
    rintro ⟨x, env'⟩ hx
    cases x with
    | none => rfl
    | some x => simp [onOut, hg _ hx x rfl]

/-- What does not assign. -/
theorem outs_leaf {e : Expr} {s : State} (he : RollLaw e (envAt s) s) (ho : outs e (envAt s) = (ways e (envAt s)).map fun v => (v, envAt s)) :
    OutsLaw e s := by
  intro F G c hc hG
  rw [ho] at hG ⊢
  rw [he F c (fun err => hc err s), avg_mapped]
  apply avg_congr
  intro v hv
  cases v with
  | none => rfl
  | some v => exact hG v _ (List.mem_map.mpr ⟨_, hv, rfl⟩) s rfl

theorem outs_law : ∀ (e : Expr) (s : State), e.Loaded → SoundAt e (envAt s) → OutsLaw e s := by
  intro e
  induction e with
  | paren e ih => exact ih
  | not e ih =>
    intro s hl ht
    refine outs_one (g := fun x => if x ≠ 0 then 0 else 1) (h := fun x => if 0 < x then 0 else 1) rfl (fun _ => rfl) (ih s hl ht.1) ?_
    intro o ho x hx
    have := ht.2 o ho x hx
    by_cases h0 : x = 0
    · subst h0; rfl
    · rw [if_pos (by omega), if_pos h0]
  | abs e ih =>
    intro s hl ht
    refine outs_one (g := pyAbs) (h := fun x => |x|) rfl (fun _ => rfl) (ih s hl ht) ?_
    intro o _ x _
    unfold pyAbs
    split
    · exact abs_of_neg (by assumption)
    · exact abs_of_nonneg (by omega)
  | assign x e ih =>
    intro s hl ht F G c hc hG
    show ((e.roll >>= _) s).expect F = _
    rw [expect_rollBind]
    show _ = avg ((outs e (envAt s)).map _) _
    rw [avg_mapped]
    refine (ih s hl ht _ (fun v env => G v (env.set x (some v))) c ?_ ?_).trans ?_
    · intro err s'; exact hc err s'
    · intro v env' hv s' hs'
      refine hG v _ (List.mem_map.mpr ⟨_, hv, rfl⟩) (s'.setConstant x v) ?_
      subst hs'
      exact envAt_set s' x v
    · apply avg_congr
      rintro ⟨v, env'⟩ hv
      cases v with
      | none => rfl
      | some v => rfl
  | dropKeep t => intro s hl _; exact outs_leaf (roll_law _ s (.dropKeep t) trivial hl trivial (by simp [Expr.reads])) rfl
  | dice t => intro s hl _; exact outs_leaf (roll_law _ s (.dice t) trivial hl trivial (by simp [Expr.reads])) rfl
  | constInt text => intro s hl _; exact outs_leaf (roll_law _ s (.constInt text) trivial hl trivial (by simp [Expr.reads])) rfl
  | constBin text => intro s hl _; exact outs_leaf (roll_law _ s (.constBin text) trivial hl trivial (by simp [Expr.reads])) rfl
  | getVar n => intro s hl _; exact outs_leaf (roll_law _ s (.getVar n) trivial hl trivial (by intro m _; rfl)) rfl
  | add a b iha ihb =>
    intro s hl ht
    exact outs_two (g := fun x y => x + y) rfl (fun _ => rfl) (fun env => outs_ne_nil b env hl.2) (iha s hl.1 ht.1)
      (fun o ho s' hs' => ihb s' hl.2 (hs' ▸ ht.2 o ho)) (fun _ _ _ _ _ _ _ _ => rfl)
  | sub a b iha ihb =>
    intro s hl ht
    exact outs_two (g := fun x y => x - y) rfl (fun _ => rfl) (fun env => outs_ne_nil b env hl.2) (iha s hl.1 ht.1)
      (fun o ho s' hs' => ihb s' hl.2 (hs' ▸ ht.2 o ho)) (fun _ _ _ _ _ _ _ _ => rfl)
  | mul a b iha ihb =>
    intro s hl ht
    exact outs_two (g := fun x y => x * y) rfl (fun _ => rfl) (fun env => outs_ne_nil b env hl.2) (iha s hl.1 ht.1)
      (fun o ho s' hs' => ihb s' hl.2 (hs' ▸ ht.2 o ho)) (fun _ _ _ _ _ _ _ _ => rfl)
  | bin op a b iha ihb =>
    intro s hl ht
    refine outs_two (g := fun x y => if op.onInts x y then 1 else 0) rfl (fun _ => rfl) (fun env => outs_ne_nil b env hl.2) (iha s hl.1 ht.1)
      (fun o ho s' hs' => ihb s' hl.2 (hs' ▸ (ht.2 o ho).1)) ?_
    intro o ho o' ho' x y hx hy
    have := (ht.2 o ho).2 o' ho' x y hx hy
    rw [opValue_yields]
    exact onInts_yields op x y this.1 this.2
  | minmax k a b iha ihb =>
    intro s hl ht
    refine outs_two (g := minmaxOp k) rfl (fun _ => rfl) (fun env => outs_ne_nil b env hl.2) (iha s hl.1 ht.1)
      (fun o ho s' hs' => ihb s' hl.2 (hs' ▸ ht.2 o ho)) ?_
    intro o _ o' _ x y _ _
    cases k <;> simp only [opValue, minmaxOp, pyMax, pyMin, if_true, if_false, Bool.false_eq_true, Option.some.injEq] <;>
      (repeat' split) <;> omega
  | div a b iha ihb =>
    intro s hl ht F G c hc hG
    show ((b.roll >>= _) s).expect F = _
    rw [expect_rollBind]
    have hG' := hG
    simp only [outs, thenWays] at hG' ⊢
    rw [avg_flatMap _ _ (outs a (envAt s)).length (by intro o _; rw [List.length_map]; exact length_outs _ _ _)]
    refine (ihb s hl.2 ht.1 _ (fun y env1 => if y = 0 then c else avg (outs a env1) (onOut (fun x env2 => G (x.fdiv y) env2) c)) c ?_ ?_).trans ?_
    · intro err s'; exact hc err s'
    · intro y env1 hy s' hs'
      subst hs'
      dsimp only
      by_cases h0 : y = 0
      · rw [if_pos h0, if_pos h0]; exact hc _ _
      · rw [if_neg h0, if_neg h0, expect_rollBind]
        refine iha s' hl.1 (ht.2 _ hy) _ _ c ?_ ?_
        · intro err s2; exact hc err s2
        · intro x env2 hx s2 hs2
          refine hG' (x.fdiv y) env2 (List.mem_flatMap.mpr ⟨_, hy, List.mem_map.mpr ⟨_, hx, ?_⟩⟩) s2 hs2
          have : opValue .floordiv x y = some (x.fdiv y) := by
            rw [← apply_opValue]; simp [BinOp.apply, h0]
          simp only [Option.bind_some, this]
    · apply avg_congr
      rintro ⟨y, env1⟩ hy
      rw [avg_mapped]
      cases y with
      | none =>
        simp only [onOut, Option.bind_none]
        exact (avg_const (outs_ne_nil a _ hl.1) c).symm
      | some y =>
        simp only [onOut, Option.bind_some]
        by_cases h0 : y = 0
        · subst h0
          rw [if_pos rfl, avg_congr (ψ := fun _ => c), avg_const (outs_ne_nil a _ hl.1)]
          rintro ⟨x, env2⟩ _
          cases x <;> simp [opValue]
        · rw [if_neg h0]
          apply avg_congr
          rintro ⟨x, env2⟩ _
          cases x with
          | none => rfl
          | some x =>
            have : opValue .floordiv x y = some (x.fdiv y) := by
              rw [← apply_opValue]; simp [BinOp.apply, h0]
            simp only [Option.bind_some, this, onOut]

omit R in
/-- How many outcomes a program has does not depend on the variables. -/
theorem lineOuts_length (es : List Expr) : ∀ env env', (lineOuts es env).length = (lineOuts es env').length := by
  induction es with
  | nil => intro _ _; rfl
  | cons e es ih =>
    intro env env'
    unfold lineOuts
    rw [length_flatMap_const (n := (lineOuts es env).length) (by intro o _; rw [List.length_map]; exact ih _ _),
      length_flatMap_const (n := (lineOuts es env).length) (by intro o _; rw [List.length_map]; exact ih _ _), length_outs e env env']

omit R in
theorem lineOuts_ne_nil (es : List Expr) : ∀ env, (∀ e ∈ es, e.Loaded) → lineOuts es env ≠ [] := by
  induction es with
  | nil => intro _ _; simp [lineOuts]
  | cons e es ih =>
    intro env hl h
    obtain ⟨o, ho⟩ := List.exists_mem_of_ne_nil _ (outs_ne_nil e env (hl e (by simp)))
    obtain ⟨r, hr⟩ := List.exists_mem_of_ne_nil _ (ih (o.2.set stdoutName o.1) (fun e he => hl e (by simp [he])))
    have : (o.1.bind fun _ => r) ∈ lineOuts (e :: es) env := List.mem_flatMap.mpr ⟨o, ho, List.mem_map.mpr ⟨r, hr, rfl⟩⟩
    rw [h] at this; cases this

/-- A figure of the variables after a program; failures count as `c`. -/
def onEnd (G : Env → ℚ) (c : ℚ) : Option Env → ℚ
  | some env => G env
  | none => c

theorem lines_law (parse : Str → Res Expr) : ∀ (lines : List Str) (es : List Expr) (s : State),
    lines.map parse = es.map .ok → (∀ e ∈ es, e.Loaded) → SoundLines es (envAt s) → ∀ (F : Res Unit × State → ℚ) (G : Env → ℚ) (c : ℚ),
    (∀ err s', F (.error err, s') = c) → (∀ s', F (.ok (), s') = G (envAt s')) →
    (rollLines parse lines s).expect F = avg (lineOuts es (envAt s)) (onEnd G c) := by
  intro lines
  induction lines with
  | nil =>
    intro es s h hl ht F G c hc hG
    cases es with
    | cons => simp at h
    | nil => simp only [lineOuts, avg_single, onEnd]; exact hG s
  | cons l ls ih =>
    intro es s h hl ht F G c hc hG
    cases es with
    | nil => simp at h
    | cons e es =>
      simp only [List.map_cons, List.cons.injEq] at h
      have hl' : ∀ e ∈ es, e.Loaded := fun e he => hl e (by simp [he])
      unfold rollLines
      rw [expect_rollBind]
      unfold rollLine
      rw [h.1]
      refine (expect_rollBind e.roll _ s _).trans ?_
      unfold lineOuts
      rw [avg_flatMap _ _ (lineOuts es (envAt s)).length (by intro o _; rw [List.length_map]; exact lineOuts_length _ _ _)]
      refine (outs_law e s (hl e (by simp)) ht.1 _ (fun v env => avg (lineOuts es (env.set stdoutName (some v))) (onEnd G c)) c ?_ ?_).trans ?_
      · intro err s'; exact hc err s'
      · intro v env' hv s' hs'
        subst hs'
        show (rollLines parse ls { s' with constants := dictSet s'.constants stdoutName v }).expect F = _
        rw [← envAt_set]
        refine ih es _ h.2 hl' ?_ F G c hc hG
        rw [envAt_set]
        exact ht.2 _ hv
      · apply avg_congr
        rintro ⟨v, env'⟩ hv
        rw [avg_mapped]
        cases v with
        | none =>
          simp only [onOut, Option.bind_none, onEnd]
          exact (avg_const (lineOuts_ne_nil es _ hl') c).symm
        | some v => simp only [onOut, Option.bind_some]

end

end PyDice
