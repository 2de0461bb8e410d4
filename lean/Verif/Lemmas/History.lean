import Verif.Lemmas.Ways
/-!
# The lines a state was made by, and the runs its distributions describe
-/

namespace PyDice
open PyRuntime

/-! ### Expressions depend on the variables they read only -/

theorem ways_congr : ∀ (e : Expr) (env env' : Env), (∀ n ∈ e.reads, env n = env' n) → ways e env = ways e env' := by
  have two : ∀ {e : Expr} {op : BinOp} {a b : Expr}, Bin2 e op a b →
      (∀ env env' : Env, (∀ n ∈ a.reads, env n = env' n) → ways a env = ways a env') →
      (∀ env env' : Env, (∀ n ∈ b.reads, env n = env' n) → ways b env = ways b env') →
      ∀ env env' : Env, (∀ n ∈ e.reads, env n = env' n) → ways e env = ways e env' := by
    intro e op a b hB ha hb env env' h
    rw [hB.reads] at h
    rw [hB.ways, hB.ways, ha env env' (fun n hn => h n (by simp [hn])), hb env env' (fun n hn => h n (by simp [hn]))]
  intro e
  induction e with
  | paren e ih => intro env env' h; exact ih env env' h
  | not e ih => intro env env' h; simp only [ways]; rw [ih env env' h]
  | abs e ih => intro env env' h; simp only [ways]; rw [ih env env' h]
  | dropKeep t => intro env env' _; rfl
  | dice t => intro env env' _; rfl
  | constInt t => intro env env' _; rfl
  | constBin t => intro env env' _; rfl
  | add a b iha ihb => exact two (.add a b) iha ihb
  | sub a b iha ihb => exact two (.sub a b) iha ihb
  | mul a b iha ihb => exact two (.mul a b) iha ihb
  | div a b iha ihb => exact two (.div a b) iha ihb
  | bin op a b iha ihb => exact two (.bin op a b) iha ihb
  | minmax k a b iha ihb => exact two (.minmax k a b) iha ihb
  | assign n e ih => intro env env' h; exact ih env env' h
  | getVar n => intro env env' h; simp only [ways]; rw [h n (by simp [Expr.reads])]

theorem vals_congr : ∀ (e : Expr) (env env' : Env), (∀ n ∈ e.reads, env n = env' n) → vals e env = vals e env' := by
  have two : ∀ {e : Expr} {op : BinOp} {a b : Expr}, Bin2 e op a b →
      (∀ env env' : Env, (∀ n ∈ a.reads, env n = env' n) → vals a env = vals a env') →
      (∀ env env' : Env, (∀ n ∈ b.reads, env n = env' n) → vals b env = vals b env') →
      ∀ env env' : Env, (∀ n ∈ e.reads, env n = env' n) → vals e env = vals e env' := by
    intro e op a b hB ha hb env env' h
    rw [hB.reads] at h
    rw [hB.vals, hB.vals, ha env env' (fun n hn => h n (by simp [hn])), hb env env' (fun n hn => h n (by simp [hn]))]
  intro e
  induction e with
  | paren e ih => intro env env' h; exact ih env env' h
  | not e ih => intro env env' h; simp only [vals]; rw [ih env env' h]
  | abs e ih => intro env env' h; simp only [vals]; rw [ih env env' h]
  | dropKeep t => intro env env' _; rfl
  | dice t => intro env env' _; rfl
  | constInt t => intro env env' _; rfl
  | constBin t => intro env env' _; rfl
  | add a b iha ihb => exact two (.add a b) iha ihb
  | sub a b iha ihb => exact two (.sub a b) iha ihb
  | mul a b iha ihb => exact two (.mul a b) iha ihb
  | div a b iha ihb => exact two (.div a b) iha ihb
  | bin op a b iha ihb => exact two (.bin op a b) iha ihb
  | minmax k a b iha ihb => exact two (.minmax k a b) iha ihb
  | assign n e ih => intro env env' h; exact ih env env' h
  | getVar n => intro env env' h; simp only [vals]; rw [h n (by simp [Expr.reads])]

theorem length_combine (g : Int → Int → Option Int) (as bs : List (Option Int)) :
    (combineWays g as bs).length = as.length * bs.length := by
  unfold combineWays
  induction as with
  | nil => simp
  | cons a as ih => simp only [List.flatMap_cons, List.length_append, ih, List.length_map, List.length_cons]; ring

/-- The number of ways the dice can fall does not depend on the variables. -/
theorem ways_length : ∀ (e : Expr) (env env' : Env), (ways e env).length = (ways e env').length := by
  have two : ∀ {e : Expr} {op : BinOp} {a b : Expr}, Bin2 e op a b →
      (∀ env env' : Env, (ways a env).length = (ways a env').length) → (∀ env env' : Env, (ways b env).length = (ways b env').length) →
      ∀ env env' : Env, (ways e env).length = (ways e env').length := by
    intro e op a b hB ha hb env env'
    rw [hB.ways, hB.ways, length_combine, length_combine, ha env env', hb env env']
  intro e
  induction e with
  | paren e ih => intro env env'; exact ih env env'
  | not e ih => intro env env'; simp only [ways, List.length_map]; exact ih env env'
  | abs e ih => intro env env'; simp only [ways, List.length_map]; exact ih env env'
  | dropKeep t => intro env env'; rfl
  | dice t => intro env env'; rfl
  | constInt t => intro env env'; rfl
  | constBin t => intro env env'; rfl
  | add a b iha ihb => exact two (.add a b) iha ihb
  | sub a b iha ihb => exact two (.sub a b) iha ihb
  | mul a b iha ihb => exact two (.mul a b) iha ihb
  | div a b iha ihb => exact two (.div a b) iha ihb
  | bin op a b iha ihb => exact two (.bin op a b) iha ihb
  | minmax k a b iha ihb => exact two (.minmax k a b) iha ihb
  | assign n e ih => intro env env'; exact ih env env'
  | getVar n => intro env env'; rfl

/-! ### Lines -/

section
variable [R : PyRuntime]

/-- A line as it was executed: the variable, the expression, the name its outcomes were marked with, and its distribution. -/
structure Line where
  x : Str
  e : Expr
  tag : Str
  d : Dist

/-- What is stored for a variable after the lines (latest first). -/
noncomputable def stored : List Line → Str → Option Dist
  | [], _ => none
  | l :: h, n => if n = l.x then some (tagged l.tag l.d) else stored h n

/-- The state's distributions are those of the lines. -/
def Matches (h : List Line) (s : State) : Prop := ∀ n, n ≠ stdoutName → dictGet? s.var n = stored h n

/-- The lines were executed one after the other. -/
inductive Good : List Line → Prop where
  | nil : Good []
  | cons {l : Line} {h : List Line} {s s' : State} (hg : Good h) (hfresh : ∀ l' ∈ h, l'.tag ≠ l.tag) (hx : l.x ≠ stdoutName)
      (he : l.e.Straight) (hs : Matches h s) (hd : l.e.dist s = (.ok l.d, s')) : Good (l :: h)

/-- The values of the variables when every line's value is the one given for its mark. -/
def envOf : List Line → (Str → Int) → Env
  | [], _ => Env.empty
  | l :: h, ω => (envOf h ω).set l.x (some (ω l.tag))

/-- Every line's value is possible given the earlier ones. -/
def IsRun : List Line → (Str → Int) → Prop
  | [], _ => True
  | l :: h, ω => IsRun h ω ∧ ω l.tag ∈ vals l.e (envOf h ω)

/-- The marks a variable's value depends on. -/
def pin : List Line → Str → Str → Prop
  | [], _, _ => False
  | l :: h, n, t => if n = l.x then t = l.tag ∨ ∃ m ∈ l.e.reads, pin h m t else pin h n t

/-- The marks the values of some variables depend on. -/
def pins (h : List Line) (reads : List Str) (t : Str) : Prop := ∃ n ∈ reads, pin h n t

theorem pin_tag {h : List Line} {n t : Str} (hp : pin h n t) : ∃ l ∈ h, l.tag = t := by
  induction h generalizing n with
  | nil => exact hp.elim
  | cons l h ih =>
    unfold pin at hp
    split at hp
    · rcases hp with rfl | ⟨m, _, hm⟩
      · exact ⟨l, by simp, rfl⟩
      · obtain ⟨l', h1, h2⟩ := ih hm; exact ⟨l', by simp [h1], h2⟩
    · obtain ⟨l', h1, h2⟩ := ih hp; exact ⟨l', by simp [h1], h2⟩

theorem getVar_ok {s : State} {n : Str} {V : Dist} : s.getVar n = .ok V ↔ dictGet? s.var n = some V := by
  unfold State.getVar
  cases dictGet? s.var n <;> simp

theorem Matches.getVar {h : List Line} {s : State} (hm : Matches h s) {e : Expr} (he : e.Straight) {n : Str} (hn : n ∈ e.reads)
    {V : Dist} : s.getVar n = .ok V ↔ stored h n = some V := by
  rw [getVar_ok, hm n (fun h => he.reads (h ▸ hn))]

theorem stored_tidy {h : List Line} (hg : Good h) : ∀ {n : Str} {V : Dist}, stored h n = some V → Tidy (pin h n) V := by
  induction hg with
  | nil => intro n V hV; simp [stored] at hV
  | @cons l h s s' hg hfresh hx he hs hd ih =>
    intro n V hV
    unfold stored at hV
    split at hV
    · rename_i hnx
      injection hV with hV
      have ht := dist_tidy (A := pin h) l.e he.noAssign (fun m hm W hW => ih ((hs.getVar he hm).mp hW)) l.d s' hd
      have hfr : ¬ ∃ m ∈ l.e.reads, pin h m l.tag := by
        rintro ⟨m, _, hp⟩
        obtain ⟨l', h1, h2⟩ := pin_tag hp
        exact hfresh l' h1 h2
      have := tidy_tagged ht hfr
      rw [← hV]
      have e1 : pin (l :: h) n = fun t => t = l.tag ∨ ∃ m ∈ l.e.reads, pin h m t := by
        funext t; simp only [pin, hnx, if_true]
      rw [e1]; exact this
    · rename_i hnx
      have e1 : pin (l :: h) n = pin h n := by funext t; simp only [pin, hnx, if_false]
      rw [e1]; exact ih hV

/-- The distribution of an expression after the lines fixes the marks of the variables it reads. -/
theorem expr_tidy {h : List Line} (hg : Good h) {s s' : State} (hs : Matches h s) {e : Expr} (he : e.Straight) {d : Dist}
    (hd : e.dist s = (.ok d, s')) : Tidy (pins h e.reads) d :=
  dist_tidy (A := pin h) e he.noAssign (fun _ hm _ hW => stored_tidy hg ((hs.getVar he hm).mp hW)) d s' hd

theorem fresh_pins {h : List Line} {t : Str} (hfresh : ∀ l' ∈ h, l'.tag ≠ t) (reads : List Str) : ¬ pins h reads t := by
  rintro ⟨m, _, hp⟩
  obtain ⟨l', h1, h2⟩ := pin_tag hp
  exact hfresh l' h1 h2

theorem supp_tagged {A : Str → Prop} {d : Dist} (h : Tidy A d) {t : Str} (hn : ¬ A t) (ω : Str → Int) (v : Int) :
    Supp (tagged t d) ω v ↔ v = ω t ∧ Supp d ω v := by
  unfold Supp
  rw [tagged_resultMap h hn]
  constructor
  · rintro ⟨p, hp, rfl, hs⟩
    obtain ⟨q, hq, rfl⟩ := List.mem_map.mp hp
    obtain ⟨h1, h2⟩ := (tagCS_sat t q.1 ω).mp hs
    exact ⟨h1.symm, q, hq, rfl, h2⟩
  · rintro ⟨rfl, q, hq, hv, hs⟩
    exact ⟨(tagO t q.1, q.2), List.mem_map.mpr ⟨q, hq, rfl⟩, hv, (tagCS_sat t q.1 ω).mpr ⟨hv.symm, hs⟩⟩

theorem Good.line_tidy {l : Line} {h : List Line} (hg : Good (l :: h)) : Tidy (pins h l.e.reads) l.d ∧ ¬ pins h l.e.reads l.tag := by
  cases hg with
  | cons hg hfresh hx he hs hd => exact ⟨expr_tidy hg hs he hd, fresh_pins hfresh _⟩

/-- A stored distribution has at most one outcome agreeing with given marks: the value of its line. -/
theorem stored_value {h : List Line} (hg : Good h) : ∀ {n : Str} {V : Dist}, stored h n = some V → ∀ {ω : Str → Int} {u : Int},
    Supp V ω u → envOf h ω n = some u := by
  induction h with
  | nil => intro n V hV; simp [stored] at hV
  | cons l h ih =>
    intro n V hV ω u hu
    obtain ⟨ht, hn⟩ := hg.line_tidy
    unfold stored at hV
    split at hV
    · rename_i hnx
      injection hV with hV
      subst hV
      obtain ⟨rfl, _⟩ := (supp_tagged ht hn _ _).mp hu
      simp [envOf, Env.set, hnx]
    · rename_i hnx
      cases hg with
      | cons hg _ _ _ _ _ =>
        simp only [envOf, Env.set, hnx, if_false]
        exact ih hg hV hu

theorem stored_one {h : List Line} (hg : Good h) {n : Str} {V : Dist} (hV : stored h n = some V) {ω : Str → Int} {u : Int}
    (hu : Supp V ω u) : ∃ a, envOf h ω n = some a ∧ ∀ v, Supp V ω v ↔ v = a := by
  have h1 := stored_value hg hV hu
  refine ⟨u, h1, fun v => ⟨fun hv => ?_, fun hv => hv ▸ hu⟩⟩
  have h2 := stored_value hg hV hv
  rw [h1] at h2
  exact (Option.some.inj h2).symm

/-- The marks given are possible for every line whose mark is in `P`. -/
def RunOn (P : Str → Prop) : List Line → (Str → Int) → Prop
  | [], _ => True
  | l :: h, ω => RunOn P h ω ∧ (P l.tag → ω l.tag ∈ vals l.e (envOf h ω))

/-- With a line's mark, `P` has the marks the line depends on. -/
def Down (P : Str → Prop) : List Line → Prop
  | [] => True
  | l :: h => Down P h ∧ (P l.tag → ∀ t, pins h l.e.reads t → P t)

theorem RunOn.union {ι : Type} {P : ι → Str → Prop} {h : List Line} {ω : Str → Int} (hr : ∀ i, RunOn (P i) h ω) :
    RunOn (fun t => ∃ i, P i t) h ω := by
  induction h with
  | nil => trivial
  | cons l h ih =>
    refine ⟨ih (fun i => (hr i).1), ?_⟩
    rintro ⟨i, hi⟩
    exact (hr i).2 hi

theorem runOn_mono {P Q : Str → Prop} {h : List Line} {ω : Str → Int} (hr : RunOn P h ω) (hPQ : ∀ l ∈ h, Q l.tag → P l.tag) :
    RunOn Q h ω := by
  induction h with
  | nil => trivial
  | cons l h ih =>
    exact ⟨ih hr.1 (fun l' h' => hPQ l' (by simp [h'])), fun hq => hr.2 (hPQ l (by simp) hq)⟩

/-- What an expression can be, given marks that agree with some outcome of every variable it reads. -/
theorem expr_vals {h : List Line} (hg : Good h) {s s' : State} (hs : Matches h s) {e : Expr} (he : e.Straight) {d : Dist}
    (hd : e.dist s = (.ok d, s')) {ω : Str → Int} (hlive : ∀ n ∈ e.reads, ∃ V u, stored h n = some V ∧ Supp V ω u) :
    (∀ v, Supp d ω v ↔ v ∈ vals e (envOf h ω)) ∧ vals e (envOf h ω) ≠ [] ∧
      ∀ o ∈ ways e (envOf h ω), ∃ v ∈ vals e (envOf h ω), o = some v := by
  refine (dist_vals e he.noAssign he.faces (fun n hn V hV => ?_) d s' hd).2
  have hV' := (hs.getVar he hn).mp hV
  obtain ⟨V', u, h1, h2⟩ := hlive n hn
  rw [hV'] at h1
  cases h1
  exact ⟨(stored_tidy hg hV').proper, stored_one hg hV' h2⟩

theorem expr_live {h : List Line} (hg : Good h) {s s' : State} (hs : Matches h s) {e : Expr} (he : e.Straight) {d : Dist}
    (hd : e.dist s = (.ok d, s')) {ω : Str → Int} {v : Int} (hv : Supp d ω v) :
    ∀ n ∈ e.reads, ∃ V u, stored h n = some V ∧ Supp V ω u := by
  intro n hn
  obtain ⟨V, u, h1, h2⟩ := (dist_closed (ω := ω) e he.noAssign
    (fun n hn V hV => (stored_tidy hg ((hs.getVar he hn).mp hV)).proper) d s' hd).2 v hv n hn
  exact ⟨V, u, (hs.getVar he hn).mp h1, h2⟩

/-- Marks that agree with an outcome of a variable are possible for all lines the variable depends on. -/
theorem runOn_pin {h : List Line} (hg : Good h) : ∀ {n : Str} {V : Dist}, stored h n = some V → ∀ {ω : Str → Int} {u : Int},
    Supp V ω u → RunOn (pin h n) h ω := by
  induction hg with
  | nil => intro n V hV; simp [stored] at hV
  | @cons l h s s' hg hfresh hx he hs hd ih =>
    intro n V hV ω u hu
    have hg' : Good (l :: h) := .cons hg hfresh hx he hs hd
    obtain ⟨ht, hn⟩ := hg'.line_tidy
    unfold stored at hV
    split at hV
    · rename_i hnx
      injection hV with hV
      subst hV
      obtain ⟨rfl, hu'⟩ := (supp_tagged ht hn _ _).mp hu
      have hlive := expr_live hg hs he hd hu'
      refine ⟨?_, fun _ => ((expr_vals hg hs he hd hlive).1 _).mp hu'⟩
      have h1 : RunOn (fun t => ∃ m : {m // m ∈ l.e.reads}, pin h m.1 t) h ω := by
        apply RunOn.union
        rintro ⟨m, hm⟩
        obtain ⟨W, w, h2, h3⟩ := hlive m hm
        exact ih h2 h3
      refine runOn_mono h1 ?_
      intro l' hl' hp
      simp only [pin, hnx, if_true] at hp
      rcases hp with hp | ⟨m, hm, hp⟩
      · exact absurd hp (hfresh l' hl')
      · exact ⟨⟨m, hm⟩, hp⟩
    · rename_i hnx
      have e1 : pin (l :: h) n = pin h n := by funext t; simp only [pin, hnx, if_false]
      rw [e1]
      refine ⟨ih hV hu, fun hp => ?_⟩
      obtain ⟨l', h1, h2⟩ := pin_tag hp
      exact absurd h2 (hfresh l' h1)

theorem runOn_pins {h : List Line} (hg : Good h) {reads : List Str} {ω : Str → Int}
    (hlive : ∀ n ∈ reads, ∃ V u, stored h n = some V ∧ Supp V ω u) : RunOn (pins h reads) h ω := by
  have h1 : RunOn (fun t => ∃ m : {m // m ∈ reads}, pin h m.1 t) h ω := by
    apply RunOn.union
    rintro ⟨m, hm⟩
    obtain ⟨W, w, h2, h3⟩ := hlive m hm
    exact runOn_pin hg h2 h3
  refine runOn_mono h1 ?_
  rintro l' hl' ⟨m, hm, hp⟩
  exact ⟨⟨m, hm⟩, hp⟩

/-- The marks a variable depends on are closed. -/
theorem down_pin {h : List Line} (hg : Good h) : ∀ n, Down (pin h n) h := by
  induction hg with
  | nil => intro n; trivial
  | @cons l h s s' hg hfresh hx he hs hd ih =>
    have mono : ∀ (P Q : Str → Prop) (g : List Line), (∀ l' ∈ g, Q l'.tag → P l'.tag) → (∀ t, P t → Q t) → Down P g → Down Q g := by
      intro P Q g
      induction g with
      | nil => intro _ _ _; trivial
      | cons l' g ihg =>
        intro h1 h2 h3
        exact ⟨ihg (fun l'' h'' => h1 l'' (by simp [h''])) h2 h3.1, fun hq t ht => h2 t (h3.2 (h1 l' (by simp) hq) t ht)⟩
    have union : ∀ {ι : Type} (P : ι → Str → Prop) (g : List Line), (∀ i, Down (P i) g) → Down (fun t => ∃ i, P i t) g := by
      intro ι P g
      induction g with
      | nil => intro _; trivial
      | cons l' g ihg =>
        intro h1
        exact ⟨ihg (fun i => (h1 i).1), fun ⟨i, hi⟩ t ht => ⟨i, (h1 i).2 hi t ht⟩⟩
    intro n
    by_cases hnx : n = l.x
    · have e1 : pin (l :: h) n = fun t => t = l.tag ∨ pins h l.e.reads t := by
        funext t; simp only [pin, hnx, if_true]; rfl
      rw [e1]
      refine ⟨?_, fun _ t ht => Or.inr ht⟩
      have h1 : Down (fun t => ∃ m : {m // m ∈ l.e.reads}, pin h m.1 t) h := union _ _ (fun m => ih m.1)
      refine mono _ _ h ?_ ?_ h1
      · rintro l' hl' (hp | ⟨m, hm, hp⟩)
        · exact absurd hp (hfresh l' hl')
        · exact ⟨⟨m, hm⟩, hp⟩
      · rintro t ⟨⟨m, hm⟩, hp⟩
        exact Or.inr ⟨m, hm, hp⟩
    · have e1 : pin (l :: h) n = pin h n := by funext t; simp only [pin, hnx, if_false]
      rw [e1]
      exact ⟨ih n, fun hp => (fresh_pins hfresh [n] ⟨n, by simp, hp⟩).elim⟩

theorem down_pins {h : List Line} (hg : Good h) (reads : List Str) : Down (pins h reads) h := by
  have : ∀ g : List Line, (∀ n ∈ reads, Down (pin h n) g) → Down (pins h reads) g := by
    intro g
    induction g with
    | nil => intro _; trivial
    | cons l g ihg =>
      intro h1
      exact ⟨ihg (fun n hn => (h1 n hn).1), fun ⟨n, hn, hp⟩ t ht => ⟨n, hn, (h1 n hn).2 hp t ht⟩⟩
  exact this h (fun n _ => down_pin hg n)

/-- The values of variables depend on the marks of their lines. -/
theorem envOf_congr {h : List Line} {n : Str} {ω ω' : Str → Int} (hω : ∀ t, pin h n t → ω t = ω' t) :
    envOf h ω n = envOf h ω' n := by
  induction h with
  | nil => rfl
  | cons l h ih =>
    simp only [envOf, Env.set]
    split
    · rename_i hnx
      rw [hω l.tag (by simp [pin, hnx])]
    · rename_i hnx
      exact ih (fun t ht => hω t (by simpa [pin, hnx] using ht))

theorem envOf_tags {h : List Line} {ω ω' : Str → Int} (hω : ∀ l ∈ h, ω l.tag = ω' l.tag) : envOf h ω = envOf h ω' := by
  funext n
  apply envOf_congr
  intro t ht
  obtain ⟨l, h1, rfl⟩ := pin_tag ht
  exact hω l h1

theorem isRun_tags {h : List Line} {ω ω' : Str → Int} (hω : ∀ l ∈ h, ω l.tag = ω' l.tag) (hr : IsRun h ω) : IsRun h ω' := by
  induction h with
  | nil => trivial
  | cons l h ih =>
    have h' : ∀ l ∈ h, ω l.tag = ω' l.tag := fun l' hl' => hω l' (by simp [hl'])
    refine ⟨ih h' hr.1, ?_⟩
    rw [← hω l (by simp), ← envOf_tags h']
    exact hr.2

/-- In a run every stored distribution has the outcome that is its line's value. -/
theorem run_live {h : List Line} (hg : Good h) : ∀ {ω : Str → Int}, IsRun h ω → ∀ {n : Str} {V : Dist}, stored h n = some V →
    ∃ u, Supp V ω u := by
  induction hg with
  | nil => intro ω _ n V hV; simp [stored] at hV
  | @cons l h s s' hg hfresh hx he hs hd ih =>
    intro ω hr n V hV
    have hg' : Good (l :: h) := .cons hg hfresh hx he hs hd
    obtain ⟨ht, hn⟩ := hg'.line_tidy
    unfold stored at hV
    split at hV
    · injection hV with hV
      subst hV
      refine ⟨ω l.tag, (supp_tagged ht hn _ _).mpr ⟨rfl, ?_⟩⟩
      refine ((expr_vals hg hs he hd ?_).1 _).mpr hr.2
      intro m hm
      obtain ⟨W, hW⟩ := dist_reads l.e he.noAssign l.d s' hd m hm
      have hW := (hs.getVar he hm).mp hW
      obtain ⟨u, hu⟩ := ih hr.1 hW
      exact ⟨W, u, hW, hu⟩
    · exact ih hr.1 hV

/-- What an expression can be in a run. -/
theorem expr_run {h : List Line} (hg : Good h) {s s' : State} (hs : Matches h s) {e : Expr} (he : e.Straight) {d : Dist}
    (hd : e.dist s = (.ok d, s')) {ω : Str → Int} (hr : IsRun h ω) :
    (∀ v, Supp d ω v ↔ v ∈ vals e (envOf h ω)) ∧ vals e (envOf h ω) ≠ [] ∧
      ∀ o ∈ ways e (envOf h ω), ∃ v ∈ vals e (envOf h ω), o = some v := by
  refine expr_vals hg hs he hd ?_
  intro m hm
  obtain ⟨W, hW⟩ := dist_reads e he.noAssign d s' hd m hm
  have hW := (hs.getVar he hm).mp hW
  obtain ⟨u, hu⟩ := run_live hg hr hW
  exact ⟨W, u, hW, hu⟩

/-- Possible marks for some lines can be completed to a run. -/
theorem extend_run {h : List Line} (hg : Good h) {P : Str → Prop} : Down P h → ∀ {ω : Str → Int}, RunOn P h ω →
    ∃ ω', (∀ t, P t → ω' t = ω t) ∧ IsRun h ω' := by
  induction hg with
  | nil => intro _ ω _; exact ⟨ω, fun _ _ => rfl, trivial⟩
  | @cons l h s s' hg hfresh hx he hs hd ih =>
    intro hdown ω hr
    obtain ⟨ω1, h1, h2⟩ := ih hdown.1 hr.1
    by_cases hP : P l.tag
    · refine ⟨ω1, h1, h2, ?_⟩
      rw [h1 _ hP, vals_congr l.e (envOf h ω1) (envOf h ω)]
      · exact hr.2 hP
      · intro n hn
        exact envOf_congr (fun t ht => h1 t (hdown.2 hP t ⟨n, hn, ht⟩))
    · obtain ⟨v, hv⟩ := List.exists_mem_of_ne_nil _ (expr_run hg hs he hd h2).2.1
      have hag : ∀ l' ∈ h, ω1 l'.tag = updAt ω1 l.tag v l'.tag := fun l' hl' => by simp [updAt, hfresh l' hl']
      refine ⟨updAt ω1 l.tag v, fun t ht => ?_, isRun_tags hag h2, ?_⟩
      · have : t ≠ l.tag := fun he => hP (he ▸ ht)
        simp [updAt, this, h1 t ht]
      · rw [← envOf_tags hag]; simpa [updAt] using hv

/-- Every outcome belongs to a run. -/
theorem outcome_run {h : List Line} (hg : Good h) {s s' : State} (hs : Matches h s) {e : Expr} (he : e.Straight) {d : Dist}
    (hd : e.dist s = (.ok d, s')) {p : Outcome × Nat} (hp : p ∈ d.resultMap) : ∃ ω, IsRun h ω ∧ Sat ω p.1.cs := by
  have ht := expr_tidy hg hs he hd
  obtain ⟨ω, hω⟩ := ht.sat hp
  obtain ⟨ω', h1, h2⟩ := extend_run hg (down_pins hg e.reads) (runOn_pins hg (expr_live hg hs he hd ⟨p, hp, rfl, hω⟩))
  exact ⟨ω', h2, (ht.local hp (fun n hn => (h1 n hn).symm)).mp hω⟩

/-- The possible outcomes are the values the expression takes in the runs. -/
theorem hasKey_run {h : List Line} (hg : Good h) {s s' : State} (hs : Matches h s) {e : Expr} (he : e.Straight) {d : Dist}
    (hd : e.dist s = (.ok d, s')) (v : Int) : hasKey d.getResultMap v ↔ ∃ ω, IsRun h ω ∧ v ∈ vals e (envOf h ω) := by
  rw [hasKey_getResultMap]
  constructor
  · rintro ⟨p, hp, rfl⟩
    obtain ⟨ω, h1, h2⟩ := outcome_run hg hs he hd hp
    exact ⟨ω, h1, ((expr_run hg hs he hd h1).1 _).mp ⟨p, hp, rfl, h2⟩⟩
  · rintro ⟨ω, h1, h2⟩
    obtain ⟨p, hp, hv, _⟩ := ((expr_run hg hs he hd h1).1 _).mpr h2
    exact ⟨p, hp, hv⟩

/-! ### Lines and programs -/

/-- The program of the lines. -/
def programOf : List Line → Program
  | [] => []
  | l :: h => programOf h ++ [(l.x, l.e)]

omit R in
theorem runs_append (p q : Program) (env : Env) : runs (p ++ q) env = (runs p env).flatMap (runs q) := by
  induction p generalizing env with
  | nil => simp [runs]
  | cons l p ih =>
    obtain ⟨x, e⟩ := l
    simp only [List.cons_append, runs, ih]
    rw [List.flatMap_assoc]

omit R in
theorem envWays_append (p q : Program) (env : Env) : envWays (p ++ q) env = (envWays p env).flatMap (envWays q) := by
  induction p generalizing env with
  | nil => simp [envWays]
  | cons l p ih =>
    obtain ⟨x, e⟩ := l
    simp only [List.cons_append, envWays, ih]
    rw [List.flatMap_assoc]

theorem mem_runs {h : List Line} (hg : Good h) (env : Env) : env ∈ runs (programOf h) Env.empty ↔ ∃ ω, IsRun h ω ∧ envOf h ω = env := by
  induction hg generalizing env with
  | nil => simp [programOf, runs, IsRun, envOf, eq_comm]
  | @cons l h s s' hg hfresh hx he hs hd ih =>
    simp only [programOf, runs_append, List.mem_flatMap, ih, runs, List.mem_singleton]
    constructor
    · rintro ⟨_, ⟨ω, h1, rfl⟩, v, hv, rfl⟩
      have hag : ∀ l' ∈ h, ω l'.tag = updAt ω l.tag v l'.tag := fun l' hl' => by simp [updAt, hfresh l' hl']
      refine ⟨updAt ω l.tag v, ⟨isRun_tags hag h1, ?_⟩, ?_⟩
      · rw [← envOf_tags hag]; simpa [updAt] using hv
      · simp only [envOf]
        rw [← envOf_tags hag]
        simp [updAt]
    · rintro ⟨ω, ⟨h1, h2⟩, rfl⟩
      exact ⟨_, ⟨ω, h1, rfl⟩, _, h2, rfl⟩

theorem good_tags {h : List Line} (hg : Good h) : h.Pairwise (fun l l' => l'.tag ≠ l.tag) := by
  induction hg with
  | nil => exact List.Pairwise.nil
  | cons hg hfresh hx he hs hd ih => exact List.Pairwise.cons hfresh ih

theorem matches_setVar {h : List Line} {s : State} (hs : Matches h s) (x : Str) (hx : x ≠ stdoutName) (e : Expr) (d : Dist) :
    Matches (⟨x, e, versionName x (s.times x + 1), d⟩ :: h) (s.setVar x d).2 := by
  intro n hn
  rw [setVar_eq]
  simp only [stored]
  rw [get_set]
  split
  · rename_i h1; simp only [h1, if_true]
  · rename_i h1
    rw [if_neg (by simpa [eq_comm] using h1)]
    exact hs n hn

/-- A session of a straight-line program has lines. -/
theorem session_lines {p : Program} {s : State} (h : Session p s) (hp : Straight p) :
    ∃ g, Good g ∧ programOf g = p ∧ Matches g s ∧ ∀ l ∈ g, s.Used l.tag := by
  induction h with
  | new => exact ⟨[], .nil, rfl, fun n _ => by simp [State.new, dictGet?, stored], by simp⟩
  | @dist p s s' x e d h hd ih =>
    obtain ⟨g, h1, h2, h3, h4⟩ := ih (fun l hl => hp l (by simp [hl]))
    obtain ⟨hx, he⟩ := hp (x, e) (by simp)
    obtain ⟨d1, s1, g1, g2⟩ := evalBind_eq_ok.mp hd
    obtain ⟨_, s2, g3, g4⟩ := evalBind_eq_ok.mp g2
    have e1 : s1 = s := by have := noAssign_dist he.noAssign s; rw [g1] at this; exact this
    subst e1
    have e2 : s' = (s1.setVar x d1).2 := by
      have : s2 = (s1.setVar x d1).2 := by
        have := congrArg Prod.snd g3
        exact this.symm
      rw [← this]; exact (Prod.mk.inj g4).2.symm
    refine ⟨⟨x, e, versionName x (s1.times x + 1), d1⟩ :: g, ?_, by simp [programOf, h2], ?_, ?_⟩
    · refine .cons h1 (fun l hl heq => fresh_version s1 x ((show l.tag = versionName x (s1.times x + 1) from heq) ▸ h4 l hl)) hx he h3 g1
    · rw [e2]; exact matches_setVar h3 x hx e d1
    · intro l hl
      rw [e2]
      rcases List.mem_cons.mp hl with rfl | hl
      · exact ⟨x, s1.times x + 1, rfl, by omega, by rw [times_setVar]; simp⟩
      · exact (later_setVar s1 x d1).used (h4 l hl)
  | @extreme p s s' x e isMax v h hv ih =>
    obtain ⟨g, h1, h2, h3, h4⟩ := ih (fun l hl => hp l (by simp [hl]))
    obtain ⟨hx, he⟩ := hp (x, e) (by simp)
    obtain ⟨v1, s1, g1, g2⟩ := evalBind_eq_ok.mp hv
    obtain ⟨_, s2, g3, g4⟩ := evalBind_eq_ok.mp g2
    obtain ⟨d1, s3, g5, g6⟩ := evalBind_eq_ok.mp g4
    obtain ⟨_, s4, g7, g8⟩ := evalBind_eq_ok.mp g6
    have e1 : s1 = s := by have := noAssign_extreme he.noAssign isMax s; rw [g1] at this; exact this
    subst e1
    have e2 : s2 = s1.setConstant x v1 := (Prod.mk.inj g3).2.symm
    have e3 : s3 = s2 := by have := noAssign_dist he.noAssign s2; rw [g5] at this; exact this
    subst e3
    have e4 : s' = (s3.setVar x d1).2 := by
      have : s4 = (s3.setVar x d1).2 := (congrArg Prod.snd g7).symm
      rw [← this]; exact (Prod.mk.inj g8).2.symm
    have h3' : Matches g s3 := by intro n hn; rw [e2]; exact h3 n hn
    have h4' : ∀ l ∈ g, s3.Used l.tag := fun l hl => by rw [e2]; exact (later_setConstant s1 x v1).used (h4 l hl)
    refine ⟨⟨x, e, versionName x (s3.times x + 1), d1⟩ :: g, ?_, by simp [programOf, h2], ?_, ?_⟩
    · refine .cons h1 (fun l hl heq => fresh_version s3 x ((show l.tag = versionName x (s3.times x + 1) from heq) ▸ h4' l hl)) hx he h3' g5
    · rw [e4]; exact matches_setVar h3' x hx e d1
    · intro l hl
      rw [e4]
      rcases List.mem_cons.mp hl with rfl | hl
      · exact ⟨x, s3.times x + 1, rfl, by omega, by rw [times_setVar]; simp⟩
      · exact (later_setVar s3 x d1).used (h4' l hl)
  | @other p s s' h hv ht ih =>
    obtain ⟨g, h1, h2, h3, h4⟩ := ih hp
    refine ⟨g, h1, h2, fun n hn => (hv n hn).trans (h3 n hn), fun l hl => ?_⟩
    have : Later s s' := ht
    exact this.used (h4 l hl)

end

end PyDice
