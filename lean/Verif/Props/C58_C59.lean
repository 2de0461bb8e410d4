import Verif.Lemmas.Sources
import Verif.Props.C08_C11
/-!
# C58: expressions without common dice are independent; C59: averages
-/

namespace PyDice

section
variable [R : PyRuntime]
open PyRuntime

/-- C58: when no line has given dice to both operands, an operator combines every outcome of the one with every outcome of the other:
    the counts are those of all pairs, the totals multiply, and every pair of possible values gives a possible value. -/
theorem C58_counts (parse : Str → Res Expr) (t : State) (op : BinOp) (a b : Expr) (h : NoCommonDice parse t a b) (r : Dist) (t' : State)
    (hr : (opExpr op a b).dist t = (.ok r, t')) :
    ∃ da db, a.dist t = (.ok da, t) ∧ b.dist t = (.ok db, t) ∧ t' = t ∧
      (∀ v, countOf r.getResultMap v = pairCount op da.getResultMap db.getResultMap v) ∧
      (∀ v, hasKey r.getResultMap v ↔ ∃ x y, hasKey da.getResultMap x ∧ hasKey db.getResultMap y ∧ op.apply x y = .ok v) ∧
      r.outcomeCount = da.outcomeCount * db.outcomeCount := by
  have hn : (opExpr op a b).NoAssign := by
    obtain ⟨_, _, _, _, _, _, na, nb, _⟩ := h
    cases op <;> exact ⟨na, nb⟩
  obtain ⟨da, db, g1, g2, g3, rfl⟩ := dist_two (bin2_opExpr op a b) hn hr
  have hu := h.unlinked g1 g2
  exact ⟨da, db, g1, g2, rfl, hu.count g3, hu.hasKey g3, hu.total g3⟩

/-- C58: the probability of both conditions is the product of the probabilities; that of one of them follows. -/
theorem C58_product (parse : Str → Res Expr) (t : State) (a b : Expr) (h : NoCommonDice parse t a b) (da db : Dist)
    (ha : a.dist t = (.ok da, t)) (hb : b.dist t = (.ok db, t)) (pa : 0 < da.outcomeCount) (pb : 0 < db.outcomeCount) :
    ∃ r q, (Expr.bin .and a b).dist t = (.ok r, t) ∧ (Expr.bin .or a b).dist t = (.ok q, t) ∧
      probOf r (fun x => decide (x = 1)) = probOf da (fun x => decide (0 < x)) * probOf db (fun x => decide (0 < x)) ∧
      1 - probOf q (fun x => decide (x = 1)) =
        (1 - probOf da (fun x => decide (0 < x))) * (1 - probOf db (fun x => decide (0 < x))) := by
  have hu := h.unlinked ha hb
  obtain ⟨r, h1, h2, h3, h4⟩ := op_mean (op := .and) (fun _ _ => rfl) h ha hb
  obtain ⟨q, k1, k2, k3, k4⟩ := op_mean (op := .or) (fun _ _ => rfl) h ha hb
  refine ⟨r, q, h1, k1, ?_, ?_⟩
  · rw [probOf_mean r h2, h4, probOf_mean da hu.left, probOf_mean db hu.right, ← mean_mul]
    congr 1; funext x
    rw [← mean_smul]
    congr 1; funext y
    simp only [binaryToInt, valueToBinary]
    by_cases hx : 0 < x <;> by_cases hy : 0 < y <;> simp [hx, hy]
  · have one : ∀ {d : Dist}, d.Constructed → 0 < d.outcomeCount → ∀ P : Int → Bool,
        1 - probOf d P = d.mean (fun x => if P x = true then 0 else 1) := by
      intro d hc hp P
      have h1 := mean_const hc hp 1
      rw [probOf_mean d hc, sub_eq_iff_eq_add, ← mean_add]
      refine h1.symm.trans ?_
      congr 1; funext x; split <;> norm_num
    rw [one k2 (by rw [k3]; exact Nat.mul_pos pa pb), k4, one hu.left pa, one hu.right pb, ← mean_mul]
    congr 1; funext x
    rw [← mean_smul]
    congr 1; funext y
    simp only [binaryToInt, valueToBinary]
    by_cases hx : 0 < x <;> by_cases hy : 0 < y <;> simp [hx, hy]

/-- C59: averages of sums, differences and products of expressions without common dice. -/
theorem C59_arithmetic (parse : Str → Res Expr) (t : State) (a b : Expr) (h : NoCommonDice parse t a b) (da db : Dist)
    (ha : a.dist t = (.ok da, t)) (hb : b.dist t = (.ok db, t)) (p q : ℚ) (hp : da.average = .ok p) (hq : db.average = .ok q) :
    ∃ r₁ r₂ r₃, (Expr.add a b).dist t = (.ok r₁, t) ∧ (Expr.sub a b).dist t = (.ok r₂, t) ∧ (Expr.mul a b).dist t = (.ok r₃, t) ∧
      r₁.average = .ok (p + q) ∧ r₂.average = .ok (p - q) ∧ r₃.average = .ok (p * q) := by
  have hu := h.unlinked ha hb
  obtain ⟨pa, rfl⟩ := average_ok hp
  obtain ⟨pb, rfl⟩ := average_ok hq
  obtain ⟨r₁, h1, h2⟩ := op_average (op := .add) (fun _ _ => rfl) h ha hb pa pb
  obtain ⟨r₂, k1, k2⟩ := op_average (op := .sub) (fun _ _ => rfl) h ha hb pa pb
  obtain ⟨r₃, l1, l2⟩ := op_average (op := .mul) (fun _ _ => rfl) h ha hb pa pb
  refine ⟨r₁, r₂, r₃, h1, k1, l1, ?_, ?_, ?_⟩
  · rw [h2]
    push_cast
    simp only [mean_add, mean_const hu.right pb, mean_const hu.left pa]
  · rw [k2]
    push_cast
    simp only [mean_sub, mean_const hu.right pb, mean_const hu.left pa]
  · rw [l2]
    push_cast
    simp only [mean_smul, mean_mul]

/-- C59: the averages of `MAX` and `MIN` add up to those of the operands, and lie beyond them. -/
theorem C59_max_min (parse : Str → Res Expr) (t : State) (a b : Expr) (h : NoCommonDice parse t a b) (da db : Dist)
    (ha : a.dist t = (.ok da, t)) (hb : b.dist t = (.ok db, t)) (p q : ℚ) (hp : da.average = .ok p) (hq : db.average = .ok q) :
    ∃ r₁ r₂ x y, (Expr.minmax true a b).dist t = (.ok r₁, t) ∧ (Expr.minmax false a b).dist t = (.ok r₂, t) ∧
      r₁.average = .ok x ∧ r₂.average = .ok y ∧ x + y = p + q ∧ max p q ≤ x ∧ y ≤ min p q := by
  have hu := h.unlinked ha hb
  obtain ⟨pa, rfl⟩ := average_ok hp
  obtain ⟨pb, rfl⟩ := average_ok hq
  obtain ⟨r₁, h1, h2⟩ := op_average (op := .max) (fun _ _ => rfl) h ha hb pa pb
  obtain ⟨r₂, k1, k2⟩ := op_average (op := .min) (fun _ _ => rfl) h ha hb pa pb
  have left : da.mean (fun x => (x : ℚ)) = da.mean (fun x => db.mean fun _ => (x : ℚ)) := by simp only [mean_const hu.right pb]
  have right : db.mean (fun x => (x : ℚ)) = da.mean (fun _ => db.mean fun y => (y : ℚ)) := by rw [mean_const hu.left pa]
  refine ⟨r₁, r₂, _, _, h1, k1, h2, k2, ?_, ?_, ?_⟩
  · rw [right, left, ← mean_add, ← mean_add]
    congr 1; funext x
    rw [← mean_add, ← mean_add]
    congr 1; funext y
    rcases lt_trichotomy x y with g | g | g
    · simp [g, g.not_gt]; ring
    · simp [g]
    · simp [g, g.not_gt]
  · refine max_le ?_ ?_
    · rw [left]
      refine mean_mono _ fun x => mean_mono _ fun y => ?_
      split
      · exact_mod_cast (by omega)
      · exact le_refl _
    · rw [right]
      refine mean_mono _ fun x => mean_mono _ fun y => ?_
      split
      · exact le_refl _
      · exact_mod_cast (by omega)
  · refine le_min ?_ ?_
    · rw [left]
      refine mean_mono _ fun x => mean_mono _ fun y => ?_
      split
      · exact_mod_cast (by omega)
      · exact le_refl _
    · rw [right]
      refine mean_mono _ fun x => mean_mono _ fun y => ?_
      split
      · exact le_refl _
      · exact_mod_cast (by omega)

/-- C59: the averages of comparisons are probabilities that add up: `<`, `==` and `>` to one, `<=` is `<` or `==`, `>=` is `>` or `==`,
    and `!=` is the rest. -/
theorem C59_comparisons (parse : Str → Res Expr) (t : State) (a b : Expr) (h : NoCommonDice parse t a b) (da db : Dist)
    (ha : a.dist t = (.ok da, t)) (hb : b.dist t = (.ok db, t)) (pa : 0 < da.outcomeCount) (pb : 0 < db.outcomeCount) :
    ∃ (r : CmpOp → Dist) (x : CmpOp → ℚ), (∀ c, (Expr.bin c a b).dist t = (.ok (r c), t) ∧ (r c).average = .ok (x c)) ∧
      x .lt + x .eq + x .gt = 1 ∧ x .le = x .lt + x .eq ∧ x .ge = x .gt + x .eq ∧ x .ne = 1 - x .eq := by
  have hu := h.unlinked ha hb
  have each : ∀ c : CmpOp, ∃ r, (Expr.bin c a b).dist t = (.ok r, t) ∧ r.average =
      .ok (da.mean fun x => db.mean fun y => ((match c.toBinOp.apply x y with | .ok v => v | .error _ => 0 : Int) : ℚ)) := by
    intro c
    have he : Expr.bin c a b = opExpr c.toBinOp a b := by cases c <;> rfl
    rw [he]
    exact op_average (op := c.toBinOp) (fun x y => by cases c <;> rfl) h ha hb pa pb
  choose r hr using each
  have one : (1 : ℚ) = da.mean (fun _ => db.mean fun _ => 1) := by rw [mean_const hu.right pb, mean_const hu.left pa]
  refine ⟨r, _, hr, ?_, ?_, ?_, ?_⟩
  · rw [one]
    simp only [← mean_add]
    congr 1; funext x; congr 1; funext y
    simp only [CmpOp.toBinOp, BinOp.apply, binaryToInt]
    rcases lt_trichotomy x y with g | g | g
    · simp [g, g.not_gt, g.ne]
    · simp [g]
    · simp [g, g.not_gt, g.ne']
  · simp only [← mean_add]
    congr 1; funext x; congr 1; funext y
    simp only [CmpOp.toBinOp, BinOp.apply, binaryToInt]
    rcases lt_trichotomy x y with g | g | g
    · simp [g, g.le, g.ne]
    · simp [g]
    · simp [g, g.not_gt, g.ne']
  · simp only [← mean_add]
    congr 1; funext x; congr 1; funext y
    simp only [CmpOp.toBinOp, BinOp.apply, binaryToInt]
    rcases lt_trichotomy x y with g | g | g
    · simp [g, g.not_gt, g.ne]
    · simp [g]
    · simp [g, g.le, g.ne']
  · rw [one]
    simp only [← mean_sub]
    congr 1; funext x; congr 1; funext y
    simp only [CmpOp.toBinOp, BinOp.apply, binaryToInt]
    by_cases g : x = y <;> simp [g]

/-- C59: constants shift and scale the average of every expression, whatever variables it uses, and comparing it with a constant has the
    probability as average; for `>=` and `<=` this is the number that `at_least` and `at_most` give. -/
theorem C59_constants (parse : Str → Res Expr) (t : State) (ht : Reachable parse t) (a : Expr) (hn : a.NoAssign) (d : Dist)
    (hd : a.dist t = (.ok d, t)) (p : ℚ) (hp : d.average = .ok p) (k : Int) :
    ∃ r₁ r₂ r₃ r₄, (Expr.add a (.constInt (intStr k))).dist t = (.ok r₁, t) ∧ (Expr.mul a (.constInt (intStr k))).dist t = (.ok r₂, t) ∧
      (Expr.bin .ge a (.constInt (intStr k))).dist t = (.ok r₃, t) ∧ (Expr.bin .le a (.constInt (intStr k))).dist t = (.ok r₄, t) ∧
      r₁.average = .ok (p + k) ∧ r₂.average = .ok (p * k) ∧
      r₃.average = .ok (probOf d fun x => decide (k ≤ x)) ∧ r₄.average = .ok (probOf d fun x => decide (x ≤ k)) ∧
      ∀ lo hi f g, d.min = .ok lo → d.max = .ok hi → d.atLeast = .ok f → d.atMost = .ok g → lo ≤ k → k ≤ hi →
        r₃.average = (match dictGet? f k with | some x => .ok x | none => .error .key) ∧
        r₄.average = (match dictGet? g k with | some x => .ok x | none => .error .key) := by
  obtain ⟨c, hc, hu, pc, hm⟩ := const_unlinked ht hn k hd
  have h : NoCommonDice parse t a (.constInt (intStr k)) := noCommonDice_free ht hn trivial rfl
  obtain ⟨pa, rfl⟩ := average_ok hp
  obtain ⟨r₁, h1, h2⟩ := op_average (op := .add) (fun _ _ => rfl) h hd hc pa pc
  obtain ⟨r₂, k1, k2⟩ := op_average (op := .mul) (fun _ _ => rfl) h hd hc pa pc
  obtain ⟨r₃, l1, l2⟩ := op_average (op := .ge) (fun _ _ => rfl) h hd hc pa pc
  obtain ⟨r₄, m1, m2⟩ := op_average (op := .le) (fun _ _ => rfl) h hd hc pa pc
  simp only [hm] at h2 k2 l2 m2
  have ge : r₃.average = .ok (probOf d fun x => decide (k ≤ x)) := by
    rw [l2, probOf_mean d hu.left]
    congr 2; funext x
    by_cases g : k ≤ x <;> simp [binaryToInt, g]
  have le : r₄.average = .ok (probOf d fun x => decide (x ≤ k)) := by
    rw [m2, probOf_mean d hu.left]
    congr 2; funext x
    by_cases g : x ≤ k <;> simp [binaryToInt, g]
  refine ⟨r₁, r₂, r₃, r₄, h1, k1, l1, m1, ?_, ?_, ge, le, ?_⟩
  · rw [h2]; push_cast; simp only [mean_add, mean_const hu.left pa]
  · rw [k2]; push_cast; simp only [mean_mul]
  · intro lo hi f g e1 e2 e3 e4 e5 e6
    obtain ⟨lo', hi', f', i1, i2, i3, _, i4, _⟩ := C10_at_least d hu.left pa
    obtain ⟨lo'', hi'', g', j1, j2, j3, _, j4, _⟩ := C10_at_most d hu.left pa
    rw [e1] at i1 j1; cases i1; cases j1
    rw [e2] at i2 j2; cases i2; cases j2
    rw [e3] at i3; cases i3
    rw [e4] at j3; cases j3
    rw [i4 k e5 e6, j4 k e5 e6]
    exact ⟨ge, le⟩

/-- C59: the average of `!e` is the probability that `e` is not above zero; that of `ABS(e)` is at least the size of the average of `e`. -/
theorem C59_not_abs (parse : Str → Res Expr) (t t' : State) (ht : Reachable parse t) (a : Expr) (d : Dist) (hd : a.dist t = (.ok d, t'))
    (p : ℚ) (hp : d.average = .ok p) :
    ∃ r₁ r₂ x, (Expr.not a).dist t = (.ok r₁, t') ∧ (Expr.abs a).dist t = (.ok r₂, t') ∧
      r₁.average = .ok (probOf d fun x => decide (x ≤ 0)) ∧ r₂.average = .ok x ∧ |p| ≤ x := by
  obtain ⟨A, hA, _⟩ := (keeps_dist a t (tidy_reachable parse ht)).2.2 d (by rw [hd])
  obtain ⟨pa, rfl⟩ := average_ok hp
  have total : ∀ g, (d.mapValue g).outcomeCount = d.outcomeCount := by
    intro g
    rw [← E_one _ (mapValue_constructed g d), mapValue_E, E_one d hA.constructed]
  have mean : ∀ g f, (d.mapValue g).mean f = d.mean (fun x => f (g x)) := by
    intro g f
    unfold Dist.mean
    rw [mapValue_E, total]
  refine ⟨d.notOp, d.absOp, _, ?_, ?_, ?_, average_mean _ (by rw [absOp_eq, total]; exact pa), ?_⟩
  · exact evalBind_eq_ok.mpr ⟨d, t', hd, rfl⟩
  · exact evalBind_eq_ok.mpr ⟨d, t', hd, rfl⟩
  · rw [average_mean _ (by rw [notOp_eq, total]; exact pa), notOp_eq, mean, probOf_mean d hA.constructed]
    congr 2; funext x
    by_cases g : 0 < x
    · simp [notVal, valueToBinary, g, g.not_ge]
    · simp [notVal, valueToBinary, g, not_lt.mp g]
  · rw [absOp_eq, mean, abs_le]
    constructor
    · rw [neg_le, ← neg_one_mul, ← mean_smul]
      refine mean_mono _ fun x => ?_
      simp only [absVal]
      split
      · simp
      · rw [neg_one_mul, neg_le_self_iff]; exact_mod_cast (by omega)
    · refine mean_mono _ fun x => ?_
      simp only [absVal]
      split
      · exact_mod_cast (by omega)
      · exact le_refl _

end

/-! ### Examples -/

/-- `VAR a = d2`, `VAR b = d2`, `VAR c = a + 1` and `b + d2`. -/
def lineA : Expr := .assign ['a'] (.dice ⟨"d2".toList, ones [1, 2], 1⟩)
def lineB : Expr := .assign ['b'] (.dice ⟨"d2".toList, ones [1, 2], 1⟩)
def lineC : Expr := .assign ['c'] (.add (.getVar ['a']) (.constInt ['1']))
def bPlusD2 : Expr := .add (.getVar ['b']) (.dice ⟨"d2".toList, ones [1, 2], 1⟩)

/-- After `VAR a = d2`, `VAR b = d2` and `VAR c = a + 1` the expressions `c` and `b + d2` have no common dice. -/
example : let _ := listRuntime
    ∀ parse : Str → Res Expr, parse "VAR a = d2".toList = .ok lineA → parse "VAR b = d2".toList = .ok lineB →
      parse "VAR c = a + 1".toList = .ok lineC →
      ∃ t da db, NoCommonDice parse t (.getVar ['c']) bPlusD2 ∧ (Expr.getVar ['c']).dist t = (.ok da, t) ∧ bPlusD2.dist t = (.ok db, t) ∧
        da.average = .ok (5 / 2) ∧ db.average = .ok 3 := by
  intro _ parse h1 h2 h3
  refine ⟨lineState lineC (lineState lineB (lineState lineA State.new)),
    distOf (.getVar ['c']) (lineState lineC (lineState lineB (lineState lineA State.new))),
    distOf bPlusD2 (lineState lineC (lineState lineB (lineState lineA State.new))),
    ⟨State.new, _, [(lineA, _), (lineB, _), (lineC, _)], .new,
      .cons h1 (distOf_eq (by decide +kernel)) (.cons h2 (distOf_eq (by decide +kernel)) (.cons h3 (distOf_eq (by decide +kernel)) (.nil _))),
      ?_, trivial, ⟨trivial, trivial⟩, ?_⟩, ?_, ?_, by decide +kernel, by decide +kernel⟩
  · intro p hp
    simp only [List.mem_cons, List.not_mem_nil, or_false] at hp
    rcases hp with rfl | rfl | rfl
    · trivial
    · trivial
    · exact ⟨trivial, trivial⟩
  · rw [Set.disjoint_left]
    simp [Sources.of, Sources.after, Sources.step, Expr.reads, stdoutName, lineA, lineB, lineC, bPlusD2]
  · exact (distOf_eq (by decide +kernel)).trans (by rw [noAssign_dist (e := .getVar ['c']) trivial])
  · exact (distOf_eq (by decide +kernel)).trans (by rw [noAssign_dist (e := bPlusD2) ⟨trivial, trivial⟩])

/-- `d[0*2,1]`. -/
def lopsidedDie : DiceTerm := ⟨"d[0*2,1]".toList, [(0, 2), (1, 1)], 1⟩

example : mkDice "d[0*2,1]".toList = .ok lopsidedDie := by decide +kernel

/-- With common dice the average of a sum can be wrong: after `VAR a = d[0*2,1]` the average of `a` is 1/3, that of `a + a` is reported as
    2/5 instead of 2/3, because the weights of the faces enter twice (see C26). -/
theorem C59_reuse_counterexample : ∃ (R : PyRuntime) (s : @State R) (d e : @Dist R),
    Session [(['a'], .dice lopsidedDie)] s ∧ (Expr.getVar ['a']).dist s = (.ok d, s) ∧
      (Expr.add (.getVar ['a']) (.getVar ['a'])).dist s = (.ok e, s) ∧ d.average = .ok (1 / 3) ∧ e.average = .ok (2 / 5) :=
  ⟨listRuntime, _, _, _, @Session.dist listRuntime _ _ _ ['a'] (.dice lopsidedDie) _ (@Session.new listRuntime) rfl, rfl, rfl,
    by decide +kernel, by decide +kernel⟩

end PyDice
