import Verif.Expr
import Verif.Spec.Dice
import Verif.Lemmas.Hist
import Verif.Lemmas.Text
/-!
# Lemmas about dice terms
-/

namespace PyDice
open PyRuntime

/-! ### Tuples -/

theorem sum_flatMap' {α M : Type} [AddCommMonoid M] (l : List α) (g : α → List M) :
    (l.flatMap g).sum = (l.map fun a => (g a).sum).sum := by
  induction l with
  | nil => rfl
  | cons a l ih => simp [ih]

theorem sum_facesOf {M : Type} [AddCommMonoid M] (t : List (Int × Nat)) (f : Int → M) :
    ((facesOf t).map f).sum = wsum t f := by
  unfold facesOf wsum
  rw [List.map_flatMap, sum_flatMap']
  congr 1
  apply List.map_congr_left
  intro p _
  simp

theorem length_facesOf (t : List (Int × Nat)) : (facesOf t).length = (t.map Prod.snd).sum := by
  unfold facesOf
  rw [List.length_flatMap]
  congr 1
  apply List.map_congr_left
  intro p _; simp

theorem mem_facesOf (t : List (Int × Nat)) (v : Int) : v ∈ facesOf t ↔ ∃ p ∈ t, p.1 = v ∧ 0 < p.2 := by
  unfold facesOf
  simp only [List.mem_flatMap, List.mem_replicate]
  constructor
  · rintro ⟨p, hp, h0, rfl⟩; exact ⟨p, hp, rfl, by omega⟩
  · rintro ⟨p, hp, rfl, h0⟩; exact ⟨p, hp, by omega, rfl⟩

theorem sum_tuples_succ {α M : Type} [AddCommMonoid M] (fs : List α) (n : Nat) (F : List α → M) :
    ((tuples fs (n + 1)).map F).sum = (fs.map fun f => ((tuples fs n).map fun l => F (f :: l)).sum).sum := by
  show ((fs.flatMap _).map F).sum = _
  rw [List.map_flatMap, sum_flatMap']
  simp [Function.comp_def]

theorem mem_tuples {α : Type} (fs : List α) (n : Nat) (l : List α) : l ∈ tuples fs n ↔ l.length = n ∧ ∀ x ∈ l, x ∈ fs := by
  induction n generalizing l with
  | zero => simp only [tuples, List.mem_singleton, List.length_eq_zero_iff]
            constructor
            · rintro rfl; simp
            · exact fun h => h.1
  | succ n ih =>
    simp only [tuples, List.mem_flatMap, List.mem_map, ih]
    constructor
    · rintro ⟨f, hf, l', ⟨h1, h2⟩, rfl⟩
      refine ⟨by simp [h1], ?_⟩
      intro x hx
      rcases List.mem_cons.mp hx with rfl | hx
      · exact hf
      · exact h2 x hx
    · rintro ⟨h1, h2⟩
      cases l with
      | nil => simp at h1
      | cons f l => exact ⟨f, h2 f (by simp), l, ⟨by simpa using h1, fun x hx => h2 x (by simp [hx])⟩, rfl⟩

theorem length_tuples {α : Type} (fs : List α) (n : Nat) : (tuples fs n).length = fs.length ^ n := by
  induction n with
  | zero => rfl
  | succ n ih => simp [tuples, List.length_flatMap, ih, Function.comp_def, Nat.pow_succ, Nat.mul_comm]

theorem count_filter {α : Type} (l : List α) (score : α → Int) (v : Int) :
    (l.map fun a => if score a = v then 1 else 0).sum = (l.filter fun a => decide (score a = v)).length := by
  induction l with
  | nil => rfl
  | cons a l ih =>
    by_cases h : score a = v
    · simp [h, ih, Nat.add_comm]
    · simp [h, ih]

section
variable [R : PyRuntime]

/-- What all distributions of dice terms have in common. -/
structure Dist.Plain (d : Dist) : Prop where
  constructed : d.Constructed
  untied : d.Untied
  proper : d.Proper

theorem mkDistInt_plain (m : List (Int × Nat)) : ∃ d, mkDistInt m = .ok d ∧ d.Plain ∧
    (∀ {M : Type} [AddCommMonoid M] (f : Int → M), d.E f = wsum m f) ∧ (∀ v, hasKey d.getResultMap v ↔ hasKey m v) := by
  obtain ⟨d, h1, h2, h3, h4, h5, h6⟩ := mkDistInt_spec m
  exact ⟨d, h1, ⟨h2, h3, h4⟩, h5, h6⟩

theorem binop_plain {op : BinOp} {a b d : Dist} (h : Dist.binop op a b = .ok d) (pa : a.Plain) (pb : b.Plain) : d.Plain :=
  ⟨binop_constructed h, binop_untied h pa.proper pa.untied pb.untied, binop_proper h pa.proper⟩

theorem binop_hasKey {op : BinOp} {a b d : Dist} (h : Dist.binop op a b = .ok d) (pa : a.Plain) (pb : b.Plain) (v : Int) :
    hasKey d.getResultMap v ↔ ∃ x y, hasKey a.getResultMap x ∧ hasKey b.getResultMap y ∧ op.apply x y = .ok v := by
  have hs := binop_support_given h pa.proper (fun _ => 0) v
  have pd := binop_plain h pa pb
  simp only [hasKey_getResultMap]
  constructor
  · rintro ⟨e, he, hv⟩
    obtain ⟨p, hp, q, hq, h1, _⟩ := hs.mp ⟨e, he, hv, pd.untied e he _⟩
    exact ⟨_, _, ⟨p, hp, rfl⟩, ⟨q, hq, rfl⟩, h1⟩
  · rintro ⟨_, _, ⟨p, hp, rfl⟩, ⟨q, hq, rfl⟩, h1⟩
    obtain ⟨e, he, hv, _⟩ := hs.mpr ⟨p, hp, q, hq, h1, pa.untied p hp _, pb.untied q hq _⟩
    exact ⟨e, he, hv⟩

theorem addDice_spec {single : Dist} (ps : single.Plain) (fs ks : List Int)
    (hE : ∀ {M : Type} [AddCommMonoid M] (f : Int → M), single.E f = (fs.map f).sum)
    (hK : ∀ v, hasKey single.getResultMap v ↔ v ∈ ks) : ∀ (n : Nat) (d : Dist), d.Plain →
    ∃ d', addDice single n d = .ok d' ∧ d'.Plain ∧
      (∀ {M : Type} [AddCommMonoid M] (f : Int → M), d'.E f = d.E (fun x => ((tuples fs n).map fun l => f (x + l.sum)).sum)) ∧
      (∀ v, hasKey d'.getResultMap v ↔ ∃ x, hasKey d.getResultMap x ∧ ∃ l ∈ tuples ks n, v = x + l.sum) := by
  intro n
  induction n with
  | zero =>
    intro d pd
    refine ⟨d, rfl, pd, ?_, ?_⟩
    · intro M _ f; simp [tuples]
    · intro v; simp [tuples]
  | succ n ih =>
    intro d pd
    obtain ⟨e, he⟩ : ∃ e, Dist.binop .add d single = .ok e :=
      (binop_ok_iff pd.proper).mpr (fun p _ q _ => ⟨_, rfl⟩)
    obtain ⟨d', h1, h2, h3, h4⟩ := ih e (binop_plain he pd ps)
    refine ⟨d', ?_, h2, ?_, ?_⟩
    · simp only [addDice, he]; exact h1
    · intro M _ f
      rw [h3, binop_E he pd.proper pd.untied ps.untied]
      congr 1
      funext x
      rw [sum_tuples_succ, hE]
      simp [onOk, BinOp.apply, add_assoc]
    · intro v
      rw [h4]
      constructor
      · rintro ⟨x, hx, l, hl, rfl⟩
        obtain ⟨a, b, ha, hb, hab⟩ := (binop_hasKey he pd ps x).mp hx
        simp only [BinOp.apply, Except.ok.injEq] at hab
        refine ⟨a, ha, b :: l, ?_, ?_⟩
        · rw [mem_tuples] at hl ⊢
          refine ⟨by simp [hl.1], ?_⟩
          intro y hy
          rcases List.mem_cons.mp hy with rfl | hy
          · exact (hK _).mp hb
          · exact hl.2 y hy
        · simp [← hab, add_assoc]
      · rintro ⟨a, ha, l, hl, rfl⟩
        rw [mem_tuples] at hl
        cases l with
        | nil => simp at hl
        | cons b l =>
          refine ⟨a + b, (binop_hasKey he pd ps _).mpr ⟨a, b, ha, (hK b).mpr (hl.2 b (by simp)), rfl⟩, l, ?_, ?_⟩
          · rw [mem_tuples]; exact ⟨by simpa using hl.1, fun x hx => hl.2 x (by simp [hx])⟩
          · simp [add_assoc]

/-- The distribution of `n` dice, `n >= 1`. -/
theorem diceDist_spec (t : DiceTerm) (hn : 1 ≤ t.number) : ∃ d, t.dist = .ok d ∧ d.Plain ∧
    (∀ {M : Type} [AddCommMonoid M] (f : Int → M), d.E f = ((tuples (facesOf t.table) t.number).map fun l => f l.sum).sum) ∧
    (∀ v, hasKey d.getResultMap v ↔ ∃ l ∈ tuples (t.table.map Prod.fst) t.number, v = l.sum) := by
  obtain ⟨single, hs, ps, hE, hK⟩ := mkDistInt_plain t.table
  obtain ⟨d0, hd0, pd0, hE0, hK0⟩ := mkDistInt_plain single.getResultMap
  have hE' : ∀ {M : Type} [AddCommMonoid M] (f : Int → M), single.E f = ((facesOf t.table).map f).sum := by
    intro M _ f; rw [hE, sum_facesOf]
  obtain ⟨d, h1, h2, h3, h4⟩ := addDice_spec ps (facesOf t.table) (t.table.map Prod.fst) hE' hK (t.number - 1) d0 pd0
  obtain ⟨m, hm⟩ : ∃ m, t.number = m + 1 := ⟨t.number - 1, by omega⟩
  refine ⟨d, ?_, h2, ?_, ?_⟩
  · unfold DiceTerm.dist
    simp only [hs, hd0, ok_bind]
    exact h1
  · intro M _ f
    rw [h3, hE0, wsum_getResultMap, hE', hm, sum_tuples_succ]
    simp
  · intro v
    rw [h4, hm]
    simp only [hK0, hK, Nat.add_sub_cancel]
    constructor
    · rintro ⟨x, hx, l, hl, rfl⟩
      refine ⟨x :: l, ?_, by simp⟩
      rw [mem_tuples] at hl ⊢
      refine ⟨by simp [hl.1], ?_⟩
      intro y hy
      rcases List.mem_cons.mp hy with rfl | hy
      · exact hx
      · exact hl.2 y hy
    · rintro ⟨l, hl, rfl⟩
      rw [mem_tuples] at hl
      cases l with
      | nil => simp at hl
      | cons x l =>
        refine ⟨x, hl.2 x (by simp), l, ?_, by simp⟩
        rw [mem_tuples]; exact ⟨by simpa using hl.1, fun y hy => hl.2 y (by simp [hy])⟩

/-- With 0 dice the loop does not run and the distribution is that of one die. -/
theorem diceDist_zero (t : DiceTerm) (hn : t.number = 0) : t.dist = ({ t with number := 1 } : DiceTerm).dist := by
  unfold DiceTerm.dist
  simp [hn]

omit R in
theorem sum_le_of_forall {l : List Int} {b : Int} (h : ∀ x ∈ l, x ≤ b) : l.sum ≤ b * l.length := by
  induction l with
  | nil => simp
  | cons x l ih =>
    have h1 := h x (by simp)
    have h2 := ih (fun y hy => h y (by simp [hy]))
    simp only [List.sum_cons, List.length_cons]
    push_cast
    rw [Int.mul_add]
    omega

omit R in
theorem le_sum_of_forall {l : List Int} {b : Int} (h : ∀ x ∈ l, b ≤ x) : b * l.length ≤ l.sum := by
  induction l with
  | nil => simp
  | cons x l ih =>
    have h1 := h x (by simp)
    have h2 := ih (fun y hy => h y (by simp [hy]))
    simp only [List.sum_cons, List.length_cons]
    push_cast
    rw [Int.mul_add]
    omega

end

/-! ### Random choice -/

theorem accumulate_length (acc : Nat) (ws : List Nat) : (accumulate acc ws).length = ws.length := by
  induction ws generalizing acc with
  | nil => rfl
  | cons w ws ih => simp [accumulate, ih]

theorem accumulate_getLast (acc : Nat) (ws : List Nat) (h : ws ≠ []) : (accumulate acc ws).getLast? = some (acc + ws.sum) := by
  induction ws generalizing acc with
  | nil => exact absurd rfl h
  | cons w ws ih =>
    cases ws with
    | nil => simp [accumulate]
    | cons v ws =>
      have := ih (acc + w) (by simp)
      rw [accumulate]
      simp only [accumulate, List.getLast?_cons_cons] at this ⊢
      rw [this]; simp [add_assoc]

/-- `bisect` on the cumulative weights finds the face that the draw falls on. -/
theorem choose_eq : ∀ (t : List (Int × Nat)) (acc x : Nat) (v : Int), (facesOf t)[x]? = some v →
    choose (t.map Prod.fst) (accumulate acc (t.map Prod.snd)) (acc + x) = .ok v := by
  intro t
  induction t with
  | nil => intro acc x v h; simp [facesOf] at h
  | cons p t ih =>
    intro acc x v h
    obtain ⟨k, w⟩ := p
    have hf : facesOf ((k, w) :: t) = List.replicate w k ++ facesOf t := by simp [facesOf]
    rw [hf] at h
    cases t with
    | nil =>
      simp only [facesOf, List.flatMap_nil, List.append_nil] at h
      rw [List.getElem?_replicate] at h
      split at h
      · injection h with h
        simp [choose, accumulate, bisectIndex, h]
      · simp at h
    | cons q t =>
      by_cases hx : x < w
      · rw [List.getElem?_append_left (by simpa using hx), List.getElem?_replicate, if_pos hx] at h
        injection h with h
        unfold choose bisectIndex
        simp only [List.map_cons, accumulate, List.dropLast_cons_cons]
        rw [List.takeWhile_cons_of_neg (by simp; omega)]
        simp [h]
      · rw [List.getElem?_append_right (by simpa using hx)] at h
        simp only [List.length_replicate] at h
        have := ih (acc + w) (x - w) v h
        rw [show acc + w + (x - w) = acc + x by omega] at this
        unfold choose bisectIndex at this ⊢
        simp only [List.map_cons, accumulate, List.dropLast_cons_cons] at this ⊢
        rw [List.takeWhile_cons_of_pos (by simp; omega)]
        simpa using this

theorem Rand.bind_assoc {α β γ : Type} (r : Rand α) (f : α → Rand β) (g : β → Rand γ) :
    (r.bind f).bind g = r.bind (fun a => (f a).bind g) := by
  induction r with
  | pure a => rfl
  | draw n k ih => simp only [Rand.bind, ih]

theorem Rand.expect_bind {α β : Type} (r : Rand α) (f : α → Rand β) (F : β → ℚ) :
    (r.bind f).expect F = r.expect (fun a => (f a).expect F) := by
  induction r with
  | pure a => rfl
  | draw n k ih => simp only [Rand.bind, Rand.expect, ih]

theorem Rand.expect_congr {α : Type} {r : Rand α} {F G : α → ℚ} (h : ∀ a, Rand.Possible a r → F a = G a) :
    r.expect F = r.expect G := by
  induction r with
  | pure a => exact h a .pure
  | draw n k ih =>
    simp only [Rand.expect]
    congr 2
    apply List.map_congr_left
    intro t ht
    exact ih t (fun a ha => h a (.draw t (List.mem_range.mp ht) ha))

theorem Rand.possible_bind {α β : Type} {r : Rand α} {f : α → Rand β} {b : β} :
    Rand.Possible b (r.bind f) ↔ ∃ a, Rand.Possible a r ∧ Rand.Possible b (f a) := by
  induction r with
  | pure a =>
    constructor
    · intro h; exact ⟨a, .pure, h⟩
    · rintro ⟨_, ⟨⟩, h⟩; exact h
  | draw n k ih =>
    constructor
    · intro h
      cases h with
      | draw t ht h =>
        obtain ⟨a, h1, h2⟩ := (ih t).mp h
        exact ⟨a, .draw t ht h1, h2⟩
    · rintro ⟨a, h1, h2⟩
      cases h1 with
      | draw t ht h1 => exact .draw t ht ((ih t).mpr ⟨a, h1, h2⟩)

theorem Rand.possible_pure {α : Type} {a b : α} : Rand.Possible b (.pure a) ↔ b = a := by
  constructor
  · rintro ⟨⟩; rfl
  · rintro rfl; exact .pure

theorem sum_range_getElem {α M : Type} [AddCommMonoid M] (l : List α) (G : Nat → M) (F : α → M)
    (h : ∀ t a, l[t]? = some a → G t = F a) : ((List.range l.length).map G).sum = (l.map F).sum := by
  congr 1
  apply List.ext_getElem
  · simp
  · intro i h1 h2
    simp only [List.getElem_map, List.getElem_range]
    apply h
    simp only [List.length_map] at h2
    exact List.getElem?_eq_getElem h2

theorem chooseMany_expect (t : List (Int × Nat)) (F : Res (List Int) → ℚ) : ∀ n : Nat,
    (chooseMany (t.map Prod.fst) (accumulate 0 (t.map Prod.snd)) (facesOf t).length n).expect F =
      ((tuples (facesOf t) n).map fun l => F (.ok l)).sum / ((facesOf t).length : ℚ) ^ n := by
  intro n
  induction n generalizing F with
  | zero => simp [chooseMany, Rand.expect, tuples]
  | succ n ih =>
    rw [chooseMany, Rand.expect, sum_tuples_succ]
    rw [sum_range_getElem (facesOf t) _ (fun v => ((tuples (facesOf t) n).map fun l => F (.ok (v :: l))).sum /
      ((facesOf t).length : ℚ) ^ n)]
    · have : ∀ l : List Int, (l.map fun v => ((tuples (facesOf t) n).map fun l => F (.ok (v :: l))).sum /
          ((facesOf t).length : ℚ) ^ n).sum =
          (l.map fun v => ((tuples (facesOf t) n).map fun l => F (.ok (v :: l))).sum).sum / ((facesOf t).length : ℚ) ^ n := by
        intro l
        induction l with
        | nil => simp
        | cons a l ih => simp only [List.map_cons, List.sum_cons, ih, add_div]
      rw [this, div_div, pow_succ]
    · intro x v hx
      have hc := choose_eq t 0 x v hx
      rw [Nat.zero_add] at hc
      simp only [hc]
      rw [Rand.expect_bind]
      exact ih _

theorem chooseMany_possible (t : List (Int × Nat)) : ∀ (n : Nat) (r : Res (List Int)),
    Rand.Possible r (chooseMany (t.map Prod.fst) (accumulate 0 (t.map Prod.snd)) (t.map Prod.snd).sum n) ↔
      ∃ l ∈ tuples (facesOf t) n, r = .ok l := by
  intro n
  induction n with
  | zero => intro r; simp [chooseMany, Rand.possible_pure, tuples]
  | succ n ih =>
    intro r
    rw [chooseMany]
    constructor
    · intro h
      cases h with
      | draw x hx h =>
        rw [← length_facesOf] at hx
        have hc := choose_eq t 0 x _ (List.getElem?_eq_getElem hx)
        rw [Nat.zero_add] at hc
        simp only [hc] at h
        obtain ⟨a, h1, h2⟩ := Rand.possible_bind.mp h
        obtain ⟨l, hl, rfl⟩ := (ih a).mp h1
        refine ⟨(facesOf t)[x] :: l, ?_, Rand.possible_pure.mp h2⟩
        rw [mem_tuples] at hl ⊢
        refine ⟨by simp [hl.1], ?_⟩
        intro y hy
        rcases List.mem_cons.mp hy with rfl | hy
        · exact List.getElem_mem _
        · exact hl.2 y hy
    · rintro ⟨l, hl, rfl⟩
      rw [mem_tuples] at hl
      cases l with
      | nil => simp at hl
      | cons v l =>
        obtain ⟨x, hx, hv⟩ := List.mem_iff_getElem.mp (hl.2 v (by simp))
        refine .draw x (by rw [← length_facesOf]; exact hx) ?_
        have hc := choose_eq t 0 x v (by rw [List.getElem?_eq_getElem hx, hv])
        rw [Nat.zero_add] at hc
        simp only [hc]
        refine Rand.possible_bind.mpr ⟨.ok l, (ih _).mpr ⟨l, ?_, rfl⟩, .pure⟩
        rw [mem_tuples]; exact ⟨by simpa using hl.1, fun y hy => hl.2 y (by simp [hy])⟩

theorem choices_eq (t : List (Int × Nat)) (h : 0 < (t.map Prod.snd).sum) (n : Nat) :
    choices t n = chooseMany (t.map Prod.fst) (accumulate 0 (t.map Prod.snd)) (t.map Prod.snd).sum n := by
  unfold choices
  have hne : t.map Prod.snd ≠ [] := by intro h0; rw [h0] at h; simp at h
  simp only [accumulate_getLast 0 _ hne, Nat.zero_add]
  rw [if_neg (by omega)]

end PyDice
