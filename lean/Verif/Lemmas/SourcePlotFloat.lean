import Verif.Lemmas.SourcePlot
import Verif.Lemmas.FloatPlot
/-!
# What the texts draw, with arithmetic on doubles

The numbers are those of `Verif/FloatPlot.lean`; there the int 0 of a missing key is the number 0.
-/
namespace PyDice.Source
open PyRuntime

/-- A float or the int 0. -/
def Plain : PyNum → Prop
  | .f _ => True
  | .i n => n = 0

/-- The numbers of a dict. -/
def numQ (d : List (Int × PyNum)) : List (Int × ℚ) := d.map fun p => (p.1, p.2.q)

theorem sortedPairs_q (xs : List Int) (ys : List PyNum) :
    sortedZip xs (ys.map PyNum.q) = (fun p => (p.1, p.2.map PyNum.q)) <$> sortedPairs xs ys := by
  have e : (xs.zip (ys.map PyNum.q)).mergeSort (fun a b => decide (a.1 < b.1 ∨ (a.1 = b.1 ∧ a.2 ≤ b.2))) =
      ((xs.zip ys).mergeSort leN).map (fun p => (p.1, p.2.q)) := by
    rw [List.map_mergeSort (s := fun a b : Int × ℚ => decide (a.1 < b.1 ∨ (a.1 = b.1 ∧ a.2 ≤ b.2))) (by intros; rfl), List.zip_map_right]
    rfl
  unfold sortedZip
  rw [e, sortedPairs_eq]
  cases (xs.zip ys).mergeSort leN with
  | nil => rfl
  | cons p t => simp [Function.comp_def]

theorem half_double : toDouble (1 / 2) = 1 / 2 := toDouble_exact (by simpa using isDouble_half (n := 1) (by norm_num))

theorem lowG_shift (v : Int) : lowG toFloat toDouble v = shiftF v (-(1 / 2)) := by
  unfold lowG shiftF
  rw [half_double]
  simp only [sub_eq_add_neg]
theorem highG_shift (v : Int) : highG toFloat toDouble v = shiftF v (1 / 2) := by
  unfold highG shiftF
  rw [half_double]

theorem maxN_q (t : List PyNum) (y : PyNum) : (maxN t y).q = (t.map PyNum.q).foldl (fun m y => if m < y then y else m) y.q := by
  induction t generalizing y with
  | nil => rfl
  | cons x t ih =>
    simp only [maxN, List.map_cons, List.foldl_cons]
    split
    · rw [ih]
    · rw [ih]

theorem maxN_mem (t : List PyNum) (y : PyNum) : maxN t y ∈ y :: t := by
  induction t generalizing y with
  | nil => simp [maxN]
  | cons x t ih =>
    simp only [maxN]
    split
    · exact List.mem_cons_of_mem _ (ih x)
    · rcases List.mem_cons.mp (ih y) with h | h
      · rw [h]; simp
      · simp [h]

theorem plain_float {y : PyNum} (h : Plain y) : y.float toFloat = .ok y.q := by
  cases y with
  | f x => rfl
  | i n => cases h; simpa [PyNum.float, PyNum.q] using toFloat_int (v := 0) (by norm_num)

theorem makeHist_floats (xs : List Int) (ys : List PyNum) (avg : Option ℚ) (hp : ∀ y ∈ ys, Plain y) :
    HistPic.picture <$> makeHistG toFloat toDouble xs ys avg = makeHistogramF xs (ys.map PyNum.q) avg := by
  unfold makeHistG makeHistogramF
  have hs : ∀ r, sortedPairs xs ys = .ok r → ∀ y ∈ r.2, Plain y := by
    intro r hr y hy
    have e : sortedPairs xs ys = if ((xs.zip ys).mergeSort leN).length = 0 then .error .value
      else .ok (((xs.zip ys).mergeSort leN).map Prod.fst, ((xs.zip ys).mergeSort leN).map Prod.snd) := rfl
    rw [e] at hr
    split at hr
    · cases hr
    · cases hr
      obtain ⟨p, hp', rfl⟩ := List.mem_map.mp hy
      exact hp _ (List.of_mem_zip (List.mem_mergeSort.mp hp')).2
  rw [sortedPairs_q]
  have el : lowG toFloat toDouble = fun v => shiftF v (-(1 / 2)) := funext lowG_shift
  cases hr : sortedPairs xs ys with
  | error e => rfl
  | ok r =>
    obtain ⟨xs', ys'⟩ := r
    have hp' := hs _ hr
    have hne : ys' ≠ [] := by
      rw [sortedPairs_eq] at hr
      intro h0
      split at hr
      · cases hr
      · cases hr; simp at h0
    change HistPic.picture <$> (xs'.mapM (lowG toFloat toDouble) >>= _) = (xs'.mapM (fun v => shiftF v (-(1 / 2))) >>= _)
    rw [el]
    cases xs'.mapM (fun v => shiftF v (-(1 / 2))) with
    | error e => rfl
    | ok bins =>
      cases hl : xs'.getLast? with
      | none => simp
      | some last =>
        obtain ⟨y, t, rfl⟩ := List.exists_cons_of_ne_nil hne
        have hm := plain_float (hp' _ (maxN_mem t y))
        simp only [highG_shift]
        change HistPic.picture <$> (shiftF last (1 / 2) >>= _) = (shiftF last (1 / 2) >>= _)
        cases shiftF last (1 / 2) with
        | error e => rfl
        | ok top => cases avg with
          | none => rfl
          | some a =>
            have : heightG toFloat toDouble (maxN t y) = .ok (toDouble ((maxN t y).q * toDouble (11 / 10))) := by
              unfold heightG; rw [hm]; rfl
            change HistPic.picture <$> (heightG toFloat toDouble (maxN t y) >>= _) = _
            rw [this, maxN_q]
            rfl

theorem get_numQ (d : List (Int × PyNum)) (k : Int) : dictGet? (numQ d) k = (dictGet? d k).map PyNum.q := by
  induction d with
  | nil => rfl
  | cons p t ih =>
    simp only [numQ, List.map_cons, dictGet?] at ih ⊢
    by_cases h : p.1 = k
    · simp [h]
    · simpa [h] using ih

theorem set_numQ (d : List (Int × PyNum)) (k : Int) (x : PyNum) : dictSet (numQ d) k x.q = numQ (dictSet d k x) := by
  induction d with
  | nil => rfl
  | cons p t ih =>
    simp only [numQ, List.map_cons, dictSet] at ih ⊢
    by_cases h : p.1 = k
    · simp [h]
    · simp [h, ih]

theorem lookup_numQ (d : List (Int × PyNum)) (xs : List Int) : lookupAll (numQ d) xs = (lookupN d xs).map PyNum.q := by
  simp only [lookupAll, lookupN, List.map_map]
  refine List.map_congr_left fun k _ => ?_
  rw [get_numQ]
  cases h : dictGet? d k with
  | none => simp [h, PyNum.q]
  | some x => simp [h]

theorem keys_numQ (d : List (Int × PyNum)) : (numQ d).map Prod.fst = d.map Prod.fst := by simp [numQ, Function.comp_def]

theorem numQ_fltN (d : List (Int × ℚ)) : numQ (fltN d) = d := by simp [numQ, fltN, PyNum.q, Function.comp_def]

/-- Every number of the dict is a float or the int 0. -/
def PlainD (d : List (Int × PyNum)) : Prop := ∀ p ∈ d, Plain p.2

theorem plainD_get {d : List (Int × PyNum)} (h : PlainD d) {k : Int} {x : PyNum} (hx : dictGet? d k = some x) : Plain x := by
  induction d with
  | nil => cases hx
  | cons p t ih =>
    simp only [dictGet?] at hx
    split at hx
    · cases hx; exact h p (by simp)
    · exact ih (fun q hq => h q (by simp [hq])) hx

theorem plainD_lookup {d : List (Int × PyNum)} (h : PlainD d) (xs : List Int) : ∀ y ∈ lookupN d xs, Plain y := by
  intro y hy
  obtain ⟨k, _, rfl⟩ := List.mem_map.mp hy
  cases e : dictGet? d k with
  | none => simp [Plain]
  | some x => exact plainD_get h e

theorem plainD_fltN (d : List (Int × ℚ)) : PlainD (fltN d) := by
  intro p hp
  obtain ⟨q, _, rfl⟩ := List.mem_map.mp hp
  trivial

theorem plainD_set {d : List (Int × PyNum)} (h : PlainD d) (k : Int) : PlainD (dictSet d k (.i 0)) := by
  induction d with
  | nil => intro p hp; simp [dictSet] at hp; subst hp; rfl
  | cons q t ih =>
    have ih := ih fun q hq => h q (by simp [hq])
    simp only [dictSet]
    split
    · intro p hp
      rcases List.mem_cons.mp hp with rfl | hp
      · rfl
      · exact h p (by simp [hp])
    · intro p hp
      rcases List.mem_cons.mp hp with rfl | hp
      · exact h _ (by simp)
      · exact ih p hp

theorem fill_numQ (l : List Int) (d : List (Int × PyNum)) (hd : PlainD d) :
    PlainD (l.foldl (fun d i => if (dictGet? d i).isSome then d else dictSet d i (.i 0)) d) ∧
    numQ (l.foldl (fun d i => if (dictGet? d i).isSome then d else dictSet d i (.i 0)) d) =
      l.foldl (fun d i => if (dictGet? d i).isSome then d else dictSet d i 0) (numQ d) := by
  induction l generalizing d with
  | nil => exact ⟨hd, rfl⟩
  | cons k t ih =>
    simp only [List.foldl_cons]
    rw [get_numQ, Option.isSome_map, show (0 : ℚ) = (PyNum.i 0).q by simp [PyNum.q], set_numQ]
    cases (dictGet? d k).isSome with
    | true => simpa [PyNum.q] using ih d hd
    | false => simpa [PyNum.q] using ih _ (plainD_set hd k)

theorem histN_numQ (base : List (Int × ℚ)) :
    (histN base = .error .index ∧ getHistogramForm base = .error .index) ∨
      ∃ h, histN base = .ok h ∧ PlainD h ∧ getHistogramForm base = .ok (numQ h) := by
  have e1 : getHistogramForm base = match (base.mergeSort (fun a b => decide (a.1 ≤ b.1))).head?, (base.mergeSort (fun a b => decide (a.1 ≤ b.1))).getLast? with
    | some lo, some hi => .ok ((pyRange lo.1 (hi.1 + 1)).foldl
      (fun d i => if (dictGet? d i).isSome then d else dictSet d i 0) base)
    | _, _ => .error .index := rfl
  have e2 : histN base = match (base.mergeSort (fun a b => decide (a.1 ≤ b.1))).head?, (base.mergeSort (fun a b => decide (a.1 ≤ b.1))).getLast? with
    | some lo, some hi => .ok ((pyRange lo.1 (hi.1 + 1)).foldl
      (fun d i => if (dictGet? d i).isSome then d else dictSet d i (.i 0)) (fltN base))
    | _, _ => .error .index := rfl
  generalize base.mergeSort (fun a b => decide (a.1 ≤ b.1)) = l at e1 e2
  cases h1 : l.head? with
  | none => exact .inl ⟨by rw [e2, h1], by rw [e1, h1]⟩
  | some lo => cases h2 : l.getLast? with
    | none => exact .inl ⟨by rw [e2, h1, h2], by rw [e1, h1, h2]⟩
    | some hi =>
      rw [h1, h2] at e1 e2
      obtain ⟨p1, p2⟩ := fill_numQ (pyRange lo.1 (hi.1 + 1)) (fltN base) (plainD_fltN base)
      exact .inr ⟨_, e2, p1, by rw [e1, p2, numQ_fltN]⟩

theorem yValue_numQ {a b : List (Int × PyNum)} (ha : PlainD a) (hb : PlainD b) (k : Int) :
    ∃ v, yValueG toFloat toDouble a b k = .ok v ∧ Plain v ∧ v.q = yValueF (numQ a) (numQ b) k := by
  have f0 : toFloat ((0 : Int) : ℚ) = .ok ((0 : Int) : ℚ) := toFloat_int (by norm_num)
  have d0 : toDouble 0 = 0 := toDouble_zero
  have hadd : ∀ x, Plain x → ∃ v, addN toFloat toDouble (.i 0) x = .ok v ∧ Plain v ∧ v.q = toDouble (0 + x.q) := by
    intro x hx
    cases x with
    | i n => cases hx; exact ⟨.i 0, rfl, rfl, by simp [PyNum.q, d0]⟩
    | f x => exact ⟨.f (toDouble (((0 : Int) : ℚ) + x)), by simp only [addN, PyNum.float, f0]; rfl, trivial, by simp [PyNum.q]⟩
  have hsub : ∀ v x, Plain v → Plain x → ∃ w, subN toFloat toDouble v x = .ok w ∧ Plain w ∧ w.q = toDouble (v.q - x.q) := by
    intro v x hv hx
    cases v with
    | i n => cases hv; cases x with
      | i m => cases hx; exact ⟨.i 0, rfl, rfl, by simp [PyNum.q, d0]⟩
      | f x => exact ⟨.f (toDouble (((0 : Int) : ℚ) - x)), by simp only [subN, PyNum.float, f0]; rfl, trivial, rfl⟩
    | f v => cases x with
      | i m => cases hx; exact ⟨.f (toDouble (v - ((0 : Int) : ℚ))), by simp only [subN, PyNum.float, f0]; rfl, trivial, rfl⟩
      | f x => exact ⟨.f (toDouble (v - x)), rfl, trivial, rfl⟩
  unfold yValueG yValueF
  rw [get_numQ, get_numQ]
  cases h1 : dictGet? a k with
  | none => cases h2 : dictGet? b k with
    | none => exact ⟨.i 0, rfl, rfl, by simp [PyNum.q]⟩
    | some y =>
      obtain ⟨w, w1, w2, w3⟩ := hsub (.i 0) y rfl (plainD_get hb h2)
      exact ⟨w, w1, w2, by simpa [PyNum.q] using w3⟩
  | some x =>
    obtain ⟨v, v1, v2, v3⟩ := hadd x (plainD_get ha h1)
    cases h2 : dictGet? b k with
    | none => exact ⟨v, by simp only [v1]; rfl, v2, by simpa using v3⟩
    | some y =>
      obtain ⟨w, w1, w2, w3⟩ := hsub v y v2 (plainD_get hb h2)
      exact ⟨w, by simp only [v1]; exact w1, w2, by simp only [Option.map_some]; rw [w3, v3]⟩

theorem yValues_numQ {a b : List (Int × PyNum)} (ha : PlainD a) (hb : PlainD b) (xs : List Int) :
    ∃ l, xs.mapM (yValueG toFloat toDouble a b) = .ok l ∧ (∀ y ∈ l, Plain y) ∧ l.map PyNum.q = xs.map (yValueF (numQ a) (numQ b)) := by
  induction xs with
  | nil => exact ⟨[], rfl, by simp, rfl⟩
  | cons k t ih =>
    obtain ⟨l, l1, l2, l3⟩ := ih
    obtain ⟨v, v1, v2, v3⟩ := yValue_numQ ha hb k
    refine ⟨v :: l, ?_, ?_, by simp [l3, v3]⟩
    · rw [List.mapM_cons, v1, l1]; rfl
    · intro y hy
      rcases List.mem_cons.mp hy with rfl | hy
      · exact v2
      · exact l2 y hy

theorem lines_numQ (a b : List (Int × PyNum)) : LinePic.pair <$> linesOf a b = makeLinePlot (numQ a) (numQ b) := by
  unfold linesOf makeLinesG makeLinePlot
  simp only [keys_numQ, lookup_numQ, sortedPairs_q]
  cases sortedPairs (a.map Prod.fst) (lookupN a (a.map Prod.fst)) with
  | error e => rfl
  | ok r => cases sortedPairs (b.map Prod.fst) (lookupN b (b.map Prod.fst)) with
    | error e => rfl
    | ok s => rfl

section
variable [R : PyRuntime]

theorem atLeastG_floats (d : Dist) : atLeastG toFloat toDouble d = d.atLeastF := by
  have e : ∀ h l t acc, atLeastLoopG toDouble h l t acc = atLeastLoopF h l t acc := by
    intro h l
    induction l with
    | nil => intros; rfl
    | cons k l ih => intros; simp [atLeastLoopG, atLeastLoopF, ih]
  simp only [atLeastG, e]
  rfl

theorem atMostG_floats (d : Dist) : atMostG toFloat toDouble d = d.atMostF := by
  have e : ∀ h l t acc, atMostLoopG toDouble h l t acc = atMostLoopF h l t acc := by
    intro h l
    induction l with
    | nil => intros; rfl
    | cons k l ih => intros; simp [atMostLoopG, atMostLoopF, ih]
  simp only [atMostG, e]
  rfl

theorem histogramG_floats (d : Dist) : HistPic.picture <$> histogramG toFloat toDouble d = d.histogramF := by
  unfold histogramG Dist.histogramF
  rw [show dictFormG toFloat d = d.getDictFormF from rfl, show averageG toFloat d = d.averageF from rfl]
  cases d.getDictFormF with
  | error e => rfl
  | ok base =>
    change HistPic.picture <$> (histN base >>= _) = (getHistogramForm base >>= _)
    obtain ⟨e1, e2⟩ | ⟨h, e1, hp, e2⟩ := histN_numQ base
    · rw [e1, e2]; rfl
    · rw [e1, e2]
      change HistPic.picture <$> (d.averageF >>= _) = (d.averageF >>= _)
      cases d.averageF with
      | error e => rfl
      | ok a =>
        rw [keys_numQ, lookup_numQ]
        exact makeHist_floats (h.map Prod.fst) (lookupN h (h.map Prod.fst)) (some a) (plainD_lookup hp _)

theorem tailHist_floats (h : List (Int × ℚ)) (d : Dist) :
    HistPic.picture <$> (averageG toFloat d >>= fun a =>
      makeHistG toFloat toDouble ((fltN h).map Prod.fst) (lookupN (fltN h) ((fltN h).map Prod.fst)) (some a)) =
      (d.averageF >>= fun a => makeHistogramF (h.map Prod.fst) (lookupAll h (h.map Prod.fst)) (some a)) := by
  rw [show averageG toFloat d = d.averageF from rfl]
  have hk := keys_numQ (fltN h)
  have hl := lookup_numQ (fltN h) (h.map Prod.fst)
  rw [numQ_fltN] at hk hl
  cases d.averageF with
  | error e => rfl
  | ok a =>
    rw [← hk, hl]
    exact makeHist_floats (h.map Prod.fst) (lookupN (fltN h) (h.map Prod.fst)) (some a) (plainD_lookup (plainD_fltN h) _)

theorem atLeastHistogramG_floats (d : Dist) : HistPic.picture <$> atLeastHistogramG toFloat toDouble d = d.atLeastHistogramF := by
  unfold atLeastHistogramG Dist.atLeastHistogramF
  rw [atLeastG_floats]
  cases d.atLeastF with
  | error e => rfl
  | ok h => exact tailHist_floats h d

theorem atMostHistogramG_floats (d : Dist) : HistPic.picture <$> atMostHistogramG toFloat toDouble d = d.atMostHistogramF := by
  unfold atMostHistogramG Dist.atMostHistogramF
  rw [atMostG_floats]
  cases d.atMostF with
  | error e => rfl
  | ok h => exact tailHist_floats h d

theorem compareHistogramG_floats (d d' : Dist) : HistPic.picture <$> compareHistogramG toFloat toDouble d d' = d.compareHistogramF d' := by
  unfold compareHistogramG Dist.compareHistogramF
  rw [show dictFormG toFloat d = d.getDictFormF from rfl, show dictFormG toFloat d' = d'.getDictFormF from rfl]
  cases d.getDictFormF with
  | error e => rfl
  | ok base =>
    change HistPic.picture <$> (histN base >>= _) = (getHistogramForm base >>= _)
    obtain ⟨e1, e2⟩ | ⟨h, e1, hp, e2⟩ := histN_numQ base
    · rw [e1, e2]; rfl
    · rw [e1, e2]
      change HistPic.picture <$> (d'.getDictFormF >>= _) = (d'.getDictFormF >>= _)
      cases d'.getDictFormF with
      | error e => rfl
      | ok base' =>
        change HistPic.picture <$> (histN base' >>= _) = (getHistogramForm base' >>= _)
        obtain ⟨e1, e2⟩ | ⟨h', e1, hp', e2⟩ := histN_numQ base'
        · rw [e1, e2]; rfl
        · rw [e1, e2]
          obtain ⟨l, l1, l2, l3⟩ := yValues_numQ hp hp' (h.map Prod.fst ++ h'.map Prod.fst)
          change HistPic.picture <$> ((h.map Prod.fst ++ h'.map Prod.fst).mapM (yValueG toFloat toDouble h h') >>= _) =
            makeHistogramF ((numQ h).map Prod.fst ++ (numQ h').map Prod.fst) (((numQ h).map Prod.fst ++ (numQ h').map Prod.fst).map (yValueF (numQ h) (numQ h'))) none
          rw [l1, keys_numQ, keys_numQ, ← l3]
          exact makeHist_floats (h.map Prod.fst ++ h'.map Prod.fst) l none l2

theorem compareG_floats (d d' : Dist) : LinePic.pair <$> compareG toFloat d d' = d.compareF d' := by
  unfold compareG Dist.compareF
  rw [show dictFormG toFloat d = d.getDictFormF from rfl, show dictFormG toFloat d' = d'.getDictFormF from rfl]
  cases d.getDictFormF with
  | error e => rfl
  | ok base =>
    change LinePic.pair <$> (histN base >>= _) = (getHistogramForm base >>= _)
    obtain ⟨e1, e2⟩ | ⟨h, e1, hp, e2⟩ := histN_numQ base
    · rw [e1, e2]; rfl
    · rw [e1, e2]
      change LinePic.pair <$> (d'.getDictFormF >>= _) = (d'.getDictFormF >>= _)
      cases d'.getDictFormF with
      | error e => rfl
      | ok base' =>
        change LinePic.pair <$> (histN base' >>= _) = (getHistogramForm base' >>= _)
        obtain ⟨e1, e2⟩ | ⟨h', e1, hp', e2⟩ := histN_numQ base'
        · rw [e1, e2]; rfl
        · rw [e1, e2]; exact lines_numQ h h'

theorem compareAtLeastG_floats (d d' : Dist) : LinePic.pair <$> compareAtLeastG toFloat toDouble d d' = d.compareAtLeastF d' := by
  unfold compareAtLeastG Dist.compareAtLeastF
  rw [atLeastG_floats, atLeastG_floats]
  cases d.atLeastF with
  | error e => rfl
  | ok h => cases d'.atLeastF with
    | error e => rfl
    | ok h' =>
      have := lines_numQ (fltN h) (fltN h')
      rw [numQ_fltN, numQ_fltN] at this
      exact this

theorem compareAtMostG_floats (d d' : Dist) : LinePic.pair <$> compareAtMostG toFloat toDouble d d' = d.compareAtMostF d' := by
  unfold compareAtMostG Dist.compareAtMostF
  rw [atMostG_floats, atMostG_floats]
  cases d.atMostF with
  | error e => rfl
  | ok h => cases d'.atMostF with
    | error e => rfl
    | ok h' =>
      have := lines_numQ (fltN h) (fltN h')
      rw [numQ_fltN, numQ_fltN] at this
      exact this
end
end PyDice.Source
