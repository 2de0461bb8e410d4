import Verif.Spec.SourcePlot
import Verif.Lemmas.SourceFloat
/-!
# The texts of the methods that draw: steps
-/
namespace PyDice.Source
open PyRuntime
section
variable [R : PyRuntime] (fl : ℚ → Res ℚ) (rd : ℚ → ℚ) (fs : ℚ → Str)
set_option linter.unusedSimpArgs false
set_option maxHeartbeats 1000000
local notation "P" => plotWorld fl rd fs

omit R
@[src] theorem P_method (o : PObj) (f : String) (args : List (Val PObj)) : (P).method o f args = libCall [o.name, f] args (.none, none) := rfl
@[src] theorem P_func (p : List String) (args : List (Val PObj)) : (P).func p args = plotFunc p args := rfl
@[src] theorem P_raise {α : Type} (e : Err) : (P).raise (α := α) e = plotRaise e := rfl
@[src] theorem P_strFl (q : ℚ) : (P).strFl q = pure (fs q) := rfl
@[src] theorem P_rnd (q : ℚ) : (P).rnd q = rd q := rfl
@[src] theorem P_toFl (q : ℚ) : (P).toFl q = fl q := rfl
@[src] theorem P_lift {α : Type} (x : Res α) : (P).lift x = plotR x := by cases x <;> rfl
@[src] theorem plotR_ok {α : Type} (a : α) : plotR (.ok a) = pure a := rfl
@[src] theorem plotR_error {α : Type} (e : Err) : (plotR (.error e) : PlotM α) = plotRaise e := rfl
@[src] theorem plotRaise_bind {α β : Type} (e : Err) (f : α → PlotM β) : ((plotRaise e : PlotM α) >>= f) = plotRaise e := rfl
@[src] theorem plotRaise_map {α β : Type} (e : Err) (f : α → β) : (f <$> (plotRaise e : PlotM α)) = plotRaise e := rfl
@[src] theorem P_subplots (args : List (Val PObj)) : callGlob P ["pyplot", "subplots"] args =
    libCall ["pyplot", "subplots"] args (.tuple [.obj .figure, .obj .axis]) := rfl
@[src] theorem P_savefig (args : List (Val PObj)) : callGlob P ["pyplot", "savefig"] args = libCall ["pyplot", "savefig"] args .none := rfl
@[src] theorem P_bytes (args : List (Val PObj)) : callGlob P ["io", "BytesIO"] args = libCall ["io", "BytesIO"] args (.obj .buffer) := rfl
@[src] theorem P_open (args : List (Val PObj)) : callGlob P ["Image", "open"] args = libCall ["Image", "open"] args (.obj .image) := rfl

/-- Write down a call. -/
def logCall (path : List String) (args : List (Val PObj)) : PlotM Unit := fun l => .ok ((), l ++ [⟨path, args⟩])
@[src] theorem libCall_eq {α : Type} (path : List String) (args : List (Val PObj)) (r : α) :
    libCall path args r = (logCall path args >>= fun _ => pure r) := rfl
@[src] theorem logCall_last (path : List String) (args : List (Val PObj)) :
    ((fun _ => .obj .image) <$> logCall path args) = drawing (.ok [⟨path, args⟩]) := rfl
@[src] theorem logCall_drawing (path : List String) (args : List (Val PObj)) (l : List LibCall) :
    (logCall path args >>= fun _ => drawing (.ok l)) = drawing (.ok (⟨path, args⟩ :: l)) := by
  funext before
  change Except.ok _ = Except.ok _
  rw [List.append_assoc]; rfl
@[src] theorem PObj_axis : PObj.axis.name = "axis" := rfl
@[src] theorem PObj_buffer : PObj.buffer.name = "buffer" := rfl

theorem plotR_bind {α β : Type} (x : Res α) (f : α → Res β) : plotR (x >>= f) = plotR x >>= fun a => plotR (f a) := by
  cases x <;> rfl
theorem plotR_map {α β : Type} (f : α → β) (x : Res α) : plotR (f <$> x) = f <$> plotR x := by
  cases x <;> rfl

/-- A pair of the plots as a tuple. -/
def tupN {Ω : Type} (p : Int × PyNum) : Val Ω := .tuple [.int p.1, p.2.val]

theorem zipV_num {Ω : Type} (xs : List Int) (ys : List PyNum) :
    zipV (xs.map .int) (ys.map PyNum.val) = (xs.zip ys).map (tupN (Ω := Ω)) := by
  induction xs generalizing ys with
  | nil => rfl
  | cons x t ih => cases ys with
    | nil => rfl
    | cons y u =>
      have := ih u
      simp only [zipV, List.map_cons, List.zipWith_cons_cons, List.zip_cons_cons] at this ⊢
      rw [this]; rfl

theorem numOf_val {Ω : Type} (y : PyNum) : numOf (y.val : Val Ω) = some y.q := by cases y <;> rfl

theorem pairsOfV_num {Ω : Type} (l : List (Int × PyNum)) :
    pairsOfV (l.map (tupN (Ω := Ω))) = some (l.map fun p => (p.1, p.2.q, p.2.val)) := by
  induction l with
  | nil => rfl
  | cons p t ih => simp [pairsOfV, tupN, numOf_val] at ih ⊢; simp [ih]

/-- The order of the pairs. -/
def leN (a b : Int × PyNum) : Bool := decide (a.1 < b.1 ∨ (a.1 = b.1 ∧ a.2.q ≤ b.2.q))

@[src] theorem sortedV_num (l : List (Int × PyNum)) : sortedV P (l.map tupN) = pure (.list ((l.mergeSort leN).map tupN)) := by
  simp only [sortedV, pairsOfV_num]
  rw [← List.map_mergeSort (r := leN) (by intros; rfl), List.map_map]
  rfl

@[src] theorem rows_num (l : List (Int × PyNum)) : mapVals (iterV P) (l.map tupN) = pure (l.map fun p => [.int p.1, p.2.val]) := by
  induction l with
  | nil => rfl
  | cons p t ih => simp [mapVals, ih, tupN, iterV]

@[src] theorem zipRows_num {Ω : Type} (p : Int × PyNum) (l : List (Int × PyNum)) :
    zipRows ((p :: l).map fun p => [(.int p.1 : Val Ω), p.2.val]) =
      [.tuple ((p :: l).map fun p => .int p.1), .tuple ((p :: l).map fun p => p.2.val)] := by
  have h : ∀ l : List (Int × PyNum), (l.map fun p => [(.int p.1 : Val Ω), p.2.val]).foldl (fun n s => min n s.length) 2 = 2 := by
    intro l
    induction l with
    | nil => rfl
    | cons p t ih => simpa using ih
  simp only [List.map_cons, zipRows]
  have h' := h (p :: l)
  simp only [List.map_cons] at h'
  rw [show [(.int p.1 : Val Ω), p.2.val].length = 2 from rfl, h']
  simp [List.range_succ, List.getD]

theorem bins_text (xs : List Int) (env : Env PObj) :
    compLoop P [] (.bin .sub (.name "value") (.flt 1 2)) (.name "value") (xs.map .int) env =
      (fun b => (b.map .flt, env)) <$> plotR (xs.mapM (lowG fl rd)) := by
  induction xs with
  | nil => rfl
  | cons x t ih =>
    simp [src, compLoop_cons, ih, List.mapM_cons, plotR_bind, plotR_map, binOp, toNum, lowG]

theorem maxV_num (y : PyNum) (t : List PyNum) : maxV P ((y :: t).map PyNum.val) = pure (maxN t y).val := by
  by_cases h : ((y :: t).map (PyNum.val : PyNum → Val PObj)).any isFlt
  · simp only [maxV, h, if_true, List.map_cons, numOf_val, Option.bind_some]
    have : ∀ (t : List PyNum) (y : PyNum), maxNum (t.map (PyNum.val (Ω := PObj))) y.q y.val = some (maxN t y).val := by
      intro t
      induction t with
      | nil => intro y; rfl
      | cons z t ih =>
        intro y
        simp only [List.map_cons, maxNum, numOf_val, maxN]
        split
        · exact ih z
        · exact ih y
    rw [this]
    simp only [List.map_cons] at h
    rw [if_pos h]
  · simp only [maxV, h]
    have hi : ∀ l : List PyNum, (l.map (PyNum.val : PyNum → Val PObj)).any isFlt = false → ∃ k : List Int, l = k.map .i := by
      intro l
      induction l with
      | nil => intro _; exact ⟨[], rfl⟩
      | cons z t ih =>
        intro hl
        simp only [List.map_cons, List.any_cons, Bool.or_eq_false_iff] at hl
        obtain ⟨k, hk⟩ := ih hl.2
        cases z with
        | i n => exact ⟨n :: k, by simp [hk]⟩
        | f q => simp [PyNum.val, isFlt] at hl
    obtain ⟨k, hk⟩ := hi (y :: t) (by simpa using h)
    cases k with
    | nil => cases hk
    | cons n k =>
      simp only [List.map_cons, List.cons.injEq] at hk
      obtain ⟨rfl, rfl⟩ := hk
      have h1 : ∀ l : List Int, intsOf P ((l.map PyNum.i).map PyNum.val) = pure l := by
        intro l
        induction l with
        | nil => rfl
        | cons a l ih => simp only [List.map_cons, PyNum.val, intsOf, ih]; rfl
      have h2 := h1 (n :: k)
      simp only [List.map_cons] at h2
      have h3 : ∀ (k : List Int) (n : Int), maxN (k.map PyNum.i) (.i n) = .i (k.foldl (fun m y => if y > m then y else m) n) := by
        intro k
        induction k with
        | nil => intro n; rfl
        | cons a k ih =>
          intro n
          simp only [List.map_cons, maxN, List.foldl_cons, PyNum.q, Int.cast_lt, gt_iff_lt]
          split <;> simp [ih]
      rw [h3]
      simp only [List.map_cons, h2, pure_bind, listMax, P_lift, plotR_ok]
      rfl
end

section
variable [R : PyRuntime] (fl : ℚ → Res ℚ) (rd : ℚ → ℚ) (fu : Nat)
set_option linter.unusedSimpArgs false
set_option maxHeartbeats 1000000
local notation "W" => world fl rd fu

omit R in
theorem sortedPairs_eq (xs : List Int) (ys : List PyNum) : sortedPairs xs ys = match (xs.zip ys).mergeSort leN with
    | [] => .error .value
    | p :: t => .ok ((p :: t).map Prod.fst, (p :: t).map Prod.snd) := by
  have e : sortedPairs xs ys = if ((xs.zip ys).mergeSort leN).length = 0 then .error .value
    else .ok (((xs.zip ys).mergeSort leN).map Prod.fst, ((xs.zip ys).mergeSort leN).map Prod.snd) := rfl
  rw [e]
  cases (xs.zip ys).mergeSort leN <;> rfl

/-- A dict of ints and numbers as a dict of values. -/
def encN (d : List (Int × PyNum)) : List (V × V) := d.map fun p => (.int p.1, p.2.val)

theorem set_encN (l : List (Int × PyNum)) (k : Int) (x : PyNum) : dictSet (encN l) (.int k) x.val = encN (dictSet l k x) := by
  induction l with
  | nil => rfl
  | cons p t ih =>
    simp only [encN, List.map_cons, dictSet] at ih ⊢
    by_cases h : p.1 = k
    · simp [h, src]
    · simp [h, src, ih]

theorem get_encN (v : List (Int × PyNum)) (n : Int) : dictGet? (encN v) (.int n) = (dictGet? v n).map PyNum.val := by
  induction v with
  | nil => rfl
  | cons p t ih =>
    simp only [encN, List.map_cons, dictGet?] at ih ⊢
    by_cases h : p.1 = n
    · simp [h, src]
    · simpa [h, src, List.find?_cons] using ih

theorem encQ_encN (l : List (Int × ℚ)) : encQ l = encN (fltN l) := by
  simp [encQ, encN, fltN, PyNum.val, Function.comp_def]

theorem fill_encN (l : List Int) (d : List (Int × PyNum)) :
    l.foldl (fun d i => if (dictGet? d (.int i)).isSome then d else dictSet d (.int i) (.int 0)) (encN d) =
      encN (l.foldl (fun d i => if (dictGet? d i).isSome then d else dictSet d i (.i 0)) d) := by
  induction l generalizing d with
  | nil => rfl
  | cons k t ih =>
    simp only [List.foldl_cons]
    rw [get_encN, Option.isSome_map, show (.int 0 : V) = (PyNum.i 0).val from rfl, set_encN, ← ih]
    cases (dictGet? d k).isSome <;> rfl

theorem histV_histN (base : List (Int × ℚ)) : histV base = encN <$> histN base := by
  have e1 : histV base = match (base.mergeSort (fun a b => decide (a.1 ≤ b.1))).head?, (base.mergeSort (fun a b => decide (a.1 ≤ b.1))).getLast? with
    | some lo, some hi => .ok ((pyRange lo.1 (hi.1 + 1)).foldl
      (fun d i => if (dictGet? d (.int i)).isSome then d else dictSet d (.int i) (.int 0)) (encQ base))
    | _, _ => .error .index := rfl
  have e2 : histN base = match (base.mergeSort (fun a b => decide (a.1 ≤ b.1))).head?, (base.mergeSort (fun a b => decide (a.1 ≤ b.1))).getLast? with
    | some lo, some hi => .ok ((pyRange lo.1 (hi.1 + 1)).foldl
      (fun d i => if (dictGet? d i).isSome then d else dictSet d i (.i 0)) (fltN base))
    | _, _ => .error .index := rfl
  rw [e1, e2, encQ_encN]
  cases (base.mergeSort (fun a b => decide (a.1 ≤ b.1))).head? <;> cases (base.mergeSort (fun a b => decide (a.1 ≤ b.1))).getLast? <;>
    simp only [fill_encN] <;> rfl

@[src] theorem keys_encN (h : List (Int × PyNum)) : (encN h).map Prod.fst = (h.map Prod.fst).map .int := by
  simp [encN, Function.comp_def]

theorem decN_map (l : List PyNum) : decN (l.map PyNum.val) = some l := by
  induction l with
  | nil => rfl
  | cons x t ih => cases x <;> simp [decN, PyNum.val, ih]

/-- `[data[x_value] for x_value in …]`. -/
theorem lookComp_text (h : List (Int × PyNum)) (name : String) (hn : name ≠ "x_value") (env : Env Obj)
    (he : env.get? name = some (.dict (encN h))) (l : List Int) (hl : ∀ k ∈ l, k ∈ h.map Prod.fst) :
    compLoop W [] (.index (.name name) (.name "x_value")) (.name "x_value") (l.map .int) env =
      pure ((lookupN h l).map PyNum.val, env) := by
  induction l with
  | nil => rfl
  | cons k t ih =>
    have ih := ih fun q hq => hl q (by simp [hq])
    have hk := get_key (hl k (by simp))
    obtain ⟨x, hx⟩ := Option.ne_none_iff_exists'.mp hk
    simp [src, compLoop_cons, ih, get_encN, hx, hn, he, lookupN, nameV, Env.get?, hn.symm]

theorem callAverage (d : Dist) : callMethod W (.obj (.dist d)) "average" [] = (fun q => (.flt q, none)) <$> liftR (averageG fl d) := by
  simp [src]
theorem callMake (d : Dist) (xs : List Int) (ys : List PyNum) (a : ℚ) :
    callMethod W (.obj (.dist d)) "_make_histogram" [.list (xs.map .int), .list (ys.map PyNum.val), .flt a] =
      (fun p => (.obj (.drawn p), none)) <$> liftR (makeHistG fl rd xs ys (some a)) := by
  simp [src, decN_map]
theorem callMake' (d : Dist) (xs : List Int) (ys : List PyNum) :
    callMethod W (.obj (.dist d)) "_make_histogram" [.list (xs.map .int), .list (ys.map PyNum.val)] =
      (fun p => (.obj (.drawn p), none)) <$> liftR (makeHistG fl rd xs ys none) := by
  simp [src, decN_map]
theorem callLines (d : Dist) (xs : List Int) (ys : List PyNum) (xs' : List Int) (ys' : List PyNum) (a b : Str) :
    callMethod W (.obj (.dist d)) "_make_line_plot" [.list (xs.map .int), .list (ys.map PyNum.val), .list (xs'.map .int), .list (ys'.map PyNum.val), .str a, .str b] =
      (fun p => (.obj (.lines p a b), none)) <$> liftR (makeLinesG xs ys xs' ys') := by
  simp [src, decN_map]

/-- The body of `y_value_calculator`. -/
def yBody : PyS := (.seq (.assign (.name "value") (.int 0))
    (.seq (.ifs (.cmp .isIn (.name "key") (.name "this_histogram_data")) (.seq (.aug .add (.name "value") (.index (.name "this_histogram_data") (.name "key")))
    .done) .done)
    (.seq (.ifs (.cmp .isIn (.name "key") (.name "other_histogram_data")) (.seq (.aug .sub (.name "value") (.index (.name "other_histogram_data") (.name "key")))
    .done) .done)
    (.seq (.ret (.name "value"))
    .done))))

theorem binN_add (x y : PyNum) : binOp W .add x.val y.val = PyNum.val <$> liftR (addN fl rd x y) := by
  cases x <;> cases y <;> simp [PyNum.val, binOp, addN, toNum, src, PyNum.float, liftR_bind, liftR_map]

theorem binN_sub (x y : PyNum) : binOp W .sub x.val y.val = PyNum.val <$> liftR (subN fl rd x y) := by
  cases x <;> cases y <;> simp [PyNum.val, binOp, subN, toNum, src, PyNum.float, liftR_bind, liftR_map]

theorem yFun_text (this other : List (Int × PyNum)) (x a b c : V) (k : Int) :
    defnFun W [] ["key"] yBody [.int k] [("x_value", x), ("self", a), ("other_probability", b), ("this_histogram_data", .dict (encN this)),
      ("other_histogram_data", .dict (encN other)), ("x_values", c)] =
      (fun v => (v.val, [.int k], [("x_value", x), ("self", a), ("other_probability", b), ("this_histogram_data", .dict (encN this)),
        ("other_histogram_data", .dict (encN other)), ("x_values", c)])) <$> liftR (yValueG fl rd this other k) := by
  have e0 : (.int 0 : V) = (PyNum.i 0).val := rfl
  have ea := fun x y => binN_add fl rd fu x y
  have es := fun x y => binN_sub fl rd fu x y
  have e1 := fun y => ea (.i 0) y
  have e2 := fun y => es (.i 0) y
  simp only [← e0] at e1 e2
  unfold yValueG
  cases h1 : dictGet? this k with
  | none => cases h2 : dictGet? other k with
    | none => simp [src, defnFun, mkFun, yBody, get_encN, h1, h2]; rfl
    | some y => simp [src, defnFun, mkFun, yBody, get_encN, h1, h2, e2]; rfl
  | some x => cases h2 : dictGet? other k with
    | none => simp [src, defnFun, mkFun, yBody, get_encN, h1, h2, e1]
    | some y => simp [src, defnFun, mkFun, yBody, get_encN, h1, h2, e1, es, liftR_bind]

theorem yComp_text (this other : List (Int × PyNum)) (a b c : V) (l : List Int) :
    compLoop W [("y_value_calculator", defnFun W [] ["key"] yBody)] (.callName "y_value_calculator" (.cons (.name "x_value") .nil)) (.name "x_value")
      (l.map .int) [("self", a), ("other_probability", b), ("this_histogram_data", .dict (encN this)), ("other_histogram_data", .dict (encN other)), ("x_values", c)] =
      (fun ys => (ys.map PyNum.val, [("self", a), ("other_probability", b), ("this_histogram_data", .dict (encN this)),
        ("other_histogram_data", .dict (encN other)), ("x_values", c)])) <$> liftR (l.mapM (yValueG fl rd this other)) := by
  induction l with
  | nil => rfl
  | cons k t ih =>
    simp [src, compLoop_cons, ih, setNames, liftR_bind, liftR_map, yFun_text, copyOut]
end
end PyDice.Source
