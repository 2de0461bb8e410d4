import Verif.Source.Run
import Verif.Lemmas.KeepDrop
/-!
# Values that stand for the model's data, and loops over them
-/
namespace PyDice.Source
open PyRuntime

section
variable [R : PyRuntime] (fl : ℚ → Res ℚ) (rd : ℚ → ℚ) (fu : Nat)

@[src] theorem encI_fst (d : List (Int × Nat)) : (encI d).map Prod.fst = d.map fun p => .int p.1 := by simp [encI]
@[src] theorem encI_snd (d : List (Int × Nat)) : (encI d).map Prod.snd = d.map fun p => .int (p.2 : Int) := by simp [encI]
@[src] theorem encI_items (d : List (Int × Nat)) :
    (encI d).map (fun p => (.tuple [p.1, p.2] : V)) = d.map fun p => .tuple [.int p.1, .int (p.2 : Int)] := by simp [encI]
@[src] theorem encS_fst (d : List (Str × Nat)) : (encS d).map Prod.fst = d.map fun p => .str p.1 := by simp [encS]
@[src] theorem encS_items (d : List (Str × Nat)) :
    (encS d).map (fun p => (.tuple [p.1, p.2] : V)) = d.map fun p => .tuple [.str p.1, .int (p.2 : Int)] := by simp [encS]
@[src] theorem encO_fst (d : List (Outcome × Nat)) : (encO d).map Prod.fst = d.map fun p => .obj (.outcome p.1) := by simp [encO]
@[src] theorem encO_items (d : List (Outcome × Nat)) :
    (encO d).map (fun p => (.tuple [p.1, p.2] : V)) = d.map fun p => .tuple [.obj (.outcome p.1), .int (p.2 : Int)] := by simp [encO]
@[src] theorem encI_length (d : List (Int × Nat)) : (encI d).length = d.length := by simp [encI]

@[src] theorem decI_encI (d : List (Int × Nat)) : decI (encI d) = some d := by
  induction d with
  | nil => rfl
  | cons p t ih => simp only [encI, List.map_cons, decI] at ih ⊢; simp [ih]
@[src] theorem decS_encS (d : List (Str × Nat)) : decS (encS d) = some d := by
  induction d with
  | nil => rfl
  | cons p t ih => simp only [encS, List.map_cons, decS] at ih ⊢; simp [ih]
@[src] theorem decO_encO (d : List (Outcome × Nat)) : decO (encO d) = some d := by
  induction d with
  | nil => rfl
  | cons p t ih => simp only [encO, List.map_cons, decO] at ih ⊢; simp [ih]
theorem decInts_map {α : Type} (l : List α) (f : α → Int) : decInts (l.map fun x => (.int (f x) : V)) = some (l.map f) := by
  induction l with
  | nil => rfl
  | cons p t ih => simp [decInts, ih]
@[src] theorem decInts_ints (l : List Int) : decInts (l.map .int) = some l := by
  have := decInts_map l id; simpa using this
@[src] theorem decInts_fst (d : List (Int × Nat)) : decInts (d.map fun p => (.int p.1 : V)) = some (d.map Prod.fst) := decInts_map d Prod.fst
@[src] theorem decNats_snd (d : List (Int × Nat)) : decNats (d.map fun p => (.int (p.2 : Int) : V)) = some (d.map Prod.snd) := by
  simp [decNats, decInts_map, Function.comp_def]

/-- Making a distribution from a dict of ints (an empty dict is taken for one of outcomes). -/
@[src] theorem createDist_encI (d : List (Int × Nat)) : createDist (encI d) = (fun d => .obj (.dist d)) <$> liftR (mkDistInt d) := by
  cases d with
  | nil => rfl
  | cons p t =>
    have h : decO (encI (p :: t)) = none := rfl
    simp [createDist, h, decI_encI, withDec, dV_eq]
@[src] theorem createDist_encO (d : List (Outcome × Nat)) : createDist (encO d) = pure (.obj (.dist (mkDist d))) := by
  simp [createDist, decO_encO, dV_eq]
/-- A dict display with one int, as the constants' distributions use it. -/
@[src] theorem createDist_int (v : Int) : createDist [(.int v, .int 1)] = (fun d => .obj (.dist d)) <$> liftR (mkDistInt [(v, 1)]) :=
  createDist_encI [(v, 1)]
/-- Random steps followed by a function. -/
theorem ofRand_map {α β : Type} (f : α → β) (r : Rand (Res α)) (g : Res α → Rand (Res β)) (h1 : ∀ a, g (.ok a) = .pure (.ok (f a)))
    (h2 : ∀ e, g (.error e) = .pure (.error e)) : f <$> RollM.ofRand r = RollM.ofRand (Rand.bind r g) := by
  funext s
  show Rand.bind (Rand.bind r _) _ = Rand.bind (Rand.bind r g) _
  rw [rand_bind_assoc, rand_bind_assoc]
  congr 1; funext a
  cases a with
  | error e => rw [h2]; rfl
  | ok a => rw [h1]; rfl
omit R in
theorem zip_unzip' {α β : Type} (l : List (α × β)) : (l.map Prod.fst).zip (l.map Prod.snd) = l := by
  induction l with
  | nil => rfl
  | cons p t ih => simp [ih]

theorem intsOf_map {α : Type} (l : List α) (f : α → Int) : intsOf (world fl rd fu) (l.map fun x => (.int (f x) : V)) = pure (l.map f) := by
  induction l with
  | nil => rfl
  | cons p t ih => simp [intsOf, ih]
@[src] theorem intsOf_ints (l : List Int) : intsOf (world fl rd fu) (l.map .int) = pure l := by
  have := intsOf_map fl rd fu l id; simpa using this
@[src] theorem intsOf_fst (d : List (Int × Nat)) : intsOf (world fl rd fu) (d.map fun p => (.int p.1 : V)) = pure (d.map Prod.fst) :=
  intsOf_map fl rd fu d Prod.fst
@[src] theorem intsOf_snd (d : List (Int × Nat)) :
    intsOf (world fl rd fu) (d.map fun p => (.int (p.2 : Int) : V)) = pure (d.map fun p => (p.2 : Int)) :=
  intsOf_map fl rd fu d fun p => (p.2 : Int)
@[src] theorem intsOf_nil : intsOf (world fl rd fu) [] = pure [] := rfl
@[src] theorem intsOf_append_one (l : List Int) (x : Int) : intsOf (world fl rd fu) (l.map .int ++ [.int x]) = pure (l ++ [x]) := by
  have := intsOf_ints fl rd fu (l ++ [x]); simpa using this
@[src] theorem sortedV_ints (l : List Int) : sortedV (world fl rd fu) (l.map .int) =
    pure (.list ((l.mergeSort (fun a b => decide (a ≤ b))).map .int)) := by
  cases l with
  | nil => simp [sortedV, pairsOfV]
  | cons x t =>
    have := intsOf_ints fl rd fu (x :: t)
    simp only [List.map_cons] at this ⊢
    simp [sortedV, pairsOfV, this]
@[src] theorem sortedV_map {α : Type} (l : List α) (f : α → Int) : sortedV (world fl rd fu) (l.map fun x => (.int (f x) : V)) =
    pure (.list (((l.map f).mergeSort (fun a b => decide (a ≤ b))).map .int)) := by
  have := sortedV_ints fl rd fu (l.map f)
  rwa [List.map_map] at this
@[src] theorem maxV_ints (l : List Int) : maxV (world fl rd fu) (l.map .int) = .int <$> (world fl rd fu).lift (listMax l) := by
  have : (l.map (Val.int : Int → V)).any isFlt = false := by
    induction l with
    | nil => rfl
    | cons x t ih => simp [isFlt]
  simp [maxV, this, intsOf_ints]
@[src] theorem maxV_map {α : Type} (l : List α) (f : α → Int) : maxV (world fl rd fu) (l.map fun x => (.int (f x) : V)) =
    .int <$> (world fl rd fu).lift (listMax (l.map f)) := by
  have := maxV_ints fl rd fu (l.map f)
  rwa [List.map_map] at this
@[src] theorem textsOf_map {α : Type} (l : List α) (f : α → Str) :
    textsOf (world fl rd fu) (l.map fun x => (.str (f x) : V)) = pure (l.map f) := by
  induction l with
  | nil => rfl
  | cons p t ih => simp [textsOf, ih]

attribute [src] mergeSort_eq

theorem get_encI (d : List (Int × Nat)) (k : Int) :
    dictGet? (encI d) (.int k) = (dictGet? d k).map fun n => (.int (n : Int) : V) := by
  induction d with
  | nil => rfl
  | cons p t ih =>
    simp only [encI, List.map_cons, dictGet?, beq_int] at ih ⊢
    by_cases h : p.1 = k <;> simp [h, ih]
theorem get_encS (d : List (Str × Nat)) (k : Str) :
    dictGet? (encS d) (.str k) = (dictGet? d k).map fun n => (.int (n : Int) : V) := by
  induction d with
  | nil => rfl
  | cons p t ih =>
    simp only [encS, List.map_cons, dictGet?, beq_str] at ih ⊢
    by_cases h : p.1 = k <;> simp [h, ih]
theorem get_encO (d : List (Outcome × Nat)) (k : Outcome) :
    dictGet? (encO d) (.obj (.outcome k)) = (dictGet? d k).map fun n => (.int (n : Int) : V) := by
  induction d with
  | nil => rfl
  | cons p t ih =>
    simp only [encO, List.map_cons, dictGet?] at ih ⊢
    have : ((.obj (.outcome p.1) : V) == .obj (.outcome k)) = (p.1 == k) := rfl
    rw [this]
    by_cases h : p.1 == k <;> simp [h, ih]
theorem set_encI (d : List (Int × Nat)) (k : Int) (n : Nat) : dictSet (encI d) (.int k) (.int (n : Int)) = encI (dictSet d k n) := by
  induction d with
  | nil => rfl
  | cons p t ih =>
    simp only [encI, List.map_cons, dictSet, beq_int] at ih ⊢
    by_cases h : p.1 = k <;> simp [h, ih]
theorem set_encS (d : List (Str × Nat)) (k : Str) (n : Nat) : dictSet (encS d) (.str k) (.int (n : Int)) = encS (dictSet d k n) := by
  induction d with
  | nil => rfl
  | cons p t ih =>
    simp only [encS, List.map_cons, dictSet, beq_str] at ih ⊢
    by_cases h : p.1 = k <;> simp [h, ih]
theorem set_encO (d : List (Outcome × Nat)) (k : Outcome) (n : Nat) :
    dictSet (encO d) (.obj (.outcome k)) (.int (n : Int)) = encO (dictSet d k n) := by
  induction d with
  | nil => rfl
  | cons p t ih =>
    simp only [encO, List.map_cons, dictSet] at ih ⊢
    have : ((.obj (.outcome p.1) : V) == .obj (.outcome k)) = (p.1 == k) := rfl
    rw [this]
    by_cases h : p.1 == k <;> simp [h, ih]

end

section
variable {κ : Type} [BEq κ]
/-- `safeAdd` in two steps, as the code does it. -/
theorem safeAdd_some {d : List (κ × Nat)} {k : κ} {m : Nat} (n : Nat) (h : dictGet? d k = some m) : dictSet d k (m + n) = safeAdd d k n := by
  induction d with
  | nil => simp [dictGet?] at h
  | cons p t ih =>
    obtain ⟨k', m'⟩ := p
    simp only [dictGet?, dictSet, safeAdd] at h ⊢
    by_cases e : k' == k
    · simp only [e, if_true, Option.some.injEq] at h ⊢; rw [h]
    · simp only [e] at h ⊢; simp only [Bool.false_eq_true, if_false] at h ⊢; rw [ih h]
theorem safeAdd_none {d : List (κ × Nat)} {k : κ} (n : Nat) (h : dictGet? d k = none) : dictSet d k n = safeAdd d k n := by
  induction d with
  | nil => simp [dictSet, safeAdd]
  | cons p t ih =>
    obtain ⟨k', m'⟩ := p
    simp only [dictGet?, dictSet, safeAdd] at h ⊢
    by_cases e : k' == k
    · simp [e] at h
    · simp only [e, Bool.false_eq_true, if_false] at h ⊢; rw [ih h]
theorem get_set_self {ν : Type} (d : List (κ × ν)) (k : κ) (v : ν) (h : (k == k) = true) : dictGet? (dictSet d k v) k = some v := by
  induction d with
  | nil => simp [dictSet, dictGet?, h]
  | cons p t ih =>
    simp only [dictSet]
    by_cases e : p.1 == k
    · simp [e, dictGet?]
    · simp [e, dictGet?, ih]
theorem set_set_self {ν : Type} (d : List (κ × ν)) (k : κ) (v w : ν) (h : (k == k) = true) : dictSet (dictSet d k v) k w = dictSet d k w := by
  induction d with
  | nil => simp [dictSet, h]
  | cons p t ih =>
    simp only [dictSet]
    by_cases e : p.1 == k
    · simp [e, dictSet]
    · simp [e, dictSet, ih]
end

section
variable [R : PyRuntime]
/-- What `safe_add` does to a dict: `d[k] = 0` if the key is missing, then `d[k] += n`. -/
def addV (d : List (V × V)) (k : V) (n : Int) : List (V × V) :=
  match dictGet? d k with
  | some (.int m) => dictSet d k (.int (m + n))
  | _ => dictSet d k (.int n)
theorem addV_encI (d : List (Int × Nat)) (k : Int) (n : Nat) : addV (encI d) (.int k) n = encI (safeAdd d k n) := by
  unfold addV
  rw [get_encI]
  cases h : dictGet? d k with
  | none => show dictSet _ _ (Val.int (n : Int)) = _; rw [set_encI, safeAdd_none n h]
  | some m => show dictSet _ _ (Val.int ((m : Int) + n)) = _; rw [← Int.natCast_add, set_encI, safeAdd_some n h]
theorem addV_encS (d : List (Str × Nat)) (k : Str) (n : Nat) : addV (encS d) (.str k) n = encS (safeAdd d k n) := by
  unfold addV
  rw [get_encS]
  cases h : dictGet? d k with
  | none => show dictSet _ _ (Val.int (n : Int)) = _; rw [set_encS, safeAdd_none n h]
  | some m => show dictSet _ _ (Val.int ((m : Int) + n)) = _; rw [← Int.natCast_add, set_encS, safeAdd_some n h]
theorem addV_encO (d : List (Outcome × Nat)) (k : Outcome) (n : Nat) :
    addV (encO d) (.obj (.outcome k)) n = encO (safeAdd d k n) := by
  unfold addV
  rw [get_encO]
  cases h : dictGet? d k with
  | none => show dictSet _ _ (Val.int (n : Int)) = _; rw [set_encO, safeAdd_none n h]
  | some m => show dictSet _ _ (Val.int ((m : Int) + n)) = _; rw [← Int.natCast_add, set_encO, safeAdd_some n h]
end

section
@[src] theorem index_nat {α β : Type} (f : α → β) (l : List α) (n : Nat) : indexL (l.map f) (n : Int) = f <$> pyIndex l n := by
  unfold indexL pyIndex
  have : ¬ ((n : Int) < 0) := by omega
  simp only [this, if_false, List.getElem?_map, Int.toNat_natCast]
  cases l[n]? <;> rfl
@[src] theorem index_zero {α β : Type} (f : α → β) (l : List α) : indexL (l.map f) 0 = f <$> pyIndex l 0 := index_nat f l 0
@[src] theorem index_one {α β : Type} (f : α → β) (l : List α) : indexL (l.map f) 1 = f <$> pyIndex l 1 := index_nat f l 1
@[src] theorem index_two {α β : Type} (f : α → β) (l : List α) : indexL (l.map f) 2 = f <$> pyIndex l 2 := index_nat f l 2
@[src] theorem index_last {α β : Type} (f : α → β) (l : List α) : indexL (l.map f) (-1) = f <$> pyLast l := by
  unfold indexL pyLast
  cases l with
  | nil => rfl
  | cons a t =>
    have h : ((t.length + 1 : Nat) : Int) + -1 = t.length := by omega
    have h2 : ¬ ((t.length : Int) < 0) := by omega
    simp only [List.length_map, List.length_cons, h, h2, if_false, Int.toNat_natCast, List.getLast?_eq_getElem?, Int.reduceNeg]
    simp only [List.getElem?_map, Nat.add_sub_cancel]
    simp

attribute [src] reOf.eq_1 reOf.eq_2 reOf.eq_3 reOf.eq_4 reOf.eq_5 sepOf.eq_1 sepOf.eq_2 sepOf.eq_3 sepOf.eq_4

end
end PyDice.Source
