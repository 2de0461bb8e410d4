import Verif.Source.Hash
import Verif.Source.Run
/-!
# The texts of the methods that hash and print: steps
-/
namespace PyDice.Source
open PyRuntime
section
variable [R : PyRuntime] (hs : Str → Hash) (hi : Int → Hash)
set_option linter.unusedSimpArgs false
local notation "H" => hashWorld hs hi

/-- The loop of `ConstraintSet.__hash__`. -/
def xorBody : PyS :=
  .seq (.assign (.name "current_hash") (.callAttr (.name "operator") "xor" (.cons (.name "current_hash") (.cons (.callName "hash" (.cons (.name "constraint") .nil)) .nil)))) .done

theorem xorLoop (o : HObj) (l : List Constraint) (h : Hash) (v : Val HObj) :
    ∃ v', forLoop H [] (.name "constraint") xorBody (l.map fun c => .obj (.con c))
        [("self", .obj o), ("current_hash", .int h.toInt), ("constraint", v)] =
      .ok (.next, [("self", .obj o), ("current_hash", .int (l.foldl (fun h c => h ^^^ c.codeHash hs) h).toInt), ("constraint", v')]) := by
  induction l generalizing h v with
  | nil => exact ⟨v, rfl⟩
  | cons c t ih =>
    obtain ⟨v', hv⟩ := ih (h ^^^ c.codeHash hs) (.obj (.con c))
    refine ⟨v', ?_⟩
    rw [List.foldl_cons, ← hv]
    have e : exec H [] xorBody [("self", .obj o), ("current_hash", .int h.toInt), ("constraint", .obj (.con c))] =
        .ok (.next, [("self", .obj o), ("current_hash", .int (h ^^^ c.codeHash hs).toInt), ("constraint", .obj (.con c))]) := by
      have : (BitVec.ofInt 64 h.toInt ^^^ BitVec.ofInt 64 (c.codeHash hs).toInt) = h ^^^ c.codeHash hs := by
        rw [BitVec.ofInt_toInt, BitVec.ofInt_toInt]
      rw [← this]
      rfl
    refine (show _ = (exec H [] xorBody [("self", .obj o), ("current_hash", .int h.toInt), ("constraint", .obj (.con c))] >>= fun x =>
      match x.1 with
      | .next => forLoop H [] (.name "constraint") xorBody (t.map fun c => .obj (.con c)) x.2
      | .ret r => pure (.ret r, x.2)) from rfl).trans ?_
    rw [e]
    rfl

theorem csHash_text (s : CSet) : Hashes hs hi Text.ConstraintSet.__hash__ (.cset s) (csHash hs s) := by
  obtain ⟨v', hv⟩ := xorLoop hs hi (.cset s) (iter s) (hs "ConstraintSet".toList) .unbound
  refine ⟨_, ?_, rfl⟩
  change Prod.fst <$> ((forLoop H [] (.name "constraint") xorBody ((iter s).map fun c => .obj (.con c))
      [("self", .obj (.cset s)), ("current_hash", .int (hs "ConstraintSet".toList).toInt), ("constraint", .unbound)] >>= _) >>= _) = _
  rw [hv]
  rfl

theorem outcomeHash_text (o : Outcome) : Hashes hs hi Text.ProbabilityOutcome.__hash__ (.outcome o) (o.codeHash hs hi) := by
  refine ⟨_, ?_, rfl⟩
  have : (BitVec.ofInt 64 (hs "ProbabilityOutcome".toList).toInt ^^^ BitVec.ofInt 64 (BitVec.ofInt 64 (hi o.value).toInt ^^^ BitVec.ofInt 64 (csHash hs o.cs).toInt).toInt) = (hs "ProbabilityOutcome".toList ^^^ (hi o.value ^^^ csHash hs o.cs)) := by
    simp only [BitVec.ofInt_toInt]
  rw [← this]
  rfl

theorem conHash_null : Hashes hs hi Text.NullConstraint.__hash__ (.con .null) (Constraint.null.codeHash hs) := ⟨_, rfl, rfl⟩
theorem conHash_imp : Hashes hs hi Text.ImpossibleConstraint.__hash__ (.con .impossible) (Constraint.impossible.codeHash hs) := ⟨_, rfl, rfl⟩
theorem conHash_var (c : Constraint) : Hashes hs hi Text.VarValueConstraint.__hash__ (.con c) (c.codeHash hs) := ⟨_, rfl, rfl⟩
theorem merger_str : Prints hs hi Text.ConstraintMerger.__str__ .merger "ConstraintMerger".toList := rfl
theorem merger_repr : Prints hs hi Text.ConstraintMerger.__repr__ .merger "ConstraintMerger".toList := rfl
theorem outcome_repr (o : Outcome) : Prints hs hi Text.ProbabilityOutcome.__repr__ (.outcome o) o.text := rfl
theorem dist_repr (o : Dist) : Prints hs hi Text.ProbabilityDistribution.__repr__ (.dist o) o.text := rfl
theorem dist_str (o : Dist) : Prints hs hi Text.ProbabilityDistribution.__str__ (.dist o) o.text := by
  refine (show _ = Except.ok (Val.str ("ProbabilityDistribution".toList ++ (", result_map=".toList ++
    (reprDict (o.resultMap.map entryText) ++ [])))) from rfl).trans ?_
  rw [List.append_nil, ← List.append_assoc, Dist.text, txtDist]
  rfl
end
end PyDice.Source
