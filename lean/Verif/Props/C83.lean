import Verif.Lemmas.IntHash
/-!
# C83: do outcomes with different values have different hashes?

`test_hash_not_the_same_value` (`test/probability_distribution/test_probability_outcome.py:354-359`) says so for any two ints.  It is refuted, for
every hash of strings; what holds is below.
-/
namespace PyDice
open PyRuntime

section
variable [R : PyRuntime]

/-- The values −1 and −2: the same hash with each constraint set and each `PYTHONHASHSEED`. -/
theorem C83_small_counterexample (hs : Str → Hash) (s : CSet) :
    Outcome.codeHash hs pyIntHash ⟨-1, s⟩ = Outcome.codeHash hs pyIntHash ⟨-2, s⟩ := by
  have h : pyIntHash (-1) = pyIntHash (-2) := by decide
  simp only [Outcome.codeHash, h]

/-- Every value that is not negative has the hash of infinitely many others. -/
theorem C83_large_counterexample (hs : Str → Hash) (s : CSet) (n k : Nat) :
    Outcome.codeHash hs pyIntHash ⟨n, s⟩ = Outcome.codeHash hs pyIntHash ⟨(n + k * (2 ^ 61 - 1) : Nat), s⟩ := by
  have h : pyIntHash n = pyIntHash (n + k * (2 ^ 61 - 1) : Nat) := by
    unfold pyIntHash
    rw [Int.natAbs_natCast, Int.natAbs_natCast, Nat.add_mul_mod_self_right]
    rcases Nat.eq_zero_or_pos n with h0 | h0
    · subst h0
      rw [Nat.zero_mod, Nat.cast_zero, mul_zero, mul_zero]
    · rw [Int.sign_eq_one_of_pos (by omega), Int.sign_eq_one_of_pos (by omega)]
  simp only [Outcome.codeHash, h]

/-- The values 0 and 1, tied to nothing, meet under some hash of strings. -/
theorem C83_neighbours_counterexample (s : CSet) (h : iter s = [.null]) :
    ∃ hs : Str → Hash, Outcome.codeHash hs pyIntHash ⟨0, s⟩ = Outcome.codeHash hs pyIntHash ⟨1, s⟩ := by
  refine ⟨fun _ => -2#64, ?_⟩
  simp only [Outcome.codeHash, csHash, h, Constraint.codeHash, List.foldl]
  decide

/-- Of values below 2^61 − 1 in absolute value only an even one and its successor can have the same hash; by the witnesses above this is
    all that can be said of pairs like −2, −1 and 0, 1.  Missing: larger values. -/
theorem C83_collisions_partial (hs : Str → Hash) (s : CSet) (v w : Int) (hv : v.natAbs < 2 ^ 61 - 1) (hw : w.natAbs < 2 ^ 61 - 1)
    (hd : v < w) (h : Outcome.codeHash hs pyIntHash ⟨v, s⟩ = Outcome.codeHash hs pyIntHash ⟨w, s⟩) : v % 2 = 0 ∧ w = v + 1 := by
  have iv := pyIntHash_toInt v hv
  have iw := pyIntHash_toInt w hw
  by_cases hne : pyIntHash v = pyIntHash w
  · rw [hne, iw] at iv
    split at iv <;> split at iv <;> omega
  have hx : pyIntHash v ^^^ pyIntHash w = 1#64 := by
    rw [← xor_cancel (hs "ProbabilityOutcome".toList) _ _ (csHash hs s)]
    refine fixHash_collision ?_ h
    intro e
    have z := xor_cancel (hs "ProbabilityOutcome".toList) (pyIntHash v) (pyIntHash w) (csHash hs s)
    rw [e, BitVec.xor_self] at z
    exact hne (BitVec.xor_eq_zero_iff.mp z.symm)
  have hb := xor_eq_one hx
  have lv := (pyIntHash v).isLt
  have lw := (pyIntHash w).isLt
  rw [BitVec.toInt_eq_toNat_cond] at iv iw
  generalize (pyIntHash v).toNat = a at *
  generalize (pyIntHash w).toNat = b at *
  split at iv <;> split at iw <;> split at iv <;> split at iw <;> omega

/-- Values at least 2 apart and of absolute value below 2^61 − 1 have different hashes. -/
theorem C83_distinct_partial (hs : Str → Hash) (s : CSet) (v w : Int) (hv : v.natAbs < 2 ^ 61 - 1) (hw : w.natAbs < 2 ^ 61 - 1)
    (hd : 2 ≤ (v - w).natAbs) : Outcome.codeHash hs pyIntHash ⟨v, s⟩ ≠ Outcome.codeHash hs pyIntHash ⟨w, s⟩ := by
  intro h
  rcases lt_or_ge v w with l | l
  · have := C83_collisions_partial hs s v w hv hw l h
    omega
  · have := C83_collisions_partial hs s w v hw hv (by omega) h.symm
    omega

end

/-! ### Concrete cases -/

/-- A pair that meets the hypotheses of C83_collisions_partial. -/
example (hs : Str → Hash) (s : listRuntime.CSet) : letI := listRuntime
    Outcome.codeHash hs pyIntHash ⟨-2, s⟩ = Outcome.codeHash hs pyIntHash ⟨-1, s⟩ ∧ (-2 : Int) < -1 :=
  ⟨(@C83_small_counterexample listRuntime hs s).symm, by decide⟩
example : (5 : Int).natAbs < 2 ^ 61 - 1 ∧ (-3 : Int).natAbs < 2 ^ 61 - 1 ∧ 2 ≤ ((5 : Int) - -3).natAbs := by decide
example : listRuntime.iter (listRuntime.insert listRuntime.empty .null) = [.null] := by decide
example : pyIntHash 5 = 5#64 ∧ pyIntHash (-1) = -2#64 ∧ pyIntHash (2 ^ 61 - 1) = 0#64 := by decide

end PyDice
