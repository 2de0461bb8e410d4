import Verif.Repr
import Mathlib.Data.Nat.Bitwise
import Mathlib.Algebra.Order.Ring.Int
/-!
CPython's hash of ints, and how hashes of outcomes differ.
-/
namespace PyDice

/-- CPython's `hash` of an int on a 64 bit machine, called in `probability_outcome.py:114`: the sign times the remainder of the absolute value by
    the prime 2^61 − 1, and −2 instead of −1.  From CPython's documentation ("Hashing of numeric types"), not from `/repo`. -/
def pyIntHash (n : Int) : Hash := fixHash (BitVec.ofInt 64 (n.sign * (n.natAbs % (2 ^ 61 - 1) : Nat)))

theorem ofInt_small_toInt (v : Int) (h : v.natAbs < 2 ^ 61 - 1) : (BitVec.ofInt 64 v).toInt = v := by
  rw [BitVec.toInt_ofInt]
  apply Int.bmod_eq_of_le <;> omega

theorem pyIntHash_toInt (v : Int) (h : v.natAbs < 2 ^ 61 - 1) : (pyIntHash v).toInt = if v = -1 then -2 else v := by
  unfold pyIntHash fixHash
  rw [Nat.mod_eq_of_lt h, Int.sign_mul_natAbs]
  by_cases hv : v = -1
  · subst hv
    rfl
  · rw [if_neg hv, if_neg, ofInt_small_toInt v h]
    intro he
    have := congrArg BitVec.toInt he
    rw [ofInt_small_toInt v h] at this
    exact hv (this.trans (by decide))

theorem xor_eq_one {x y : Hash} (h : x ^^^ y = 1#64) :
    (x.toNat % 2 = 0 ∧ y.toNat = x.toNat + 1) ∨ (y.toNat % 2 = 0 ∧ x.toNat = y.toNat + 1) := by
  have hy : y = x ^^^ 1#64 := by rw [← h, ← BitVec.xor_assoc, BitVec.xor_self, BitVec.zero_xor]
  have hn : y.toNat = x.toNat ^^^ 1 := by rw [hy, BitVec.toNat_xor]; rfl
  rcases Nat.even_or_odd x.toNat with he | ho
  · rw [Nat.xor_one_of_even he] at hn
    exact .inl ⟨Nat.even_iff.mp he, hn⟩
  · rw [Nat.xor_one_of_odd ho] at hn
    have := Nat.odd_iff.mp ho
    omega

theorem fixHash_collision {x y : Hash} (hne : x ≠ y) (h : fixHash x = fixHash y) : x ^^^ y = 1#64 := by
  unfold fixHash at h
  split at h <;> split at h
  · simp_all
  · subst h
    subst_vars
    decide
  · subst_vars
    decide
  · exact absurd h hne

theorem xor_cancel (s x y c : Hash) : (s ^^^ (x ^^^ c)) ^^^ (s ^^^ (y ^^^ c)) = x ^^^ y := by
  ext i
  simp only [BitVec.getElem_xor]
  cases s[i] <;> cases x[i] <;> cases y[i] <;> cases c[i] <;> rfl

end PyDice
