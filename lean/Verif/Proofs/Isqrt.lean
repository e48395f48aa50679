import Verif.Model.Loops
import Mathlib.Data.Nat.Sqrt

/-! The digit-by-digit square root is the floor of the square root. -/

namespace Verif

/-- After the digits `k, k-1, …` have been tried: the result is right up to `2 ^ k`. -/
theorem isqrt_digits (n : Nat) (k r : Nat) (h1 : r * r ≤ n)
    (h2 : n < (r + 2 ^ k) * (r + 2 ^ k)) :
    let x := (List.range k).reverse.foldl (isqrtStep n) r
    x * x ≤ n ∧ n < (x + 1) * (x + 1) := by
  induction k generalizing r with
  | zero => simpa using ⟨h1, h2⟩
  | succ k ih =>
    rw [List.range_succ, List.reverse_append]
    simp only [List.reverse_cons, List.reverse_nil, List.nil_append, List.singleton_append,
      List.foldl_cons]
    apply ih
    · unfold isqrtStep; split
      · assumption
      · assumption
    · unfold isqrtStep; split
      · rw [Nat.add_assoc, ← Nat.two_mul, ← Nat.pow_succ']; exact h2
      · omega

theorem isqrt_eq {n : Nat} (h : n < 2 ^ 64) : isqrt n = Nat.sqrt n := by
  have := isqrt_digits n 32 0 (by omega) (by
    rw [Nat.zero_add, ← Nat.pow_add]; exact h)
  exact Nat.eq_sqrt.2 this

theorem le_isqrt {n x : Nat} (h : n < 2 ^ 64) : x ≤ isqrt n ↔ x * x ≤ n := by
  rw [isqrt_eq h, Nat.le_sqrt]

end Verif
