import Verif.Model.Monad

/-! # Loop and list helpers of the model -/

namespace Verif

/-- `for x in xs { body(x)?; }` on a mutable state. -/
def forEach {α : Type} (xs : List α) (body : α → M Unit) : M Unit :=
  match xs with
  | [] => pure ()
  | x :: rest => do
    body x
    forEach rest body

/-- `xs[i] += d` on a vector of `u64`. -/
def addAt (xs : List Nat) (i d : Nat) : R (List Nat) := do
  let x ← idx xs i
  let y ← x +? d
  return xs.set i y

/-- `xs.iter().sum::<u64>()` : panics on overflow. -/
def sumU64 (xs : List Nat) : R Nat := xs.foldlM (fun a x => a +? x) 0

/-- One step of `isqrt`: try to set bit `k` of the result. -/
def isqrtStep (n : Nat) (r k : Nat) : Nat :=
  if (r + 2 ^ k) * (r + 2 ^ k) ≤ n then r + 2 ^ k else r

/-- `IntegerSquareRoot::integer_sqrt` of the crate `integer-sqrt` on `u64`
(a dependency, not in /repo): the floor of the square root, by binary digits. -/
def isqrt (n : Nat) : Nat := (List.range 32).reverse.foldl (isqrtStep n) 0

end Verif
