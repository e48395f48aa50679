import Verif.Model.Types

/-! # Specification: balances -/

namespace Verif.Spec

/-- The effective balance of a validator, zero when there is no such validator. -/
def effectiveBalance (s : State) (i : Nat) : Nat :=
  match s.validators[i]? with
  | some v => v.effective_balance
  | none => 0

/-- The sum of the effective balances of the indices of a list. -/
def totalEffective (s : State) (indices : List Nat) : Nat :=
  (indices.map (effectiveBalance s)).sum

end Verif.Spec
