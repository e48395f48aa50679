import Verif.Spec.Credit

/-! # Specification: how long those wait who leave, in electra -/

namespace Verif.Spec

/-- A run in which the exit queue served the balances in the list, giving each the epoch beside it, up
to a time when the next free epoch is `N`. Between these calls the state may change in any way that
leaves the queue alone. -/
inductive Rationed (E : Env) (N : Nat) (s : State) : List (Nat × Nat) → State → Prop
  | start : Rationed E N s [] s
  | other {l : List (Nat × Nat)} {t u : State} : Rationed E N s l t →
      u.earliest_exit_epoch = t.earliest_exit_epoch →
      u.exit_balance_to_consume = t.exit_balance_to_consume → Rationed E N s l u
  | exit {l : List (Nat × Nat)} {t u : State} {balance epoch : Nat} : Rationed E N s l t →
      nextFreeEpoch E t ≤ N →
      Electra.compute_exit_epoch_and_update_churn E balance t = .ok epoch u →
      Rationed E N s (l ++ [(balance, epoch)]) u

/-- To let `balance` leave, from epoch `start` on, it takes no longer than until `epoch` if at least
`rate` can leave per epoch: the epochs between the two are all used. -/
def NoLonger (rate balance start epoch : Nat) : Prop :=
  epoch ≤ start ∨ (epoch - start - 1) * rate < balance

end Verif.Spec
