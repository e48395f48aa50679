import Verif.Spec.Activation
import Verif.Spec.Withdrawals
import Verif.Spec.History

/-! # Specification: leaving, from the exit to the payment -/

namespace Verif.Spec

/-- How many validators are on their way out: they leave at the next free epoch or later, but before
epoch `x`. -/
def leavingBefore (E : Env) (s : State) (x : Nat) : Nat :=
  s.validators.countP fun v => nextFreeEpoch E s ≤ v.exit_epoch ∧ v.exit_epoch < x

/-- A stretch of a chain in the fork `f`, from `s` over slots and accepted blocks; `l` are the blocks,
each with the state that it met. -/
inductive Passes (E : Env) (f : Fork) (s : State) : List (State × BeaconBlock) → State → Prop
  | start : Passes E f s [] s
  | slots {l : List (State × BeaconBlock)} {n : Nat} {t u : State} : Passes E f s l t →
      process_slots E f n t = .ok () u → Passes E f s l u
  | block {l : List (State × BeaconBlock)} {b : BeaconBlock} {t u : State} : Passes E f s l t →
      process_block E f b t = .ok () u → Passes E f s (l ++ [(t, b)]) u

/-- The block `b` pays validator `i` all it has in `t`, to the address in the credentials `c`. -/
def PaysOut (t : State) (b : BeaconBlock) (i : Nat) (c : Bytes32) : Prop :=
  ∃ w ∈ b.body.execution_payload.withdrawals, w.validator_index = i ∧
    t.balances[i]? = some w.amount ∧ w.address.toList = c.toList.drop 12

end Verif.Spec
