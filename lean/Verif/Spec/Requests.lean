import Verif.Spec.Queues
import Verif.Spec.Deposits
import Verif.Spec.Operations
import Verif.Spec.Withdrawals

/-! # Specification: requests from the execution layer (electra) -/

namespace Verif.Spec

/-- The request concerns validator `i`, whose entry is `v`, and comes from the address the validator
withdraws to. The validator is active, has been for long enough, and is not leaving. -/
structure Authorised (E : Env) (s : State) (r : ExecutionLayerWithdrawalRequest) (i : Nat)
    (v : Validator) : Prop where
  holder : FirstWithKey s r.validator_public_key i
  entry : s.validators[i]? = some v
  withdraws : Withdraws .Electra v
  address : r.source_address.toList = v.withdrawal_credentials.toList.drop 12
  active : ActiveAt v (epochOf E s.slot)
  staying : v.exit_epoch = FAR_FUTURE_EPOCH
  seasoned : v.activation_epoch + E.shard_committee_period ≤ epochOf E s.slot

/-- A request that makes validator `i` leave: amount 0, nothing promised. -/
def LeaveRequest (E : Env) (s : State) (r : ExecutionLayerWithdrawalRequest) (i : Nat)
    (v : Validator) : Prop :=
  r.amount = 0 ∧ Authorised E s r i v ∧ pendingWithdrawalsOf s i = 0

/-- A request for a part of the balance `b` of validator `i` that can be granted: there is room in the
queue, the validator compounds, and has more than the minimum and what is already promised. -/
def PartRequest (E : Env) (s : State) (r : ExecutionLayerWithdrawalRequest) (i : Nat)
    (v : Validator) (b : Nat) : Prop :=
  r.amount ≠ 0 ∧ s.pending_partial_withdrawals.length ≠ E.pending_partial_withdrawals_limit ∧
  Authorised E s r i v ∧ Compounding v ∧ E.min_activation_balance ≤ v.effective_balance ∧
  s.balances[i]? = some b ∧ E.min_activation_balance + pendingWithdrawalsOf s i < b

/-- What is granted: no more than requested, nor than what is free. -/
def granted (E : Env) (s : State) (r : ExecutionLayerWithdrawalRequest) (i b : Nat) : Nat :=
  min (b - E.min_activation_balance - pendingWithdrawalsOf s i) r.amount

/-- The effects of a request. -/
inductive RequestEffect (E : Env) (s : State) (r : ExecutionLayerWithdrawalRequest) : State → Prop
  | leave (i : Nat) (v : Validator) (epoch left : Nat) (request : LeaveRequest E s r i v)
      (queued : QueuedExit E s (queueStart E s s.earliest_exit_epoch s.exit_balance_to_consume)
        v.effective_balance epoch left) :
      RequestEffect E s r { s with
        validators := s.validators.set i { v with
          exit_epoch := epoch
          withdrawable_epoch := epoch + E.min_validator_withdrawability_delay }
        earliest_exit_epoch := epoch
        exit_balance_to_consume := left }
  | part (i : Nat) (v : Validator) (b epoch left : Nat) (request : PartRequest E s r i v b)
      (queued : QueuedExit E s (queueStart E s s.earliest_exit_epoch s.exit_balance_to_consume)
        (granted E s r i b) epoch left) :
      RequestEffect E s r { s with
        pending_partial_withdrawals := s.pending_partial_withdrawals ++
          [⟨i, granted E s r i b, epoch + E.min_validator_withdrawability_delay⟩]
        earliest_exit_epoch := epoch
        exit_balance_to_consume := left }
  | ignored (no_leave : ∀ i v, ¬ LeaveRequest E s r i v)
      (no_part : ∀ i v b, ¬ PartRequest E s r i v b) : RequestEffect E s r s

end Verif.Spec
