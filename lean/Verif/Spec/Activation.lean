import Verif.Spec.Exits

/-! # Specification: the activation queue -/

namespace Verif.Spec

/-- The validator has enough stake to be put on the queue, and is not on it. -/
def JoinsQueue (E : Env) (f : Fork) (v : Validator) : Prop :=
  v.activation_eligibility_epoch = FAR_FUTURE_EPOCH ∧
    if f = .Electra then E.min_activation_balance ≤ v.effective_balance
    else v.effective_balance = E.max_effective_balance

instance (E : Env) (f : Fork) (v : Validator) : Decidable (JoinsQueue E f v) :=
  inferInstanceAs (Decidable (_ ∧ _))

/-- The validator is to leave for lack of stake. -/
def LowStake (E : Env) (s : State) (v : Validator) : Prop :=
  ActiveAt v (epochOf E s.slot) ∧ v.effective_balance ≤ E.ejection_balance ∧
    v.exit_epoch = FAR_FUTURE_EPOCH

instance (E : Env) (s : State) (v : Validator) : Decidable (LowStake E s v) :=
  inferInstanceAs (Decidable (_ ∧ _))

/-- The validator is on the queue, its place there is finalized, and it is not yet activated. -/
def WaitsInQueue (s : State) (i : Nat) : Prop :=
  ∃ v, s.validators[i]? = some v ∧
    v.activation_eligibility_epoch ≤ s.finalized_checkpoint.epoch ∧
    v.activation_epoch = FAR_FUTURE_EPOCH

/-- `i` comes before `j` on the queue: it joined earlier, or in the same epoch with lower index. -/
def Before (s : State) (i j : Nat) : Prop :=
  ∃ v w, s.validators[i]? = some v ∧ s.validators[j]? = some w ∧
    (v.activation_eligibility_epoch < w.activation_eligibility_epoch ∨
      v.activation_eligibility_epoch = w.activation_eligibility_epoch ∧ i < j)

/-- How many validators may be activated per epoch, before electra. -/
def activationLimit (E : Env) (f : Fork) (s : State) : Nat :=
  if f = .Deneb then min E.max_per_epoch_activation_churn_limit (churnLimit E s)
  else churnLimit E s

/-- The first epoch a validator that is activated or exits now can be given. -/
def nextFreeEpoch (E : Env) (s : State) : Nat := epochOf E s.slot + 1 + E.max_seed_lookahead

/-- What the registry updates do to validator `i` with entry `v`, where `A` are the activated. -/
structure QueueStep (E : Env) (f : Fork) (s : State) (A : List Nat) (i : Nat)
    (v w : Validator) : Prop where
  eligibility : w.activation_eligibility_epoch =
    if JoinsQueue E f v then epochOf E s.slot + 1 else v.activation_eligibility_epoch
  activation : w.activation_epoch = if i ∈ A then nextFreeEpoch E s else v.activation_epoch
  ejected : LowStake E s v → nextFreeEpoch E s ≤ w.exit_epoch ∧
    w.withdrawable_epoch = w.exit_epoch + E.min_validator_withdrawability_delay
  stays : ¬ LowStake E s v →
    w.exit_epoch = v.exit_epoch ∧ w.withdrawable_epoch = v.withdrawable_epoch
  key : w.public_key = v.public_key
  credentials : w.withdrawal_credentials = v.withdrawal_credentials
  balance : w.effective_balance = v.effective_balance
  slashed : w.slashed = v.slashed

end Verif.Spec
