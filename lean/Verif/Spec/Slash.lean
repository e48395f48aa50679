import Verif.Spec.Exits
import Verif.Model.Slash

/-! # Specification: the effects of a forced exit and of a slashing -/

namespace Verif.Spec

/-- What initiating an exit does to validator `i`, in every fork: nothing if it has an
exit epoch; otherwise it gets an exit epoch that leaves time for the seed lookahead
and a withdrawable epoch. Electra also updates its exit-churn counters. -/
structure ExitEffect (E : Env) (f : Fork) (i : Nat) (s s' : State) (v v' : Validator) : Prop where
  before : s.validators[i]? = some v
  state : s' = { s with
    validators := s.validators.set i v'
    exit_balance_to_consume := s'.exit_balance_to_consume
    earliest_exit_epoch := s'.earliest_exit_epoch }
  counters : f ≠ .Electra → s'.exit_balance_to_consume = s.exit_balance_to_consume ∧
    s'.earliest_exit_epoch = s.earliest_exit_epoch
  validator : v' = { v with
    exit_epoch := v'.exit_epoch
    withdrawable_epoch := v'.withdrawable_epoch }
  exiting : v.exit_epoch ≠ FAR_FUTURE_EPOCH → s' = s ∧ v' = v
  fresh : v.exit_epoch = FAR_FUTURE_EPOCH →
    epochOf E s.slot + 1 + E.max_seed_lookahead ≤ v'.exit_epoch ∧
    v'.withdrawable_epoch = v'.exit_epoch + E.min_validator_withdrawability_delay ∧
    v'.withdrawable_epoch < 2 ^ 64

/-- The penalty quotient and the whistleblower quotient of each fork. -/
def slashPenaltyQuotient (E : Env) : Fork → Nat
  | .Phase0 => E.min_slashing_penalty_quotient
  | .Altair => E.min_slashing_penalty_quotient_altair
  | .Bellatrix => E.min_slashing_penalty_quotient_bellatrix
  | .Capella => E.min_slashing_penalty_quotient_bellatrix
  | .Deneb => E.min_slashing_penalty_quotient_bellatrix
  | .Electra => E.min_slashing_penalty_quotient_electra

def whistleblowerQuotient (E : Env) : Fork → Nat
  | .Electra => E.whistleblower_reward_quotient_electra
  | _ => E.whistleblower_reward_quotient

/-- The effects of slashing validator `i` with proposer `p`, whistleblower `w` and a
proposer's share `share` of the whistleblower reward. -/
structure SlashEffect (E : Env) (f : Fork) (i p w share : Nat) (s s' : State)
    (v v₁ : Validator) : Prop where
  /-- the exit is initiated (`v₁`: the validator after that) -/
  exit : ∃ t, ExitEffect E f i s t v v₁ ∧
    s'.exit_balance_to_consume = t.exit_balance_to_consume ∧
    s'.earliest_exit_epoch = t.earliest_exit_epoch
  /-- only validator `i` changes: slashed, and withdrawable no earlier than
  `epochs_per_slashings_vector` epochs from now -/
  validators : s'.validators = s.validators.set i { v₁ with
    slashed := true
    withdrawable_epoch :=
      max v₁.withdrawable_epoch (epochOf E s.slot + E.epochs_per_slashings_vector) }
  /-- its effective balance is added to the slashings of the current epoch -/
  slashings : s'.slashings =
    s.slashings.modify (epochOf E s.slot % E.epochs_per_slashings_vector)
      (· + v.effective_balance)
  /-- penalty, then the proposer's share, then the rest of the reward -/
  balances : s'.balances =
    ((s.balances.modify i (· - v.effective_balance / slashPenaltyQuotient E f)).modify p
      (· + share)).modify w (· + (v.effective_balance / whistleblowerQuotient E f - share))
  /-- nothing else changes -/
  frame : { s' with
    validators := s.validators
    slashings := s.slashings
    balances := s.balances
    exit_balance_to_consume := s.exit_balance_to_consume
    earliest_exit_epoch := s.earliest_exit_epoch } = s

end Verif.Spec
