import Verif.Spec.Safety
import Verif.Spec.Operations

/-!
# Specification: what Electra needs in order not to panic

Electra keeps queues in the state and moves exits through a churn of balances, so beyond
`Wellformed` its functions need the queues to be about validators that exist, and epochs of the
exit queue that fit a `u64`.
-/

namespace Verif.Spec

/-- The constants of the configuration that only Electra uses are sensible. -/
structure SaneElectra (E : Env) : Prop where
  whistleblower : 0 < E.whistleblower_reward_quotient_electra
  slashing : 0 < E.min_slashing_penalty_quotient_electra
  increment : 2 ^ 16 ≤ E.effective_balance_increment
  min_churn : E.effective_balance_increment ≤ E.min_per_epoch_churn_limit_electra
  max_churn : E.effective_balance_increment ≤ E.max_per_epoch_activation_exit_churn_limit ∧
    E.max_per_epoch_activation_exit_churn_limit ≤ 2 ^ 56
  min_activation_balance : E.min_activation_balance ≤ 2 ^ 11 * E.effective_balance_increment
  max_effective_balance : E.max_effective_balance_electra ≤ 2 ^ 11 * E.effective_balance_increment
  partials : E.max_pending_partials_per_withdrawals_sweep < E.max_withdrawals_per_payload
  inactivity : 2 ^ 4 ≤ E.inactivity_penalty_quotient_bellatrix

/-- The queues of the state are about validators that exist, and nobody has asked to withdraw more
than a `u64` beyond the minimum. -/
structure Queues (E : Env) (s : State) : Prop where
  deposits : ∀ d ∈ s.pending_balance_deposits, d.index < s.validators.length
  withdrawals : ∀ w ∈ s.pending_partial_withdrawals, w.index < s.validators.length
  consolidations : ∀ c ∈ s.pending_consolidations,
    c.source_index < s.validators.length ∧ c.target_index < s.validators.length
  amounts : ∀ i, E.min_activation_balance + pendingWithdrawalsOf s i < 2 ^ 64

/-- What block processing of Electra needs beyond `Wellformed` and `Queues`. The numbers are far
above anything the chain can contain (compare `BlockReady`). `consolidations` is not a bound: a
block with a consolidation that is valid makes the code panic. -/
structure ElectraBlockReady (E : Env) (s : State) (b : BeaconBlockBody) : Prop where
  stake : effectiveSum s ≤ 2 ^ 56
  balances : ∀ x ∈ s.balances, x ≤ 2 ^ 61
  slashings : ∀ x ∈ s.slashings, x ≤ 2 ^ 61
  attestations : b.attestations.length ≤ 2 ^ 7
  registry : s.validators.length + b.deposits.length +
    b.execution_payload.deposit_receipts.length ≤ 2 ^ 40
  votes : s.eth1_data_votes.length < 2 ^ 62
  deposit_index : s.eth1_deposit_index + b.deposits.length < 2 ^ 64
  parallel : Parallel .Electra s
  clock : ClockFits E s
  sweep : SweepReady E s
  exits : s.earliest_exit_epoch ≤ 2 ^ 62
  requests : b.execution_payload.withdrawal_requests.length ≤ 2 ^ 10
  consolidations : b.consolidations = []
  committee : s.current_sync_committee.public_keys.length ≤ E.sync_committee_size ∧
    ∀ k ∈ s.current_sync_committee.public_keys, ∃ v ∈ s.validators, v.public_key = k

/-- What epoch processing of Electra needs beyond `Wellformed` and `Queues`. `penalties` is what
Electra adds to `EpochReady`: the effective balance of a validator, in increments, is multiplied by
the slashed balances, so with a validator of 2048 Ether it overflows once 3 million Ether are
slashed. -/
structure ElectraEpochReady (E : Env) (s : State) : Prop where
  stake : effectiveSum s ≤ 2 ^ 56
  effective : ∀ v ∈ s.validators, v.effective_balance ≤ 2 ^ 11 * E.effective_balance_increment
  balances : ∀ x ∈ s.balances, x ≤ 2 ^ 61
  slashings : s.slashings.sum ≤ 2 ^ 57
  penalties : ∀ v ∈ s.validators, v.effective_balance / E.effective_balance_increment *
    min (s.slashings.sum * E.proportional_slashing_multiplier_bellatrix) (2 ^ 56) < 2 ^ 64
  finalized : s.finalized_checkpoint.epoch ≤ epochOf E s.slot - 1
  justified : s.previous_justified_checkpoint.epoch < 2 ^ 63 ∧
    s.current_justified_checkpoint.epoch < 2 ^ 63
  parallel : Parallel .Electra s
  scores : ∀ x ∈ s.inactivity_scores, x ≤ 2 ^ 22
  active : ∃ v ∈ s.validators, ActiveAt v (epochOf E s.slot + 1)
  exits : s.earliest_exit_epoch ≤ 2 ^ 62
  deposits : s.deposit_balance_to_consume ≤ 2 ^ 59 ∧
    ∀ d ∈ s.pending_balance_deposits, d.amount ≤ 2 ^ 62
  consolidations : s.pending_consolidations.length ≤ 2 ^ 18

end Verif.Spec
