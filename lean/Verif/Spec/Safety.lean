import Verif.Spec.Config
import Verif.Spec.Registry
import Verif.Spec.Withdrawals
import Verif.Model.Monad
import Verif.Model.Executor

/-!
# Specification: panics

A Rust function that returns `Result` can still panic: on arithmetic overflow, on an index out of
bounds, on a division by zero, on `unwrap`. `NeverPanics` says it does not. (A sampling loop that is
still running when the model's fuel is used up has not panicked.)
-/

namespace Verif.Spec

/-- The call ends without a panic: with success or with an error the function returns. -/
def NeverPanics {α : Type} (m : M α) (s : State) : Prop :=
  ∀ k s', m s ≠ .error (.panic k) s'

/-- The divisors of the configuration that only operations and rewards use are not zero, and its
constants are small. -/
structure SaneQuotients (E : Env) : Prop where
  whistleblower : 0 < E.whistleblower_reward_quotient
  proposer : 0 < E.proposer_reward_quotient
  slashing_phase0 : 0 < E.min_slashing_penalty_quotient
  slashing_altair : 0 < E.min_slashing_penalty_quotient_altair
  slashing_bellatrix : 0 < E.min_slashing_penalty_quotient_bellatrix
  shard_committee_period : E.shard_committee_period ≤ 2 ^ 32
  eth1_voting_period : E.epochs_per_eth1_voting_period ≤ 2 ^ 32
  increment : E.effective_balance_increment ≤ 2 ^ 32
  base_reward_factor : E.base_reward_factor * E.base_reward_factor ≤ E.effective_balance_increment
  inclusion_delay : 0 < E.min_attestation_inclusion_delay
  sync_committee : 0 < E.sync_committee_size

/-- A state as the chain produces it: the lists of its Rust type, one balance for each validator,
a clock that has not run for millions of years, effective balances below 2^48 Gwei, and no
validator that was activated before it became eligible. -/
structure Wellformed (E : Env) (s : State) : Prop where
  shaped : Shaped E s
  balances : s.balances.length = s.validators.length
  slot : s.slot < 2 ^ 48
  effective : ∀ v ∈ s.validators, v.effective_balance ≤ 2 ^ 48
  /-- the field is a `u64` -/
  exit : ∀ v ∈ s.validators, v.exit_epoch < 2 ^ 64
  eligible : ∀ v ∈ s.validators, v.activation_eligibility_epoch ≤ v.activation_epoch

/-- What can still be slashed: the effective balances of the validators that are not slashed. -/
def atStake (s : State) : Nat :=
  (s.validators.map fun v => if v.slashed then 0 else v.effective_balance).sum

/-- The effective balances of all validators. -/
def effectiveSum (s : State) : Nat := (s.validators.map Validator.effective_balance).sum

/-- Every balance and every entry of the slashings vector has room for everything that can still be
slashed and `k` more. (The supply of Ether is about 2^57 Gwei.) -/
structure Room (k : Nat) (s : State) : Prop where
  stake : atStake s + k < 2 ^ 64
  balances : ∀ b ∈ s.balances, b + atStake s + k < 2 ^ 64
  slashings : ∀ x ∈ s.slashings, x + atStake s + k < 2 ^ 64

/-- The time of the current slot fits a `u64`. -/
def ClockFits (E : Env) (s : State) : Prop :=
  s.genesis_time + s.slot * E.seconds_per_slot < 2 ^ 64

/-- The amounts of a list of deposits. -/
def depositTotal (ds : List Deposit) : Nat := (ds.map fun d => d.data.amount).sum

/-- What block processing needs beyond `Wellformed`. The numbers are far above anything the chain can
contain: 2^56 Gwei are 72 million Ether at stake, 2^61 Gwei are 2 billion Ether. `deposit_count` is
not a bound on size but a condition on votes: no eth1 data whose deposit count is below the number
of deposits already processed. -/
structure BlockReady (E : Env) (f : Fork) (s : State) (b : BeaconBlockBody) : Prop where
  stake : effectiveSum s ≤ 2 ^ 56
  balances : ∀ x ∈ s.balances, x ≤ 2 ^ 61
  slashings : ∀ x ∈ s.slashings, x ≤ 2 ^ 61
  deposits : depositTotal b.deposits ≤ 2 ^ 60
  attestations : b.attestations.length ≤ 2 ^ 7
  registry : s.validators.length + b.deposits.length ≤ 2 ^ 40
  votes : s.eth1_data_votes.length < 2 ^ 62
  deposit_count : s.eth1_deposit_index ≤ s.eth1_data.deposit_count ∧
    s.eth1_deposit_index ≤ b.eth1_data.deposit_count
  /-- the fields are `u64` -/
  count_u64 : s.eth1_data.deposit_count < 2 ^ 64 ∧ b.eth1_data.deposit_count < 2 ^ 64
  parallel : Parallel f s
  clock : Fork.Bellatrix.ord ≤ f.ord → ClockFits E s
  sweep : Fork.Capella.ord ≤ f.ord → SweepReady E s
  committee : f ≠ .Phase0 →
    s.current_sync_committee.public_keys.length ≤ E.sync_committee_size ∧
    ∀ k ∈ s.current_sync_committee.public_keys, ∃ v ∈ s.validators, v.public_key = k

/-- The constants of the configuration that only epoch processing uses are sensible: no divisor is
zero, nothing is large, exits are scheduled after the next epoch, and the base reward is less than
a 256th of the effective balance. -/
structure SaneEpochs (E : Env) : Prop where
  hysteresis_quotient : 0 < E.hysteresis_quotient
  hysteresis_multipliers :
    E.hysteresis_downward_multiplier ≤ 2 ^ 16 ∧ E.hysteresis_upward_multiplier ≤ 2 ^ 16
  eth1_voting_period : 0 < E.epochs_per_eth1_voting_period
  sync_committee_period : 0 < E.epochs_per_sync_committee_period
  lookahead : 0 < E.max_seed_lookahead
  slashing_multipliers : E.proportional_slashing_multiplier ≤ 2 ^ 6 ∧
    E.proportional_slashing_multiplier_altair ≤ 2 ^ 6 ∧
    E.proportional_slashing_multiplier_bellatrix ≤ 2 ^ 6
  score_bias : 0 < E.inactivity_score_bias ∧ E.inactivity_score_bias ≤ 2 ^ 10
  inactivity_quotients :
    (0 < E.inactivity_penalty_quotient ∧ E.inactivity_penalty_quotient ≤ 2 ^ 48) ∧
    (0 < E.inactivity_penalty_quotient_altair ∧ E.inactivity_penalty_quotient_altair ≤ 2 ^ 48) ∧
    (0 < E.inactivity_penalty_quotient_bellatrix ∧
      E.inactivity_penalty_quotient_bellatrix ≤ 2 ^ 48)
  increment : E.effective_balance_increment ≤ 2 ^ 30
  base_reward_factor :
    (2 ^ 8 * E.base_reward_factor) * (2 ^ 8 * E.base_reward_factor) ≤ E.effective_balance_increment
  max_effective_balance : E.max_effective_balance ≤ 2 ^ 7 * E.effective_balance_increment

/-- The number of committees of a slot: one for each `target_committee_size` validators, at least
one and at most `max_committees_per_slot`. -/
def committeeCount (E : Env) (s : State) (epoch : Nat) : Nat :=
  max 1 (min E.max_committees_per_slot
    ((activeIndices s epoch).length / E.slots_per_epoch / E.target_committee_size))

/-- An attestation that phase0 has recorded: for a committee that exists, with the proposer who
included it and a delay. -/
structure RecordedVote (E : Env) (s : State) (a : PendingAttestation) : Prop where
  slot : a.data.slot < 2 ^ 48
  committee : a.data.index < committeeCount E s (epochOf E a.data.slot)
  proposer : a.proposer_index < s.validators.length
  delay : 0 < a.inclusion_delay

/-- What epoch processing needs beyond `Wellformed`. Again the numbers are far above anything the
chain can contain: 72 million Ether at stake, 128 Ether of effective balance for one validator,
2 billion Ether in one balance, and inactivity scores that take 25 years without finality to reach.
`finalized` and `active` are not bounds: the finalized epoch is not after the previous one, and
somebody is active in the next epoch. -/
structure EpochReady (E : Env) (f : Fork) (s : State) : Prop where
  stake : effectiveSum s ≤ 2 ^ 56
  effective : ∀ v ∈ s.validators, v.effective_balance ≤ 2 ^ 7 * E.effective_balance_increment
  balances : ∀ x ∈ s.balances, x ≤ 2 ^ 61
  slashings : s.slashings.sum ≤ 2 ^ 57
  finalized : s.finalized_checkpoint.epoch ≤ epochOf E s.slot - 1
  justified : s.previous_justified_checkpoint.epoch < 2 ^ 63 ∧
    s.current_justified_checkpoint.epoch < 2 ^ 63
  parallel : Parallel f s
  scores : f ≠ .Phase0 → ∀ x ∈ s.inactivity_scores, x ≤ 2 ^ 23
  active : f ≠ .Phase0 → ∃ v ∈ s.validators, ActiveAt v (epochOf E s.slot + 1)
  /-- phase0 keeps the attestations themselves -/
  records : f = .Phase0 → ∀ a ∈ s.previous_epoch_attestations ++ s.current_epoch_attestations,
    RecordedVote E s a
  /-- phase0 multiplies an effective balance by the time without finality -/
  delay : f = .Phase0 → epochOf E s.slot ≤ 2 ^ 26

end Verif.Spec
