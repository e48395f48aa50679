import Verif.Model.Transition

/-! # Fork upgrades: `*/fork.rs` -/

namespace Verif

/-- Run a mutation on a local copy; an error is propagated with `?`. -/
def runLocal (m : M Unit) (s : State) : R State :=
  match m s with
  | .ok _ s' => .ok s'
  | .error e _ => .error e

/-- `SyncCommittee::default()` -/
def defaultSyncCommittee (E : Env) : SyncCommittee where
  public_keys := List.replicate E.sync_committee_size (zeroBytes 48)
  aggregate_public_key := zeroBytes 48

/-- The loops `altair/fork.rs:41-46` for one attestation. -/
def translate_flags (flag_indices : List Nat) (indices : List Nat) : M Unit :=
  forEach indices fun index =>
    forEach flag_indices fun flag_index => do
      let s ← get
      let flags ← idx s.previous_epoch_participation index
      let flags' ← add_flag flags flag_index
      upd fun s => { s with
        previous_epoch_participation := s.previous_epoch_participation.set index flags' }

/-- `altair/fork.rs:12-49` -/
def translate_participation (E : Env) (attestations : List PendingAttestation) : M Unit :=
  forEach attestations fun a => do
    let s ← get
    let flag_indices ← get_attestation_participation_flag_indices E .Altair s a.data
      a.inclusion_delay
    let indices ← get_attesting_indices E s a.data a.aggregation_bits
    translate_flags flag_indices indices

/-- The initial `post_state` of `altair/fork.rs:85-121`. Fields altair does not have
(the pending attestations, and all fields of later forks) get default values. -/
def altair_base (E : Env) (s : State) (epoch : Nat) : State where
  genesis_time := s.genesis_time
  genesis_validators_root := s.genesis_validators_root
  slot := s.slot
  fork := ⟨s.fork.current_version, E.altair_fork_version, epoch⟩
  latest_block_header := s.latest_block_header
  block_roots := s.block_roots
  state_roots := s.state_roots
  historical_roots := s.historical_roots
  eth1_data := s.eth1_data
  eth1_data_votes := s.eth1_data_votes
  eth1_deposit_index := s.eth1_deposit_index
  validators := s.validators
  balances := s.balances
  randao_mixes := s.randao_mixes
  slashings := s.slashings
  previous_epoch_attestations := []
  current_epoch_attestations := []
  previous_epoch_participation := List.replicate s.validators.length 0
  current_epoch_participation := List.replicate s.validators.length 0
  justification_bits := s.justification_bits
  previous_justified_checkpoint := s.previous_justified_checkpoint
  current_justified_checkpoint := s.current_justified_checkpoint
  finalized_checkpoint := s.finalized_checkpoint
  inactivity_scores := List.replicate s.validators.length 0
  current_sync_committee := defaultSyncCommittee E
  next_sync_committee := defaultSyncCommittee E
  latest_execution_payload_header := defaultPayloadHeader
  next_withdrawal_index := 0
  next_withdrawal_validator_index := 0
  historical_summaries := []
  deposit_receipts_start_index := 0
  deposit_balance_to_consume := 0
  exit_balance_to_consume := 0
  earliest_exit_epoch := 0
  consolidation_balance_to_consume := 0
  earliest_consolidation_epoch := 0
  pending_balance_deposits := []
  pending_partial_withdrawals := []
  pending_consolidations := []

/-- `altair/fork.rs:51-130` -/
def upgrade_to_altair (E : Env) (s : State) : R State := do
  let epoch ← get_current_epoch E s
  let post ← runLocal (translate_participation E s.previous_epoch_attestations)
    (altair_base E s epoch)
  let sync_committee ← get_next_sync_committee E post
  return { post with
    current_sync_committee := sync_committee
    next_sync_committee := sync_committee }

/-- `bellatrix/fork.rs:7-74`. -/
def upgrade_to_bellatrix (E : Env) (s : State) : R State := do
  let epoch ← get_current_epoch E s
  return {
    genesis_time := s.genesis_time
    genesis_validators_root := s.genesis_validators_root
    slot := s.slot
    fork := ⟨s.fork.current_version, E.bellatrix_fork_version, epoch⟩
    latest_block_header := s.latest_block_header
    block_roots := s.block_roots
    state_roots := s.state_roots
    historical_roots := s.historical_roots
    eth1_data := s.eth1_data
    eth1_data_votes := s.eth1_data_votes
    eth1_deposit_index := s.eth1_deposit_index
    validators := s.validators
    balances := s.balances
    randao_mixes := s.randao_mixes
    slashings := s.slashings
    previous_epoch_attestations := []
    current_epoch_attestations := []
    previous_epoch_participation := s.previous_epoch_participation
    current_epoch_participation := s.current_epoch_participation
    justification_bits := s.justification_bits
    previous_justified_checkpoint := s.previous_justified_checkpoint
    current_justified_checkpoint := s.current_justified_checkpoint
    finalized_checkpoint := s.finalized_checkpoint
    inactivity_scores := s.inactivity_scores
    current_sync_committee := s.current_sync_committee
    next_sync_committee := s.next_sync_committee
    latest_execution_payload_header := defaultPayloadHeader
    next_withdrawal_index := 0
    next_withdrawal_validator_index := 0
    historical_summaries := []
    deposit_receipts_start_index := 0
    deposit_balance_to_consume := 0
    exit_balance_to_consume := 0
    earliest_exit_epoch := 0
    consolidation_balance_to_consume := 0
    earliest_consolidation_epoch := 0
    pending_balance_deposits := []
    pending_partial_withdrawals := []
    pending_consolidations := [] }

/-- `capella/fork.rs:46-62` -/
def capella_header (h : ExecutionPayloadHeader) : ExecutionPayloadHeader where
  parent_hash := h.parent_hash
  fee_recipient := h.fee_recipient
  state_root := h.state_root
  receipts_root := h.receipts_root
  logs_bloom := h.logs_bloom
  prev_randao := h.prev_randao
  block_number := h.block_number
  gas_limit := h.gas_limit
  gas_used := h.gas_used
  timestamp := h.timestamp
  extra_data := h.extra_data
  base_fee_per_gas := h.base_fee_per_gas
  block_hash := h.block_hash
  transactions_root := h.transactions_root
  withdrawals_root := zeroBytes 32
  blob_gas_used := 0
  excess_blob_gas := 0
  deposit_receipts_root := zeroBytes 32
  withdrawal_requests_root := zeroBytes 32

/-- `capella/fork.rs:7-97`. -/
def upgrade_to_capella (E : Env) (s : State) : R State := do
  let epoch ← get_current_epoch E s
  return {
    genesis_time := s.genesis_time
    genesis_validators_root := s.genesis_validators_root
    slot := s.slot
    fork := ⟨s.fork.current_version, E.capella_fork_version, epoch⟩
    latest_block_header := s.latest_block_header
    block_roots := s.block_roots
    state_roots := s.state_roots
    historical_roots := s.historical_roots
    eth1_data := s.eth1_data
    eth1_data_votes := s.eth1_data_votes
    eth1_deposit_index := s.eth1_deposit_index
    validators := s.validators
    balances := s.balances
    randao_mixes := s.randao_mixes
    slashings := s.slashings
    previous_epoch_attestations := []
    current_epoch_attestations := []
    previous_epoch_participation := s.previous_epoch_participation
    current_epoch_participation := s.current_epoch_participation
    justification_bits := s.justification_bits
    previous_justified_checkpoint := s.previous_justified_checkpoint
    current_justified_checkpoint := s.current_justified_checkpoint
    finalized_checkpoint := s.finalized_checkpoint
    inactivity_scores := s.inactivity_scores
    current_sync_committee := s.current_sync_committee
    next_sync_committee := s.next_sync_committee
    latest_execution_payload_header := capella_header s.latest_execution_payload_header
    next_withdrawal_index := 0
    next_withdrawal_validator_index := 0
    historical_summaries := []
    deposit_receipts_start_index := 0
    deposit_balance_to_consume := 0
    exit_balance_to_consume := 0
    earliest_exit_epoch := 0
    consolidation_balance_to_consume := 0
    earliest_consolidation_epoch := 0
    pending_balance_deposits := []
    pending_partial_withdrawals := []
    pending_consolidations := [] }

/-- `deneb/fork.rs:46-64` -/
def deneb_header (h : ExecutionPayloadHeader) : ExecutionPayloadHeader where
  parent_hash := h.parent_hash
  fee_recipient := h.fee_recipient
  state_root := h.state_root
  receipts_root := h.receipts_root
  logs_bloom := h.logs_bloom
  prev_randao := h.prev_randao
  block_number := h.block_number
  gas_limit := h.gas_limit
  gas_used := h.gas_used
  timestamp := h.timestamp
  extra_data := h.extra_data
  base_fee_per_gas := h.base_fee_per_gas
  block_hash := h.block_hash
  transactions_root := h.transactions_root
  withdrawals_root := h.withdrawals_root
  blob_gas_used := 0
  excess_blob_gas := 0
  deposit_receipts_root := zeroBytes 32
  withdrawal_requests_root := zeroBytes 32

/-- `deneb/fork.rs:7-99`. -/
def upgrade_to_deneb (E : Env) (s : State) : R State := do
  let epoch ← get_current_epoch E s
  return {
    genesis_time := s.genesis_time
    genesis_validators_root := s.genesis_validators_root
    slot := s.slot
    fork := ⟨s.fork.current_version, E.deneb_fork_version, epoch⟩
    latest_block_header := s.latest_block_header
    block_roots := s.block_roots
    state_roots := s.state_roots
    historical_roots := s.historical_roots
    eth1_data := s.eth1_data
    eth1_data_votes := s.eth1_data_votes
    eth1_deposit_index := s.eth1_deposit_index
    validators := s.validators
    balances := s.balances
    randao_mixes := s.randao_mixes
    slashings := s.slashings
    previous_epoch_attestations := []
    current_epoch_attestations := []
    previous_epoch_participation := s.previous_epoch_participation
    current_epoch_participation := s.current_epoch_participation
    justification_bits := s.justification_bits
    previous_justified_checkpoint := s.previous_justified_checkpoint
    current_justified_checkpoint := s.current_justified_checkpoint
    finalized_checkpoint := s.finalized_checkpoint
    inactivity_scores := s.inactivity_scores
    current_sync_committee := s.current_sync_committee
    next_sync_committee := s.next_sync_committee
    latest_execution_payload_header := deneb_header s.latest_execution_payload_header
    next_withdrawal_index := s.next_withdrawal_index
    next_withdrawal_validator_index := s.next_withdrawal_validator_index
    historical_summaries := s.historical_summaries
    deposit_receipts_start_index := 0
    deposit_balance_to_consume := 0
    exit_balance_to_consume := 0
    earliest_exit_epoch := 0
    consolidation_balance_to_consume := 0
    earliest_consolidation_epoch := 0
    pending_balance_deposits := []
    pending_partial_withdrawals := []
    pending_consolidations := [] }

/-- `electra/fork.rs:67-87` -/
def electra_header (h : ExecutionPayloadHeader) : ExecutionPayloadHeader where
  parent_hash := h.parent_hash
  fee_recipient := h.fee_recipient
  state_root := h.state_root
  receipts_root := h.receipts_root
  logs_bloom := h.logs_bloom
  prev_randao := h.prev_randao
  block_number := h.block_number
  gas_limit := h.gas_limit
  gas_used := h.gas_used
  timestamp := h.timestamp
  extra_data := h.extra_data
  base_fee_per_gas := h.base_fee_per_gas
  block_hash := h.block_hash
  transactions_root := h.transactions_root
  withdrawals_root := h.withdrawals_root
  blob_gas_used := h.blob_gas_used
  excess_blob_gas := h.excess_blob_gas
  deposit_receipts_root := zeroBytes 32
  withdrawal_requests_root := zeroBytes 32

/-- `electra/fork.rs:89-95` -/
def electra_earliest_exit_epoch (s : State) (epoch : Nat) : R Nat :=
  let exits := s.validators.filterMap fun v =>
    if v.exit_epoch ≠ FAR_FUTURE_EPOCH then some v.exit_epoch else none
  (exits.max?.getD epoch) +? 1

/-- The initial `post` of `electra/fork.rs:97-139`. -/
def electra_base (E : Env) (s : State) (epoch earliest_exit_epoch
    earliest_consolidation_epoch : Nat) : State where
  genesis_time := s.genesis_time
  genesis_validators_root := s.genesis_validators_root
  slot := s.slot
  fork := ⟨s.fork.current_version, E.electra_fork_version, epoch⟩
  latest_block_header := s.latest_block_header
  block_roots := s.block_roots
  state_roots := s.state_roots
  historical_roots := s.historical_roots
  eth1_data := s.eth1_data
  eth1_data_votes := s.eth1_data_votes
  eth1_deposit_index := s.eth1_deposit_index
  validators := s.validators
  balances := s.balances
  randao_mixes := s.randao_mixes
  slashings := s.slashings
  previous_epoch_attestations := []
  current_epoch_attestations := []
  previous_epoch_participation := s.previous_epoch_participation
  current_epoch_participation := s.current_epoch_participation
  justification_bits := s.justification_bits
  previous_justified_checkpoint := s.previous_justified_checkpoint
  current_justified_checkpoint := s.current_justified_checkpoint
  finalized_checkpoint := s.finalized_checkpoint
  inactivity_scores := s.inactivity_scores
  current_sync_committee := s.current_sync_committee
  next_sync_committee := s.next_sync_committee
  latest_execution_payload_header := electra_header s.latest_execution_payload_header
  next_withdrawal_index := s.next_withdrawal_index
  next_withdrawal_validator_index := s.next_withdrawal_validator_index
  historical_summaries := s.historical_summaries
  deposit_receipts_start_index := UNSET_DEPOSIT_RECEIPTS_START_INDEX
  deposit_balance_to_consume := 0
  exit_balance_to_consume := 0
  earliest_exit_epoch := earliest_exit_epoch
  consolidation_balance_to_consume := 0
  earliest_consolidation_epoch := earliest_consolidation_epoch
  pending_balance_deposits := []
  pending_partial_withdrawals := []
  pending_consolidations := []

/-- `electra/fork.rs:143-155`: validators not yet activated, by
(eligibility epoch, index). -/
def pre_activation_validators (s : State) : List Nat :=
  let pairs := s.validators.zipIdx.filterMap fun (v, i) =>
    if v.activation_epoch = FAR_FUTURE_EPOCH
    then some (v.activation_eligibility_epoch, i) else none
  (sortBy (fun a b => a.1 < b.1 || (a.1 == b.1 && a.2 ≤ b.2)) pairs).map (·.2)

/-- `electra/fork.rs:161-172` -/
def compounding_indices (s : State) : List Nat :=
  s.validators.zipIdx.filterMap fun (v, i) =>
    if Electra.has_compounding_withdrawal_credential v then some i else none

/-- `electra/fork.rs:140-175` -/
def electra_init_queues (E : Env) : M Unit := do
  let s ← get
  let exit_balance ← Electra.get_activation_exit_churn_limit E s
  upd fun s => { s with exit_balance_to_consume := exit_balance }
  let s ← get
  let consolidation_balance ← Electra.get_consolidation_churn_limit E s
  upd fun s => { s with consolidation_balance_to_consume := consolidation_balance }
  let s ← get
  forEach (pre_activation_validators s) Electra.queue_entire_balance_and_reset_validator
  let s ← get
  forEach (compounding_indices s) (Electra.queue_excess_active_balance E)

/-- `electra/fork.rs:19-178` -/
def upgrade_to_electra (E : Env) (s : State) : R State := do
  let epoch ← get_current_epoch E s
  let earliest_exit_epoch ← electra_earliest_exit_epoch s epoch
  let earliest_consolidation_epoch ← compute_activation_exit_epoch E epoch
  runLocal (electra_init_queues E)
    (electra_base E s epoch earliest_exit_epoch earliest_consolidation_epoch)

/-- The upgrade function into fork `f`; there is none into phase0. -/
def upgrade_to (E : Env) (f : Fork) (s : State) : R State :=
  match f with
  | .Phase0 => .error .invalidForkTransition
  | .Altair => upgrade_to_altair E s
  | .Bellatrix => upgrade_to_bellatrix E s
  | .Capella => upgrade_to_capella E s
  | .Deneb => upgrade_to_deneb E s
  | .Electra => upgrade_to_electra E s

end Verif
