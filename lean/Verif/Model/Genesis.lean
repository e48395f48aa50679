import Verif.Model.Upgrade

/-! # Genesis: `*/genesis.rs` -/

namespace Verif

/-- `Eth1Data::default()` -/
def defaultEth1Data : Eth1Data := ⟨zeroBytes 32, 0, zeroBytes 32⟩

/-- `BeaconBlockHeader::default()` -/
def defaultHeader : BeaconBlockHeader := ⟨0, 0, zeroBytes 32, zeroBytes 32, zeroBytes 32⟩

/-- `BeaconBlockBody::default()` -/
def defaultBody (E : Env) : BeaconBlockBody where
  randao_reveal := zeroBytes 96
  eth1_data := defaultEth1Data
  graffiti := zeroBytes 32
  proposer_slashings := []
  attester_slashings := []
  attestations := []
  deposits := []
  voluntary_exits := []
  sync_aggregate := ⟨List.replicate E.sync_committee_size false, zeroBytes 96⟩
  execution_payload := defaultPayload
  bls_to_execution_changes := []
  blob_kzg_commitments := []
  consolidations := []

/-- `BeaconState::default()` -/
def defaultState (E : Env) : State where
  genesis_time := 0
  genesis_validators_root := zeroBytes 32
  slot := 0
  fork := ⟨zeroBytes 4, zeroBytes 4, 0⟩
  latest_block_header := defaultHeader
  block_roots := List.replicate E.slots_per_historical_root (zeroBytes 32)
  state_roots := List.replicate E.slots_per_historical_root (zeroBytes 32)
  historical_roots := []
  eth1_data := defaultEth1Data
  eth1_data_votes := []
  eth1_deposit_index := 0
  validators := []
  balances := []
  randao_mixes := List.replicate E.epochs_per_historical_vector (zeroBytes 32)
  slashings := List.replicate E.epochs_per_slashings_vector 0
  previous_epoch_attestations := []
  current_epoch_attestations := []
  previous_epoch_participation := []
  current_epoch_participation := []
  justification_bits := [false, false, false, false]
  previous_justified_checkpoint := ⟨0, zeroBytes 32⟩
  current_justified_checkpoint := ⟨0, zeroBytes 32⟩
  finalized_checkpoint := ⟨0, zeroBytes 32⟩
  inactivity_scores := []
  current_sync_committee := defaultSyncCommittee E
  next_sync_committee := defaultSyncCommittee E
  latest_execution_payload_header := defaultPayloadHeader
  next_withdrawal_index := 0
  next_withdrawal_validator_index := 0
  historical_summaries := []
  deposit_receipts_start_index := 0
  deposit_balance_to_consume := 0
  exit_balance_to_consume := 0
  earliest_exit_epoch := 0
  consolidation_balance_to_consume := 0
  earliest_consolidation_epoch := 0
  pending_balance_deposits := []
  pending_partial_withdrawals := []
  pending_consolidations := []

/-- `state_transition/context.rs:461-470` -/
def fork_version_for (C : Context) : Fork → Version
  | .Phase0 => C.genesis_fork_version
  | .Altair => C.altair_fork_version
  | .Bellatrix => C.bellatrix_fork_version
  | .Capella => C.capella_fork_version
  | .Deneb => C.deneb_fork_version
  | .Electra => C.electra_fork_version

/-- The state before the deposits: `phase0/genesis.rs:46-78`, `altair/genesis.rs:43-76`,
`bellatrix/genesis.rs:51-90` (likewise capella, deneb, electra). The payload header
argument exists from bellatrix on. -/
def genesis_candidate (E : Env) (f : Fork) (eth1_block_hash : Bytes32) (eth1_timestamp : Nat)
    (deposits : List Deposit) (header : Option ExecutionPayloadHeader) : R State := do
  let genesis_time ← eth1_timestamp +? E.genesis_delay
  return { defaultState E with
    genesis_time := genesis_time
    fork := ⟨fork_version_for E.toContext f, fork_version_for E.toContext f, GENESIS_EPOCH⟩
    eth1_data := { defaultEth1Data with
      block_hash := eth1_block_hash, deposit_count := deposits.length }
    latest_block_header := { defaultHeader with body_root := E.body_root f (defaultBody E) }
    randao_mixes := List.replicate E.epochs_per_historical_vector eth1_block_hash
    latest_execution_payload_header := header.getD defaultPayloadHeader }

/-- The loop `phase0/genesis.rs:80-85`; `leaves` are the deposits pushed so far. -/
def genesis_deposits (E : Env) (f : Fork) : List DepositData → List Deposit → M Unit
  | _, [] => pure ()
  | leaves, d :: rest => do
    upd fun s => { s with eth1_data :=
      { s.eth1_data with deposit_root := E.deposit_data_list_root (leaves ++ [d.data]) } }
    process_deposit E f d
    genesis_deposits E f (leaves ++ [d.data]) rest

/-- `electra/genesis.rs:121-124` -/
def genesis_pending_deposits (f : Fork) : M Unit :=
  match f with
  | .Electra => do
    let s ← get
    upd fun s => { s with pending_balance_deposits := [] }
    forEach s.pending_balance_deposits fun d => increase_balance d.index d.amount
  | _ => pure ()

/-- The loop body `phase0/genesis.rs:88-98`. -/
def genesis_activate (E : Env) (i : Nat) : M Unit := do
  let s ← get
  let balance ← idx s.balances i
  let r ← balance %? E.effective_balance_increment
  let a ← balance -? r
  let effective_balance := min a E.max_effective_balance
  updValidator i fun v =>
    if effective_balance = E.max_effective_balance
    then { v with
      effective_balance := effective_balance
      activation_eligibility_epoch := GENESIS_EPOCH
      activation_epoch := GENESIS_EPOCH }
    else { v with effective_balance := effective_balance }

/-- `altair/genesis.rs:101-103`; phase0 has no sync committees. -/
def genesis_sync_committees (E : Env) (f : Fork) : M Unit :=
  match f with
  | .Phase0 => pure ()
  | _ => do
    let s ← get
    let sync_committee ← get_next_sync_committee E s
    upd fun s => { s with
      current_sync_committee := sync_committee
      next_sync_committee := sync_committee }

/-- `phase0/genesis.rs:80-103`, `altair/genesis.rs:78-105`, `electra/genesis.rs:114-146`. -/
def genesis_fill (E : Env) (f : Fork) (deposits : List Deposit) : M Unit := do
  genesis_deposits E f [] deposits
  genesis_pending_deposits f
  let s ← get
  forEach (List.range s.validators.length) (genesis_activate E)
  upd fun s => { s with genesis_validators_root := E.validators_root s.validators }
  genesis_sync_committees E f

/-- `initialize_beacon_state_from_eth1`: `phase0/genesis.rs:15-104`,
`altair/genesis.rs:12-106`, `bellatrix/genesis.rs:11-120`, and the same text in
`capella/genesis.rs`, `deneb/genesis.rs`; `electra/genesis.rs:12-147`. -/
def initialize_beacon_state_from_eth1 (E : Env) (f : Fork) (eth1_block_hash : Bytes32)
    (eth1_timestamp : Nat) (deposits : List Deposit) (header : Option ExecutionPayloadHeader) :
    R State := do
  let s ← genesis_candidate E f eth1_block_hash eth1_timestamp deposits header
  runLocal (genesis_fill E f deposits) s

/-- `phase0/genesis.rs:106-134` -/
def is_valid_genesis_state (E : Env) (s : State) : Bool :=
  if s.genesis_time < E.min_genesis_time then false
  else decide ((get_active_validator_indices s GENESIS_EPOCH).length ≥
    E.min_genesis_active_validator_count)

/-- `phase0/genesis.rs:136-172` -/
def get_genesis_block (E : Env) (f : Fork) (s : State) : BeaconBlock where
  slot := 0
  proposer_index := 0
  parent_root := zeroBytes 32
  state_root := E.state_root f s
  body := defaultBody E

end Verif
