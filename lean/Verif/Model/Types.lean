import Verif.Model.Prelude

/-!
# Containers

One record per consensus container. `BeaconState`, `BeaconBlockBody` and the
execution payload carry the union of the fields of all forks (phase0 … electra);
a fork's functions only touch the fields the fork has. In Rust each fork has its
own struct, and functions shared between forks are copied by `spec-gen` with the
types substituted.
-/

namespace Verif

/-- `fork.rs:4-11` `Fork`: the consensus forks, in order. Functions that exist in
several versions take the fork as an argument. A fork that does not define a
function itself uses the version of the nearest preceding fork that does, with
the callees resolved in the using fork (`*/spec/mod.rs`, generated by
`spec-gen`). -/
inductive Fork
  | Phase0 | Altair | Bellatrix | Capella | Deneb | Electra
  deriving DecidableEq, Repr

/-- `primitives.rs:8` -/
abbrev Root := Bytes 32
/-- `primitives.rs:29` -/
abbrev Bytes32 := Bytes 32
/-- `primitives.rs:19` -/
abbrev Version := Bytes 4
/-- `primitives.rs:21` `[u8; 32]`; a list here, its length is a theorem. -/
abbrev Domain := List UInt8
/-- `primitives.rs:23` -/
abbrev ExecutionAddress := Bytes 20
/-- `crypto/bls.rs` compressed public key. -/
abbrev PublicKey := Bytes 48
/-- `crypto/bls.rs` compressed signature. -/
abbrev Signature := Bytes 96

/-- `Default` of a byte array. -/
def zeroBytes (n : Nat) : Bytes n := Vector.replicate n 0

/-- `phase0/validator.rs:10-26` -/
structure Validator where
  public_key : PublicKey
  withdrawal_credentials : Bytes32
  effective_balance : Nat
  slashed : Bool
  activation_eligibility_epoch : Nat
  activation_epoch : Nat
  exit_epoch : Nat
  withdrawable_epoch : Nat
  deriving DecidableEq

/-- `phase0/operations.rs:13-17` -/
structure Checkpoint where
  epoch : Nat
  root : Root
  deriving DecidableEq

/-- `phase0/operations.rs:22-30` -/
structure AttestationData where
  slot : Nat
  index : Nat
  beacon_block_root : Root
  source : Checkpoint
  target : Checkpoint
  deriving DecidableEq

/-- `phase0/operations.rs:35-40`, `electra/operations.rs` -/
structure IndexedAttestation where
  attesting_indices : List Nat
  data : AttestationData
  signature : Signature
  deriving DecidableEq

/-- `phase0/operations.rs:45-52` -/
structure PendingAttestation where
  aggregation_bits : List Bool
  data : AttestationData
  inclusion_delay : Nat
  proposer_index : Nat
  deriving DecidableEq

/-- `phase0/operations.rs:57-61`; `committee_bits` only in electra
(`electra/operations.rs`). -/
structure Attestation where
  aggregation_bits : List Bool
  data : AttestationData
  signature : Signature
  committee_bits : List Bool := []
  deriving DecidableEq

/-- `phase0/operations.rs:66-71` -/
structure Eth1Data where
  deposit_root : Root
  deposit_count : Nat
  block_hash : Bytes32
  deriving DecidableEq

/-- `phase0/operations.rs:74-80` -/
structure DepositMessage where
  public_key : PublicKey
  withdrawal_credentials : Bytes32
  amount : Nat
  deriving DecidableEq

/-- `phase0/operations.rs:85-92` -/
structure DepositData where
  public_key : PublicKey
  withdrawal_credentials : Bytes32
  amount : Nat
  signature : Signature
  deriving DecidableEq

/-- `phase0/operations.rs:119-122` -/
structure Deposit where
  proof : List Root
  data : DepositData
  deriving DecidableEq

/-- `phase0/beacon_block.rs` `BeaconBlockHeader` -/
structure BeaconBlockHeader where
  slot : Nat
  proposer_index : Nat
  parent_root : Root
  state_root : Root
  body_root : Root
  deriving DecidableEq

/-- `phase0/beacon_block.rs` `SignedBeaconBlockHeader` -/
structure SignedBeaconBlockHeader where
  message : BeaconBlockHeader
  signature : Signature
  deriving DecidableEq

/-- `phase0/operations.rs:97-100` -/
structure ProposerSlashing where
  signed_header_1 : SignedBeaconBlockHeader
  signed_header_2 : SignedBeaconBlockHeader
  deriving DecidableEq

/-- `phase0/operations.rs:105-108` -/
structure AttesterSlashing where
  attestation_1 : IndexedAttestation
  attestation_2 : IndexedAttestation
  deriving DecidableEq

/-- `phase0/operations.rs:127-132` -/
structure VoluntaryExit where
  epoch : Nat
  validator_index : Nat
  deriving DecidableEq

/-- `phase0/operations.rs:137-140` -/
structure SignedVoluntaryExit where
  message : VoluntaryExit
  signature : Signature
  deriving DecidableEq

/-- `phase0/beacon_state.rs:15-22` -/
structure ForkRecord where
  previous_version : Version
  current_version : Version
  epoch : Nat
  deriving DecidableEq

/-- `phase0/beacon_state.rs:42-45` -/
structure HistoricalSummary where
  block_summary_root : Root
  state_summary_root : Root
  deriving DecidableEq

/-- `altair/sync.rs` `SyncAggregate` -/
structure SyncAggregate where
  sync_committee_bits : List Bool
  sync_committee_signature : Signature
  deriving DecidableEq

/-- `altair/sync.rs` `SyncCommittee` -/
structure SyncCommittee where
  public_keys : List PublicKey
  aggregate_public_key : PublicKey
  deriving DecidableEq

/-- `capella/withdrawal.rs` -/
structure Withdrawal where
  index : Nat
  validator_index : Nat
  address : ExecutionAddress
  amount : Nat
  deriving DecidableEq

/-- `capella/bls_to_execution_change.rs` -/
structure BlsToExecutionChange where
  validator_index : Nat
  from_bls_public_key : PublicKey
  to_execution_address : ExecutionAddress
  deriving DecidableEq

/-- `capella/bls_to_execution_change.rs` -/
structure SignedBlsToExecutionChange where
  message : BlsToExecutionChange
  signature : Signature
  deriving DecidableEq

/-- `electra/beacon_state.rs` `DepositReceipt` -/
structure DepositReceipt where
  public_key : PublicKey
  withdrawal_credentials : Bytes32
  amount : Nat
  signature : Signature
  index : Nat
  deriving DecidableEq

/-- `electra/beacon_state.rs` `ExecutionLayerWithdrawalRequest` -/
structure ExecutionLayerWithdrawalRequest where
  source_address : ExecutionAddress
  validator_public_key : PublicKey
  amount : Nat
  deriving DecidableEq

/-- `electra/operations.rs` `Consolidation` -/
structure Consolidation where
  source_index : Nat
  target_index : Nat
  epoch : Nat
  deriving DecidableEq

/-- `electra/operations.rs` `SignedConsolidation` -/
structure SignedConsolidation where
  message : Consolidation
  signature : Signature
  deriving DecidableEq

/-- `electra/beacon_state.rs` `PendingBalanceDeposit` -/
structure PendingBalanceDeposit where
  index : Nat
  amount : Nat
  deriving DecidableEq

/-- `electra/beacon_state.rs` `PendingPartialWithdrawal` -/
structure PendingPartialWithdrawal where
  index : Nat
  amount : Nat
  withdrawable_epoch : Nat
  deriving DecidableEq

/-- `electra/beacon_state.rs` `PendingConsolidation` -/
structure PendingConsolidation where
  source_index : Nat
  target_index : Nat
  deriving DecidableEq

/-- The fields shared by an execution payload and its header,
`bellatrix/execution_payload.rs`, `capella/execution_payload.rs`,
`deneb/execution_payload.rs`, `electra/execution_payload.rs`. -/
structure PayloadCore where
  parent_hash : Bytes32
  fee_recipient : ExecutionAddress
  state_root : Bytes32
  receipts_root : Bytes32
  logs_bloom : List UInt8
  prev_randao : Bytes32
  block_number : Nat
  gas_limit : Nat
  gas_used : Nat
  timestamp : Nat
  extra_data : List UInt8
  base_fee_per_gas : Nat
  block_hash : Bytes32
  /-- deneb -/
  blob_gas_used : Nat
  /-- deneb -/
  excess_blob_gas : Nat
  deriving DecidableEq

/-- Execution payload, union of all forks' fields. -/
structure ExecutionPayload extends PayloadCore where
  transactions : List (List UInt8)
  /-- capella -/
  withdrawals : List Withdrawal
  /-- electra -/
  deposit_receipts : List DepositReceipt
  /-- electra -/
  withdrawal_requests : List ExecutionLayerWithdrawalRequest
  deriving DecidableEq

/-- Execution payload header, union of all forks' fields. -/
structure ExecutionPayloadHeader extends PayloadCore where
  transactions_root : Root
  /-- capella -/
  withdrawals_root : Root
  /-- electra -/
  deposit_receipts_root : Root
  /-- electra -/
  withdrawal_requests_root : Root
  deriving DecidableEq

/-- `BeaconBlockBody` of every fork (`*/beacon_block.rs`), union of fields. -/
structure BeaconBlockBody where
  randao_reveal : Signature
  eth1_data : Eth1Data
  graffiti : Bytes32
  proposer_slashings : List ProposerSlashing
  attester_slashings : List AttesterSlashing
  attestations : List Attestation
  deposits : List Deposit
  voluntary_exits : List SignedVoluntaryExit
  /-- altair -/
  sync_aggregate : SyncAggregate
  /-- bellatrix -/
  execution_payload : ExecutionPayload
  /-- capella -/
  bls_to_execution_changes : List SignedBlsToExecutionChange
  /-- deneb -/
  blob_kzg_commitments : List (Bytes 48)
  /-- electra -/
  consolidations : List SignedConsolidation
  deriving DecidableEq

/-- `BeaconBlock` (`*/beacon_block.rs`). -/
structure BeaconBlock where
  slot : Nat
  proposer_index : Nat
  parent_root : Root
  state_root : Root
  body : BeaconBlockBody
  deriving DecidableEq

/-- `SignedBeaconBlock` (`*/beacon_block.rs`). -/
structure SignedBeaconBlock where
  message : BeaconBlock
  signature : Signature
  deriving DecidableEq

/-- `BeaconState` of every fork (`phase0/beacon_state.rs:50-88`,
`altair/beacon_state.rs`, `bellatrix/beacon_state.rs`, `capella/beacon_state.rs`,
`deneb/beacon_state.rs`, `electra/beacon_state.rs`), union of fields. SSZ
`Vector`s and `List`s are lists; their type-level lengths and capacities are not
part of the type here. -/
structure State where
  genesis_time : Nat
  genesis_validators_root : Root
  slot : Nat
  fork : ForkRecord
  latest_block_header : BeaconBlockHeader
  block_roots : List Root
  state_roots : List Root
  historical_roots : List Root
  eth1_data : Eth1Data
  eth1_data_votes : List Eth1Data
  eth1_deposit_index : Nat
  validators : List Validator
  balances : List Nat
  randao_mixes : List Bytes32
  slashings : List Nat
  /-- phase0 only -/
  previous_epoch_attestations : List PendingAttestation
  /-- phase0 only -/
  current_epoch_attestations : List PendingAttestation
  /-- altair -/
  previous_epoch_participation : List UInt8
  /-- altair -/
  current_epoch_participation : List UInt8
  justification_bits : List Bool
  previous_justified_checkpoint : Checkpoint
  current_justified_checkpoint : Checkpoint
  finalized_checkpoint : Checkpoint
  /-- altair -/
  inactivity_scores : List Nat
  /-- altair -/
  current_sync_committee : SyncCommittee
  /-- altair -/
  next_sync_committee : SyncCommittee
  /-- bellatrix -/
  latest_execution_payload_header : ExecutionPayloadHeader
  /-- capella -/
  next_withdrawal_index : Nat
  /-- capella -/
  next_withdrawal_validator_index : Nat
  /-- capella -/
  historical_summaries : List HistoricalSummary
  /-- electra -/
  deposit_receipts_start_index : Nat
  /-- electra -/
  deposit_balance_to_consume : Nat
  /-- electra -/
  exit_balance_to_consume : Nat
  /-- electra -/
  earliest_exit_epoch : Nat
  /-- electra -/
  consolidation_balance_to_consume : Nat
  /-- electra -/
  earliest_consolidation_epoch : Nat
  /-- electra -/
  pending_balance_deposits : List PendingBalanceDeposit
  /-- electra -/
  pending_partial_withdrawals : List PendingPartialWithdrawal
  /-- electra -/
  pending_consolidations : List PendingConsolidation
  deriving DecidableEq

end Verif
