import Verif.Model.TypeGen

/-! # The structs that the generator reads

Transcribed by a script: of every struct its const generics and its fields, in their order. -/

namespace Verif.TypeGen.Repo

/-- The forks that `run` asks for, `type_generator.rs:826` -/
def forks : List Fork := [.Phase0, .Altair, .Bellatrix, .Capella, .Deneb]

/-- `phase0/beacon_block.rs:34-56` -/
def beaconBlock.phase0 : List String × List FieldDecl := ([
    "MAX_PROPOSER_SLASHINGS", "MAX_VALIDATORS_PER_COMMITTEE", "MAX_ATTESTER_SLASHINGS",
    "MAX_ATTESTATIONS", "MAX_DEPOSITS", "MAX_VOLUNTARY_EXITS"], [
    ⟨"slot", "Slot"⟩, ⟨"proposer_index", "ValidatorIndex"⟩, ⟨"parent_root", "Root"⟩,
    ⟨"state_root", "Root"⟩,
    ⟨"body", "BeaconBlockBody<MAX_PROPOSER_SLASHINGS, MAX_VALIDATORS_PER_COMMITTEE, \
      MAX_ATTESTER_SLASHINGS, MAX_ATTESTATIONS, MAX_DEPOSITS, MAX_VOLUNTARY_EXITS>"⟩])

/-- `altair/beacon_block.rs:37-61` -/
def beaconBlock.altair : List String × List FieldDecl := ([
    "MAX_PROPOSER_SLASHINGS", "MAX_VALIDATORS_PER_COMMITTEE", "MAX_ATTESTER_SLASHINGS",
    "MAX_ATTESTATIONS", "MAX_DEPOSITS", "MAX_VOLUNTARY_EXITS", "SYNC_COMMITTEE_SIZE"], [
    ⟨"slot", "Slot"⟩, ⟨"proposer_index", "ValidatorIndex"⟩, ⟨"parent_root", "Root"⟩,
    ⟨"state_root", "Root"⟩,
    ⟨"body", "BeaconBlockBody<MAX_PROPOSER_SLASHINGS, MAX_VALIDATORS_PER_COMMITTEE, \
      MAX_ATTESTER_SLASHINGS, MAX_ATTESTATIONS, MAX_DEPOSITS, MAX_VOLUNTARY_EXITS, \
      SYNC_COMMITTEE_SIZE>"⟩])

/-- `bellatrix/beacon_block.rs:47-79` -/
def beaconBlock.bellatrix : List String × List FieldDecl := ([
    "MAX_PROPOSER_SLASHINGS", "MAX_VALIDATORS_PER_COMMITTEE", "MAX_ATTESTER_SLASHINGS",
    "MAX_ATTESTATIONS", "MAX_DEPOSITS", "MAX_VOLUNTARY_EXITS", "SYNC_COMMITTEE_SIZE",
    "BYTES_PER_LOGS_BLOOM", "MAX_EXTRA_DATA_BYTES", "MAX_BYTES_PER_TRANSACTION",
    "MAX_TRANSACTIONS_PER_PAYLOAD"], [
    ⟨"slot", "Slot"⟩, ⟨"proposer_index", "ValidatorIndex"⟩, ⟨"parent_root", "Root"⟩,
    ⟨"state_root", "Root"⟩,
    ⟨"body", "BeaconBlockBody<MAX_PROPOSER_SLASHINGS, MAX_VALIDATORS_PER_COMMITTEE, \
      MAX_ATTESTER_SLASHINGS, MAX_ATTESTATIONS, MAX_DEPOSITS, MAX_VOLUNTARY_EXITS, \
      SYNC_COMMITTEE_SIZE, BYTES_PER_LOGS_BLOOM, MAX_EXTRA_DATA_BYTES, MAX_BYTES_PER_TRANSACTION, \
      MAX_TRANSACTIONS_PER_PAYLOAD>"⟩])

/-- `capella/beacon_block.rs:52-88` -/
def beaconBlock.capella : List String × List FieldDecl := ([
    "MAX_PROPOSER_SLASHINGS", "MAX_VALIDATORS_PER_COMMITTEE", "MAX_ATTESTER_SLASHINGS",
    "MAX_ATTESTATIONS", "MAX_DEPOSITS", "MAX_VOLUNTARY_EXITS", "SYNC_COMMITTEE_SIZE",
    "BYTES_PER_LOGS_BLOOM", "MAX_EXTRA_DATA_BYTES", "MAX_BYTES_PER_TRANSACTION",
    "MAX_TRANSACTIONS_PER_PAYLOAD", "MAX_WITHDRAWALS_PER_PAYLOAD",
    "MAX_BLS_TO_EXECUTION_CHANGES"], [
    ⟨"slot", "Slot"⟩, ⟨"proposer_index", "ValidatorIndex"⟩, ⟨"parent_root", "Root"⟩,
    ⟨"state_root", "Root"⟩,
    ⟨"body", "BeaconBlockBody<MAX_PROPOSER_SLASHINGS, MAX_VALIDATORS_PER_COMMITTEE, \
      MAX_ATTESTER_SLASHINGS, MAX_ATTESTATIONS, MAX_DEPOSITS, MAX_VOLUNTARY_EXITS, \
      SYNC_COMMITTEE_SIZE, BYTES_PER_LOGS_BLOOM, MAX_EXTRA_DATA_BYTES, MAX_BYTES_PER_TRANSACTION, \
      MAX_TRANSACTIONS_PER_PAYLOAD, MAX_WITHDRAWALS_PER_PAYLOAD, \
      MAX_BLS_TO_EXECUTION_CHANGES>"⟩])

/-- `deneb/beacon_block.rs:56-94` -/
def beaconBlock.deneb : List String × List FieldDecl := ([
    "MAX_PROPOSER_SLASHINGS", "MAX_VALIDATORS_PER_COMMITTEE", "MAX_ATTESTER_SLASHINGS",
    "MAX_ATTESTATIONS", "MAX_DEPOSITS", "MAX_VOLUNTARY_EXITS", "SYNC_COMMITTEE_SIZE",
    "BYTES_PER_LOGS_BLOOM", "MAX_EXTRA_DATA_BYTES", "MAX_BYTES_PER_TRANSACTION",
    "MAX_TRANSACTIONS_PER_PAYLOAD", "MAX_WITHDRAWALS_PER_PAYLOAD", "MAX_BLS_TO_EXECUTION_CHANGES",
    "MAX_BLOB_COMMITMENTS_PER_BLOCK"], [
    ⟨"slot", "Slot"⟩, ⟨"proposer_index", "ValidatorIndex"⟩, ⟨"parent_root", "Root"⟩,
    ⟨"state_root", "Root"⟩,
    ⟨"body", "BeaconBlockBody<MAX_PROPOSER_SLASHINGS, MAX_VALIDATORS_PER_COMMITTEE, \
      MAX_ATTESTER_SLASHINGS, MAX_ATTESTATIONS, MAX_DEPOSITS, MAX_VOLUNTARY_EXITS, \
      SYNC_COMMITTEE_SIZE, BYTES_PER_LOGS_BLOOM, MAX_EXTRA_DATA_BYTES, MAX_BYTES_PER_TRANSACTION, \
      MAX_TRANSACTIONS_PER_PAYLOAD, MAX_WITHDRAWALS_PER_PAYLOAD, MAX_BLS_TO_EXECUTION_CHANGES, \
      MAX_BLOB_COMMITMENTS_PER_BLOCK>"⟩])

/-- `Type::BeaconBlock`, `type_generator.rs:21-116` -/
def beaconBlock.target : Target where
  name := "BeaconBlock"
  refs := true
  child := some ("body", "BeaconBlockBody")
  deletions := none

/-- What is found in the forks' files `beacon_block.rs` -/
def beaconBlock.source : Fork → Option (List String × List FieldDecl)
  | .Phase0 => some beaconBlock.phase0
  | .Altair => some beaconBlock.altair
  | .Bellatrix => some beaconBlock.bellatrix
  | .Capella => some beaconBlock.capella
  | .Deneb => some beaconBlock.deneb
  | _ => none

/-- `phase0/beacon_block.rs:12-29` -/
def beaconBlockBody.phase0 : List String × List FieldDecl := ([
    "MAX_PROPOSER_SLASHINGS", "MAX_VALIDATORS_PER_COMMITTEE", "MAX_ATTESTER_SLASHINGS",
    "MAX_ATTESTATIONS", "MAX_DEPOSITS", "MAX_VOLUNTARY_EXITS"], [
    ⟨"randao_reveal", "BlsSignature"⟩, ⟨"eth1_data", "Eth1Data"⟩, ⟨"graffiti", "Bytes32"⟩,
    ⟨"proposer_slashings", "List<ProposerSlashing, MAX_PROPOSER_SLASHINGS>"⟩,
    ⟨"attester_slashings", "List<AttesterSlashing<MAX_VALIDATORS_PER_COMMITTEE>, \
      MAX_ATTESTER_SLASHINGS>"⟩,
    ⟨"attestations", "List<Attestation<MAX_VALIDATORS_PER_COMMITTEE>, MAX_ATTESTATIONS>"⟩,
    ⟨"deposits", "List<Deposit, MAX_DEPOSITS>"⟩,
    ⟨"voluntary_exits", "List<SignedVoluntaryExit, MAX_VOLUNTARY_EXITS>"⟩])

/-- `altair/beacon_block.rs:13-32` -/
def beaconBlockBody.altair : List String × List FieldDecl := ([
    "MAX_PROPOSER_SLASHINGS", "MAX_VALIDATORS_PER_COMMITTEE", "MAX_ATTESTER_SLASHINGS",
    "MAX_ATTESTATIONS", "MAX_DEPOSITS", "MAX_VOLUNTARY_EXITS", "SYNC_COMMITTEE_SIZE"], [
    ⟨"randao_reveal", "BlsSignature"⟩, ⟨"eth1_data", "Eth1Data"⟩, ⟨"graffiti", "Bytes32"⟩,
    ⟨"proposer_slashings", "List<ProposerSlashing, MAX_PROPOSER_SLASHINGS>"⟩,
    ⟨"attester_slashings", "List<AttesterSlashing<MAX_VALIDATORS_PER_COMMITTEE>, \
      MAX_ATTESTER_SLASHINGS>"⟩,
    ⟨"attestations", "List<Attestation<MAX_VALIDATORS_PER_COMMITTEE>, MAX_ATTESTATIONS>"⟩,
    ⟨"deposits", "List<Deposit, MAX_DEPOSITS>"⟩,
    ⟨"voluntary_exits", "List<SignedVoluntaryExit, MAX_VOLUNTARY_EXITS>"⟩,
    ⟨"sync_aggregate", "SyncAggregate<SYNC_COMMITTEE_SIZE>"⟩])

/-- `bellatrix/beacon_block.rs:13-42` -/
def beaconBlockBody.bellatrix : List String × List FieldDecl := ([
    "MAX_PROPOSER_SLASHINGS", "MAX_VALIDATORS_PER_COMMITTEE", "MAX_ATTESTER_SLASHINGS",
    "MAX_ATTESTATIONS", "MAX_DEPOSITS", "MAX_VOLUNTARY_EXITS", "SYNC_COMMITTEE_SIZE",
    "BYTES_PER_LOGS_BLOOM", "MAX_EXTRA_DATA_BYTES", "MAX_BYTES_PER_TRANSACTION",
    "MAX_TRANSACTIONS_PER_PAYLOAD"], [
    ⟨"randao_reveal", "BlsSignature"⟩, ⟨"eth1_data", "Eth1Data"⟩, ⟨"graffiti", "Bytes32"⟩,
    ⟨"proposer_slashings", "List<ProposerSlashing, MAX_PROPOSER_SLASHINGS>"⟩,
    ⟨"attester_slashings", "List<AttesterSlashing<MAX_VALIDATORS_PER_COMMITTEE>, \
      MAX_ATTESTER_SLASHINGS>"⟩,
    ⟨"attestations", "List<Attestation<MAX_VALIDATORS_PER_COMMITTEE>, MAX_ATTESTATIONS>"⟩,
    ⟨"deposits", "List<Deposit, MAX_DEPOSITS>"⟩,
    ⟨"voluntary_exits", "List<SignedVoluntaryExit, MAX_VOLUNTARY_EXITS>"⟩,
    ⟨"sync_aggregate", "SyncAggregate<SYNC_COMMITTEE_SIZE>"⟩,
    ⟨"execution_payload", "ExecutionPayload<BYTES_PER_LOGS_BLOOM, MAX_EXTRA_DATA_BYTES, \
      MAX_BYTES_PER_TRANSACTION, MAX_TRANSACTIONS_PER_PAYLOAD>"⟩])

/-- `capella/beacon_block.rs:14-47` -/
def beaconBlockBody.capella : List String × List FieldDecl := ([
    "MAX_PROPOSER_SLASHINGS", "MAX_VALIDATORS_PER_COMMITTEE", "MAX_ATTESTER_SLASHINGS",
    "MAX_ATTESTATIONS", "MAX_DEPOSITS", "MAX_VOLUNTARY_EXITS", "SYNC_COMMITTEE_SIZE",
    "BYTES_PER_LOGS_BLOOM", "MAX_EXTRA_DATA_BYTES", "MAX_BYTES_PER_TRANSACTION",
    "MAX_TRANSACTIONS_PER_PAYLOAD", "MAX_WITHDRAWALS_PER_PAYLOAD",
    "MAX_BLS_TO_EXECUTION_CHANGES"], [
    ⟨"randao_reveal", "BlsSignature"⟩, ⟨"eth1_data", "Eth1Data"⟩, ⟨"graffiti", "Bytes32"⟩,
    ⟨"proposer_slashings", "List<ProposerSlashing, MAX_PROPOSER_SLASHINGS>"⟩,
    ⟨"attester_slashings", "List<AttesterSlashing<MAX_VALIDATORS_PER_COMMITTEE>, \
      MAX_ATTESTER_SLASHINGS>"⟩,
    ⟨"attestations", "List<Attestation<MAX_VALIDATORS_PER_COMMITTEE>, MAX_ATTESTATIONS>"⟩,
    ⟨"deposits", "List<Deposit, MAX_DEPOSITS>"⟩,
    ⟨"voluntary_exits", "List<SignedVoluntaryExit, MAX_VOLUNTARY_EXITS>"⟩,
    ⟨"sync_aggregate", "SyncAggregate<SYNC_COMMITTEE_SIZE>"⟩,
    ⟨"execution_payload", "ExecutionPayload<BYTES_PER_LOGS_BLOOM, MAX_EXTRA_DATA_BYTES, \
      MAX_BYTES_PER_TRANSACTION, MAX_TRANSACTIONS_PER_PAYLOAD, MAX_WITHDRAWALS_PER_PAYLOAD>"⟩,
    ⟨"bls_to_execution_changes", "List<SignedBlsToExecutionChange, \
      MAX_BLS_TO_EXECUTION_CHANGES>"⟩])

/-- `deneb/beacon_block.rs:16-51` -/
def beaconBlockBody.deneb : List String × List FieldDecl := ([
    "MAX_PROPOSER_SLASHINGS", "MAX_VALIDATORS_PER_COMMITTEE", "MAX_ATTESTER_SLASHINGS",
    "MAX_ATTESTATIONS", "MAX_DEPOSITS", "MAX_VOLUNTARY_EXITS", "SYNC_COMMITTEE_SIZE",
    "BYTES_PER_LOGS_BLOOM", "MAX_EXTRA_DATA_BYTES", "MAX_BYTES_PER_TRANSACTION",
    "MAX_TRANSACTIONS_PER_PAYLOAD", "MAX_WITHDRAWALS_PER_PAYLOAD", "MAX_BLS_TO_EXECUTION_CHANGES",
    "MAX_BLOB_COMMITMENTS_PER_BLOCK"], [
    ⟨"randao_reveal", "BlsSignature"⟩, ⟨"eth1_data", "Eth1Data"⟩, ⟨"graffiti", "Bytes32"⟩,
    ⟨"proposer_slashings", "List<ProposerSlashing, MAX_PROPOSER_SLASHINGS>"⟩,
    ⟨"attester_slashings", "List<AttesterSlashing<MAX_VALIDATORS_PER_COMMITTEE>, \
      MAX_ATTESTER_SLASHINGS>"⟩,
    ⟨"attestations", "List<Attestation<MAX_VALIDATORS_PER_COMMITTEE>, MAX_ATTESTATIONS>"⟩,
    ⟨"deposits", "List<Deposit, MAX_DEPOSITS>"⟩,
    ⟨"voluntary_exits", "List<SignedVoluntaryExit, MAX_VOLUNTARY_EXITS>"⟩,
    ⟨"sync_aggregate", "SyncAggregate<SYNC_COMMITTEE_SIZE>"⟩,
    ⟨"execution_payload", "ExecutionPayload<BYTES_PER_LOGS_BLOOM, MAX_EXTRA_DATA_BYTES, \
      MAX_BYTES_PER_TRANSACTION, MAX_TRANSACTIONS_PER_PAYLOAD, MAX_WITHDRAWALS_PER_PAYLOAD>"⟩,
    ⟨"bls_to_execution_changes", "List<SignedBlsToExecutionChange, \
      MAX_BLS_TO_EXECUTION_CHANGES>"⟩,
    ⟨"blob_kzg_commitments", "List<KzgCommitment, MAX_BLOB_COMMITMENTS_PER_BLOCK>"⟩])

/-- `Type::BeaconBlockBody`, `type_generator.rs:21-116` -/
def beaconBlockBody.target : Target where
  name := "BeaconBlockBody"
  refs := true
  child := some ("execution_payload", "ExecutionPayload")
  deletions := none

/-- What is found in the forks' files `beacon_block.rs` -/
def beaconBlockBody.source : Fork → Option (List String × List FieldDecl)
  | .Phase0 => some beaconBlockBody.phase0
  | .Altair => some beaconBlockBody.altair
  | .Bellatrix => some beaconBlockBody.bellatrix
  | .Capella => some beaconBlockBody.capella
  | .Deneb => some beaconBlockBody.deneb
  | _ => none

/-- `phase0/beacon_state.rs:50-88` -/
def beaconState.phase0 : List String × List FieldDecl := ([
    "SLOTS_PER_HISTORICAL_ROOT", "HISTORICAL_ROOTS_LIMIT", "ETH1_DATA_VOTES_BOUND",
    "VALIDATOR_REGISTRY_LIMIT", "EPOCHS_PER_HISTORICAL_VECTOR", "EPOCHS_PER_SLASHINGS_VECTOR",
    "MAX_VALIDATORS_PER_COMMITTEE", "PENDING_ATTESTATIONS_BOUND"], [
    ⟨"genesis_time", "u64"⟩, ⟨"genesis_validators_root", "Root"⟩, ⟨"slot", "Slot"⟩,
    ⟨"fork", "Fork"⟩, ⟨"latest_block_header", "BeaconBlockHeader"⟩,
    ⟨"block_roots", "Vector<Root, SLOTS_PER_HISTORICAL_ROOT>"⟩,
    ⟨"state_roots", "Vector<Root, SLOTS_PER_HISTORICAL_ROOT>"⟩,
    ⟨"historical_roots", "List<Root, HISTORICAL_ROOTS_LIMIT>"⟩, ⟨"eth1_data", "Eth1Data"⟩,
    ⟨"eth1_data_votes", "List<Eth1Data, ETH1_DATA_VOTES_BOUND>"⟩, ⟨"eth1_deposit_index", "u64"⟩,
    ⟨"validators", "List<Validator, VALIDATOR_REGISTRY_LIMIT>"⟩,
    ⟨"balances", "List<Gwei, VALIDATOR_REGISTRY_LIMIT>"⟩,
    ⟨"randao_mixes", "Vector<Bytes32, EPOCHS_PER_HISTORICAL_VECTOR>"⟩,
    ⟨"slashings", "Vector<Gwei, EPOCHS_PER_SLASHINGS_VECTOR>"⟩,
    ⟨"previous_epoch_attestations", "List<PendingAttestation<MAX_VALIDATORS_PER_COMMITTEE>, \
      PENDING_ATTESTATIONS_BOUND>"⟩,
    ⟨"current_epoch_attestations", "List<PendingAttestation<MAX_VALIDATORS_PER_COMMITTEE>, \
      PENDING_ATTESTATIONS_BOUND>"⟩,
    ⟨"justification_bits", "Bitvector<JUSTIFICATION_BITS_LENGTH>"⟩,
    ⟨"previous_justified_checkpoint", "Checkpoint"⟩,
    ⟨"current_justified_checkpoint", "Checkpoint"⟩, ⟨"finalized_checkpoint", "Checkpoint"⟩])

/-- `altair/beacon_state.rs:13-55` -/
def beaconState.altair : List String × List FieldDecl := ([
    "SLOTS_PER_HISTORICAL_ROOT", "HISTORICAL_ROOTS_LIMIT", "ETH1_DATA_VOTES_BOUND",
    "VALIDATOR_REGISTRY_LIMIT", "EPOCHS_PER_HISTORICAL_VECTOR", "EPOCHS_PER_SLASHINGS_VECTOR",
    "MAX_VALIDATORS_PER_COMMITTEE", "SYNC_COMMITTEE_SIZE"], [
    ⟨"genesis_time", "u64"⟩, ⟨"genesis_validators_root", "Root"⟩, ⟨"slot", "Slot"⟩,
    ⟨"fork", "Fork"⟩, ⟨"latest_block_header", "BeaconBlockHeader"⟩,
    ⟨"block_roots", "Vector<Root, SLOTS_PER_HISTORICAL_ROOT>"⟩,
    ⟨"state_roots", "Vector<Root, SLOTS_PER_HISTORICAL_ROOT>"⟩,
    ⟨"historical_roots", "List<Root, HISTORICAL_ROOTS_LIMIT>"⟩, ⟨"eth1_data", "Eth1Data"⟩,
    ⟨"eth1_data_votes", "List<Eth1Data, ETH1_DATA_VOTES_BOUND>"⟩, ⟨"eth1_deposit_index", "u64"⟩,
    ⟨"validators", "List<Validator, VALIDATOR_REGISTRY_LIMIT>"⟩,
    ⟨"balances", "List<Gwei, VALIDATOR_REGISTRY_LIMIT>"⟩,
    ⟨"randao_mixes", "Vector<Bytes32, EPOCHS_PER_HISTORICAL_VECTOR>"⟩,
    ⟨"slashings", "Vector<Gwei, EPOCHS_PER_SLASHINGS_VECTOR>"⟩,
    ⟨"previous_epoch_participation", "List<ParticipationFlags, VALIDATOR_REGISTRY_LIMIT>"⟩,
    ⟨"current_epoch_participation", "List<ParticipationFlags, VALIDATOR_REGISTRY_LIMIT>"⟩,
    ⟨"justification_bits", "Bitvector<JUSTIFICATION_BITS_LENGTH>"⟩,
    ⟨"previous_justified_checkpoint", "Checkpoint"⟩,
    ⟨"current_justified_checkpoint", "Checkpoint"⟩, ⟨"finalized_checkpoint", "Checkpoint"⟩,
    ⟨"inactivity_scores", "List<u64, VALIDATOR_REGISTRY_LIMIT>"⟩,
    ⟨"current_sync_committee", "SyncCommittee<SYNC_COMMITTEE_SIZE>"⟩,
    ⟨"next_sync_committee", "SyncCommittee<SYNC_COMMITTEE_SIZE>"⟩])

/-- `bellatrix/beacon_state.rs:13-59` -/
def beaconState.bellatrix : List String × List FieldDecl := ([
    "SLOTS_PER_HISTORICAL_ROOT", "HISTORICAL_ROOTS_LIMIT", "ETH1_DATA_VOTES_BOUND",
    "VALIDATOR_REGISTRY_LIMIT", "EPOCHS_PER_HISTORICAL_VECTOR", "EPOCHS_PER_SLASHINGS_VECTOR",
    "MAX_VALIDATORS_PER_COMMITTEE", "SYNC_COMMITTEE_SIZE", "BYTES_PER_LOGS_BLOOM",
    "MAX_EXTRA_DATA_BYTES"], [
    ⟨"genesis_time", "u64"⟩, ⟨"genesis_validators_root", "Root"⟩, ⟨"slot", "Slot"⟩,
    ⟨"fork", "Fork"⟩, ⟨"latest_block_header", "BeaconBlockHeader"⟩,
    ⟨"block_roots", "Vector<Root, SLOTS_PER_HISTORICAL_ROOT>"⟩,
    ⟨"state_roots", "Vector<Root, SLOTS_PER_HISTORICAL_ROOT>"⟩,
    ⟨"historical_roots", "List<Root, HISTORICAL_ROOTS_LIMIT>"⟩, ⟨"eth1_data", "Eth1Data"⟩,
    ⟨"eth1_data_votes", "List<Eth1Data, ETH1_DATA_VOTES_BOUND>"⟩, ⟨"eth1_deposit_index", "u64"⟩,
    ⟨"validators", "List<Validator, VALIDATOR_REGISTRY_LIMIT>"⟩,
    ⟨"balances", "List<Gwei, VALIDATOR_REGISTRY_LIMIT>"⟩,
    ⟨"randao_mixes", "Vector<Bytes32, EPOCHS_PER_HISTORICAL_VECTOR>"⟩,
    ⟨"slashings", "Vector<Gwei, EPOCHS_PER_SLASHINGS_VECTOR>"⟩,
    ⟨"previous_epoch_participation", "List<ParticipationFlags, VALIDATOR_REGISTRY_LIMIT>"⟩,
    ⟨"current_epoch_participation", "List<ParticipationFlags, VALIDATOR_REGISTRY_LIMIT>"⟩,
    ⟨"justification_bits", "Bitvector<JUSTIFICATION_BITS_LENGTH>"⟩,
    ⟨"previous_justified_checkpoint", "Checkpoint"⟩,
    ⟨"current_justified_checkpoint", "Checkpoint"⟩, ⟨"finalized_checkpoint", "Checkpoint"⟩,
    ⟨"inactivity_scores", "List<u64, VALIDATOR_REGISTRY_LIMIT>"⟩,
    ⟨"current_sync_committee", "SyncCommittee<SYNC_COMMITTEE_SIZE>"⟩,
    ⟨"next_sync_committee", "SyncCommittee<SYNC_COMMITTEE_SIZE>"⟩,
    ⟨"latest_execution_payload_header", "ExecutionPayloadHeader<BYTES_PER_LOGS_BLOOM, \
      MAX_EXTRA_DATA_BYTES>"⟩])

/-- `capella/beacon_state.rs:13-64` -/
def beaconState.capella : List String × List FieldDecl := ([
    "SLOTS_PER_HISTORICAL_ROOT", "HISTORICAL_ROOTS_LIMIT", "ETH1_DATA_VOTES_BOUND",
    "VALIDATOR_REGISTRY_LIMIT", "EPOCHS_PER_HISTORICAL_VECTOR", "EPOCHS_PER_SLASHINGS_VECTOR",
    "MAX_VALIDATORS_PER_COMMITTEE", "SYNC_COMMITTEE_SIZE", "BYTES_PER_LOGS_BLOOM",
    "MAX_EXTRA_DATA_BYTES"], [
    ⟨"genesis_time", "u64"⟩, ⟨"genesis_validators_root", "Root"⟩, ⟨"slot", "Slot"⟩,
    ⟨"fork", "Fork"⟩, ⟨"latest_block_header", "BeaconBlockHeader"⟩,
    ⟨"block_roots", "Vector<Root, SLOTS_PER_HISTORICAL_ROOT>"⟩,
    ⟨"state_roots", "Vector<Root, SLOTS_PER_HISTORICAL_ROOT>"⟩,
    ⟨"historical_roots", "List<Root, HISTORICAL_ROOTS_LIMIT>"⟩, ⟨"eth1_data", "Eth1Data"⟩,
    ⟨"eth1_data_votes", "List<Eth1Data, ETH1_DATA_VOTES_BOUND>"⟩, ⟨"eth1_deposit_index", "u64"⟩,
    ⟨"validators", "List<Validator, VALIDATOR_REGISTRY_LIMIT>"⟩,
    ⟨"balances", "List<Gwei, VALIDATOR_REGISTRY_LIMIT>"⟩,
    ⟨"randao_mixes", "Vector<Bytes32, EPOCHS_PER_HISTORICAL_VECTOR>"⟩,
    ⟨"slashings", "Vector<Gwei, EPOCHS_PER_SLASHINGS_VECTOR>"⟩,
    ⟨"previous_epoch_participation", "List<ParticipationFlags, VALIDATOR_REGISTRY_LIMIT>"⟩,
    ⟨"current_epoch_participation", "List<ParticipationFlags, VALIDATOR_REGISTRY_LIMIT>"⟩,
    ⟨"justification_bits", "Bitvector<JUSTIFICATION_BITS_LENGTH>"⟩,
    ⟨"previous_justified_checkpoint", "Checkpoint"⟩,
    ⟨"current_justified_checkpoint", "Checkpoint"⟩, ⟨"finalized_checkpoint", "Checkpoint"⟩,
    ⟨"inactivity_scores", "List<u64, VALIDATOR_REGISTRY_LIMIT>"⟩,
    ⟨"current_sync_committee", "SyncCommittee<SYNC_COMMITTEE_SIZE>"⟩,
    ⟨"next_sync_committee", "SyncCommittee<SYNC_COMMITTEE_SIZE>"⟩,
    ⟨"latest_execution_payload_header", "ExecutionPayloadHeader<BYTES_PER_LOGS_BLOOM, \
      MAX_EXTRA_DATA_BYTES>"⟩, ⟨"next_withdrawal_index", "WithdrawalIndex"⟩,
    ⟨"next_withdrawal_validator_index", "ValidatorIndex"⟩,
    ⟨"historical_summaries", "List<HistoricalSummary, HISTORICAL_ROOTS_LIMIT>"⟩])

/-- `deneb/beacon_state.rs:13-64` -/
def beaconState.deneb : List String × List FieldDecl := ([
    "SLOTS_PER_HISTORICAL_ROOT", "HISTORICAL_ROOTS_LIMIT", "ETH1_DATA_VOTES_BOUND",
    "VALIDATOR_REGISTRY_LIMIT", "EPOCHS_PER_HISTORICAL_VECTOR", "EPOCHS_PER_SLASHINGS_VECTOR",
    "MAX_VALIDATORS_PER_COMMITTEE", "SYNC_COMMITTEE_SIZE", "BYTES_PER_LOGS_BLOOM",
    "MAX_EXTRA_DATA_BYTES"], [
    ⟨"genesis_time", "u64"⟩, ⟨"genesis_validators_root", "Root"⟩, ⟨"slot", "Slot"⟩,
    ⟨"fork", "Fork"⟩, ⟨"latest_block_header", "BeaconBlockHeader"⟩,
    ⟨"block_roots", "Vector<Root, SLOTS_PER_HISTORICAL_ROOT>"⟩,
    ⟨"state_roots", "Vector<Root, SLOTS_PER_HISTORICAL_ROOT>"⟩,
    ⟨"historical_roots", "List<Root, HISTORICAL_ROOTS_LIMIT>"⟩, ⟨"eth1_data", "Eth1Data"⟩,
    ⟨"eth1_data_votes", "List<Eth1Data, ETH1_DATA_VOTES_BOUND>"⟩, ⟨"eth1_deposit_index", "u64"⟩,
    ⟨"validators", "List<Validator, VALIDATOR_REGISTRY_LIMIT>"⟩,
    ⟨"balances", "List<Gwei, VALIDATOR_REGISTRY_LIMIT>"⟩,
    ⟨"randao_mixes", "Vector<Bytes32, EPOCHS_PER_HISTORICAL_VECTOR>"⟩,
    ⟨"slashings", "Vector<Gwei, EPOCHS_PER_SLASHINGS_VECTOR>"⟩,
    ⟨"previous_epoch_participation", "List<ParticipationFlags, VALIDATOR_REGISTRY_LIMIT>"⟩,
    ⟨"current_epoch_participation", "List<ParticipationFlags, VALIDATOR_REGISTRY_LIMIT>"⟩,
    ⟨"justification_bits", "Bitvector<JUSTIFICATION_BITS_LENGTH>"⟩,
    ⟨"previous_justified_checkpoint", "Checkpoint"⟩,
    ⟨"current_justified_checkpoint", "Checkpoint"⟩, ⟨"finalized_checkpoint", "Checkpoint"⟩,
    ⟨"inactivity_scores", "List<u64, VALIDATOR_REGISTRY_LIMIT>"⟩,
    ⟨"current_sync_committee", "SyncCommittee<SYNC_COMMITTEE_SIZE>"⟩,
    ⟨"next_sync_committee", "SyncCommittee<SYNC_COMMITTEE_SIZE>"⟩,
    ⟨"latest_execution_payload_header", "ExecutionPayloadHeader<BYTES_PER_LOGS_BLOOM, \
      MAX_EXTRA_DATA_BYTES>"⟩, ⟨"next_withdrawal_index", "WithdrawalIndex"⟩,
    ⟨"next_withdrawal_validator_index", "ValidatorIndex"⟩,
    ⟨"historical_summaries", "List<HistoricalSummary, HISTORICAL_ROOTS_LIMIT>"⟩])

/-- `Type::BeaconState`, `type_generator.rs:21-116` -/
def beaconState.target : Target where
  name := "BeaconState"
  refs := true
  child := some ("latest_execution_payload_header", "ExecutionPayloadHeader")
  deletions := some (.Altair, ["previous_epoch_attestations", "current_epoch_attestations"])

/-- What is found in the forks' files `beacon_state.rs` -/
def beaconState.source : Fork → Option (List String × List FieldDecl)
  | .Phase0 => some beaconState.phase0
  | .Altair => some beaconState.altair
  | .Bellatrix => some beaconState.bellatrix
  | .Capella => some beaconState.capella
  | .Deneb => some beaconState.deneb
  | _ => none

/-- `bellatrix/blinded_beacon_block.rs:41-69` -/
def blindedBeaconBlock.bellatrix : List String × List FieldDecl := ([
    "MAX_PROPOSER_SLASHINGS", "MAX_VALIDATORS_PER_COMMITTEE", "MAX_ATTESTER_SLASHINGS",
    "MAX_ATTESTATIONS", "MAX_DEPOSITS", "MAX_VOLUNTARY_EXITS", "SYNC_COMMITTEE_SIZE",
    "BYTES_PER_LOGS_BLOOM", "MAX_EXTRA_DATA_BYTES"], [
    ⟨"slot", "Slot"⟩, ⟨"proposer_index", "ValidatorIndex"⟩, ⟨"parent_root", "Root"⟩,
    ⟨"state_root", "Root"⟩,
    ⟨"body", "BlindedBeaconBlockBody<MAX_PROPOSER_SLASHINGS, MAX_VALIDATORS_PER_COMMITTEE, \
      MAX_ATTESTER_SLASHINGS, MAX_ATTESTATIONS, MAX_DEPOSITS, MAX_VOLUNTARY_EXITS, \
      SYNC_COMMITTEE_SIZE, BYTES_PER_LOGS_BLOOM, MAX_EXTRA_DATA_BYTES>"⟩])

/-- `capella/blinded_beacon_block.rs:44-74` -/
def blindedBeaconBlock.capella : List String × List FieldDecl := ([
    "MAX_PROPOSER_SLASHINGS", "MAX_VALIDATORS_PER_COMMITTEE", "MAX_ATTESTER_SLASHINGS",
    "MAX_ATTESTATIONS", "MAX_DEPOSITS", "MAX_VOLUNTARY_EXITS", "SYNC_COMMITTEE_SIZE",
    "BYTES_PER_LOGS_BLOOM", "MAX_EXTRA_DATA_BYTES", "MAX_BLS_TO_EXECUTION_CHANGES"], [
    ⟨"slot", "Slot"⟩, ⟨"proposer_index", "ValidatorIndex"⟩, ⟨"parent_root", "Root"⟩,
    ⟨"state_root", "Root"⟩,
    ⟨"body", "BlindedBeaconBlockBody<MAX_PROPOSER_SLASHINGS, MAX_VALIDATORS_PER_COMMITTEE, \
      MAX_ATTESTER_SLASHINGS, MAX_ATTESTATIONS, MAX_DEPOSITS, MAX_VOLUNTARY_EXITS, \
      SYNC_COMMITTEE_SIZE, BYTES_PER_LOGS_BLOOM, MAX_EXTRA_DATA_BYTES, \
      MAX_BLS_TO_EXECUTION_CHANGES>"⟩])

/-- `deneb/blinded_beacon_block.rs:48-80` -/
def blindedBeaconBlock.deneb : List String × List FieldDecl := ([
    "MAX_PROPOSER_SLASHINGS", "MAX_VALIDATORS_PER_COMMITTEE", "MAX_ATTESTER_SLASHINGS",
    "MAX_ATTESTATIONS", "MAX_DEPOSITS", "MAX_VOLUNTARY_EXITS", "SYNC_COMMITTEE_SIZE",
    "BYTES_PER_LOGS_BLOOM", "MAX_EXTRA_DATA_BYTES", "MAX_BLS_TO_EXECUTION_CHANGES",
    "MAX_BLOB_COMMITMENTS_PER_BLOCK"], [
    ⟨"slot", "Slot"⟩, ⟨"proposer_index", "ValidatorIndex"⟩, ⟨"parent_root", "Root"⟩,
    ⟨"state_root", "Root"⟩,
    ⟨"body", "BlindedBeaconBlockBody<MAX_PROPOSER_SLASHINGS, MAX_VALIDATORS_PER_COMMITTEE, \
      MAX_ATTESTER_SLASHINGS, MAX_ATTESTATIONS, MAX_DEPOSITS, MAX_VOLUNTARY_EXITS, \
      SYNC_COMMITTEE_SIZE, BYTES_PER_LOGS_BLOOM, MAX_EXTRA_DATA_BYTES, \
      MAX_BLS_TO_EXECUTION_CHANGES, MAX_BLOB_COMMITMENTS_PER_BLOCK>"⟩])

/-- `Type::BlindedBeaconBlock`, `type_generator.rs:21-116` -/
def blindedBeaconBlock.target : Target where
  name := "BlindedBeaconBlock"
  refs := true
  child := some ("body", "BlindedBeaconBlockBody")
  deletions := none

/-- What is found in the forks' files `blinded_beacon_block.rs` -/
def blindedBeaconBlock.source : Fork → Option (List String × List FieldDecl)
  | .Bellatrix => some blindedBeaconBlock.bellatrix
  | .Capella => some blindedBeaconBlock.capella
  | .Deneb => some blindedBeaconBlock.deneb
  | _ => none

/-- `bellatrix/blinded_beacon_block.rs:13-36` -/
def blindedBeaconBlockBody.bellatrix : List String × List FieldDecl := ([
    "MAX_PROPOSER_SLASHINGS", "MAX_VALIDATORS_PER_COMMITTEE", "MAX_ATTESTER_SLASHINGS",
    "MAX_ATTESTATIONS", "MAX_DEPOSITS", "MAX_VOLUNTARY_EXITS", "SYNC_COMMITTEE_SIZE",
    "BYTES_PER_LOGS_BLOOM", "MAX_EXTRA_DATA_BYTES"], [
    ⟨"randao_reveal", "BlsSignature"⟩, ⟨"eth1_data", "Eth1Data"⟩, ⟨"graffiti", "Bytes32"⟩,
    ⟨"proposer_slashings", "List<ProposerSlashing, MAX_PROPOSER_SLASHINGS>"⟩,
    ⟨"attester_slashings", "List<AttesterSlashing<MAX_VALIDATORS_PER_COMMITTEE>, \
      MAX_ATTESTER_SLASHINGS>"⟩,
    ⟨"attestations", "List<Attestation<MAX_VALIDATORS_PER_COMMITTEE>, MAX_ATTESTATIONS>"⟩,
    ⟨"deposits", "List<Deposit, MAX_DEPOSITS>"⟩,
    ⟨"voluntary_exits", "List<SignedVoluntaryExit, MAX_VOLUNTARY_EXITS>"⟩,
    ⟨"sync_aggregate", "SyncAggregate<SYNC_COMMITTEE_SIZE>"⟩,
    ⟨"execution_payload_header", "ExecutionPayloadHeader<BYTES_PER_LOGS_BLOOM, \
      MAX_EXTRA_DATA_BYTES>"⟩])

/-- `capella/blinded_beacon_block.rs:14-39` -/
def blindedBeaconBlockBody.capella : List String × List FieldDecl := ([
    "MAX_PROPOSER_SLASHINGS", "MAX_VALIDATORS_PER_COMMITTEE", "MAX_ATTESTER_SLASHINGS",
    "MAX_ATTESTATIONS", "MAX_DEPOSITS", "MAX_VOLUNTARY_EXITS", "SYNC_COMMITTEE_SIZE",
    "BYTES_PER_LOGS_BLOOM", "MAX_EXTRA_DATA_BYTES", "MAX_BLS_TO_EXECUTION_CHANGES"], [
    ⟨"randao_reveal", "BlsSignature"⟩, ⟨"eth1_data", "Eth1Data"⟩, ⟨"graffiti", "Bytes32"⟩,
    ⟨"proposer_slashings", "List<ProposerSlashing, MAX_PROPOSER_SLASHINGS>"⟩,
    ⟨"attester_slashings", "List<AttesterSlashing<MAX_VALIDATORS_PER_COMMITTEE>, \
      MAX_ATTESTER_SLASHINGS>"⟩,
    ⟨"attestations", "List<Attestation<MAX_VALIDATORS_PER_COMMITTEE>, MAX_ATTESTATIONS>"⟩,
    ⟨"deposits", "List<Deposit, MAX_DEPOSITS>"⟩,
    ⟨"voluntary_exits", "List<SignedVoluntaryExit, MAX_VOLUNTARY_EXITS>"⟩,
    ⟨"sync_aggregate", "SyncAggregate<SYNC_COMMITTEE_SIZE>"⟩,
    ⟨"execution_payload_header", "ExecutionPayloadHeader<BYTES_PER_LOGS_BLOOM, \
      MAX_EXTRA_DATA_BYTES>"⟩,
    ⟨"bls_to_execution_changes", "List<SignedBlsToExecutionChange, \
      MAX_BLS_TO_EXECUTION_CHANGES>"⟩])

/-- `deneb/blinded_beacon_block.rs:16-43` -/
def blindedBeaconBlockBody.deneb : List String × List FieldDecl := ([
    "MAX_PROPOSER_SLASHINGS", "MAX_VALIDATORS_PER_COMMITTEE", "MAX_ATTESTER_SLASHINGS",
    "MAX_ATTESTATIONS", "MAX_DEPOSITS", "MAX_VOLUNTARY_EXITS", "SYNC_COMMITTEE_SIZE",
    "BYTES_PER_LOGS_BLOOM", "MAX_EXTRA_DATA_BYTES", "MAX_BLS_TO_EXECUTION_CHANGES",
    "MAX_BLOB_COMMITMENTS_PER_BLOCK"], [
    ⟨"randao_reveal", "BlsSignature"⟩, ⟨"eth1_data", "Eth1Data"⟩, ⟨"graffiti", "Bytes32"⟩,
    ⟨"proposer_slashings", "List<ProposerSlashing, MAX_PROPOSER_SLASHINGS>"⟩,
    ⟨"attester_slashings", "List<AttesterSlashing<MAX_VALIDATORS_PER_COMMITTEE>, \
      MAX_ATTESTER_SLASHINGS>"⟩,
    ⟨"attestations", "List<Attestation<MAX_VALIDATORS_PER_COMMITTEE>, MAX_ATTESTATIONS>"⟩,
    ⟨"deposits", "List<Deposit, MAX_DEPOSITS>"⟩,
    ⟨"voluntary_exits", "List<SignedVoluntaryExit, MAX_VOLUNTARY_EXITS>"⟩,
    ⟨"sync_aggregate", "SyncAggregate<SYNC_COMMITTEE_SIZE>"⟩,
    ⟨"execution_payload_header", "ExecutionPayloadHeader<BYTES_PER_LOGS_BLOOM, \
      MAX_EXTRA_DATA_BYTES>"⟩,
    ⟨"bls_to_execution_changes", "List<SignedBlsToExecutionChange, \
      MAX_BLS_TO_EXECUTION_CHANGES>"⟩,
    ⟨"blob_kzg_commitments", "List<KzgCommitment, MAX_BLOB_COMMITMENTS_PER_BLOCK>"⟩])

/-- `Type::BlindedBeaconBlockBody`, `type_generator.rs:21-116` -/
def blindedBeaconBlockBody.target : Target where
  name := "BlindedBeaconBlockBody"
  refs := true
  child := some ("execution_payload_header", "ExecutionPayloadHeader")
  deletions := none

/-- What is found in the forks' files `blinded_beacon_block.rs` -/
def blindedBeaconBlockBody.source : Fork → Option (List String × List FieldDecl)
  | .Bellatrix => some blindedBeaconBlockBody.bellatrix
  | .Capella => some blindedBeaconBlockBody.capella
  | .Deneb => some blindedBeaconBlockBody.deneb
  | _ => none

/-- `bellatrix/execution_payload.rs:13-38` -/
def executionPayload.bellatrix : List String × List FieldDecl := ([
    "BYTES_PER_LOGS_BLOOM", "MAX_EXTRA_DATA_BYTES", "MAX_BYTES_PER_TRANSACTION",
    "MAX_TRANSACTIONS_PER_PAYLOAD"], [
    ⟨"parent_hash", "Hash32"⟩, ⟨"fee_recipient", "ExecutionAddress"⟩, ⟨"state_root", "Bytes32"⟩,
    ⟨"receipts_root", "Bytes32"⟩, ⟨"logs_bloom", "ByteVector<BYTES_PER_LOGS_BLOOM>"⟩,
    ⟨"prev_randao", "Bytes32"⟩, ⟨"block_number", "u64"⟩, ⟨"gas_limit", "u64"⟩, ⟨"gas_used", "u64"⟩,
    ⟨"timestamp", "u64"⟩, ⟨"extra_data", "ByteList<MAX_EXTRA_DATA_BYTES>"⟩,
    ⟨"base_fee_per_gas", "U256"⟩, ⟨"block_hash", "Hash32"⟩,
    ⟨"transactions", "List<Transaction<MAX_BYTES_PER_TRANSACTION>, \
      MAX_TRANSACTIONS_PER_PAYLOAD>"⟩])

/-- `capella/execution_payload.rs:13-40` -/
def executionPayload.capella : List String × List FieldDecl := ([
    "BYTES_PER_LOGS_BLOOM", "MAX_EXTRA_DATA_BYTES", "MAX_BYTES_PER_TRANSACTION",
    "MAX_TRANSACTIONS_PER_PAYLOAD", "MAX_WITHDRAWALS_PER_PAYLOAD"], [
    ⟨"parent_hash", "Hash32"⟩, ⟨"fee_recipient", "ExecutionAddress"⟩, ⟨"state_root", "Bytes32"⟩,
    ⟨"receipts_root", "Bytes32"⟩, ⟨"logs_bloom", "ByteVector<BYTES_PER_LOGS_BLOOM>"⟩,
    ⟨"prev_randao", "Bytes32"⟩, ⟨"block_number", "u64"⟩, ⟨"gas_limit", "u64"⟩, ⟨"gas_used", "u64"⟩,
    ⟨"timestamp", "u64"⟩, ⟨"extra_data", "ByteList<MAX_EXTRA_DATA_BYTES>"⟩,
    ⟨"base_fee_per_gas", "U256"⟩, ⟨"block_hash", "Hash32"⟩,
    ⟨"transactions", "List<Transaction<MAX_BYTES_PER_TRANSACTION>, \
      MAX_TRANSACTIONS_PER_PAYLOAD>"⟩,
    ⟨"withdrawals", "List<Withdrawal, MAX_WITHDRAWALS_PER_PAYLOAD>"⟩])

/-- `deneb/execution_payload.rs:12-43` -/
def executionPayload.deneb : List String × List FieldDecl := ([
    "BYTES_PER_LOGS_BLOOM", "MAX_EXTRA_DATA_BYTES", "MAX_BYTES_PER_TRANSACTION",
    "MAX_TRANSACTIONS_PER_PAYLOAD", "MAX_WITHDRAWALS_PER_PAYLOAD"], [
    ⟨"parent_hash", "Hash32"⟩, ⟨"fee_recipient", "ExecutionAddress"⟩, ⟨"state_root", "Bytes32"⟩,
    ⟨"receipts_root", "Bytes32"⟩, ⟨"logs_bloom", "ByteVector<BYTES_PER_LOGS_BLOOM>"⟩,
    ⟨"prev_randao", "Bytes32"⟩, ⟨"block_number", "u64"⟩, ⟨"gas_limit", "u64"⟩, ⟨"gas_used", "u64"⟩,
    ⟨"timestamp", "u64"⟩, ⟨"extra_data", "ByteList<MAX_EXTRA_DATA_BYTES>"⟩,
    ⟨"base_fee_per_gas", "U256"⟩, ⟨"block_hash", "Hash32"⟩,
    ⟨"transactions", "List<Transaction<MAX_BYTES_PER_TRANSACTION>, \
      MAX_TRANSACTIONS_PER_PAYLOAD>"⟩,
    ⟨"withdrawals", "List<Withdrawal, MAX_WITHDRAWALS_PER_PAYLOAD>"⟩, ⟨"blob_gas_used", "u64"⟩,
    ⟨"excess_blob_gas", "u64"⟩])

/-- `Type::ExecutionPayload`, `type_generator.rs:21-116` -/
def executionPayload.target : Target where
  name := "ExecutionPayload"
  refs := true
  child := none
  deletions := none

/-- What is found in the forks' files `execution_payload.rs` -/
def executionPayload.source : Fork → Option (List String × List FieldDecl)
  | .Bellatrix => some executionPayload.bellatrix
  | .Capella => some executionPayload.capella
  | .Deneb => some executionPayload.deneb
  | _ => none

/-- `bellatrix/execution_payload.rs:58-81` -/
def executionPayloadHeader.bellatrix : List String × List FieldDecl := ([
    "BYTES_PER_LOGS_BLOOM", "MAX_EXTRA_DATA_BYTES"], [
    ⟨"parent_hash", "Hash32"⟩, ⟨"fee_recipient", "ExecutionAddress"⟩, ⟨"state_root", "Bytes32"⟩,
    ⟨"receipts_root", "Bytes32"⟩, ⟨"logs_bloom", "ByteVector<BYTES_PER_LOGS_BLOOM>"⟩,
    ⟨"prev_randao", "Bytes32"⟩, ⟨"block_number", "u64"⟩, ⟨"gas_limit", "u64"⟩, ⟨"gas_used", "u64"⟩,
    ⟨"timestamp", "u64"⟩, ⟨"extra_data", "ByteList<MAX_EXTRA_DATA_BYTES>"⟩,
    ⟨"base_fee_per_gas", "U256"⟩, ⟨"block_hash", "Hash32"⟩, ⟨"transactions_root", "Root"⟩])

/-- `capella/execution_payload.rs:62-86` -/
def executionPayloadHeader.capella : List String × List FieldDecl := ([
    "BYTES_PER_LOGS_BLOOM", "MAX_EXTRA_DATA_BYTES"], [
    ⟨"parent_hash", "Hash32"⟩, ⟨"fee_recipient", "ExecutionAddress"⟩, ⟨"state_root", "Bytes32"⟩,
    ⟨"receipts_root", "Bytes32"⟩, ⟨"logs_bloom", "ByteVector<BYTES_PER_LOGS_BLOOM>"⟩,
    ⟨"prev_randao", "Bytes32"⟩, ⟨"block_number", "u64"⟩, ⟨"gas_limit", "u64"⟩, ⟨"gas_used", "u64"⟩,
    ⟨"timestamp", "u64"⟩, ⟨"extra_data", "ByteList<MAX_EXTRA_DATA_BYTES>"⟩,
    ⟨"base_fee_per_gas", "U256"⟩, ⟨"block_hash", "Hash32"⟩, ⟨"transactions_root", "Root"⟩,
    ⟨"withdrawals_root", "Root"⟩])

/-- `deneb/execution_payload.rs:48-76` -/
def executionPayloadHeader.deneb : List String × List FieldDecl := ([
    "BYTES_PER_LOGS_BLOOM", "MAX_EXTRA_DATA_BYTES"], [
    ⟨"parent_hash", "Hash32"⟩, ⟨"fee_recipient", "ExecutionAddress"⟩, ⟨"state_root", "Bytes32"⟩,
    ⟨"receipts_root", "Bytes32"⟩, ⟨"logs_bloom", "ByteVector<BYTES_PER_LOGS_BLOOM>"⟩,
    ⟨"prev_randao", "Bytes32"⟩, ⟨"block_number", "u64"⟩, ⟨"gas_limit", "u64"⟩, ⟨"gas_used", "u64"⟩,
    ⟨"timestamp", "u64"⟩, ⟨"extra_data", "ByteList<MAX_EXTRA_DATA_BYTES>"⟩,
    ⟨"base_fee_per_gas", "U256"⟩, ⟨"block_hash", "Hash32"⟩, ⟨"transactions_root", "Root"⟩,
    ⟨"withdrawals_root", "Root"⟩, ⟨"blob_gas_used", "u64"⟩, ⟨"excess_blob_gas", "u64"⟩])

/-- `Type::ExecutionPayloadHeader`, `type_generator.rs:21-116` -/
def executionPayloadHeader.target : Target where
  name := "ExecutionPayloadHeader"
  refs := true
  child := none
  deletions := none

/-- What is found in the forks' files `execution_payload.rs` -/
def executionPayloadHeader.source : Fork → Option (List String × List FieldDecl)
  | .Bellatrix => some executionPayloadHeader.bellatrix
  | .Capella => some executionPayloadHeader.capella
  | .Deneb => some executionPayloadHeader.deneb
  | _ => none

/-- `phase0/beacon_block.rs:61-78` -/
def signedBeaconBlock.phase0 : List String × List FieldDecl := ([
    "MAX_PROPOSER_SLASHINGS", "MAX_VALIDATORS_PER_COMMITTEE", "MAX_ATTESTER_SLASHINGS",
    "MAX_ATTESTATIONS", "MAX_DEPOSITS", "MAX_VOLUNTARY_EXITS"], [
    ⟨"message", "BeaconBlock<MAX_PROPOSER_SLASHINGS, MAX_VALIDATORS_PER_COMMITTEE, \
      MAX_ATTESTER_SLASHINGS, MAX_ATTESTATIONS, MAX_DEPOSITS, MAX_VOLUNTARY_EXITS>"⟩,
    ⟨"signature", "BlsSignature"⟩])

/-- `altair/beacon_block.rs:66-85` -/
def signedBeaconBlock.altair : List String × List FieldDecl := ([
    "MAX_PROPOSER_SLASHINGS", "MAX_VALIDATORS_PER_COMMITTEE", "MAX_ATTESTER_SLASHINGS",
    "MAX_ATTESTATIONS", "MAX_DEPOSITS", "MAX_VOLUNTARY_EXITS", "SYNC_COMMITTEE_SIZE"], [
    ⟨"message", "BeaconBlock<MAX_PROPOSER_SLASHINGS, MAX_VALIDATORS_PER_COMMITTEE, \
      MAX_ATTESTER_SLASHINGS, MAX_ATTESTATIONS, MAX_DEPOSITS, MAX_VOLUNTARY_EXITS, \
      SYNC_COMMITTEE_SIZE>"⟩, ⟨"signature", "BlsSignature"⟩])

/-- `bellatrix/beacon_block.rs:84-111` -/
def signedBeaconBlock.bellatrix : List String × List FieldDecl := ([
    "MAX_PROPOSER_SLASHINGS", "MAX_VALIDATORS_PER_COMMITTEE", "MAX_ATTESTER_SLASHINGS",
    "MAX_ATTESTATIONS", "MAX_DEPOSITS", "MAX_VOLUNTARY_EXITS", "SYNC_COMMITTEE_SIZE",
    "BYTES_PER_LOGS_BLOOM", "MAX_EXTRA_DATA_BYTES", "MAX_BYTES_PER_TRANSACTION",
    "MAX_TRANSACTIONS_PER_PAYLOAD"], [
    ⟨"message", "BeaconBlock<MAX_PROPOSER_SLASHINGS, MAX_VALIDATORS_PER_COMMITTEE, \
      MAX_ATTESTER_SLASHINGS, MAX_ATTESTATIONS, MAX_DEPOSITS, MAX_VOLUNTARY_EXITS, \
      SYNC_COMMITTEE_SIZE, BYTES_PER_LOGS_BLOOM, MAX_EXTRA_DATA_BYTES, MAX_BYTES_PER_TRANSACTION, \
      MAX_TRANSACTIONS_PER_PAYLOAD>"⟩, ⟨"signature", "BlsSignature"⟩])

/-- `capella/beacon_block.rs:93-124` -/
def signedBeaconBlock.capella : List String × List FieldDecl := ([
    "MAX_PROPOSER_SLASHINGS", "MAX_VALIDATORS_PER_COMMITTEE", "MAX_ATTESTER_SLASHINGS",
    "MAX_ATTESTATIONS", "MAX_DEPOSITS", "MAX_VOLUNTARY_EXITS", "SYNC_COMMITTEE_SIZE",
    "BYTES_PER_LOGS_BLOOM", "MAX_EXTRA_DATA_BYTES", "MAX_BYTES_PER_TRANSACTION",
    "MAX_TRANSACTIONS_PER_PAYLOAD", "MAX_WITHDRAWALS_PER_PAYLOAD",
    "MAX_BLS_TO_EXECUTION_CHANGES"], [
    ⟨"message", "BeaconBlock<MAX_PROPOSER_SLASHINGS, MAX_VALIDATORS_PER_COMMITTEE, \
      MAX_ATTESTER_SLASHINGS, MAX_ATTESTATIONS, MAX_DEPOSITS, MAX_VOLUNTARY_EXITS, \
      SYNC_COMMITTEE_SIZE, BYTES_PER_LOGS_BLOOM, MAX_EXTRA_DATA_BYTES, MAX_BYTES_PER_TRANSACTION, \
      MAX_TRANSACTIONS_PER_PAYLOAD, MAX_WITHDRAWALS_PER_PAYLOAD, MAX_BLS_TO_EXECUTION_CHANGES>"⟩,
    ⟨"signature", "BlsSignature"⟩])

/-- `deneb/beacon_block.rs:99-132` -/
def signedBeaconBlock.deneb : List String × List FieldDecl := ([
    "MAX_PROPOSER_SLASHINGS", "MAX_VALIDATORS_PER_COMMITTEE", "MAX_ATTESTER_SLASHINGS",
    "MAX_ATTESTATIONS", "MAX_DEPOSITS", "MAX_VOLUNTARY_EXITS", "SYNC_COMMITTEE_SIZE",
    "BYTES_PER_LOGS_BLOOM", "MAX_EXTRA_DATA_BYTES", "MAX_BYTES_PER_TRANSACTION",
    "MAX_TRANSACTIONS_PER_PAYLOAD", "MAX_WITHDRAWALS_PER_PAYLOAD", "MAX_BLS_TO_EXECUTION_CHANGES",
    "MAX_BLOB_COMMITMENTS_PER_BLOCK"], [
    ⟨"message", "BeaconBlock<MAX_PROPOSER_SLASHINGS, MAX_VALIDATORS_PER_COMMITTEE, \
      MAX_ATTESTER_SLASHINGS, MAX_ATTESTATIONS, MAX_DEPOSITS, MAX_VOLUNTARY_EXITS, \
      SYNC_COMMITTEE_SIZE, BYTES_PER_LOGS_BLOOM, MAX_EXTRA_DATA_BYTES, MAX_BYTES_PER_TRANSACTION, \
      MAX_TRANSACTIONS_PER_PAYLOAD, MAX_WITHDRAWALS_PER_PAYLOAD, MAX_BLS_TO_EXECUTION_CHANGES, \
      MAX_BLOB_COMMITMENTS_PER_BLOCK>"⟩, ⟨"signature", "BlsSignature"⟩])

/-- `Type::SignedBeaconBlock`, `type_generator.rs:21-116` -/
def signedBeaconBlock.target : Target where
  name := "SignedBeaconBlock"
  refs := false
  child := some ("message", "BeaconBlock")
  deletions := none

/-- What is found in the forks' files `beacon_block.rs` -/
def signedBeaconBlock.source : Fork → Option (List String × List FieldDecl)
  | .Phase0 => some signedBeaconBlock.phase0
  | .Altair => some signedBeaconBlock.altair
  | .Bellatrix => some signedBeaconBlock.bellatrix
  | .Capella => some signedBeaconBlock.capella
  | .Deneb => some signedBeaconBlock.deneb
  | _ => none

/-- `bellatrix/blinded_beacon_block.rs:74-97` -/
def signedBlindedBeaconBlock.bellatrix : List String × List FieldDecl := ([
    "MAX_PROPOSER_SLASHINGS", "MAX_VALIDATORS_PER_COMMITTEE", "MAX_ATTESTER_SLASHINGS",
    "MAX_ATTESTATIONS", "MAX_DEPOSITS", "MAX_VOLUNTARY_EXITS", "SYNC_COMMITTEE_SIZE",
    "BYTES_PER_LOGS_BLOOM", "MAX_EXTRA_DATA_BYTES"], [
    ⟨"message", "BlindedBeaconBlock<MAX_PROPOSER_SLASHINGS, MAX_VALIDATORS_PER_COMMITTEE, \
      MAX_ATTESTER_SLASHINGS, MAX_ATTESTATIONS, MAX_DEPOSITS, MAX_VOLUNTARY_EXITS, \
      SYNC_COMMITTEE_SIZE, BYTES_PER_LOGS_BLOOM, MAX_EXTRA_DATA_BYTES>"⟩,
    ⟨"signature", "BlsSignature"⟩])

/-- `capella/blinded_beacon_block.rs:79-104` -/
def signedBlindedBeaconBlock.capella : List String × List FieldDecl := ([
    "MAX_PROPOSER_SLASHINGS", "MAX_VALIDATORS_PER_COMMITTEE", "MAX_ATTESTER_SLASHINGS",
    "MAX_ATTESTATIONS", "MAX_DEPOSITS", "MAX_VOLUNTARY_EXITS", "SYNC_COMMITTEE_SIZE",
    "BYTES_PER_LOGS_BLOOM", "MAX_EXTRA_DATA_BYTES", "MAX_BLS_TO_EXECUTION_CHANGES"], [
    ⟨"message", "BlindedBeaconBlock<MAX_PROPOSER_SLASHINGS, MAX_VALIDATORS_PER_COMMITTEE, \
      MAX_ATTESTER_SLASHINGS, MAX_ATTESTATIONS, MAX_DEPOSITS, MAX_VOLUNTARY_EXITS, \
      SYNC_COMMITTEE_SIZE, BYTES_PER_LOGS_BLOOM, MAX_EXTRA_DATA_BYTES, \
      MAX_BLS_TO_EXECUTION_CHANGES>"⟩, ⟨"signature", "BlsSignature"⟩])

/-- `deneb/blinded_beacon_block.rs:85-112` -/
def signedBlindedBeaconBlock.deneb : List String × List FieldDecl := ([
    "MAX_PROPOSER_SLASHINGS", "MAX_VALIDATORS_PER_COMMITTEE", "MAX_ATTESTER_SLASHINGS",
    "MAX_ATTESTATIONS", "MAX_DEPOSITS", "MAX_VOLUNTARY_EXITS", "SYNC_COMMITTEE_SIZE",
    "BYTES_PER_LOGS_BLOOM", "MAX_EXTRA_DATA_BYTES", "MAX_BLS_TO_EXECUTION_CHANGES",
    "MAX_BLOB_COMMITMENTS_PER_BLOCK"], [
    ⟨"message", "BlindedBeaconBlock<MAX_PROPOSER_SLASHINGS, MAX_VALIDATORS_PER_COMMITTEE, \
      MAX_ATTESTER_SLASHINGS, MAX_ATTESTATIONS, MAX_DEPOSITS, MAX_VOLUNTARY_EXITS, \
      SYNC_COMMITTEE_SIZE, BYTES_PER_LOGS_BLOOM, MAX_EXTRA_DATA_BYTES, \
      MAX_BLS_TO_EXECUTION_CHANGES, MAX_BLOB_COMMITMENTS_PER_BLOCK>"⟩,
    ⟨"signature", "BlsSignature"⟩])

/-- `Type::SignedBlindedBeaconBlock`, `type_generator.rs:21-116` -/
def signedBlindedBeaconBlock.target : Target where
  name := "SignedBlindedBeaconBlock"
  refs := false
  child := some ("message", "BlindedBeaconBlock")
  deletions := none

/-- What is found in the forks' files `blinded_beacon_block.rs` -/
def signedBlindedBeaconBlock.source : Fork → Option (List String × List FieldDecl)
  | .Bellatrix => some signedBlindedBeaconBlock.bellatrix
  | .Capella => some signedBlindedBeaconBlock.capella
  | .Deneb => some signedBlindedBeaconBlock.deneb
  | _ => none

/-- The types that `run` asks for, `type_generator.rs:827-837`, in the order of `forkTypes` -/
def types : List (Target × (Fork → Option (List String × List FieldDecl))) := [
  (beaconBlock.target, beaconBlock.source),
  (beaconBlockBody.target, beaconBlockBody.source),
  (beaconState.target, beaconState.source),
  (blindedBeaconBlock.target, blindedBeaconBlock.source),
  (blindedBeaconBlockBody.target, blindedBeaconBlockBody.source),
  (executionPayload.target, executionPayload.source),
  (executionPayloadHeader.target, executionPayloadHeader.source),
  (signedBeaconBlock.target, signedBeaconBlock.source),
  (signedBlindedBeaconBlock.target, signedBlindedBeaconBlock.source)]

end Verif.TypeGen.Repo
