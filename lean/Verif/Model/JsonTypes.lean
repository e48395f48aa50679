import Verif.Model.Json

/-! # The JSON form of the consensus types

Transcribed by a script from the `struct` declarations of `ethereum-consensus/src` and their `serde`
attributes, for every fork. A field is listed under its name in JSON: the name in Rust or, where there
is one, the argument of `#[serde(rename = "...")]`. -/

namespace Verif.Json

/-- The constants in the types of fields: const generics, which the presets fix, and constants of the
modules. The theorems hold for every choice. -/
structure Consts where
  MAX_PROPOSER_SLASHINGS : Nat
  MAX_VALIDATORS_PER_COMMITTEE : Nat
  MAX_ATTESTER_SLASHINGS : Nat
  MAX_ATTESTATIONS : Nat
  DEPOSIT_PROOF_LENGTH : Nat
  MAX_DEPOSITS : Nat
  MAX_VOLUNTARY_EXITS : Nat
  SLOTS_PER_HISTORICAL_ROOT : Nat
  HISTORICAL_ROOTS_LIMIT : Nat
  ETH1_DATA_VOTES_BOUND : Nat
  VALIDATOR_REGISTRY_LIMIT : Nat
  EPOCHS_PER_HISTORICAL_VECTOR : Nat
  EPOCHS_PER_SLASHINGS_VECTOR : Nat
  PENDING_ATTESTATIONS_BOUND : Nat
  JUSTIFICATION_BITS_LENGTH : Nat
  ATTESTATION_SUBNET_COUNT : Nat
  SYNC_COMMITTEE_SIZE : Nat
  CURRENT_SYNC_COMMITTEE_INDEX_FLOOR_LOG_2 : Nat
  NEXT_SYNC_COMMITTEE_INDEX_FLOOR_LOG_2 : Nat
  FINALIZED_ROOT_INDEX_FLOOR_LOG_2 : Nat
  SYNC_COMMITTEE_SUBNET_COUNT : Nat
  SYNC_SUBCOMMITTEE_SIZE : Nat
  BYTES_PER_LOGS_BLOOM : Nat
  MAX_EXTRA_DATA_BYTES : Nat
  MAX_BYTES_PER_TRANSACTION : Nat
  MAX_TRANSACTIONS_PER_PAYLOAD : Nat
  MAX_WITHDRAWALS_PER_PAYLOAD : Nat
  MAX_BLS_TO_EXECUTION_CHANGES : Nat
  EXECUTION_PAYLOAD_INDEX_FLOOR_LOG_2 : Nat
  MAX_BLOB_COMMITMENTS_PER_BLOCK : Nat
  BYTES_PER_BLOB : Nat
  KZG_COMMITMENT_INCLUSION_PROOF_DEPTH : Nat
  MAX_VALIDATORS_PER_SLOT : Nat
  MAX_COMMITTEES_PER_SLOT : Nat
  MAX_DEPOSIT_RECEIPTS_PER_PAYLOAD : Nat
  MAX_WITHDRAWAL_REQUESTS_PER_PAYLOAD : Nat
  MAX_CONSOLIDATIONS : Nat
  PENDING_BALANCE_DEPOSITS_LIMIT : Nat
  PENDING_PARTIAL_WITHDRAWALS_LIMIT : Nat
  PENDING_CONSOLIDATIONS_LIMIT : Nat

/-- `Eth1Data`, `phase0/operations.rs:66-71` -/
def phase0.Eth1Data (_ : Consts) : Schema := .record <| Fields.of [
  ("deposit_root", .bytes 32),
  ("deposit_count", .int (2 ^ 64)),
  ("block_hash", .bytes 32)]

/-- `BeaconBlockHeader`, `phase0/beacon_block.rs:83-91` -/
def phase0.BeaconBlockHeader (_ : Consts) : Schema := .record <| Fields.of [
  ("slot", .int (2 ^ 64)),
  ("proposer_index", .int (2 ^ 64)),
  ("parent_root", .bytes 32),
  ("state_root", .bytes 32),
  ("body_root", .bytes 32)]

/-- `SignedBeaconBlockHeader`, `phase0/beacon_block.rs:96-99` -/
def phase0.SignedBeaconBlockHeader (K : Consts) : Schema := .record <| Fields.of [
  ("message", phase0.BeaconBlockHeader K),
  ("signature", .bytes 96)]

/-- `ProposerSlashing`, `phase0/operations.rs:97-100` -/
def phase0.ProposerSlashing (K : Consts) : Schema := .record <| Fields.of [
  ("signed_header_1", phase0.SignedBeaconBlockHeader K),
  ("signed_header_2", phase0.SignedBeaconBlockHeader K)]

/-- `Checkpoint`, `phase0/operations.rs:13-17` -/
def phase0.Checkpoint (_ : Consts) : Schema := .record <| Fields.of [
  ("epoch", .int (2 ^ 64)),
  ("root", .bytes 32)]

/-- `AttestationData`, `phase0/operations.rs:22-30` -/
def phase0.AttestationData (K : Consts) : Schema := .record <| Fields.of [
  ("slot", .int (2 ^ 64)),
  ("index", .int (2 ^ 64)),
  ("beacon_block_root", .bytes 32),
  ("source", phase0.Checkpoint K),
  ("target", phase0.Checkpoint K)]

/-- `IndexedAttestation`, `phase0/operations.rs:35-40` -/
def phase0.IndexedAttestation (K : Consts) : Schema := .record <| Fields.of [
  ("attesting_indices", .ints (2 ^ 64) (.atMost K.MAX_VALIDATORS_PER_COMMITTEE)),
  ("data", phase0.AttestationData K),
  ("signature", .bytes 96)]

/-- `AttesterSlashing`, `phase0/operations.rs:105-108` -/
def phase0.AttesterSlashing (K : Consts) : Schema := .record <| Fields.of [
  ("attestation_1", phase0.IndexedAttestation K),
  ("attestation_2", phase0.IndexedAttestation K)]

/-- `Attestation`, `phase0/operations.rs:57-61` -/
def phase0.Attestation (K : Consts) : Schema := .record <| Fields.of [
  ("aggregation_bits", .bitlist K.MAX_VALIDATORS_PER_COMMITTEE),
  ("data", phase0.AttestationData K),
  ("signature", .bytes 96)]

/-- `DepositData`, `phase0/operations.rs:85-92` -/
def phase0.DepositData (_ : Consts) : Schema := .record <| Fields.of [
  ("pubkey", .bytes 48),
  ("withdrawal_credentials", .bytes 32),
  ("amount", .int (2 ^ 64)),
  ("signature", .bytes 96)]

/-- `Deposit`, `phase0/operations.rs:119-122` -/
def phase0.Deposit (K : Consts) : Schema := .record <| Fields.of [
  ("proof", .seq (.exactly K.DEPOSIT_PROOF_LENGTH) (.bytes 32)),
  ("data", phase0.DepositData K)]

/-- `VoluntaryExit`, `phase0/operations.rs:127-132` -/
def phase0.VoluntaryExit (_ : Consts) : Schema := .record <| Fields.of [
  ("epoch", .int (2 ^ 64)),
  ("validator_index", .int (2 ^ 64))]

/-- `SignedVoluntaryExit`, `phase0/operations.rs:137-140` -/
def phase0.SignedVoluntaryExit (K : Consts) : Schema := .record <| Fields.of [
  ("message", phase0.VoluntaryExit K),
  ("signature", .bytes 96)]

/-- `BeaconBlockBody`, `phase0/beacon_block.rs:12-29` -/
def phase0.BeaconBlockBody (K : Consts) : Schema := .record <| Fields.of [
  ("randao_reveal", .bytes 96),
  ("eth1_data", phase0.Eth1Data K),
  ("graffiti", .bytes 32),
  ("proposer_slashings", .seq (.atMost K.MAX_PROPOSER_SLASHINGS) (phase0.ProposerSlashing K)),
  ("attester_slashings", .seq (.atMost K.MAX_ATTESTER_SLASHINGS) (phase0.AttesterSlashing K)),
  ("attestations", .seq (.atMost K.MAX_ATTESTATIONS) (phase0.Attestation K)),
  ("deposits", .seq (.atMost K.MAX_DEPOSITS) (phase0.Deposit K)),
  ("voluntary_exits", .seq (.atMost K.MAX_VOLUNTARY_EXITS) (phase0.SignedVoluntaryExit K))]

/-- `BeaconBlock`, `phase0/beacon_block.rs:34-56` -/
def phase0.BeaconBlock (K : Consts) : Schema := .record <| Fields.of [
  ("slot", .int (2 ^ 64)),
  ("proposer_index", .int (2 ^ 64)),
  ("parent_root", .bytes 32),
  ("state_root", .bytes 32),
  ("body", phase0.BeaconBlockBody K)]

/-- `SignedBeaconBlock`, `phase0/beacon_block.rs:61-78` -/
def phase0.SignedBeaconBlock (K : Consts) : Schema := .record <| Fields.of [
  ("message", phase0.BeaconBlock K),
  ("signature", .bytes 96)]

/-- `Fork`, `phase0/beacon_state.rs:15-22` -/
def phase0.Fork (_ : Consts) : Schema := .record <| Fields.of [
  ("previous_version", .bytes 4),
  ("current_version", .bytes 4),
  ("epoch", .int (2 ^ 64))]

/-- `ForkData`, `phase0/beacon_state.rs:25-29` -/
def phase0.ForkData (_ : Consts) : Schema := .record <| Fields.of [
  ("current_version", .bytes 4),
  ("genesis_validators_root", .bytes 32)]

/-- `HistoricalBatch`, `phase0/beacon_state.rs:32-35` -/
def phase0.HistoricalBatch (K : Consts) : Schema := .record <| Fields.of [
  ("block_roots", .seq (.exactly K.SLOTS_PER_HISTORICAL_ROOT) (.bytes 32)),
  ("state_roots", .seq (.exactly K.SLOTS_PER_HISTORICAL_ROOT) (.bytes 32))]

/-- `HistoricalSummary`, `phase0/beacon_state.rs:42-45` -/
def phase0.HistoricalSummary (_ : Consts) : Schema := .record <| Fields.of [
  ("block_summary_root", .bytes 32),
  ("state_summary_root", .bytes 32)]

/-- `Validator`, `phase0/validator.rs:10-26` -/
def phase0.Validator (_ : Consts) : Schema := .record <| Fields.of [
  ("pubkey", .bytes 48),
  ("withdrawal_credentials", .bytes 32),
  ("effective_balance", .int (2 ^ 64)),
  ("slashed", .bool),
  ("activation_eligibility_epoch", .int (2 ^ 64)),
  ("activation_epoch", .int (2 ^ 64)),
  ("exit_epoch", .int (2 ^ 64)),
  ("withdrawable_epoch", .int (2 ^ 64))]

/-- `PendingAttestation`, `phase0/operations.rs:45-52` -/
def phase0.PendingAttestation (K : Consts) : Schema := .record <| Fields.of [
  ("aggregation_bits", .bitlist K.MAX_VALIDATORS_PER_COMMITTEE),
  ("data", phase0.AttestationData K),
  ("inclusion_delay", .int (2 ^ 64)),
  ("proposer_index", .int (2 ^ 64))]

/-- `BeaconState`, `phase0/beacon_state.rs:50-88` -/
def phase0.BeaconState (K : Consts) : Schema := .record <| Fields.of [
  ("genesis_time", .int (2 ^ 64)),
  ("genesis_validators_root", .bytes 32),
  ("slot", .int (2 ^ 64)),
  ("fork", phase0.Fork K),
  ("latest_block_header", phase0.BeaconBlockHeader K),
  ("block_roots", .seq (.exactly K.SLOTS_PER_HISTORICAL_ROOT) (.bytes 32)),
  ("state_roots", .seq (.exactly K.SLOTS_PER_HISTORICAL_ROOT) (.bytes 32)),
  ("historical_roots", .seq (.atMost K.HISTORICAL_ROOTS_LIMIT) (.bytes 32)),
  ("eth1_data", phase0.Eth1Data K),
  ("eth1_data_votes", .seq (.atMost K.ETH1_DATA_VOTES_BOUND) (phase0.Eth1Data K)),
  ("eth1_deposit_index", .int (2 ^ 64)),
  ("validators", .seq (.atMost K.VALIDATOR_REGISTRY_LIMIT) (phase0.Validator K)),
  ("balances", .ints (2 ^ 64) (.atMost K.VALIDATOR_REGISTRY_LIMIT)),
  ("randao_mixes", .seq (.exactly K.EPOCHS_PER_HISTORICAL_VECTOR) (.bytes 32)),
  ("slashings", .ints (2 ^ 64) (.exactly K.EPOCHS_PER_SLASHINGS_VECTOR)),
  ("previous_epoch_attestations", .seq (.atMost K.PENDING_ATTESTATIONS_BOUND) (phase0.PendingAttestation K)),
  ("current_epoch_attestations", .seq (.atMost K.PENDING_ATTESTATIONS_BOUND) (phase0.PendingAttestation K)),
  ("justification_bits", .bitvector K.JUSTIFICATION_BITS_LENGTH),
  ("previous_justified_checkpoint", phase0.Checkpoint K),
  ("current_justified_checkpoint", phase0.Checkpoint K),
  ("finalized_checkpoint", phase0.Checkpoint K)]

/-- `MetaData`, `phase0/networking.rs:15-19` -/
def phase0.MetaData (K : Consts) : Schema := .record <| Fields.of [
  ("seq_number", .int (2 ^ 64)),
  ("attnets", .bitvector K.ATTESTATION_SUBNET_COUNT)]

/-- `DepositMessage`, `phase0/operations.rs:74-80` -/
def phase0.DepositMessage (_ : Consts) : Schema := .record <| Fields.of [
  ("pubkey", .bytes 48),
  ("withdrawal_credentials", .bytes 32),
  ("amount", .int (2 ^ 64))]

/-- `Eth1Block`, `phase0/validator.rs:29-33` -/
def phase0.Eth1Block (_ : Consts) : Schema := .record <| Fields.of [
  ("timestamp", .num (2 ^ 64)),
  ("deposit_root", .bytes 32),
  ("deposit_count", .num (2 ^ 64))]

/-- `AggregateAndProof`, `phase0/validator.rs:36-41` -/
def phase0.AggregateAndProof (K : Consts) : Schema := .record <| Fields.of [
  ("aggregator_index", .int (2 ^ 64)),
  ("aggregate", phase0.Attestation K),
  ("selection_proof", .bytes 96)]

/-- `SignedAggregateAndProof`, `phase0/validator.rs:44-47` -/
def phase0.SignedAggregateAndProof (K : Consts) : Schema := .record <| Fields.of [
  ("message", phase0.AggregateAndProof K),
  ("signature", .bytes 96)]

/-- `SyncAggregate`, `altair/sync.rs:9-12` -/
def altair.SyncAggregate (K : Consts) : Schema := .record <| Fields.of [
  ("sync_committee_bits", .bitvector K.SYNC_COMMITTEE_SIZE),
  ("sync_committee_signature", .bytes 96)]

/-- `BeaconBlockBody`, `altair/beacon_block.rs:13-32` -/
def altair.BeaconBlockBody (K : Consts) : Schema := .record <| Fields.of [
  ("randao_reveal", .bytes 96),
  ("eth1_data", phase0.Eth1Data K),
  ("graffiti", .bytes 32),
  ("proposer_slashings", .seq (.atMost K.MAX_PROPOSER_SLASHINGS) (phase0.ProposerSlashing K)),
  ("attester_slashings", .seq (.atMost K.MAX_ATTESTER_SLASHINGS) (phase0.AttesterSlashing K)),
  ("attestations", .seq (.atMost K.MAX_ATTESTATIONS) (phase0.Attestation K)),
  ("deposits", .seq (.atMost K.MAX_DEPOSITS) (phase0.Deposit K)),
  ("voluntary_exits", .seq (.atMost K.MAX_VOLUNTARY_EXITS) (phase0.SignedVoluntaryExit K)),
  ("sync_aggregate", altair.SyncAggregate K)]

/-- `BeaconBlock`, `altair/beacon_block.rs:37-61` -/
def altair.BeaconBlock (K : Consts) : Schema := .record <| Fields.of [
  ("slot", .int (2 ^ 64)),
  ("proposer_index", .int (2 ^ 64)),
  ("parent_root", .bytes 32),
  ("state_root", .bytes 32),
  ("body", altair.BeaconBlockBody K)]

/-- `SignedBeaconBlock`, `altair/beacon_block.rs:66-85` -/
def altair.SignedBeaconBlock (K : Consts) : Schema := .record <| Fields.of [
  ("message", altair.BeaconBlock K),
  ("signature", .bytes 96)]

/-- `SyncCommittee`, `altair/sync.rs:17-22` -/
def altair.SyncCommittee (K : Consts) : Schema := .record <| Fields.of [
  ("pubkeys", .seq (.exactly K.SYNC_COMMITTEE_SIZE) (.bytes 48)),
  ("aggregate_pubkey", .bytes 48)]

/-- `BeaconState`, `altair/beacon_state.rs:13-55` -/
def altair.BeaconState (K : Consts) : Schema := .record <| Fields.of [
  ("genesis_time", .int (2 ^ 64)),
  ("genesis_validators_root", .bytes 32),
  ("slot", .int (2 ^ 64)),
  ("fork", phase0.Fork K),
  ("latest_block_header", phase0.BeaconBlockHeader K),
  ("block_roots", .seq (.exactly K.SLOTS_PER_HISTORICAL_ROOT) (.bytes 32)),
  ("state_roots", .seq (.exactly K.SLOTS_PER_HISTORICAL_ROOT) (.bytes 32)),
  ("historical_roots", .seq (.atMost K.HISTORICAL_ROOTS_LIMIT) (.bytes 32)),
  ("eth1_data", phase0.Eth1Data K),
  ("eth1_data_votes", .seq (.atMost K.ETH1_DATA_VOTES_BOUND) (phase0.Eth1Data K)),
  ("eth1_deposit_index", .int (2 ^ 64)),
  ("validators", .seq (.atMost K.VALIDATOR_REGISTRY_LIMIT) (phase0.Validator K)),
  ("balances", .ints (2 ^ 64) (.atMost K.VALIDATOR_REGISTRY_LIMIT)),
  ("randao_mixes", .seq (.exactly K.EPOCHS_PER_HISTORICAL_VECTOR) (.bytes 32)),
  ("slashings", .ints (2 ^ 64) (.exactly K.EPOCHS_PER_SLASHINGS_VECTOR)),
  ("previous_epoch_participation", .ints (2 ^ 8) (.atMost K.VALIDATOR_REGISTRY_LIMIT)),
  ("current_epoch_participation", .ints (2 ^ 8) (.atMost K.VALIDATOR_REGISTRY_LIMIT)),
  ("justification_bits", .bitvector K.JUSTIFICATION_BITS_LENGTH),
  ("previous_justified_checkpoint", phase0.Checkpoint K),
  ("current_justified_checkpoint", phase0.Checkpoint K),
  ("finalized_checkpoint", phase0.Checkpoint K),
  ("inactivity_scores", .ints (2 ^ 64) (.atMost K.VALIDATOR_REGISTRY_LIMIT)),
  ("current_sync_committee", altair.SyncCommittee K),
  ("next_sync_committee", altair.SyncCommittee K)]

/-- `LightClientHeader`, `altair/light_client.rs:20-22` -/
def altair.LightClientHeader (K : Consts) : Schema := .record <| Fields.of [
  ("beacon", phase0.BeaconBlockHeader K)]

/-- `LightClientBootstrap`, `altair/light_client.rs:25-29` -/
def altair.LightClientBootstrap (K : Consts) : Schema := .record <| Fields.of [
  ("header", altair.LightClientHeader K),
  ("current_sync_committee", altair.SyncCommittee K),
  ("current_sync_committee_branch", .seq (.exactly K.CURRENT_SYNC_COMMITTEE_INDEX_FLOOR_LOG_2) (.bytes 32))]

/-- `LightClientUpdate`, `altair/light_client.rs:32-40` -/
def altair.LightClientUpdate (K : Consts) : Schema := .record <| Fields.of [
  ("attested_header", altair.LightClientHeader K),
  ("next_sync_committee", altair.SyncCommittee K),
  ("next_sync_committee_branch", .seq (.exactly K.NEXT_SYNC_COMMITTEE_INDEX_FLOOR_LOG_2) (.bytes 32)),
  ("finalized_header", altair.LightClientHeader K),
  ("finality_branch", .seq (.exactly K.FINALIZED_ROOT_INDEX_FLOOR_LOG_2) (.bytes 32)),
  ("sync_aggregate", altair.SyncAggregate K),
  ("signature_slot", .num (2 ^ 64))]

/-- `LightClientFinalityUpdate`, `altair/light_client.rs:43-49` -/
def altair.LightClientFinalityUpdate (K : Consts) : Schema := .record <| Fields.of [
  ("attested_header", altair.LightClientHeader K),
  ("finalized_header", altair.LightClientHeader K),
  ("finality_branch", .seq (.exactly K.FINALIZED_ROOT_INDEX_FLOOR_LOG_2) (.bytes 32)),
  ("sync_aggregate", altair.SyncAggregate K),
  ("signature_slot", .num (2 ^ 64))]

/-- `LightClientOptimisticUpdate`, `altair/light_client.rs:52-56` -/
def altair.LightClientOptimisticUpdate (K : Consts) : Schema := .record <| Fields.of [
  ("attested_header", altair.LightClientHeader K),
  ("sync_aggregate", altair.SyncAggregate K),
  ("signature_slot", .num (2 ^ 64))]

/-- `MetaData`, `altair/networking.rs:7-12` -/
def altair.MetaData (K : Consts) : Schema := .record <| Fields.of [
  ("seq_number", .int (2 ^ 64)),
  ("attnets", .bitvector K.ATTESTATION_SUBNET_COUNT),
  ("syncnets", .bitvector K.SYNC_COMMITTEE_SUBNET_COUNT)]

/-- `SyncCommitteeMessage`, `altair/validator.rs:7-14` -/
def altair.SyncCommitteeMessage (_ : Consts) : Schema := .record <| Fields.of [
  ("slot", .int (2 ^ 64)),
  ("beacon_block_root", .bytes 32),
  ("validator_index", .int (2 ^ 64)),
  ("signature", .bytes 96)]

/-- `SyncCommitteeContribution`, `altair/validator.rs:17-25` -/
def altair.SyncCommitteeContribution (K : Consts) : Schema := .record <| Fields.of [
  ("slot", .int (2 ^ 64)),
  ("beacon_block_root", .bytes 32),
  ("subcommittee_index", .int (2 ^ 64)),
  ("aggregation_bits", .bitvector K.SYNC_SUBCOMMITTEE_SIZE),
  ("signature", .bytes 96)]

/-- `ContributionAndProof`, `altair/validator.rs:28-33` -/
def altair.ContributionAndProof (K : Consts) : Schema := .record <| Fields.of [
  ("aggregator_index", .int (2 ^ 64)),
  ("contribution", altair.SyncCommitteeContribution K),
  ("selection_proof", .bytes 96)]

/-- `SignedContributionAndProof`, `altair/validator.rs:36-39` -/
def altair.SignedContributionAndProof (K : Consts) : Schema := .record <| Fields.of [
  ("message", altair.ContributionAndProof K),
  ("signature", .bytes 96)]

/-- `SyncAggregatorSelectionData`, `altair/validator.rs:42-45` -/
def altair.SyncAggregatorSelectionData (_ : Consts) : Schema := .record <| Fields.of [
  ("slot", .num (2 ^ 64)),
  ("subcommittee_index", .num (2 ^ 64))]

/-- `ExecutionPayload`, `bellatrix/execution_payload.rs:13-38` -/
def bellatrix.ExecutionPayload (K : Consts) : Schema := .record <| Fields.of [
  ("parent_hash", .bytes 32),
  ("fee_recipient", .bytes 20),
  ("state_root", .bytes 32),
  ("receipts_root", .bytes 32),
  ("logs_bloom", .bytes K.BYTES_PER_LOGS_BLOOM),
  ("prev_randao", .bytes 32),
  ("block_number", .int (2 ^ 64)),
  ("gas_limit", .int (2 ^ 64)),
  ("gas_used", .int (2 ^ 64)),
  ("timestamp", .int (2 ^ 64)),
  ("extra_data", .byteList K.MAX_EXTRA_DATA_BYTES),
  ("base_fee_per_gas", .int (2 ^ 256)),
  ("block_hash", .bytes 32),
  ("transactions", .seq (.atMost K.MAX_TRANSACTIONS_PER_PAYLOAD) (.byteList K.MAX_BYTES_PER_TRANSACTION))]

/-- `BeaconBlockBody`, `bellatrix/beacon_block.rs:13-42` -/
def bellatrix.BeaconBlockBody (K : Consts) : Schema := .record <| Fields.of [
  ("randao_reveal", .bytes 96),
  ("eth1_data", phase0.Eth1Data K),
  ("graffiti", .bytes 32),
  ("proposer_slashings", .seq (.atMost K.MAX_PROPOSER_SLASHINGS) (phase0.ProposerSlashing K)),
  ("attester_slashings", .seq (.atMost K.MAX_ATTESTER_SLASHINGS) (phase0.AttesterSlashing K)),
  ("attestations", .seq (.atMost K.MAX_ATTESTATIONS) (phase0.Attestation K)),
  ("deposits", .seq (.atMost K.MAX_DEPOSITS) (phase0.Deposit K)),
  ("voluntary_exits", .seq (.atMost K.MAX_VOLUNTARY_EXITS) (phase0.SignedVoluntaryExit K)),
  ("sync_aggregate", altair.SyncAggregate K),
  ("execution_payload", bellatrix.ExecutionPayload K)]

/-- `BeaconBlock`, `bellatrix/beacon_block.rs:47-79` -/
def bellatrix.BeaconBlock (K : Consts) : Schema := .record <| Fields.of [
  ("slot", .int (2 ^ 64)),
  ("proposer_index", .int (2 ^ 64)),
  ("parent_root", .bytes 32),
  ("state_root", .bytes 32),
  ("body", bellatrix.BeaconBlockBody K)]

/-- `SignedBeaconBlock`, `bellatrix/beacon_block.rs:84-111` -/
def bellatrix.SignedBeaconBlock (K : Consts) : Schema := .record <| Fields.of [
  ("message", bellatrix.BeaconBlock K),
  ("signature", .bytes 96)]

/-- `ExecutionPayloadHeader`, `bellatrix/execution_payload.rs:58-81` -/
def bellatrix.ExecutionPayloadHeader (K : Consts) : Schema := .record <| Fields.of [
  ("parent_hash", .bytes 32),
  ("fee_recipient", .bytes 20),
  ("state_root", .bytes 32),
  ("receipts_root", .bytes 32),
  ("logs_bloom", .bytes K.BYTES_PER_LOGS_BLOOM),
  ("prev_randao", .bytes 32),
  ("block_number", .int (2 ^ 64)),
  ("gas_limit", .int (2 ^ 64)),
  ("gas_used", .int (2 ^ 64)),
  ("timestamp", .int (2 ^ 64)),
  ("extra_data", .byteList K.MAX_EXTRA_DATA_BYTES),
  ("base_fee_per_gas", .int (2 ^ 256)),
  ("block_hash", .bytes 32),
  ("transactions_root", .bytes 32)]

/-- `BeaconState`, `bellatrix/beacon_state.rs:13-59` -/
def bellatrix.BeaconState (K : Consts) : Schema := .record <| Fields.of [
  ("genesis_time", .int (2 ^ 64)),
  ("genesis_validators_root", .bytes 32),
  ("slot", .int (2 ^ 64)),
  ("fork", phase0.Fork K),
  ("latest_block_header", phase0.BeaconBlockHeader K),
  ("block_roots", .seq (.exactly K.SLOTS_PER_HISTORICAL_ROOT) (.bytes 32)),
  ("state_roots", .seq (.exactly K.SLOTS_PER_HISTORICAL_ROOT) (.bytes 32)),
  ("historical_roots", .seq (.atMost K.HISTORICAL_ROOTS_LIMIT) (.bytes 32)),
  ("eth1_data", phase0.Eth1Data K),
  ("eth1_data_votes", .seq (.atMost K.ETH1_DATA_VOTES_BOUND) (phase0.Eth1Data K)),
  ("eth1_deposit_index", .int (2 ^ 64)),
  ("validators", .seq (.atMost K.VALIDATOR_REGISTRY_LIMIT) (phase0.Validator K)),
  ("balances", .ints (2 ^ 64) (.atMost K.VALIDATOR_REGISTRY_LIMIT)),
  ("randao_mixes", .seq (.exactly K.EPOCHS_PER_HISTORICAL_VECTOR) (.bytes 32)),
  ("slashings", .ints (2 ^ 64) (.exactly K.EPOCHS_PER_SLASHINGS_VECTOR)),
  ("previous_epoch_participation", .ints (2 ^ 8) (.atMost K.VALIDATOR_REGISTRY_LIMIT)),
  ("current_epoch_participation", .ints (2 ^ 8) (.atMost K.VALIDATOR_REGISTRY_LIMIT)),
  ("justification_bits", .bitvector K.JUSTIFICATION_BITS_LENGTH),
  ("previous_justified_checkpoint", phase0.Checkpoint K),
  ("current_justified_checkpoint", phase0.Checkpoint K),
  ("finalized_checkpoint", phase0.Checkpoint K),
  ("inactivity_scores", .ints (2 ^ 64) (.atMost K.VALIDATOR_REGISTRY_LIMIT)),
  ("current_sync_committee", altair.SyncCommittee K),
  ("next_sync_committee", altair.SyncCommittee K),
  ("latest_execution_payload_header", bellatrix.ExecutionPayloadHeader K)]

/-- `BlindedBeaconBlockBody`, `bellatrix/blinded_beacon_block.rs:13-36` -/
def bellatrix.BlindedBeaconBlockBody (K : Consts) : Schema := .record <| Fields.of [
  ("randao_reveal", .bytes 96),
  ("eth1_data", phase0.Eth1Data K),
  ("graffiti", .bytes 32),
  ("proposer_slashings", .seq (.atMost K.MAX_PROPOSER_SLASHINGS) (phase0.ProposerSlashing K)),
  ("attester_slashings", .seq (.atMost K.MAX_ATTESTER_SLASHINGS) (phase0.AttesterSlashing K)),
  ("attestations", .seq (.atMost K.MAX_ATTESTATIONS) (phase0.Attestation K)),
  ("deposits", .seq (.atMost K.MAX_DEPOSITS) (phase0.Deposit K)),
  ("voluntary_exits", .seq (.atMost K.MAX_VOLUNTARY_EXITS) (phase0.SignedVoluntaryExit K)),
  ("sync_aggregate", altair.SyncAggregate K),
  ("execution_payload_header", bellatrix.ExecutionPayloadHeader K)]

/-- `BlindedBeaconBlock`, `bellatrix/blinded_beacon_block.rs:41-69` -/
def bellatrix.BlindedBeaconBlock (K : Consts) : Schema := .record <| Fields.of [
  ("slot", .int (2 ^ 64)),
  ("proposer_index", .int (2 ^ 64)),
  ("parent_root", .bytes 32),
  ("state_root", .bytes 32),
  ("body", bellatrix.BlindedBeaconBlockBody K)]

/-- `SignedBlindedBeaconBlock`, `bellatrix/blinded_beacon_block.rs:74-97` -/
def bellatrix.SignedBlindedBeaconBlock (K : Consts) : Schema := .record <| Fields.of [
  ("message", bellatrix.BlindedBeaconBlock K),
  ("signature", .bytes 96)]

/-- `PowBlock`, `bellatrix/fork_choice.rs:4-9` -/
def bellatrix.PowBlock (_ : Consts) : Schema := .record <| Fields.of [
  ("block_hash", .bytes 32),
  ("parent_hash", .bytes 32),
  ("total_difficulty", .int (2 ^ 256))]

/-- `Withdrawal`, `capella/withdrawal.rs:9-17` -/
def capella.Withdrawal (_ : Consts) : Schema := .record <| Fields.of [
  ("index", .int (2 ^ 64)),
  ("validator_index", .int (2 ^ 64)),
  ("address", .bytes 20),
  ("amount", .int (2 ^ 64))]

/-- `ExecutionPayload`, `capella/execution_payload.rs:13-40` -/
def capella.ExecutionPayload (K : Consts) : Schema := .record <| Fields.of [
  ("parent_hash", .bytes 32),
  ("fee_recipient", .bytes 20),
  ("state_root", .bytes 32),
  ("receipts_root", .bytes 32),
  ("logs_bloom", .bytes K.BYTES_PER_LOGS_BLOOM),
  ("prev_randao", .bytes 32),
  ("block_number", .int (2 ^ 64)),
  ("gas_limit", .int (2 ^ 64)),
  ("gas_used", .int (2 ^ 64)),
  ("timestamp", .int (2 ^ 64)),
  ("extra_data", .byteList K.MAX_EXTRA_DATA_BYTES),
  ("base_fee_per_gas", .int (2 ^ 256)),
  ("block_hash", .bytes 32),
  ("transactions", .seq (.atMost K.MAX_TRANSACTIONS_PER_PAYLOAD) (.byteList K.MAX_BYTES_PER_TRANSACTION)),
  ("withdrawals", .seq (.atMost K.MAX_WITHDRAWALS_PER_PAYLOAD) (capella.Withdrawal K))]

/-- `BlsToExecutionChange`, `capella/bls_to_execution_change.rs:9-15` -/
def capella.BlsToExecutionChange (_ : Consts) : Schema := .record <| Fields.of [
  ("validator_index", .int (2 ^ 64)),
  ("from_bls_pubkey", .bytes 48),
  ("to_execution_address", .bytes 20)]

/-- `SignedBlsToExecutionChange`, `capella/bls_to_execution_change.rs:20-23` -/
def capella.SignedBlsToExecutionChange (K : Consts) : Schema := .record <| Fields.of [
  ("message", capella.BlsToExecutionChange K),
  ("signature", .bytes 96)]

/-- `BeaconBlockBody`, `capella/beacon_block.rs:14-47` -/
def capella.BeaconBlockBody (K : Consts) : Schema := .record <| Fields.of [
  ("randao_reveal", .bytes 96),
  ("eth1_data", phase0.Eth1Data K),
  ("graffiti", .bytes 32),
  ("proposer_slashings", .seq (.atMost K.MAX_PROPOSER_SLASHINGS) (phase0.ProposerSlashing K)),
  ("attester_slashings", .seq (.atMost K.MAX_ATTESTER_SLASHINGS) (phase0.AttesterSlashing K)),
  ("attestations", .seq (.atMost K.MAX_ATTESTATIONS) (phase0.Attestation K)),
  ("deposits", .seq (.atMost K.MAX_DEPOSITS) (phase0.Deposit K)),
  ("voluntary_exits", .seq (.atMost K.MAX_VOLUNTARY_EXITS) (phase0.SignedVoluntaryExit K)),
  ("sync_aggregate", altair.SyncAggregate K),
  ("execution_payload", capella.ExecutionPayload K),
  ("bls_to_execution_changes", .seq (.atMost K.MAX_BLS_TO_EXECUTION_CHANGES) (capella.SignedBlsToExecutionChange K))]

/-- `BeaconBlock`, `capella/beacon_block.rs:52-88` -/
def capella.BeaconBlock (K : Consts) : Schema := .record <| Fields.of [
  ("slot", .int (2 ^ 64)),
  ("proposer_index", .int (2 ^ 64)),
  ("parent_root", .bytes 32),
  ("state_root", .bytes 32),
  ("body", capella.BeaconBlockBody K)]

/-- `SignedBeaconBlock`, `capella/beacon_block.rs:93-124` -/
def capella.SignedBeaconBlock (K : Consts) : Schema := .record <| Fields.of [
  ("message", capella.BeaconBlock K),
  ("signature", .bytes 96)]

/-- `ExecutionPayloadHeader`, `capella/execution_payload.rs:62-86` -/
def capella.ExecutionPayloadHeader (K : Consts) : Schema := .record <| Fields.of [
  ("parent_hash", .bytes 32),
  ("fee_recipient", .bytes 20),
  ("state_root", .bytes 32),
  ("receipts_root", .bytes 32),
  ("logs_bloom", .bytes K.BYTES_PER_LOGS_BLOOM),
  ("prev_randao", .bytes 32),
  ("block_number", .int (2 ^ 64)),
  ("gas_limit", .int (2 ^ 64)),
  ("gas_used", .int (2 ^ 64)),
  ("timestamp", .int (2 ^ 64)),
  ("extra_data", .byteList K.MAX_EXTRA_DATA_BYTES),
  ("base_fee_per_gas", .int (2 ^ 256)),
  ("block_hash", .bytes 32),
  ("transactions_root", .bytes 32),
  ("withdrawals_root", .bytes 32)]

/-- `BeaconState`, `capella/beacon_state.rs:13-64` -/
def capella.BeaconState (K : Consts) : Schema := .record <| Fields.of [
  ("genesis_time", .int (2 ^ 64)),
  ("genesis_validators_root", .bytes 32),
  ("slot", .int (2 ^ 64)),
  ("fork", phase0.Fork K),
  ("latest_block_header", phase0.BeaconBlockHeader K),
  ("block_roots", .seq (.exactly K.SLOTS_PER_HISTORICAL_ROOT) (.bytes 32)),
  ("state_roots", .seq (.exactly K.SLOTS_PER_HISTORICAL_ROOT) (.bytes 32)),
  ("historical_roots", .seq (.atMost K.HISTORICAL_ROOTS_LIMIT) (.bytes 32)),
  ("eth1_data", phase0.Eth1Data K),
  ("eth1_data_votes", .seq (.atMost K.ETH1_DATA_VOTES_BOUND) (phase0.Eth1Data K)),
  ("eth1_deposit_index", .int (2 ^ 64)),
  ("validators", .seq (.atMost K.VALIDATOR_REGISTRY_LIMIT) (phase0.Validator K)),
  ("balances", .ints (2 ^ 64) (.atMost K.VALIDATOR_REGISTRY_LIMIT)),
  ("randao_mixes", .seq (.exactly K.EPOCHS_PER_HISTORICAL_VECTOR) (.bytes 32)),
  ("slashings", .ints (2 ^ 64) (.exactly K.EPOCHS_PER_SLASHINGS_VECTOR)),
  ("previous_epoch_participation", .ints (2 ^ 8) (.atMost K.VALIDATOR_REGISTRY_LIMIT)),
  ("current_epoch_participation", .ints (2 ^ 8) (.atMost K.VALIDATOR_REGISTRY_LIMIT)),
  ("justification_bits", .bitvector K.JUSTIFICATION_BITS_LENGTH),
  ("previous_justified_checkpoint", phase0.Checkpoint K),
  ("current_justified_checkpoint", phase0.Checkpoint K),
  ("finalized_checkpoint", phase0.Checkpoint K),
  ("inactivity_scores", .ints (2 ^ 64) (.atMost K.VALIDATOR_REGISTRY_LIMIT)),
  ("current_sync_committee", altair.SyncCommittee K),
  ("next_sync_committee", altair.SyncCommittee K),
  ("latest_execution_payload_header", capella.ExecutionPayloadHeader K),
  ("next_withdrawal_index", .int (2 ^ 64)),
  ("next_withdrawal_validator_index", .int (2 ^ 64)),
  ("historical_summaries", .seq (.atMost K.HISTORICAL_ROOTS_LIMIT) (phase0.HistoricalSummary K))]

/-- `BlindedBeaconBlockBody`, `capella/blinded_beacon_block.rs:14-39` -/
def capella.BlindedBeaconBlockBody (K : Consts) : Schema := .record <| Fields.of [
  ("randao_reveal", .bytes 96),
  ("eth1_data", phase0.Eth1Data K),
  ("graffiti", .bytes 32),
  ("proposer_slashings", .seq (.atMost K.MAX_PROPOSER_SLASHINGS) (phase0.ProposerSlashing K)),
  ("attester_slashings", .seq (.atMost K.MAX_ATTESTER_SLASHINGS) (phase0.AttesterSlashing K)),
  ("attestations", .seq (.atMost K.MAX_ATTESTATIONS) (phase0.Attestation K)),
  ("deposits", .seq (.atMost K.MAX_DEPOSITS) (phase0.Deposit K)),
  ("voluntary_exits", .seq (.atMost K.MAX_VOLUNTARY_EXITS) (phase0.SignedVoluntaryExit K)),
  ("sync_aggregate", altair.SyncAggregate K),
  ("execution_payload_header", capella.ExecutionPayloadHeader K),
  ("bls_to_execution_changes", .seq (.atMost K.MAX_BLS_TO_EXECUTION_CHANGES) (capella.SignedBlsToExecutionChange K))]

/-- `BlindedBeaconBlock`, `capella/blinded_beacon_block.rs:44-74` -/
def capella.BlindedBeaconBlock (K : Consts) : Schema := .record <| Fields.of [
  ("slot", .int (2 ^ 64)),
  ("proposer_index", .int (2 ^ 64)),
  ("parent_root", .bytes 32),
  ("state_root", .bytes 32),
  ("body", capella.BlindedBeaconBlockBody K)]

/-- `SignedBlindedBeaconBlock`, `capella/blinded_beacon_block.rs:79-104` -/
def capella.SignedBlindedBeaconBlock (K : Consts) : Schema := .record <| Fields.of [
  ("message", capella.BlindedBeaconBlock K),
  ("signature", .bytes 96)]

/-- `LightClientHeader`, `capella/light_client.rs:17-21` -/
def capella.LightClientHeader (K : Consts) : Schema := .record <| Fields.of [
  ("beacon", phase0.BeaconBlockHeader K),
  ("execution", capella.ExecutionPayloadHeader K),
  ("execution_branch", .seq (.exactly K.EXECUTION_PAYLOAD_INDEX_FLOOR_LOG_2) (.bytes 32))]

/-- `LightClientBootstrap`, `capella/light_client.rs:24-32` -/
def capella.LightClientBootstrap (K : Consts) : Schema := .record <| Fields.of [
  ("header", capella.LightClientHeader K),
  ("current_sync_committee", altair.SyncCommittee K),
  ("current_sync_committee_branch", .seq (.exactly K.CURRENT_SYNC_COMMITTEE_INDEX_FLOOR_LOG_2) (.bytes 32))]

/-- `LightClientUpdate`, `capella/light_client.rs:35-47` -/
def capella.LightClientUpdate (K : Consts) : Schema := .record <| Fields.of [
  ("attested_header", capella.LightClientHeader K),
  ("next_sync_committee", altair.SyncCommittee K),
  ("next_sync_committee_branch", .seq (.exactly K.NEXT_SYNC_COMMITTEE_INDEX_FLOOR_LOG_2) (.bytes 32)),
  ("finalized_header", capella.LightClientHeader K),
  ("finality_branch", .seq (.exactly K.FINALIZED_ROOT_INDEX_FLOOR_LOG_2) (.bytes 32)),
  ("sync_aggregate", altair.SyncAggregate K),
  ("signature_slot", .num (2 ^ 64))]

/-- `LightClientFinalityUpdate`, `capella/light_client.rs:50-60` -/
def capella.LightClientFinalityUpdate (K : Consts) : Schema := .record <| Fields.of [
  ("attested_header", capella.LightClientHeader K),
  ("finalized_header", capella.LightClientHeader K),
  ("finality_branch", .seq (.exactly K.FINALIZED_ROOT_INDEX_FLOOR_LOG_2) (.bytes 32)),
  ("sync_aggregate", altair.SyncAggregate K),
  ("signature_slot", .num (2 ^ 64))]

/-- `LightClientOptimisticUpdate`, `capella/light_client.rs:63-71` -/
def capella.LightClientOptimisticUpdate (K : Consts) : Schema := .record <| Fields.of [
  ("attested_header", capella.LightClientHeader K),
  ("sync_aggregate", altair.SyncAggregate K),
  ("signature_slot", .num (2 ^ 64))]

/-- `ExecutionPayload`, `deneb/execution_payload.rs:12-43` -/
def deneb.ExecutionPayload (K : Consts) : Schema := .record <| Fields.of [
  ("parent_hash", .bytes 32),
  ("fee_recipient", .bytes 20),
  ("state_root", .bytes 32),
  ("receipts_root", .bytes 32),
  ("logs_bloom", .bytes K.BYTES_PER_LOGS_BLOOM),
  ("prev_randao", .bytes 32),
  ("block_number", .int (2 ^ 64)),
  ("gas_limit", .int (2 ^ 64)),
  ("gas_used", .int (2 ^ 64)),
  ("timestamp", .int (2 ^ 64)),
  ("extra_data", .byteList K.MAX_EXTRA_DATA_BYTES),
  ("base_fee_per_gas", .int (2 ^ 256)),
  ("block_hash", .bytes 32),
  ("transactions", .seq (.atMost K.MAX_TRANSACTIONS_PER_PAYLOAD) (.byteList K.MAX_BYTES_PER_TRANSACTION)),
  ("withdrawals", .seq (.atMost K.MAX_WITHDRAWALS_PER_PAYLOAD) (capella.Withdrawal K)),
  ("blob_gas_used", .int (2 ^ 64)),
  ("excess_blob_gas", .int (2 ^ 64))]

/-- `BeaconBlockBody`, `deneb/beacon_block.rs:16-51` -/
def deneb.BeaconBlockBody (K : Consts) : Schema := .record <| Fields.of [
  ("randao_reveal", .bytes 96),
  ("eth1_data", phase0.Eth1Data K),
  ("graffiti", .bytes 32),
  ("proposer_slashings", .seq (.atMost K.MAX_PROPOSER_SLASHINGS) (phase0.ProposerSlashing K)),
  ("attester_slashings", .seq (.atMost K.MAX_ATTESTER_SLASHINGS) (phase0.AttesterSlashing K)),
  ("attestations", .seq (.atMost K.MAX_ATTESTATIONS) (phase0.Attestation K)),
  ("deposits", .seq (.atMost K.MAX_DEPOSITS) (phase0.Deposit K)),
  ("voluntary_exits", .seq (.atMost K.MAX_VOLUNTARY_EXITS) (phase0.SignedVoluntaryExit K)),
  ("sync_aggregate", altair.SyncAggregate K),
  ("execution_payload", deneb.ExecutionPayload K),
  ("bls_to_execution_changes", .seq (.atMost K.MAX_BLS_TO_EXECUTION_CHANGES) (capella.SignedBlsToExecutionChange K)),
  ("blob_kzg_commitments", .seq (.atMost K.MAX_BLOB_COMMITMENTS_PER_BLOCK) (.bytes 48))]

/-- `BeaconBlock`, `deneb/beacon_block.rs:56-94` -/
def deneb.BeaconBlock (K : Consts) : Schema := .record <| Fields.of [
  ("slot", .int (2 ^ 64)),
  ("proposer_index", .int (2 ^ 64)),
  ("parent_root", .bytes 32),
  ("state_root", .bytes 32),
  ("body", deneb.BeaconBlockBody K)]

/-- `SignedBeaconBlock`, `deneb/beacon_block.rs:99-132` -/
def deneb.SignedBeaconBlock (K : Consts) : Schema := .record <| Fields.of [
  ("message", deneb.BeaconBlock K),
  ("signature", .bytes 96)]

/-- `ExecutionPayloadHeader`, `deneb/execution_payload.rs:48-76` -/
def deneb.ExecutionPayloadHeader (K : Consts) : Schema := .record <| Fields.of [
  ("parent_hash", .bytes 32),
  ("fee_recipient", .bytes 20),
  ("state_root", .bytes 32),
  ("receipts_root", .bytes 32),
  ("logs_bloom", .bytes K.BYTES_PER_LOGS_BLOOM),
  ("prev_randao", .bytes 32),
  ("block_number", .int (2 ^ 64)),
  ("gas_limit", .int (2 ^ 64)),
  ("gas_used", .int (2 ^ 64)),
  ("timestamp", .int (2 ^ 64)),
  ("extra_data", .byteList K.MAX_EXTRA_DATA_BYTES),
  ("base_fee_per_gas", .int (2 ^ 256)),
  ("block_hash", .bytes 32),
  ("transactions_root", .bytes 32),
  ("withdrawals_root", .bytes 32),
  ("blob_gas_used", .int (2 ^ 64)),
  ("excess_blob_gas", .int (2 ^ 64))]

/-- `BeaconState`, `deneb/beacon_state.rs:13-64` -/
def deneb.BeaconState (K : Consts) : Schema := .record <| Fields.of [
  ("genesis_time", .int (2 ^ 64)),
  ("genesis_validators_root", .bytes 32),
  ("slot", .int (2 ^ 64)),
  ("fork", phase0.Fork K),
  ("latest_block_header", phase0.BeaconBlockHeader K),
  ("block_roots", .seq (.exactly K.SLOTS_PER_HISTORICAL_ROOT) (.bytes 32)),
  ("state_roots", .seq (.exactly K.SLOTS_PER_HISTORICAL_ROOT) (.bytes 32)),
  ("historical_roots", .seq (.atMost K.HISTORICAL_ROOTS_LIMIT) (.bytes 32)),
  ("eth1_data", phase0.Eth1Data K),
  ("eth1_data_votes", .seq (.atMost K.ETH1_DATA_VOTES_BOUND) (phase0.Eth1Data K)),
  ("eth1_deposit_index", .int (2 ^ 64)),
  ("validators", .seq (.atMost K.VALIDATOR_REGISTRY_LIMIT) (phase0.Validator K)),
  ("balances", .ints (2 ^ 64) (.atMost K.VALIDATOR_REGISTRY_LIMIT)),
  ("randao_mixes", .seq (.exactly K.EPOCHS_PER_HISTORICAL_VECTOR) (.bytes 32)),
  ("slashings", .ints (2 ^ 64) (.exactly K.EPOCHS_PER_SLASHINGS_VECTOR)),
  ("previous_epoch_participation", .ints (2 ^ 8) (.atMost K.VALIDATOR_REGISTRY_LIMIT)),
  ("current_epoch_participation", .ints (2 ^ 8) (.atMost K.VALIDATOR_REGISTRY_LIMIT)),
  ("justification_bits", .bitvector K.JUSTIFICATION_BITS_LENGTH),
  ("previous_justified_checkpoint", phase0.Checkpoint K),
  ("current_justified_checkpoint", phase0.Checkpoint K),
  ("finalized_checkpoint", phase0.Checkpoint K),
  ("inactivity_scores", .ints (2 ^ 64) (.atMost K.VALIDATOR_REGISTRY_LIMIT)),
  ("current_sync_committee", altair.SyncCommittee K),
  ("next_sync_committee", altair.SyncCommittee K),
  ("latest_execution_payload_header", deneb.ExecutionPayloadHeader K),
  ("next_withdrawal_index", .int (2 ^ 64)),
  ("next_withdrawal_validator_index", .int (2 ^ 64)),
  ("historical_summaries", .seq (.atMost K.HISTORICAL_ROOTS_LIMIT) (phase0.HistoricalSummary K))]

/-- `BlindedBeaconBlockBody`, `deneb/blinded_beacon_block.rs:16-43` -/
def deneb.BlindedBeaconBlockBody (K : Consts) : Schema := .record <| Fields.of [
  ("randao_reveal", .bytes 96),
  ("eth1_data", phase0.Eth1Data K),
  ("graffiti", .bytes 32),
  ("proposer_slashings", .seq (.atMost K.MAX_PROPOSER_SLASHINGS) (phase0.ProposerSlashing K)),
  ("attester_slashings", .seq (.atMost K.MAX_ATTESTER_SLASHINGS) (phase0.AttesterSlashing K)),
  ("attestations", .seq (.atMost K.MAX_ATTESTATIONS) (phase0.Attestation K)),
  ("deposits", .seq (.atMost K.MAX_DEPOSITS) (phase0.Deposit K)),
  ("voluntary_exits", .seq (.atMost K.MAX_VOLUNTARY_EXITS) (phase0.SignedVoluntaryExit K)),
  ("sync_aggregate", altair.SyncAggregate K),
  ("execution_payload_header", deneb.ExecutionPayloadHeader K),
  ("bls_to_execution_changes", .seq (.atMost K.MAX_BLS_TO_EXECUTION_CHANGES) (capella.SignedBlsToExecutionChange K)),
  ("blob_kzg_commitments", .seq (.atMost K.MAX_BLOB_COMMITMENTS_PER_BLOCK) (.bytes 48))]

/-- `BlindedBeaconBlock`, `deneb/blinded_beacon_block.rs:48-80` -/
def deneb.BlindedBeaconBlock (K : Consts) : Schema := .record <| Fields.of [
  ("slot", .int (2 ^ 64)),
  ("proposer_index", .int (2 ^ 64)),
  ("parent_root", .bytes 32),
  ("state_root", .bytes 32),
  ("body", deneb.BlindedBeaconBlockBody K)]

/-- `SignedBlindedBeaconBlock`, `deneb/blinded_beacon_block.rs:85-112` -/
def deneb.SignedBlindedBeaconBlock (K : Consts) : Schema := .record <| Fields.of [
  ("message", deneb.BlindedBeaconBlock K),
  ("signature", .bytes 96)]

/-- `BlobIdentifier`, `deneb/blob_sidecar.rs:18-22` -/
def deneb.BlobIdentifier (_ : Consts) : Schema := .record <| Fields.of [
  ("block_root", .bytes 32),
  ("index", .int (2 ^ 64))]

/-- `BlobsBundle`, `deneb/blob_sidecar.rs:25-29` -/
def deneb.BlobsBundle (K : Consts) : Schema := .record <| Fields.of [
  ("commitments", .seq .any (.bytes 48)),
  ("proofs", .seq .any (.bytes 48)),
  ("blobs", .seq .any (.bytes K.BYTES_PER_BLOB))]

/-- `BlobSidecar`, `deneb/blob_sidecar.rs:34-45` -/
def deneb.BlobSidecar (K : Consts) : Schema := .record <| Fields.of [
  ("index", .int (2 ^ 64)),
  ("blob", .bytes K.BYTES_PER_BLOB),
  ("kzg_commitment", .bytes 48),
  ("kzg_proof", .bytes 48),
  ("signed_block_header", phase0.SignedBeaconBlockHeader K),
  ("kzg_commitment_inclusion_proof", .seq (.exactly K.KZG_COMMITMENT_INCLUSION_PROOF_DEPTH) (.bytes 32))]

/-- `LightClientHeader`, `deneb/light_client.rs:15-19` -/
def deneb.LightClientHeader (K : Consts) : Schema := .record <| Fields.of [
  ("beacon", phase0.BeaconBlockHeader K),
  ("execution", deneb.ExecutionPayloadHeader K),
  ("execution_branch", .seq (.exactly K.EXECUTION_PAYLOAD_INDEX_FLOOR_LOG_2) (.bytes 32))]

/-- `LightClientBootstrap`, `deneb/light_client.rs:22-30` -/
def deneb.LightClientBootstrap (K : Consts) : Schema := .record <| Fields.of [
  ("header", deneb.LightClientHeader K),
  ("current_sync_committee", altair.SyncCommittee K),
  ("current_sync_committee_branch", .seq (.exactly K.CURRENT_SYNC_COMMITTEE_INDEX_FLOOR_LOG_2) (.bytes 32))]

/-- `LightClientUpdate`, `deneb/light_client.rs:33-45` -/
def deneb.LightClientUpdate (K : Consts) : Schema := .record <| Fields.of [
  ("attested_header", deneb.LightClientHeader K),
  ("next_sync_committee", altair.SyncCommittee K),
  ("next_sync_committee_branch", .seq (.exactly K.NEXT_SYNC_COMMITTEE_INDEX_FLOOR_LOG_2) (.bytes 32)),
  ("finalized_header", deneb.LightClientHeader K),
  ("finality_branch", .seq (.exactly K.FINALIZED_ROOT_INDEX_FLOOR_LOG_2) (.bytes 32)),
  ("sync_aggregate", altair.SyncAggregate K),
  ("signature_slot", .num (2 ^ 64))]

/-- `LightClientFinalityUpdate`, `deneb/light_client.rs:48-58` -/
def deneb.LightClientFinalityUpdate (K : Consts) : Schema := .record <| Fields.of [
  ("attested_header", deneb.LightClientHeader K),
  ("finalized_header", deneb.LightClientHeader K),
  ("finality_branch", .seq (.exactly K.FINALIZED_ROOT_INDEX_FLOOR_LOG_2) (.bytes 32)),
  ("sync_aggregate", altair.SyncAggregate K),
  ("signature_slot", .num (2 ^ 64))]

/-- `LightClientOptimisticUpdate`, `deneb/light_client.rs:61-69` -/
def deneb.LightClientOptimisticUpdate (K : Consts) : Schema := .record <| Fields.of [
  ("attested_header", deneb.LightClientHeader K),
  ("sync_aggregate", altair.SyncAggregate K),
  ("signature_slot", .num (2 ^ 64))]

/-- `IndexedAttestation`, `electra/operations.rs:18-23` -/
def electra.IndexedAttestation (K : Consts) : Schema := .record <| Fields.of [
  ("attesting_indices", .ints (2 ^ 64) (.atMost K.MAX_VALIDATORS_PER_SLOT)),
  ("data", phase0.AttestationData K),
  ("signature", .bytes 96)]

/-- `AttesterSlashing`, `electra/operations.rs:10-13` -/
def electra.AttesterSlashing (K : Consts) : Schema := .record <| Fields.of [
  ("attestation_1", electra.IndexedAttestation K),
  ("attestation_2", electra.IndexedAttestation K)]

/-- `Attestation`, `electra/operations.rs:28-33` -/
def electra.Attestation (K : Consts) : Schema := .record <| Fields.of [
  ("aggregation_bits", .bitlist K.MAX_VALIDATORS_PER_SLOT),
  ("data", phase0.AttestationData K),
  ("committee_bits", .bitvector K.MAX_COMMITTEES_PER_SLOT),
  ("signature", .bytes 96)]

/-- `DepositReceipt`, `electra/beacon_state.rs:16-25` -/
def electra.DepositReceipt (_ : Consts) : Schema := .record <| Fields.of [
  ("pubkey", .bytes 48),
  ("withdrawal_credentials", .bytes 32),
  ("amount", .int (2 ^ 64)),
  ("signature", .bytes 96),
  ("index", .int (2 ^ 64))]

/-- `ExecutionLayerWithdrawalRequest`, `electra/beacon_state.rs:62-68` -/
def electra.ExecutionLayerWithdrawalRequest (_ : Consts) : Schema := .record <| Fields.of [
  ("source_address", .bytes 20),
  ("pubkey", .bytes 48),
  ("amount", .int (2 ^ 64))]

/-- `ExecutionPayload`, `electra/execution_payload.rs:13-49` -/
def electra.ExecutionPayload (K : Consts) : Schema := .record <| Fields.of [
  ("parent_hash", .bytes 32),
  ("fee_recipient", .bytes 20),
  ("state_root", .bytes 32),
  ("receipts_root", .bytes 32),
  ("logs_bloom", .bytes K.BYTES_PER_LOGS_BLOOM),
  ("prev_randao", .bytes 32),
  ("block_number", .int (2 ^ 64)),
  ("gas_limit", .int (2 ^ 64)),
  ("gas_used", .int (2 ^ 64)),
  ("timestamp", .int (2 ^ 64)),
  ("extra_data", .byteList K.MAX_EXTRA_DATA_BYTES),
  ("base_fee_per_gas", .int (2 ^ 256)),
  ("block_hash", .bytes 32),
  ("transactions", .seq (.atMost K.MAX_TRANSACTIONS_PER_PAYLOAD) (.byteList K.MAX_BYTES_PER_TRANSACTION)),
  ("withdrawals", .seq (.atMost K.MAX_WITHDRAWALS_PER_PAYLOAD) (capella.Withdrawal K)),
  ("blob_gas_used", .int (2 ^ 64)),
  ("excess_blob_gas", .int (2 ^ 64)),
  ("deposit_receipts", .seq (.atMost K.MAX_DEPOSIT_RECEIPTS_PER_PAYLOAD) (electra.DepositReceipt K)),
  ("withdrawal_requests", .seq (.atMost K.MAX_WITHDRAWAL_REQUESTS_PER_PAYLOAD) (electra.ExecutionLayerWithdrawalRequest K))]

/-- `Consolidation`, `electra/operations.rs:38-45` -/
def electra.Consolidation (_ : Consts) : Schema := .record <| Fields.of [
  ("source_index", .int (2 ^ 64)),
  ("target_index", .int (2 ^ 64)),
  ("epoch", .int (2 ^ 64))]

/-- `SignedConsolidation`, `electra/operations.rs:50-53` -/
def electra.SignedConsolidation (K : Consts) : Schema := .record <| Fields.of [
  ("message", electra.Consolidation K),
  ("signature", .bytes 96)]

/-- `BeaconBlockBody`, `electra/beacon_block.rs:17-59` -/
def electra.BeaconBlockBody (K : Consts) : Schema := .record <| Fields.of [
  ("randao_reveal", .bytes 96),
  ("eth1_data", phase0.Eth1Data K),
  ("graffiti", .bytes 32),
  ("proposer_slashings", .seq (.atMost K.MAX_PROPOSER_SLASHINGS) (phase0.ProposerSlashing K)),
  ("attester_slashings", .seq (.atMost K.MAX_ATTESTER_SLASHINGS) (electra.AttesterSlashing K)),
  ("attestations", .seq (.atMost K.MAX_ATTESTATIONS) (electra.Attestation K)),
  ("deposits", .seq (.atMost K.MAX_DEPOSITS) (phase0.Deposit K)),
  ("voluntary_exits", .seq (.atMost K.MAX_VOLUNTARY_EXITS) (phase0.SignedVoluntaryExit K)),
  ("sync_aggregate", altair.SyncAggregate K),
  ("execution_payload", electra.ExecutionPayload K),
  ("bls_to_execution_changes", .seq (.atMost K.MAX_BLS_TO_EXECUTION_CHANGES) (capella.SignedBlsToExecutionChange K)),
  ("blob_kzg_commitments", .seq (.atMost K.MAX_BLOB_COMMITMENTS_PER_BLOCK) (.bytes 48)),
  ("consolidations", .seq (.atMost K.MAX_CONSOLIDATIONS) (electra.SignedConsolidation K))]

/-- `BeaconBlock`, `electra/beacon_block.rs:64-110` -/
def electra.BeaconBlock (K : Consts) : Schema := .record <| Fields.of [
  ("slot", .int (2 ^ 64)),
  ("proposer_index", .int (2 ^ 64)),
  ("parent_root", .bytes 32),
  ("state_root", .bytes 32),
  ("body", electra.BeaconBlockBody K)]

/-- `SignedBeaconBlock`, `electra/beacon_block.rs:115-156` -/
def electra.SignedBeaconBlock (K : Consts) : Schema := .record <| Fields.of [
  ("message", electra.BeaconBlock K),
  ("signature", .bytes 96)]

/-- `PendingBalanceDeposit`, `electra/beacon_state.rs:30-35` -/
def electra.PendingBalanceDeposit (_ : Consts) : Schema := .record <| Fields.of [
  ("index", .int (2 ^ 64)),
  ("amount", .int (2 ^ 64))]

/-- `PendingPartialWithdrawal`, `electra/beacon_state.rs:40-47` -/
def electra.PendingPartialWithdrawal (_ : Consts) : Schema := .record <| Fields.of [
  ("index", .int (2 ^ 64)),
  ("amount", .int (2 ^ 64)),
  ("withdrawable_epoch", .int (2 ^ 64))]

/-- `PendingConsolidation`, `electra/beacon_state.rs:52-57` -/
def electra.PendingConsolidation (_ : Consts) : Schema := .record <| Fields.of [
  ("source_index", .int (2 ^ 64)),
  ("target_index", .int (2 ^ 64))]

/-- `ExecutionPayloadHeader`, `electra/execution_payload.rs:54-84` -/
def electra.ExecutionPayloadHeader (K : Consts) : Schema := .record <| Fields.of [
  ("parent_hash", .bytes 32),
  ("fee_recipient", .bytes 20),
  ("state_root", .bytes 32),
  ("receipts_root", .bytes 32),
  ("logs_bloom", .bytes K.BYTES_PER_LOGS_BLOOM),
  ("prev_randao", .bytes 32),
  ("block_number", .int (2 ^ 64)),
  ("gas_limit", .int (2 ^ 64)),
  ("gas_used", .int (2 ^ 64)),
  ("timestamp", .int (2 ^ 64)),
  ("extra_data", .byteList K.MAX_EXTRA_DATA_BYTES),
  ("base_fee_per_gas", .int (2 ^ 256)),
  ("block_hash", .bytes 32),
  ("transactions_root", .bytes 32),
  ("withdrawals_root", .bytes 32),
  ("blob_gas_used", .int (2 ^ 64)),
  ("excess_blob_gas", .int (2 ^ 64)),
  ("deposit_receipts_root", .bytes 32),
  ("withdrawal_requests_root", .bytes 32)]

/-- `BeaconState`, `electra/beacon_state.rs:73-143` -/
def electra.BeaconState (K : Consts) : Schema := .record <| Fields.of [
  ("genesis_time", .int (2 ^ 64)),
  ("genesis_validators_root", .bytes 32),
  ("slot", .int (2 ^ 64)),
  ("fork", phase0.Fork K),
  ("latest_block_header", phase0.BeaconBlockHeader K),
  ("block_roots", .seq (.exactly K.SLOTS_PER_HISTORICAL_ROOT) (.bytes 32)),
  ("state_roots", .seq (.exactly K.SLOTS_PER_HISTORICAL_ROOT) (.bytes 32)),
  ("historical_roots", .seq (.atMost K.HISTORICAL_ROOTS_LIMIT) (.bytes 32)),
  ("eth1_data", phase0.Eth1Data K),
  ("eth1_data_votes", .seq (.atMost K.ETH1_DATA_VOTES_BOUND) (phase0.Eth1Data K)),
  ("eth1_deposit_index", .int (2 ^ 64)),
  ("validators", .seq (.atMost K.VALIDATOR_REGISTRY_LIMIT) (phase0.Validator K)),
  ("balances", .ints (2 ^ 64) (.atMost K.VALIDATOR_REGISTRY_LIMIT)),
  ("randao_mixes", .seq (.exactly K.EPOCHS_PER_HISTORICAL_VECTOR) (.bytes 32)),
  ("slashings", .ints (2 ^ 64) (.exactly K.EPOCHS_PER_SLASHINGS_VECTOR)),
  ("previous_epoch_participation", .ints (2 ^ 8) (.atMost K.VALIDATOR_REGISTRY_LIMIT)),
  ("current_epoch_participation", .ints (2 ^ 8) (.atMost K.VALIDATOR_REGISTRY_LIMIT)),
  ("justification_bits", .bitvector K.JUSTIFICATION_BITS_LENGTH),
  ("previous_justified_checkpoint", phase0.Checkpoint K),
  ("current_justified_checkpoint", phase0.Checkpoint K),
  ("finalized_checkpoint", phase0.Checkpoint K),
  ("inactivity_scores", .ints (2 ^ 64) (.atMost K.VALIDATOR_REGISTRY_LIMIT)),
  ("current_sync_committee", altair.SyncCommittee K),
  ("next_sync_committee", altair.SyncCommittee K),
  ("latest_execution_payload_header", electra.ExecutionPayloadHeader K),
  ("next_withdrawal_index", .int (2 ^ 64)),
  ("next_withdrawal_validator_index", .int (2 ^ 64)),
  ("historical_summaries", .seq (.atMost K.HISTORICAL_ROOTS_LIMIT) (phase0.HistoricalSummary K)),
  ("deposit_receipts_start_index", .int (2 ^ 64)),
  ("deposit_balance_to_consume", .int (2 ^ 64)),
  ("exit_balance_to_consume", .int (2 ^ 64)),
  ("earliest_exit_epoch", .int (2 ^ 64)),
  ("consolidation_balance_to_consume", .int (2 ^ 64)),
  ("earliest_consolidation_epoch", .int (2 ^ 64)),
  ("pending_balance_deposits", .seq (.atMost K.PENDING_BALANCE_DEPOSITS_LIMIT) (electra.PendingBalanceDeposit K)),
  ("pending_partial_withdrawals", .seq (.atMost K.PENDING_PARTIAL_WITHDRAWALS_LIMIT) (electra.PendingPartialWithdrawal K)),
  ("pending_consolidations", .seq (.atMost K.PENDING_CONSOLIDATIONS_LIMIT) (electra.PendingConsolidation K))]

/-- All the types above, with their names -/
def coreTypes (K : Consts) : List (String × Schema) := [
  ("phase0::Eth1Data", phase0.Eth1Data K),
  ("phase0::BeaconBlockHeader", phase0.BeaconBlockHeader K),
  ("phase0::SignedBeaconBlockHeader", phase0.SignedBeaconBlockHeader K),
  ("phase0::ProposerSlashing", phase0.ProposerSlashing K),
  ("phase0::Checkpoint", phase0.Checkpoint K),
  ("phase0::AttestationData", phase0.AttestationData K),
  ("phase0::IndexedAttestation", phase0.IndexedAttestation K),
  ("phase0::AttesterSlashing", phase0.AttesterSlashing K),
  ("phase0::Attestation", phase0.Attestation K),
  ("phase0::DepositData", phase0.DepositData K),
  ("phase0::Deposit", phase0.Deposit K),
  ("phase0::VoluntaryExit", phase0.VoluntaryExit K),
  ("phase0::SignedVoluntaryExit", phase0.SignedVoluntaryExit K),
  ("phase0::BeaconBlockBody", phase0.BeaconBlockBody K),
  ("phase0::BeaconBlock", phase0.BeaconBlock K),
  ("phase0::SignedBeaconBlock", phase0.SignedBeaconBlock K),
  ("phase0::Fork", phase0.Fork K),
  ("phase0::ForkData", phase0.ForkData K),
  ("phase0::HistoricalBatch", phase0.HistoricalBatch K),
  ("phase0::HistoricalSummary", phase0.HistoricalSummary K),
  ("phase0::Validator", phase0.Validator K),
  ("phase0::PendingAttestation", phase0.PendingAttestation K),
  ("phase0::BeaconState", phase0.BeaconState K),
  ("phase0::MetaData", phase0.MetaData K),
  ("phase0::DepositMessage", phase0.DepositMessage K),
  ("phase0::Eth1Block", phase0.Eth1Block K),
  ("phase0::AggregateAndProof", phase0.AggregateAndProof K),
  ("phase0::SignedAggregateAndProof", phase0.SignedAggregateAndProof K),
  ("altair::SyncAggregate", altair.SyncAggregate K),
  ("altair::BeaconBlockBody", altair.BeaconBlockBody K),
  ("altair::BeaconBlock", altair.BeaconBlock K),
  ("altair::SignedBeaconBlock", altair.SignedBeaconBlock K),
  ("altair::SyncCommittee", altair.SyncCommittee K),
  ("altair::BeaconState", altair.BeaconState K),
  ("altair::LightClientHeader", altair.LightClientHeader K),
  ("altair::LightClientBootstrap", altair.LightClientBootstrap K),
  ("altair::LightClientUpdate", altair.LightClientUpdate K),
  ("altair::LightClientFinalityUpdate", altair.LightClientFinalityUpdate K),
  ("altair::LightClientOptimisticUpdate", altair.LightClientOptimisticUpdate K),
  ("altair::MetaData", altair.MetaData K),
  ("altair::SyncCommitteeMessage", altair.SyncCommitteeMessage K),
  ("altair::SyncCommitteeContribution", altair.SyncCommitteeContribution K),
  ("altair::ContributionAndProof", altair.ContributionAndProof K),
  ("altair::SignedContributionAndProof", altair.SignedContributionAndProof K),
  ("altair::SyncAggregatorSelectionData", altair.SyncAggregatorSelectionData K),
  ("bellatrix::ExecutionPayload", bellatrix.ExecutionPayload K),
  ("bellatrix::BeaconBlockBody", bellatrix.BeaconBlockBody K),
  ("bellatrix::BeaconBlock", bellatrix.BeaconBlock K),
  ("bellatrix::SignedBeaconBlock", bellatrix.SignedBeaconBlock K),
  ("bellatrix::ExecutionPayloadHeader", bellatrix.ExecutionPayloadHeader K),
  ("bellatrix::BeaconState", bellatrix.BeaconState K),
  ("bellatrix::BlindedBeaconBlockBody", bellatrix.BlindedBeaconBlockBody K),
  ("bellatrix::BlindedBeaconBlock", bellatrix.BlindedBeaconBlock K),
  ("bellatrix::SignedBlindedBeaconBlock", bellatrix.SignedBlindedBeaconBlock K),
  ("bellatrix::PowBlock", bellatrix.PowBlock K),
  ("capella::Withdrawal", capella.Withdrawal K),
  ("capella::ExecutionPayload", capella.ExecutionPayload K),
  ("capella::BlsToExecutionChange", capella.BlsToExecutionChange K),
  ("capella::SignedBlsToExecutionChange", capella.SignedBlsToExecutionChange K),
  ("capella::BeaconBlockBody", capella.BeaconBlockBody K),
  ("capella::BeaconBlock", capella.BeaconBlock K),
  ("capella::SignedBeaconBlock", capella.SignedBeaconBlock K),
  ("capella::ExecutionPayloadHeader", capella.ExecutionPayloadHeader K),
  ("capella::BeaconState", capella.BeaconState K),
  ("capella::BlindedBeaconBlockBody", capella.BlindedBeaconBlockBody K),
  ("capella::BlindedBeaconBlock", capella.BlindedBeaconBlock K),
  ("capella::SignedBlindedBeaconBlock", capella.SignedBlindedBeaconBlock K),
  ("capella::LightClientHeader", capella.LightClientHeader K),
  ("capella::LightClientBootstrap", capella.LightClientBootstrap K),
  ("capella::LightClientUpdate", capella.LightClientUpdate K),
  ("capella::LightClientFinalityUpdate", capella.LightClientFinalityUpdate K),
  ("capella::LightClientOptimisticUpdate", capella.LightClientOptimisticUpdate K),
  ("deneb::ExecutionPayload", deneb.ExecutionPayload K),
  ("deneb::BeaconBlockBody", deneb.BeaconBlockBody K),
  ("deneb::BeaconBlock", deneb.BeaconBlock K),
  ("deneb::SignedBeaconBlock", deneb.SignedBeaconBlock K),
  ("deneb::ExecutionPayloadHeader", deneb.ExecutionPayloadHeader K),
  ("deneb::BeaconState", deneb.BeaconState K),
  ("deneb::BlindedBeaconBlockBody", deneb.BlindedBeaconBlockBody K),
  ("deneb::BlindedBeaconBlock", deneb.BlindedBeaconBlock K),
  ("deneb::SignedBlindedBeaconBlock", deneb.SignedBlindedBeaconBlock K),
  ("deneb::BlobIdentifier", deneb.BlobIdentifier K),
  ("deneb::BlobsBundle", deneb.BlobsBundle K),
  ("deneb::BlobSidecar", deneb.BlobSidecar K),
  ("deneb::LightClientHeader", deneb.LightClientHeader K),
  ("deneb::LightClientBootstrap", deneb.LightClientBootstrap K),
  ("deneb::LightClientUpdate", deneb.LightClientUpdate K),
  ("deneb::LightClientFinalityUpdate", deneb.LightClientFinalityUpdate K),
  ("deneb::LightClientOptimisticUpdate", deneb.LightClientOptimisticUpdate K),
  ("electra::IndexedAttestation", electra.IndexedAttestation K),
  ("electra::AttesterSlashing", electra.AttesterSlashing K),
  ("electra::Attestation", electra.Attestation K),
  ("electra::DepositReceipt", electra.DepositReceipt K),
  ("electra::ExecutionLayerWithdrawalRequest", electra.ExecutionLayerWithdrawalRequest K),
  ("electra::ExecutionPayload", electra.ExecutionPayload K),
  ("electra::Consolidation", electra.Consolidation K),
  ("electra::SignedConsolidation", electra.SignedConsolidation K),
  ("electra::BeaconBlockBody", electra.BeaconBlockBody K),
  ("electra::BeaconBlock", electra.BeaconBlock K),
  ("electra::SignedBeaconBlock", electra.SignedBeaconBlock K),
  ("electra::PendingBalanceDeposit", electra.PendingBalanceDeposit K),
  ("electra::PendingPartialWithdrawal", electra.PendingPartialWithdrawal K),
  ("electra::PendingConsolidation", electra.PendingConsolidation K),
  ("electra::ExecutionPayloadHeader", electra.ExecutionPayloadHeader K),
  ("electra::BeaconState", electra.BeaconState K)]

end Verif.Json
