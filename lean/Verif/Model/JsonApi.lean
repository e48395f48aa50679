import Verif.Model.JsonTypes

/-! # The JSON form of the types of the beacon API

Transcribed by a script from `beacon-api-client/src/types.rs`, `ethereum-consensus/src/primitives.rs`
and `ethereum-consensus/src/builder/mod.rs`. Left out are the types with values of the `multihash`,
`multiaddr` and `enr` libraries (`NetworkIdentity`, `PeerDescription`) and those with optional fields
(`PayloadAttributes`, `PayloadAttributesEvent`). -/

namespace Verif.Json

/-- `ValidatorStatus`, `beacon-api-client/src/types.rs:149-164` -/
def api.ValidatorStatus : Schema := .tag [
  "pending_initialized", "pending_queued", "active_ongoing", "active_exiting", "active_slashed", "exited_unslashed", "exited_slashed", "withdrawal_possible", "withdrawal_done", "active", "pending", "exited", "withdrawal"]

/-- `BroadcastValidation`, `beacon-api-client/src/types.rs:266-271` -/
def api.BroadcastValidation : Schema := .tag [
  "gossip", "consensus", "consensus_and_equivocation"]

/-- `PeerState`, `beacon-api-client/src/types.rs:335-341` -/
def api.PeerState : Schema := .tag [
  "disconnected", "connecting", "connected", "disconnecting"]

/-- `ConnectionOrientation`, `beacon-api-client/src/types.rs:356-360` -/
def api.ConnectionOrientation : Schema := .tag [
  "inbound", "outbound"]

/-- `HealthStatus`, `beacon-api-client/src/types.rs:409-414` -/
def api.HealthStatus : Schema := .tag [
  "Ready", "Syncing", "NotInitialized", "Unknown"]

/-- `Fork`, `fork.rs:5-13` -/
def api.Fork : Schema := .tag [
  "phase0", "altair", "bellatrix", "capella", "deneb", "electra"]

/-- `Coordinate`, `primitives.rs:37-41` -/
def api.Coordinate (_ : Consts) : Schema := .record <| Fields.of [
  ("slot", .int (2 ^ 64)),
  ("root", .bytes 32)]

/-- `ValidatorRegistration`, `builder/mod.rs:10-18` -/
def api.ValidatorRegistration (_ : Consts) : Schema := .record <| Fields.of [
  ("fee_recipient", .bytes 20),
  ("gas_limit", .int (2 ^ 64)),
  ("timestamp", .int (2 ^ 64)),
  ("pubkey", .bytes 48)]

/-- `SignedValidatorRegistration`, `builder/mod.rs:21-24` -/
def api.SignedValidatorRegistration (K : Consts) : Schema := .record <| Fields.of [
  ("message", api.ValidatorRegistration K),
  ("signature", .bytes 96)]

/-- `VersionData`, `beacon-api-client/src/types.rs:19-21` -/
def api.VersionData (_ : Consts) : Schema := .record <| Fields.of [
  ("version", .text)]

/-- `DepositContract`, `beacon-api-client/src/types.rs:32-36` -/
def api.DepositContract (_ : Consts) : Schema := .record <| Fields.of [
  ("chain_id", .int (2 ^ 64)),
  ("address", .bytes 20)]

/-- `DepositSnapshot`, `beacon-api-client/src/types.rs:39-47` -/
def api.DepositSnapshot (_ : Consts) : Schema := .record <| Fields.of [
  ("finalized", .seq .any (.bytes 32)),
  ("deposit_root", .bytes 32),
  ("deposit_count", .int (2 ^ 64)),
  ("execution_block_hash", .bytes 32),
  ("execution_block_height", .int (2 ^ 64))]

/-- `GenesisDetails`, `beacon-api-client/src/types.rs:50-56` -/
def api.GenesisDetails (_ : Consts) : Schema := .record <| Fields.of [
  ("genesis_time", .int (2 ^ 64)),
  ("genesis_validators_root", .bytes 32),
  ("genesis_fork_version", .bytes 4)]

/-- `RootData`, `beacon-api-client/src/types.rs:109-111` -/
def api.RootData (_ : Consts) : Schema := .record <| Fields.of [
  ("root", .bytes 32)]

/-- `FinalityCheckpoints`, `beacon-api-client/src/types.rs:142-146` -/
def api.FinalityCheckpoints (K : Consts) : Schema := .record <| Fields.of [
  ("previous_justified", phase0.Checkpoint K),
  ("current_justified", phase0.Checkpoint K),
  ("finalized", phase0.Checkpoint K)]

/-- `ValidatorSummary`, `beacon-api-client/src/types.rs:215-222` -/
def api.ValidatorSummary (K : Consts) : Schema := .record <| Fields.of [
  ("index", .int (2 ^ 64)),
  ("balance", .int (2 ^ 64)),
  ("status", api.ValidatorStatus),
  ("validator", phase0.Validator K)]

/-- `BalanceSummary`, `beacon-api-client/src/types.rs:225-230` -/
def api.BalanceSummary (_ : Consts) : Schema := .record <| Fields.of [
  ("index", .int (2 ^ 64)),
  ("balance", .int (2 ^ 64))]

/-- `CommitteeSummary`, `beacon-api-client/src/types.rs:243-249` -/
def api.CommitteeSummary (_ : Consts) : Schema := .record <| Fields.of [
  ("index", .int (2 ^ 64)),
  ("slot", .int (2 ^ 64)),
  ("validators", .ints (2 ^ 64) .any)]

/-- `SyncCommitteeSummary`, `beacon-api-client/src/types.rs:252-256` -/
def api.SyncCommitteeSummary (_ : Consts) : Schema := .record <| Fields.of [
  ("validators", .ints (2 ^ 64) .any),
  ("validator_aggregates", .seq .any (.ints (2 ^ 64) .any))]

/-- `BeaconHeaderSummary`, `beacon-api-client/src/types.rs:259-263` -/
def api.BeaconHeaderSummary (K : Consts) : Schema := .record <| Fields.of [
  ("root", .bytes 32),
  ("canonical", .bool),
  ("header", phase0.SignedBeaconBlockHeader K)]

/-- `PeerDescriptor`, `beacon-api-client/src/types.rs:373-376` -/
def api.PeerDescriptor (_ : Consts) : Schema := .record <| Fields.of [
  ("state", api.PeerState),
  ("direction", api.ConnectionOrientation)]

/-- `PeerSummary`, `beacon-api-client/src/types.rs:388-397` -/
def api.PeerSummary (_ : Consts) : Schema := .record <| Fields.of [
  ("disconnected", .int (2 ^ 64)),
  ("connecting", .int (2 ^ 64)),
  ("connected", .int (2 ^ 64)),
  ("disconnecting", .int (2 ^ 64))]

/-- `SyncStatus`, `beacon-api-client/src/types.rs:400-406` -/
def api.SyncStatus (_ : Consts) : Schema := .record <| Fields.of [
  ("head_slot", .int (2 ^ 64)),
  ("sync_distance", .int (2 ^ 64)),
  ("is_syncing", .bool)]

/-- `AttestationDuty`, `beacon-api-client/src/types.rs:417-432` -/
def api.AttestationDuty (_ : Consts) : Schema := .record <| Fields.of [
  ("pubkey", .bytes 48),
  ("validator_index", .int (2 ^ 64)),
  ("committee_index", .int (2 ^ 64)),
  ("committee_length", .int (2 ^ 64)),
  ("committees_at_slot", .int (2 ^ 64)),
  ("validator_committee_index", .int (2 ^ 64)),
  ("slot", .int (2 ^ 64))]

/-- `ProposerDuty`, `beacon-api-client/src/types.rs:435-442` -/
def api.ProposerDuty (_ : Consts) : Schema := .record <| Fields.of [
  ("pubkey", .bytes 48),
  ("validator_index", .int (2 ^ 64)),
  ("slot", .int (2 ^ 64))]

/-- `SyncCommitteeDuty`, `beacon-api-client/src/types.rs:445-452` -/
def api.SyncCommitteeDuty (_ : Consts) : Schema := .record <| Fields.of [
  ("pubkey", .bytes 48),
  ("validator_index", .int (2 ^ 64)),
  ("validator_sync_committee_indices", .ints (2 ^ 64) .any)]

/-- `CommitteeDescriptor`, `beacon-api-client/src/types.rs:455-465` -/
def api.CommitteeDescriptor (_ : Consts) : Schema := .record <| Fields.of [
  ("validator_index", .int (2 ^ 64)),
  ("committee_index", .int (2 ^ 64)),
  ("committees_at_slot", .int (2 ^ 64)),
  ("slot", .int (2 ^ 64)),
  ("is_aggregator", .bool)]

/-- `SyncCommitteeDescriptor`, `beacon-api-client/src/types.rs:468-475` -/
def api.SyncCommitteeDescriptor (_ : Consts) : Schema := .record <| Fields.of [
  ("validator_index", .int (2 ^ 64)),
  ("sync_committee_indices", .ints (2 ^ 64) .any),
  ("until_epoch", .int (2 ^ 64))]

/-- `BeaconProposerRegistration`, `beacon-api-client/src/types.rs:489-493` -/
def api.BeaconProposerRegistration (_ : Consts) : Schema := .record <| Fields.of [
  ("validator_index", .int (2 ^ 64)),
  ("fee_recipient", .bytes 20)]

/-- `ValidatorLiveness`, `beacon-api-client/src/types.rs:496-500` -/
def api.ValidatorLiveness (_ : Consts) : Schema := .record <| Fields.of [
  ("index", .int (2 ^ 64)),
  ("is_live", .bool)]

/-- All the structs above, with their names -/
def apiTypes (K : Consts) : List (String × Schema) := [
  ("Coordinate", api.Coordinate K),
  ("ValidatorRegistration", api.ValidatorRegistration K),
  ("SignedValidatorRegistration", api.SignedValidatorRegistration K),
  ("VersionData", api.VersionData K),
  ("DepositContract", api.DepositContract K),
  ("DepositSnapshot", api.DepositSnapshot K),
  ("GenesisDetails", api.GenesisDetails K),
  ("RootData", api.RootData K),
  ("FinalityCheckpoints", api.FinalityCheckpoints K),
  ("ValidatorSummary", api.ValidatorSummary K),
  ("BalanceSummary", api.BalanceSummary K),
  ("CommitteeSummary", api.CommitteeSummary K),
  ("SyncCommitteeSummary", api.SyncCommitteeSummary K),
  ("BeaconHeaderSummary", api.BeaconHeaderSummary K),
  ("PeerDescriptor", api.PeerDescriptor K),
  ("PeerSummary", api.PeerSummary K),
  ("SyncStatus", api.SyncStatus K),
  ("AttestationDuty", api.AttestationDuty K),
  ("ProposerDuty", api.ProposerDuty K),
  ("SyncCommitteeDuty", api.SyncCommitteeDuty K),
  ("CommitteeDescriptor", api.CommitteeDescriptor K),
  ("SyncCommitteeDescriptor", api.SyncCommitteeDescriptor K),
  ("BeaconProposerRegistration", api.BeaconProposerRegistration K),
  ("ValidatorLiveness", api.ValidatorLiveness K)]

end Verif.Json
