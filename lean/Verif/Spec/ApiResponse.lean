import Verif.Model.ApiResponse
import Verif.Spec.Json

/-! # The answers of a server of the beacon API

What the standard (https://github.com/ethereum/beacon-APIs) has a server answer to each of the requests of
C80, and how it reports an error. A member that the standard has and the value does not is allowed
anywhere. -/

namespace Verif.Spec.Beacon

open Client Json Text

/-! ## The objects of the standard, besides those of the consensus specification -/

/-- A number: a decimal string -/
abbrev uint64 : Schema := .int (2 ^ 64)
/-- A root or hash: 32 bytes in hexadecimal -/
abbrev root : Schema := .bytes 32
/-- A public key -/
abbrev pubkey : Schema := .bytes 48

def genesis : Schema := .record <| Fields.of [
  ("genesis_time", uint64), ("genesis_validators_root", root), ("genesis_fork_version", .bytes 4)]

def checkpoint : Schema := .record <| Fields.of [("epoch", uint64), ("root", root)]

def fork : Schema := .record <| Fields.of [
  ("previous_version", .bytes 4), ("current_version", .bytes 4), ("epoch", uint64)]

def finality : Schema := .record <| Fields.of [
  ("previous_justified", checkpoint), ("current_justified", checkpoint), ("finalized", checkpoint)]

def validator : Schema := .record <| Fields.of [
  ("index", uint64), ("balance", uint64),
  ("status", .tag ["pending_initialized", "pending_queued", "active_ongoing", "active_exiting",
    "active_slashed", "exited_unslashed", "exited_slashed", "withdrawal_possible",
    "withdrawal_done", "active", "pending", "exited", "withdrawal"]),
  ("validator", .record <| Fields.of [
    ("pubkey", pubkey), ("withdrawal_credentials", .bytes 32), ("effective_balance", uint64),
    ("slashed", .bool), ("activation_eligibility_epoch", uint64), ("activation_epoch", uint64),
    ("exit_epoch", uint64), ("withdrawable_epoch", uint64)])]

def balance : Schema := .record <| Fields.of [("index", uint64), ("balance", uint64)]

def committee : Schema := .record <| Fields.of [
  ("index", uint64), ("slot", uint64), ("validators", .ints (2 ^ 64) .any)]

def syncCommittees : Schema := .record <| Fields.of [
  ("validators", .ints (2 ^ 64) .any), ("validator_aggregates", .seq .any (.ints (2 ^ 64) .any))]

def header : Schema := .record <| Fields.of [
  ("root", root), ("canonical", .bool),
  ("header", .record <| Fields.of [
    ("message", .record <| Fields.of [
      ("slot", uint64), ("proposer_index", uint64), ("parent_root", root), ("state_root", root),
      ("body_root", root)]),
    ("signature", .bytes 96)])]

def depositSnapshot : Schema := .record <| Fields.of [
  ("finalized", .seq .any root), ("deposit_root", root), ("deposit_count", uint64),
  ("execution_block_hash", root), ("execution_block_height", uint64)]

def depositContract : Schema := .record <| Fields.of [("chain_id", uint64), ("address", .bytes 20)]

def withdrawal : Schema := .record <| Fields.of [
  ("index", uint64), ("validator_index", uint64), ("address", .bytes 20), ("amount", uint64)]

def peerCount : Schema := .record <| Fields.of [
  ("disconnected", uint64), ("connecting", uint64), ("connected", uint64),
  ("disconnecting", uint64)]

def syncing : Schema := .record <| Fields.of [
  ("head_slot", uint64), ("sync_distance", uint64), ("is_syncing", .bool)]

def attesterDuty : Schema := .record <| Fields.of [
  ("pubkey", pubkey), ("validator_index", uint64), ("committee_index", uint64),
  ("committee_length", uint64), ("committees_at_slot", uint64),
  ("validator_committee_index", uint64), ("slot", uint64)]

def proposerDuty : Schema := .record <| Fields.of [
  ("pubkey", pubkey), ("validator_index", uint64), ("slot", uint64)]

def syncDuty : Schema := .record <| Fields.of [
  ("pubkey", pubkey), ("validator_index", uint64),
  ("validator_sync_committee_indices", .ints (2 ^ 64) .any)]

def liveness : Schema := .record <| Fields.of [("index", uint64), ("is_live", .bool)]

/-! ## Answers with a value -/

/-- A successful answer whose body is an object with these members -/
def Success (r : Response) (ms : List (String × Json)) : Prop :=
  r.status = 200 ∧ r.body = some (.obj ms)

/-- `{"data": …}` with a value in the form of the schema -/
def Data (s : Schema) (v : s.Val) (r : Response) : Prop :=
  ∃ ms j, Success r ms ∧ lookup "data" ms = some j ∧ Extends j (s.enc v)

/-- `{"data": [ … ]}` -/
def DataList (s : Schema) (v : (Schema.seq .any s).Val) (r : Response) : Prop :=
  ∃ ms js, Success r ms ∧ lookup "data" ms = some (.arr js) ∧
    List.Forall₂ (fun j x => Extends j (s.enc x)) js v.val

/-- `{"data": {name: …}}` -/
def DataMember (name : String) (s : Schema) (v : s.Val) (r : Response) : Prop :=
  ∃ ms ns j, Success r ms ∧ lookup "data" ms = some (.obj ns) ∧ lookup name ns = some j ∧
    Extends j (s.enc v)

/-- `{"version": …, "data": …}` with a block or state in the form that its fork gives it, its members in
any order -/
def DataOfFork (E : ForkEnum) (v : Versioned E.schema) (r : Response) : Prop :=
  ∃ ms j, Success r ms ∧ lookup "version" ms = some (.str (forkName v.1).toList) ∧
    lookup "data" ms = some j ∧ Extends j ((E.schema v.1).enc v.2) ∧
    Extends ((E.schema v.1).enc v.2) j

/-- `{"version": …, "data": {"block": …, "kzg_proofs": …, "blobs": …}}`: a block with its blobs -/
def DataOfContents (E : ForkEnum) (v : Versioned E.schema) (r : Response) : Prop :=
  ∃ ms j proofs blobs, Success r ms ∧
    lookup "version" ms = some (.str (forkName v.1).toList) ∧
    lookup "data" ms = some (.obj [("block", j), ("kzg_proofs", proofs), ("blobs", blobs)]) ∧
    Extends j ((E.schema v.1).enc v.2) ∧ Extends ((E.schema v.1).enc v.2) j

/-- `{"dependent_root": …, "data": [ … ]}` -/
def DataRooted (s : Schema) (v : root.Val × (Schema.seq .any s).Val) (r : Response) : Prop :=
  DataList s v.2 r ∧ ∃ ms, Success r ms ∧ lookup "dependent_root" ms = some (root.enc v.1)

/-- `{"data": { … }}` with a string for each name of the map and nothing else -/
def DataTexts (v : String → Option (List Char)) (r : Response) : Prop :=
  ∃ ms ns, Success r ms ∧ lookup "data" ms = some (.obj ns) ∧ (ns.map (·.1)).Nodup ∧
    ∀ name, lookup name ns = (v name).map .str

/-- `{"slot": …, "root": …}`, with the other members as given by the function -/
def IsHead (j : Json) (slot : Nat) (blockRoot : root.Val) (others : String → Option Json) : Prop :=
  ∃ ns, j = .obj ns ∧ lookup "slot" ns = some (.str (decimal slot)) ∧
    lookup "root" ns = some (root.enc blockRoot) ∧
    ∀ name, others name = if name = "slot" ∨ name = "root" then none else lookup name ns

/-- `{"data": [{"slot": …, "root": …, …}, …]}` -/
def DataHeads (v : List ((Fin (2 ^ 64) × root.Val × Unit) × (String → Option Json)))
    (r : Response) : Prop :=
  ∃ ms js, Success r ms ∧ lookup "data" ms = some (.arr js) ∧
    List.Forall₂ (fun j x => IsHead j x.1.1 x.1.2.1 x.2) js v

/-- `{"data": …}` in a form that is left open -/
def DataIn (c : Codec) (v : c.Val) (r : Response) : Prop :=
  ∃ ms j, Success r ms ∧ lookup "data" ms = some j ∧ c.dec j = some v

/-- `{"data": [ … ]}` in a form that is left open -/
def DataInList (c : Codec) (v : List c.Val) (r : Response) : Prop :=
  ∃ ms js, Success r ms ∧ lookup "data" ms = some (.arr js) ∧
    List.Forall₂ (fun j x => c.dec j = some x) js v

/-- An update for light clients, whose signature slot is a decimal string like every number -/
def IsUpdate (j : Json) : Prop :=
  ∃ ns slot, j = .obj ns ∧ lookup "signature_slot" ns = some (.str (decimal slot))

/-- What the standard has a server answer for a value, by call. `DataIn` leaves the form of the types of
other libraries open. -/
def Answers (K : Consts) (F : Foreign) :
    (c : Call) → (c.want K F).Val → Response → Prop
  | .get_genesis_details, v, r => Data genesis v r
  | .get_state_root _, v, r => DataMember "root" root v r
  | .get_fork _, v, r => Data fork v r
  | .get_finality_checkpoints _, v, r => Data finality v r
  | .get_validators _ _ _, v, r => DataList validator v r
  | .get_validator _ _, v, r => Data validator v r
  | .get_balances _ _, v, r => DataList balance v r
  | .get_all_committees _, v, r => DataList committee v r
  | .get_committees _ _, v, r => DataList committee v r
  | .get_sync_committees _ _, v, r => Data syncCommittees v r
  | .get_randao _ _, v, r => DataMember "randao" root v r
  -- the headers that match the query, here the one that the method is to return
  | .get_beacon_header_at_head, v, r => DataList header ⟨[v], rfl⟩ r
  | .get_beacon_header_for_slot _, v, r => DataList header ⟨[v], rfl⟩ r
  | .get_beacon_header_for_parent_root _, v, r => DataList header ⟨[v], rfl⟩ r
  | .get_beacon_header _, v, r => Data header v r
  -- 202 for a block that was sent on although it was not valid
  | .post_signed_blinded_beacon_block _, _, r => r.status = 200 ∨ r.status = 202
  | .post_signed_blinded_beacon_block_v2 _ _ _, _, r => r.status = 200 ∨ r.status = 202
  | .post_signed_beacon_block _, _, r => r.status = 200 ∨ r.status = 202
  | .post_signed_beacon_block_v2 _ _ _ _ _, _, r => r.status = 200 ∨ r.status = 202
  | .get_beacon_block _, v, r => DataOfFork (Json.SignedBeaconBlock K) v r
  | .get_beacon_block_root _, v, r => DataMember "root" root v r
  | .get_attestations_from_beacon_block _, v, r => DataList (phase0.Attestation K) v r
  | .get_blob_sidecars _ _, v, r => DataList (deneb.BlobSidecar K) v r
  | .get_deposit_snapshot, v, r => Data depositSnapshot v r
  | .get_blinded_block _, v, r => DataOfFork (Json.SignedBlindedBeaconBlock K) v r
  | .get_light_client_bootstrap _, v, r => Data (altair.LightClientBootstrap K) v r
  -- an array at the top, of `{"version": …, "data": …}`
  | .get_light_client_updates _ _, v, r =>
    ∃ js, r.status = 200 ∧ r.body = some (.arr js) ∧ js.length = v.val.length
  | .get_light_client_finality_update, _, r =>
    ∃ ms j, Success r ms ∧ lookup "data" ms = some j ∧ IsUpdate j
  | .get_light_client_optimistic_update, _, r =>
    ∃ ms j, Success r ms ∧ lookup "data" ms = some j ∧ IsUpdate j
  | .get_attestations_from_pool _ _, v, r => DataList (phase0.Attestation K) v r
  | .post_attestations _, _, r => r.status = 200
  | .get_attester_slashings_from_pool, v, r => DataList (phase0.AttesterSlashing K) v r
  | .post_attester_slashing _, _, r => r.status = 200
  | .get_proposer_slashings_from_pool, v, r => DataList (phase0.ProposerSlashing K) v r
  | .post_proposer_slashing _, _, r => r.status = 200
  | .post_sync_committee_messages _, _, r => r.status = 200
  | .get_voluntary_exits_from_pool, v, r => DataList (phase0.SignedVoluntaryExit K) v r
  | .post_signed_voluntary_exit _, _, r => r.status = 200
  | .get_bls_to_execution_changes, v, r => DataList (capella.SignedBlsToExecutionChange K) v r
  | .post_bls_to_execution_changes _, _, r => r.status = 200
  | .get_expected_withdrawals _ _, v, r => DataList withdrawal v r
  | .get_fork_schedule, v, r => DataList fork v r
  | .get_spec, v, r => DataTexts v r
  | .get_deposit_contract_address, v, r => Data depositContract v r
  | .get_state _, v, r => DataOfFork (Json.BeaconState K) v r
  | .get_heads, v, r => DataHeads v r
  | .get_events, _, r => r.status = 200
  | .get_node_identity, v, r => DataIn F.identity v r
  | .get_node_peers _ _, v, r => DataInList F.peer v r
  | .get_peer _, v, r => DataIn F.peer v r
  | .get_peer_summary, v, r => Data peerCount v r
  | .get_node_version, v, r => DataMember "version" .text v r
  | .get_sync_status, v, r => Data syncing v r
  | .get_health, .Ready, r => r.status = 200
  | .get_health, .Syncing, r => r.status = 206
  | .get_health, .NotInitialized, r => r.status = 503
  | .get_health, .Unknown, r => r.status ∉ [200, 206, 503]
  | .get_attester_duties _ _, v, r => DataRooted attesterDuty v r
  | .get_proposer_duties _, v, r => DataRooted proposerDuty v r
  | .get_sync_committee_duties _ _, v, r => DataList syncDuty v r
  -- since Deneb a proposal comes with its blobs
  | .get_block_proposal _ _ _, v, r =>
    if v.1 = .Deneb ∨ v.1 = .Electra then DataOfContents (Json.BeaconBlock K) v r
    else DataOfFork (Json.BeaconBlock K) v r
  | .get_blinded_block_proposal _ _ _, v, r => DataOfFork (Json.BlindedBeaconBlock K) v r
  | .get_attestation_data _ _, v, r => Data (phase0.AttestationData K) v r
  | .get_attestation_aggregate _ _, v, r => Data (phase0.Attestation K) v r
  | .post_aggregates_with_proofs _, _, r => r.status = 200
  | .subscribe_subnets_for_attestation_committees _, _, r => r.status = 200
  | .subscribe_subnets_for_sync_committees _, _, r => r.status = 200
  | .get_sync_committee_contribution _ _ _, v, r => Data (altair.SyncCommitteeContribution K) v r
  | .post_sync_committee_contributions_with_proofs _, _, r => r.status = 200
  | .prepare_proposers _, _, r => r.status = 200
  | .register_validators_with_builders _, _, r => r.status = 200
  | .post_liveness _ _, v, r => DataList liveness v r

/-! ## Answers with an error -/

/-- `{"code": …, "message": …}`, without data -/
def ErrorObject (code : Nat) (message : List Char) (r : Response) (ms : List (String × Json)) :
    Prop :=
  100 ≤ code ∧ code < 1000 ∧ r.body = some (.obj ms) ∧ lookup "code" ms = some (.num code) ∧
    lookup "message" ms = some (.str message) ∧ lookup "data" ms = none

/-- How the standard reports an error, possibly with the items of the request that failed -/
def Reports : ApiError → Response → Prop
  | .ErrorMessage code message, r =>
    ∃ ms, ErrorObject code message r ms ∧ lookup "failures" ms = none
  | .IndexedError code message failures, r =>
    ∃ ms js, ErrorObject code message r ms ∧ lookup "failures" ms = some (.arr js) ∧
      List.Forall₂ (fun j (x : IndexedError.Val) => ∃ ns, j = .obj ns ∧
        lookup "index" ns = some (.num x.1.val) ∧ lookup "message" ns = some (.str x.2.1)) js failures

end Verif.Spec.Beacon
