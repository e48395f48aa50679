import Verif.Model.JsonApi
import Verif.Model.JsonForks
import Verif.Model.PeerId

/-! # The client of the beacon API: requests

`beacon-api-client/src/api_client.rs`: what each method of `Client` puts on the wire. The libraries
are modelled from their documented behaviour: `Url::join` (`url`), the encoding of query parameters
(`serde_urlencoded`, `form_urlencoded`) and `RequestBuilder` (`reqwest`). Text is a list of
characters, all of them ASCII. -/

namespace Verif.Client

open Json Text Net

/-- An error that a method of `Client` can return, `beacon-api-client/src/lib.rs:20-32`. The contents
of the errors of libraries are not modelled. -/
inductive Fail (E : Type)
  | Url
  | Http
  | Api (e : E)
  | MissingExpectedData
  | Json
  deriving DecidableEq, Repr

/-! ## URLs -/

/-- The URL of the server: scheme and authority, and the path, which begins with `/`. A query or
fragment is dropped by `Url::join`. -/
structure Endpoint where
  origin : List Char
  path : List Char
  deriving Repr

/-- A text up to and with its last `/` -/
def dir (path : List Char) : List Char := (path.reverse.dropWhile (· != '/')).reverse

/-- `Url::join` for a reference that is a path, possibly with a query: if it begins with `/` it
replaces the path of the base, otherwise it replaces what follows the last `/`. -/
def Endpoint.join (e : Endpoint) (reference : List Char) : List Char :=
  match reference with
  | '/' :: _ => e.origin ++ reference
  | _ => e.origin ++ dir e.path ++ reference

/-- The upper-case digit of a value below 16 -/
def upperHex (n : Nat) : Char :=
  match n with
  | 0 => '0' | 1 => '1' | 2 => '2' | 3 => '3' | 4 => '4' | 5 => '5' | 6 => '6' | 7 => '7'
  | 8 => '8' | 9 => '9' | 10 => 'A' | 11 => 'B' | 12 => 'C' | 13 => 'D' | 14 => 'E' | _ => 'F'

/-- Whether `form_urlencoded` writes a character as it is -/
def formSafe (c : Char) : Bool :=
  c.isAlphanum || c == '*' || c == '-' || c == '.' || c == '_'

/-- `form_urlencoded::byte_serialize`: `+` for a space, and a percent sign with two digits for other
characters -/
def formEncode (s : List Char) : List Char :=
  s.flatMap fun c =>
    if formSafe c then [c]
    else if c = ' ' then ['+']
    else ['%', upperHex (c.toNat / 16), upperHex (c.toNat % 16)]

/-! ## Requests -/

/-- The HTTP methods in use -/
inductive Method
  | GET
  | POST
  deriving DecidableEq, Repr

/-- A request: `reqwest::RequestBuilder`. Of the headers only the version of the consensus is kept. -/
structure Request where
  method : Method
  url : List Char
  version : Option (List Char) := none
  body : Option Json := none

/-- `RequestBuilder::query` with one pair: it is appended to the URL. -/
def Request.query (r : Request) (name : String) (value : List Char) : Request :=
  { r with url := r.url ++ (if '?' ∈ r.url then '&' else '?') ::
      (formEncode name.toList ++ '=' :: formEncode value) }

/-- `RequestBuilder::query` with one pair, when there is a value -/
def Request.query? (r : Request) (name : String) : Option (List Char) → Request
  | none => r
  | some value => r.query name value

/-- `iter().join(",")` of `itertools` -/
def joinComma (xs : List (List Char)) : List Char := [','].intercalate xs

/-- `if !xs.is_empty() { request = request.query(&[(name, xs.iter().join(","))]) }` -/
def Request.queryList (r : Request) (name : String) (xs : List (List Char)) : Request :=
  if xs.isEmpty then r else r.query name (joinComma xs)

/-- `self.http.get(self.endpoint.join(path)?)`, as in `Client::http_get`, `api_client.rs:105-109` -/
def http_get (e : Endpoint) (path : List Char) : Request :=
  { method := .GET, url := e.join path }

/-- `self.http.post(self.endpoint.join(path)?).json(argument)`, `Client::http_post`,
`api_client.rs:120-128` -/
def http_post (e : Endpoint) (path : List Char) (argument : Json) : Request :=
  { method := .POST, url := e.join path, body := some argument }

/-! ## Arguments -/

/-- `BroadcastValidation`, `types.rs:265-271` -/
inductive BroadcastValidation
  | Gossip
  | Consensus
  | ConsensusAndEquivocation
  deriving DecidableEq, Repr

/-- `#[derive(Serialize)]` with `rename_all = "snake_case"`, `types.rs:265-266` -/
def BroadcastValidation.name : BroadcastValidation → String
  | .Gossip => "gossip"
  | .Consensus => "consensus"
  | .ConsensusAndEquivocation => "consensus_and_equivocation"

/-- `PeerState`, `types.rs:334-341` -/
inductive PeerState
  | Disconnected
  | Connecting
  | Connected
  | Disconnecting
  deriving DecidableEq, Repr

/-- `impl Display for PeerState`, `types.rs:343-353` -/
def PeerState.display : PeerState → String
  | .Disconnected => "disconnected"
  | .Connecting => "connecting"
  | .Connected => "connected"
  | .Disconnecting => "disconnecting"

/-- `ConnectionOrientation`, `types.rs:355-360` -/
inductive ConnectionOrientation
  | Inbound
  | Outbound
  deriving DecidableEq, Repr

/-- `impl Display for ConnectionOrientation`, `types.rs:362-370` -/
def ConnectionOrientation.display : ConnectionOrientation → String
  | .Inbound => "inbound"
  | .Outbound => "outbound"

/-- `impl Display for Fork`, `fork.rs:15-26` -/
def forkName : Fork → String
  | .Phase0 => "phase0"
  | .Altair => "altair"
  | .Bellatrix => "bellatrix"
  | .Capella => "capella"
  | .Deneb => "deneb"
  | .Electra => "electra"

/-- `CommitteeFilter`, `types.rs:232-237` -/
structure CommitteeFilter where
  epoch : Option Nat := none
  index : Option Nat := none
  slot : Option Nat := none
  deriving DecidableEq, Repr

/-- `SubmitSignedBeaconBlock`, `types.rs:477-486`, with its contents in JSON: `None` is written as
`null`. -/
def submitSignedBeaconBlock (signed_block : Json) (kzg_proofs blobs : Option (List Json)) : Json :=
  .obj [("signed_block", signed_block),
    ("kzg_proofs", (kzg_proofs.map Json.arr).getD .null),
    ("blobs", (blobs.map Json.arr).getD .null)]

/-- A call of a method of `Client` with its arguments. What is sent as a body is given by its JSON
form, which C71 is about. -/
inductive Call
  | get_genesis_details
  | get_state_root (state_id : StateId)
  | get_fork (state_id : StateId)
  | get_finality_checkpoints (id : StateId)
  | get_validators (state_id : StateId) (validator_ids : List PublicKeyOrIndex)
      (filters : List ValidatorStatus)
  | get_validator (state_id : StateId) (validator_id : PublicKeyOrIndex)
  | get_balances (id : StateId) (filters : List PublicKeyOrIndex)
  | get_all_committees (id : StateId)
  | get_committees (id : StateId) (filter : CommitteeFilter)
  | get_sync_committees (id : StateId) (epoch : Option Nat)
  | get_randao (id : StateId) (epoch : Option Nat)
  | get_beacon_header_at_head
  | get_beacon_header_for_slot (slot : Nat)
  | get_beacon_header_for_parent_root (parent_root : List UInt8)
  | get_beacon_header (id : BlockId)
  | post_signed_blinded_beacon_block (block : Json)
  | post_signed_blinded_beacon_block_v2 (block : Json) (version : Fork)
      (broadcast_validation : Option BroadcastValidation)
  | post_signed_beacon_block (block : Json)
  | post_signed_beacon_block_v2 (signed_block : Json) (kzg_proofs blobs : Option (List Json))
      (version : Fork) (broadcast_validation : Option BroadcastValidation)
  | get_beacon_block (id : BlockId)
  | get_beacon_block_root (id : BlockId)
  | get_attestations_from_beacon_block (id : BlockId)
  | get_blob_sidecars (id : BlockId) (indices : List Nat)
  | get_deposit_snapshot
  | get_blinded_block (id : BlockId)
  | get_light_client_bootstrap (block : List UInt8)
  | get_light_client_updates (start count : Nat)
  | get_light_client_finality_update
  | get_light_client_optimistic_update
  | get_attestations_from_pool (slot committee_index : Option Nat)
  | post_attestations (attestations : List Json)
  | get_attester_slashings_from_pool
  | post_attester_slashing (attester_slashing : Json)
  | get_proposer_slashings_from_pool
  | post_proposer_slashing (proposer_slashing : Json)
  | post_sync_committee_messages (messages : List Json)
  | get_voluntary_exits_from_pool
  | post_signed_voluntary_exit (exit : Json)
  | get_bls_to_execution_changes
  | post_bls_to_execution_changes (changes : List Json)
  | get_expected_withdrawals (id : StateId) (slot : Option Nat)
  | get_fork_schedule
  | get_spec
  | get_deposit_contract_address
  | get_state (id : StateId)
  | get_heads
  | get_events
  | get_node_identity
  | get_node_peers (peer_states : List PeerState)
      (connection_orientations : List ConnectionOrientation)
  | get_peer (peer_id : PeerId)
  | get_peer_summary
  | get_node_version
  | get_sync_status
  | get_health
  | get_attester_duties (epoch : Nat) (indices : List Nat)
  | get_proposer_duties (epoch : Nat)
  | get_sync_committee_duties (epoch : Nat) (indices : List Nat)
  | get_block_proposal (slot : Nat) (randao_reveal : List UInt8) (graffiti : Option (List UInt8))
  | get_blinded_block_proposal (slot : Nat) (randao_reveal : List UInt8)
      (graffiti : Option (List UInt8))
  | get_attestation_data (slot committee_index : Nat)
  | get_attestation_aggregate (attestation_data_root : List UInt8) (slot : Nat)
  | post_aggregates_with_proofs (aggregates_with_proofs : List Json)
  | subscribe_subnets_for_attestation_committees (committee_descriptors : List Json)
  | subscribe_subnets_for_sync_committees (sync_committee_descriptors : List Json)
  | get_sync_committee_contribution (slot subcommittee_index : Nat) (beacon_block_root : List UInt8)
  | post_sync_committee_contributions_with_proofs (contributions_with_proofs : List Json)
  | prepare_proposers (registrations : List Json)
  | register_validators_with_builders (registrations : List Json)
  | post_liveness (epoch : Nat) (indices : List Nat)

/-! ## What each method sends -/

/-- `format!("{head}{value}{tail}")` -/
def path3 (head : String) (value : List Char) (tail : String) : List Char :=
  head.toList ++ value ++ tail.toList

/-- `Client::get_committees`, `api_client.rs:219-242` -/
def committees_request (e : Endpoint) (id : StateId) (filter : CommitteeFilter) : Request :=
  (((http_get e (path3 "eth/v1/beacon/states/" id.display "/committees")).query?
    "epoch" (filter.epoch.map decimal)).query?
    "index" (filter.index.map decimal)).query?
    "slot" (filter.slot.map decimal)

/-- The request of each method, or the error it returns before sending one -/
def Call.request {E : Type} (e : Endpoint) : Call → Except (Fail E) Request
  -- `api_client.rs:131-134`
  | .get_genesis_details => .ok (http_get e "eth/v1/beacon/genesis".toList)
  -- `api_client.rs:136-140`
  | .get_state_root id => .ok (http_get e (path3 "eth/v1/beacon/states/" id.display "/root"))
  -- `api_client.rs:142-146`
  | .get_fork id => .ok (http_get e (path3 "eth/v1/beacon/states/" id.display "/fork"))
  -- `api_client.rs:148-155`
  | .get_finality_checkpoints id =>
    .ok (http_get e (path3 "eth/v1/beacon/states/" id.display "/finality_checkpoints"))
  -- `api_client.rs:157-181`
  | .get_validators id validator_ids filters =>
    .ok (((http_get e (path3 "eth/v1/beacon/states/" id.display "/validators")).queryList
      "id" (validator_ids.map PublicKeyOrIndex.display)).queryList
      "status" (filters.map fun f => f.display.toList))
  -- `api_client.rs:183-191`
  | .get_validator id validator_id =>
    .ok (http_get e (path3 "eth/v1/beacon/states/" id.display "/validators/" ++ validator_id.display))
  -- `api_client.rs:193-213`
  | .get_balances id filters =>
    .ok ((http_get e (path3 "eth/v1/beacon/states/" id.display "/validator_balances")).queryList
      "id" (filters.map PublicKeyOrIndex.display))
  -- `api_client.rs:215-217`
  | .get_all_committees id => .ok (committees_request e id {})
  | .get_committees id filter => .ok (committees_request e id filter)
  -- `api_client.rs:244-261`
  | .get_sync_committees id epoch =>
    .ok ((http_get e (path3 "eth/v1/beacon/states/" id.display "/sync_committees")).query?
      "epoch" (epoch.map decimal))
  -- `api_client.rs:263-277`
  | .get_randao id epoch =>
    .ok ((http_get e (path3 "eth/v1/beacon/states/" id.display "/randao")).query?
      "epoch" (epoch.map decimal))
  -- `api_client.rs:279-282`
  | .get_beacon_header_at_head => .ok (http_get e "eth/v1/beacon/headers".toList)
  -- `api_client.rs:284-297`
  | .get_beacon_header_for_slot slot =>
    .ok ((http_get e "eth/v1/beacon/headers".toList).query "slot" (decimal slot))
  -- `api_client.rs:299-312`
  | .get_beacon_header_for_parent_root parent_root =>
    .ok ((http_get e "eth/v1/beacon/headers".toList).query
      "parent_root" (write_bytes_to_lower_hex parent_root))
  -- `api_client.rs:314-318`
  | .get_beacon_header id => .ok (http_get e (path3 "eth/v1/beacon/headers/" id.display ""))
  -- `api_client.rs:320-325`
  | .post_signed_blinded_beacon_block block =>
    .ok (http_post e "eth/v1/beacon/blinded_blocks".toList block)
  -- `api_client.rs:327-344`
  | .post_signed_blinded_beacon_block_v2 block version broadcast_validation =>
    .ok ({ http_post e "eth/v2/beacon/blinded_blocks".toList block with
      version := some (forkName version).toList : Request }.query?
      "broadcast_validation" (broadcast_validation.map fun v => v.name.toList))
  -- `api_client.rs:346-351`
  | .post_signed_beacon_block block => .ok (http_post e "eth/v1/beacon/blocks".toList block)
  -- `api_client.rs:355-372`
  | .post_signed_beacon_block_v2 signed_block kzg_proofs blobs version broadcast_validation =>
    .ok ({ http_post e "eth/v2/beacon/blocks".toList
        (submitSignedBeaconBlock signed_block kzg_proofs blobs) with
      version := some (forkName version).toList : Request }.query?
      "broadcast_validation" (broadcast_validation.map fun v => v.name.toList))
  -- `api_client.rs:375-379`
  | .get_beacon_block id => .ok (http_get e (path3 "eth/v2/beacon/blocks/" id.display ""))
  -- `api_client.rs:381-384`
  | .get_beacon_block_root id =>
    .ok (http_get e (path3 "eth/v1/beacon/blocks/" id.display "/root"))
  -- `api_client.rs:386-393`
  | .get_attestations_from_beacon_block id =>
    .ok (http_get e (path3 "eth/v1/beacon/blocks/" id.display "/attestations"))
  -- `api_client.rs:395-412`: the value of the pair is a slice, which `serde_urlencoded` refuses
  -- ("unsupported value"), whatever the length of the slice
  | .get_blob_sidecars id indices =>
    if indices.isEmpty then
      .ok (http_get e (path3 "eth/v1/beacon/blob_sidecars/" id.display ""))
    else .error .Http
  -- `api_client.rs:414-417`
  | .get_deposit_snapshot => .ok (http_get e "eth/v1/beacon/deposit_snapshot".toList)
  -- `api_client.rs:419-426`
  | .get_blinded_block id => .ok (http_get e (path3 "eth/v1/beacon/blinded_blocks/" id.display ""))
  -- `api_client.rs:428-435`
  | .get_light_client_bootstrap block =>
    .ok (http_get e (path3 "eth/v1/beacon/light_client/bootstrap/" (write_bytes_to_lower_hex block) ""))
  -- `api_client.rs:437-452`
  | .get_light_client_updates start count =>
    .ok (((http_get e "eth/v1/beacon/light_client/updates".toList).query
      "start_period" (decimal start)).query "count" (decimal count))
  -- `api_client.rs:454-459`
  | .get_light_client_finality_update =>
    .ok (http_get e "eth/v1/beacon/light_client/finality_update".toList)
  -- `api_client.rs:461-466`
  | .get_light_client_optimistic_update =>
    .ok (http_get e "eth/v1/beacon/light_client/optimistic_update".toList)
  -- `api_client.rs:468-488`
  | .get_attestations_from_pool slot committee_index =>
    .ok (((http_get e "eth/v1/beacon/pool/attestations".toList).query?
      "slot" (slot.map decimal)).query? "committee_index" (committee_index.map decimal))
  -- `api_client.rs:490-492`
  | .post_attestations attestations =>
    .ok (http_post e "eth/v1/beacon/pool/attestations".toList (.arr attestations))
  -- `api_client.rs:494-500`
  | .get_attester_slashings_from_pool =>
    .ok (http_get e "eth/v1/beacon/pool/attester_slashings".toList)
  -- `api_client.rs:502-507`
  | .post_attester_slashing attester_slashing =>
    .ok (http_post e "eth/v1/beacon/pool/attester_slashings".toList attester_slashing)
  -- `api_client.rs:509-513`
  | .get_proposer_slashings_from_pool =>
    .ok (http_get e "eth/v1/beacon/pool/proposer_slashings".toList)
  -- `api_client.rs:515-520`
  | .post_proposer_slashing proposer_slashing =>
    .ok (http_post e "eth/v1/beacon/pool/proposer_slashings".toList proposer_slashing)
  -- `api_client.rs:522-527`
  | .post_sync_committee_messages messages =>
    .ok (http_post e "eth/v1/beacon/pool/sync_committees".toList (.arr messages))
  -- `api_client.rs:529-533`
  | .get_voluntary_exits_from_pool => .ok (http_get e "eth/v1/beacon/pool/voluntary_exits".toList)
  -- `api_client.rs:535-540`
  | .post_signed_voluntary_exit exit =>
    .ok (http_post e "eth/v1/beacon/pool/voluntary_exits".toList exit)
  -- `api_client.rs:542-548`
  | .get_bls_to_execution_changes =>
    .ok (http_get e "eth/v1/beacon/pool/bls_to_execution_changes".toList)
  -- `api_client.rs:550-555`
  | .post_bls_to_execution_changes changes =>
    .ok (http_post e "eth/v1/beacon/pool/bls_to_execution_changes".toList (.arr changes))
  -- `api_client.rs:558-576`
  | .get_expected_withdrawals id slot =>
    .ok ((http_get e (path3 "eth/v1/builder/states/" id.display "/expected_withdrawals")).query?
      "proposal_slot" (slot.map decimal))
  -- `api_client.rs:579-582`
  | .get_fork_schedule => .ok (http_get e "eth/v1/config/fork_schedule".toList)
  -- `api_client.rs:584-587`
  | .get_spec => .ok (http_get e "eth/v1/config/spec".toList)
  -- `api_client.rs:589-592`
  | .get_deposit_contract_address => .ok (http_get e "eth/v1/config/deposit_contract".toList)
  -- `api_client.rs:596-600`
  | .get_state id => .ok (http_get e (path3 "eth/v2/debug/beacon/states/" id.display ""))
  -- `api_client.rs:603-607`
  | .get_heads => .ok (http_get e "eth/v2/debug/beacon/heads".toList)
  -- `api_client.rs:610-617`, for the one implementation of `Topic`, `types.rs:290-296`
  | .get_events => .ok (http_get e "/eth/v1/events?topics=payload_attributes".toList)
  -- `api_client.rs:620-623`
  | .get_node_identity => .ok (http_get e "eth/v1/node/identity".toList)
  -- `api_client.rs:625-645`
  | .get_node_peers peer_states connection_orientations =>
    .ok (((http_get e "eth/v1/node/peers".toList).queryList
      "state" (peer_states.map fun s => s.display.toList)).queryList
      "direction" (connection_orientations.map fun o => o.display.toList))
  -- `api_client.rs:647-651`
  | .get_peer peer_id => .ok (http_get e (path3 "/eth/v1/node/peers/" peer_id.to_base58 ""))
  -- `api_client.rs:653-656`
  | .get_peer_summary => .ok (http_get e "eth/v1/node/peer_count".toList)
  -- `api_client.rs:658-661`
  | .get_node_version => .ok (http_get e "eth/v1/node/version".toList)
  -- `api_client.rs:663-666`
  | .get_sync_status => .ok (http_get e "eth/v1/node/syncing".toList)
  -- `api_client.rs:668-680`
  | .get_health => .ok (http_get e "eth/v1/node/health".toList)
  -- `api_client.rs:683-698`
  | .get_attester_duties epoch indices =>
    .ok (http_post e (path3 "eth/v1/validator/duties/attester/" (decimal epoch) "")
      (.arr (indices.map fun i => .str (decimal i))))
  -- `api_client.rs:700-711`
  | .get_proposer_duties epoch =>
    .ok (http_get e (path3 "eth/v1/validator/duties/proposer/" (decimal epoch) ""))
  -- `api_client.rs:713-723`
  | .get_sync_committee_duties epoch indices =>
    .ok (http_post e (path3 "eth/v1/validator/duties/sync/" (decimal epoch) "")
      (.arr (indices.map fun i => .str (decimal i))))
  -- `api_client.rs:726-745`
  | .get_block_proposal slot randao_reveal graffiti =>
    .ok (((http_get e (path3 "eth/v2/validator/blocks/" (decimal slot) "")).query
      "randao_reveal" (write_bytes_to_lower_hex randao_reveal)).query?
      "graffiti" (graffiti.map write_bytes_to_lower_hex))
  -- `api_client.rs:747-766`
  | .get_blinded_block_proposal slot randao_reveal graffiti =>
    .ok (((http_get e (path3 "eth/v1/validator/blinded_blocks/" (decimal slot) "")).query
      "randao_reveal" (write_bytes_to_lower_hex randao_reveal)).query?
      "graffiti" (graffiti.map write_bytes_to_lower_hex))
  -- `api_client.rs:768-783`
  | .get_attestation_data slot committee_index =>
    .ok (((http_get e "eth/v1/validator/attestation_data".toList).query
      "slot" (decimal slot)).query "committee_index" (decimal committee_index))
  -- `api_client.rs:785-800`
  | .get_attestation_aggregate attestation_data_root slot =>
    .ok (((http_get e "eth/v1/validator/aggregate_attestation".toList).query
      "attestation_data_root" (write_bytes_to_lower_hex attestation_data_root)).query
      "slot" (decimal slot))
  -- `api_client.rs:802-807`
  | .post_aggregates_with_proofs aggregates_with_proofs =>
    .ok (http_post e "eth/v1/validator/aggregate_and_proofs".toList (.arr aggregates_with_proofs))
  -- `api_client.rs:809-814`
  | .subscribe_subnets_for_attestation_committees committee_descriptors =>
    .ok (http_post e "eth/v1/validator/beacon_committee_subscriptions".toList
      (.arr committee_descriptors))
  -- `api_client.rs:816-821`
  | .subscribe_subnets_for_sync_committees sync_committee_descriptors =>
    .ok (http_post e "eth/v1/validator/sync_committee_subscriptions".toList
      (.arr sync_committee_descriptors))
  -- `api_client.rs:823-840`
  | .get_sync_committee_contribution slot subcommittee_index beacon_block_root =>
    .ok ((((http_get e "eth/v1/validator/sync_committee_contribution".toList).query
      "slot" (decimal slot)).query
      "subcommittee_index" (decimal subcommittee_index)).query
      "beacon_block_root" (write_bytes_to_lower_hex beacon_block_root))
  -- `api_client.rs:842-847`
  | .post_sync_committee_contributions_with_proofs contributions_with_proofs =>
    .ok (http_post e "eth/v1/validator/contribution_and_proofs".toList
      (.arr contributions_with_proofs))
  -- `api_client.rs:849-854`
  | .prepare_proposers registrations =>
    .ok (http_post e "eth/v1/validator/prepare_beacon_proposer".toList (.arr registrations))
  -- `api_client.rs:857-862`
  | .register_validators_with_builders registrations =>
    .ok (http_post e "eth/v1/validator/register_validator".toList (.arr registrations))
  -- `api_client.rs:864-876`: the indices are a `&[usize]`, written as numbers
  | .post_liveness epoch indices =>
    .ok (http_post e (path3 "eth/v1/validator/liveness/" (decimal epoch) "")
      (.arr (indices.map .num)))

end Verif.Client
