import Verif.Model.Api

/-! # The client of the beacon API: responses

`beacon-api-client/src/api_client.rs`, `api_error.rs` and `types.rs`: what each method of `Client` makes
of the answer of the server. An answer is its status and its body; the body is taken as the tree of
JSON values it spells, or as nothing if it spells none. `Response::json` of `reqwest` reads the body
with `serde_json::from_slice`, and the derived readers of untagged enums and flattened fields keep the
strings of the body, so every type is read from a borrowed source. -/

namespace Verif.Client

open Json Text

/-- `reqwest::Response` -/
structure Response where
  status : Nat
  body : Option Json

/-! ## Errors of the server -/

/-- `IndexedError`, `api_error.rs:24-28` -/
def IndexedError : Schema := .record <| Fields.of [("index", .num (2 ^ 64)), ("message", .text)]

/-- `ApiError`, `api_error.rs:7-22` -/
inductive ApiError
  | IndexedError (code : Nat) (message : List Char) (failures : List IndexedError.Val)
  | ErrorMessage (code : Nat) (message : List Char)
  deriving Inhabited

/-- `as_u16::deserialize`, `beacon-api-client/src/serde.rs:15-21`; `StatusCode::from_u16` takes the numbers with
three digits. -/
def status_code : Json → Option Nat
  | .num n => if n < 2 ^ 16 ∧ 100 ≤ n ∧ n < 1000 then some n else none
  | _ => none

/-- `Deserialize` of `String` -/
def text? : Json → Option (List Char)
  | .str s => some s
  | _ => none

/-- `Deserialize` of `Vec<IndexedError>` -/
def failures? : Json → Option (List IndexedError.Val)
  | .arr xs => xs.mapM (IndexedError.dec .borrowed)
  | _ => none

/-- The variant `IndexedError` of the untagged `ApiError`, `api_error.rs:10-15`. Variants of untagged enums
are read from objects only. -/
def ApiError.indexed : Json → Option ApiError
  | .obj ms => do
    let code ← (lookup "code" ms).bind status_code
    let message ← (lookup "message" ms).bind text?
    let failures ← (lookup "failures" ms).bind failures?
    some (.IndexedError code message failures)
  | _ => none

/-- The variant `ErrorMessage` of `ApiError`, `api_error.rs:16-21` -/
def ApiError.message : Json → Option ApiError
  | .obj ms => do
    let code ← (lookup "code" ms).bind status_code
    let message ← (lookup "message" ms).bind text?
    some (.ErrorMessage code message)
  | _ => none

/-- `Deserialize` of `ApiError`: the variants are tried in turn. -/
def ApiError.dec (j : Json) : Option ApiError := ApiError.indexed j <|> ApiError.message j

/-- The errors of the methods: `Error`, `beacon-api-client/src/lib.rs:20-32` -/
abbrev Failure := Fail ApiError

/-! ## Values -/

/-- A type that a method reads -/
structure Codec where
  Val : Type
  dec : Json → Option Val

/-- A type of the schema universe -/
abbrev Codec.of (s : Schema) : Codec := ⟨s.Val, s.dec .borrowed⟩

/-- `Vec<_>` of a type of the schema universe -/
abbrev Codec.many (s : Schema) : Codec := .of (.seq .any s)

/-- An enum over forks -/
abbrev Codec.forks (E : ForkEnum) : Codec := ⟨Versioned E.schema, Versioned.dec E.order E.schema⟩

/-- The field of a struct that has only one -/
abbrev Codec.only (name : String) (s : Schema) : Codec :=
  ⟨s.Val, fun j => ((Schema.record (Fields.of [(name, s)])).dec .borrowed j).map (·.1)⟩

/-- `HashMap<String, String>`, as the map from names to texts -/
def Codec.texts : Codec where
  Val := String → Option (List Char)
  dec
    | .obj ms =>
      if ms.all fun m => (text? m.2).isSome then some fun name => (lookup name ms).bind text?
      else none
    | _ => none

/-- `CoordinateWithMetadata`, `types.rs:23-29`: both fields are flattened, and the second takes the members
that the first leaves. -/
def Codec.head (K : Consts) : Codec where
  Val := (api.Coordinate K).Val × (String → Option Json)
  dec
    | .obj ms => ((api.Coordinate K).dec .borrowed (.obj ms)).map fun c =>
      (c, fun name => if name = "slot" ∨ name = "root" then none else lookup name ms)
    | _ => none

/-- `Vec<_>` of any type -/
def Codec.vec (c : Codec) : Codec where
  Val := List c.Val
  dec
    | .arr xs => xs.mapM c.dec
    | _ => none

/-- The types with values of the `multihash`, `multiaddr` and `enr` libraries. They are parameters of the
model. -/
structure Foreign where
  /-- `NetworkIdentity`, `types.rs:325-332` -/
  identity : Codec
  /-- `PeerDescription`, `types.rs:378-386` -/
  peer : Codec

/-- `Value<T>`, `types.rs:502-508`, read into its data and the other members. A struct with a flattened
field is read from objects only. -/
def value (c : Codec) : Json → Option (c.Val × (String → Option Json))
  | .obj ms => do
    let data ← (lookup "data" ms).bind c.dec
    some (data, fun name => if name = "data" then none else lookup name ms)
  | _ => none

/-- `VersionedValue<T>`, `types.rs:510-518`; no method looks at the other members. -/
def versioned_value (c : Codec) : Json → Option (api.Fork.Val × c.Val)
  | .obj ms => do
    let version ← (lookup "version" ms).bind (api.Fork.dec .borrowed)
    let data ← (lookup "data" ms).bind c.dec
    some (version, data)
  | _ => none

/-! ## Answers -/

/-- `Response::json` of `reqwest`, with the conversion of its error by `?` -/
def Response.json {α : Type} (r : Response) (dec : Json → Option α) : Except Failure α :=
  match r.body.bind dec with
  | some v => .ok v
  | none => .error .Http

/-- `ApiResult<T>`, `types.rs:520-526`, untagged: a value if it reads as one, otherwise an error -/
def api_result {α : Type} (dec : Json → Option α) (j : Json) : Option (α ⊕ ApiError) :=
  (dec j).map .inl <|> (ApiError.dec j).map .inr

/-- The end of `Client::get`, `api_client.rs:98-102`, and of the methods that send their own requests,
for example `api_client.rs:176-180`. The status is not looked at. -/
def get {α : Type} (dec : Json → Option α) (r : Response) : Except Failure α := do
  match ← r.json (api_result dec) with
  | .inl v => .ok v
  | .inr e => .error (.Api e)

/-- `api_error_or_ok`, `api_client.rs:33-41` -/
def api_error_or_ok (r : Response) : Except Failure Unit :=
  if r.status = 200 ∨ r.status = 202 then .ok ()
  else do
    let e ← r.json ApiError.dec
    .error (.Api e)

/-- `api_error_or_value`, `api_client.rs:43-57` -/
def api_error_or_value {α : Type} (dec : Json → Option α) (r : Response) : Except Failure α :=
  if r.status = 200 ∨ r.status = 202 then r.json dec
  else do
    let e ← r.json ApiError.dec
    .error (.Api e)

/-- The dependent root among the other members, `api_client.rs:692-697` and `api_client.rs:706-710`:
`serde_json::from_value` of the member `dependent_root` -/
def dependent_root {α : Type} (x : α × (String → Option Json)) :
    Except Failure ((Schema.bytes 32).Val × α) :=
  match x.2 "dependent_root" with
  | none => .error .MissingExpectedData
  | some j =>
    match (Schema.bytes 32).dec .owned j with
    | none => .error .Json
    | some root => .ok (root, x.1)

/-- `HealthStatus`, `types.rs:408-414` -/
inductive HealthStatus
  | Ready
  | Syncing
  | NotInitialized
  | Unknown
  deriving DecidableEq, Repr

/-- `Client::get_health`, `api_client.rs:673-679` -/
def health (r : Response) : HealthStatus :=
  if r.status = 200 then .Ready
  else if r.status = 206 then .Syncing
  else if r.status = 503 then .NotInitialized
  else .Unknown

/-- What a method makes of an answer -/
inductive Want
  /-- nothing, by `api_error_or_ok` -/
  | done
  /-- the data of a `Value`, by `get` -/
  | data (c : Codec)
  /-- the data of a `VersionedValue`, by `get` -/
  | versioned (c : Codec)
  /-- the data of a `Value`, by `api_error_or_value` -/
  | checked (c : Codec)
  /-- the dependent root and the data of a `Value`, by `get` -/
  | rooted (c : Codec)
  /-- the dependent root and the data of a `Value`, by `api_error_or_value` -/
  | checkedRooted (c : Codec)
  | health
  /-- a stream of events, which is not modelled -/
  | stream

/-- What a method returns -/
@[reducible] def Want.Val : Want → Type
  | .done | .stream => Unit
  | .data c | .versioned c | .checked c => c.Val
  | .rooted c | .checkedRooted c => (Schema.bytes 32).Val × c.Val
  | .health => HealthStatus

/-- How a method reads an answer -/
def Want.read : (w : Want) → Response → Except Failure w.Val
  | .done, r => api_error_or_ok r
  | .data c, r => (get (value c) r).map (·.1)
  | .versioned c, r => (get (versioned_value c) r).map (·.2)
  | .checked c, r => (api_error_or_value (value c) r).map (·.1)
  | .rooted c, r => do dependent_root (← get (value c) r)
  | .checkedRooted c, r => do dependent_root (← api_error_or_value (value c) r)
  | .health, r => .ok (Client.health r)
  | .stream, _ => .ok ()

/-- The result of each method -/
def Call.want (K : Consts) (F : Foreign) : Call → Want
  -- `api_client.rs:131-134`
  | .get_genesis_details => .data (.of (api.GenesisDetails K))
  -- `api_client.rs:136-140`; `RootData`, `types.rs:108-111`
  | .get_state_root _ => .data (.only "root" (.bytes 32))
  -- `api_client.rs:142-146`
  | .get_fork _ => .data (.of (phase0.Fork K))
  -- `api_client.rs:148-155`
  | .get_finality_checkpoints _ => .data (.of (api.FinalityCheckpoints K))
  -- `api_client.rs:157-181`
  | .get_validators _ _ _ => .data (.many (api.ValidatorSummary K))
  -- `api_client.rs:183-191`
  | .get_validator _ _ => .data (.of (api.ValidatorSummary K))
  -- `api_client.rs:193-213`
  | .get_balances _ _ => .data (.many (api.BalanceSummary K))
  -- `api_client.rs:215-242`
  | .get_all_committees _ | .get_committees _ _ => .data (.many (api.CommitteeSummary K))
  -- `api_client.rs:244-261`
  | .get_sync_committees _ _ => .data (.of (api.SyncCommitteeSummary K))
  -- `api_client.rs:263-277`
  | .get_randao _ _ => .data (.of (.bytes 32))
  -- `api_client.rs:279-318`
  | .get_beacon_header_at_head | .get_beacon_header_for_slot _
  | .get_beacon_header_for_parent_root _ | .get_beacon_header _ =>
    .data (.of (api.BeaconHeaderSummary K))
  -- `api_client.rs:320-372`
  | .post_signed_blinded_beacon_block _ | .post_signed_blinded_beacon_block_v2 _ _ _
  | .post_signed_beacon_block _ | .post_signed_beacon_block_v2 _ _ _ _ _ => .done
  -- `api_client.rs:375-379`
  | .get_beacon_block _ => .versioned (.forks (Json.SignedBeaconBlock K))
  -- `api_client.rs:381-384`; `RootData`, `types.rs:108-111`
  | .get_beacon_block_root _ => .data (.only "root" (.bytes 32))
  -- `api_client.rs:386-393`
  | .get_attestations_from_beacon_block _ => .data (.many (phase0.Attestation K))
  -- `api_client.rs:395-412`
  | .get_blob_sidecars _ _ => .data (.many (deneb.BlobSidecar K))
  -- `api_client.rs:414-417`
  | .get_deposit_snapshot => .data (.of (api.DepositSnapshot K))
  -- `api_client.rs:419-426`
  | .get_blinded_block _ => .versioned (.forks (Json.SignedBlindedBeaconBlock K))
  -- `api_client.rs:428-435`
  | .get_light_client_bootstrap _ => .data (.of (altair.LightClientBootstrap K))
  -- `api_client.rs:437-452`
  | .get_light_client_updates _ _ => .data (.many (altair.LightClientUpdate K))
  -- `api_client.rs:454-459`
  | .get_light_client_finality_update => .data (.of (altair.LightClientFinalityUpdate K))
  -- `api_client.rs:461-466`
  | .get_light_client_optimistic_update => .data (.of (altair.LightClientOptimisticUpdate K))
  -- `api_client.rs:468-488`
  | .get_attestations_from_pool _ _ => .data (.many (phase0.Attestation K))
  -- `api_client.rs:490-492`
  | .post_attestations _ => .done
  -- `api_client.rs:494-500`
  | .get_attester_slashings_from_pool => .data (.many (phase0.AttesterSlashing K))
  -- `api_client.rs:502-507`
  | .post_attester_slashing _ => .done
  -- `api_client.rs:509-513`
  | .get_proposer_slashings_from_pool => .data (.many (phase0.ProposerSlashing K))
  -- `api_client.rs:515-527`
  | .post_proposer_slashing _ | .post_sync_committee_messages _ => .done
  -- `api_client.rs:529-533`
  | .get_voluntary_exits_from_pool => .data (.many (phase0.SignedVoluntaryExit K))
  -- `api_client.rs:535-540`
  | .post_signed_voluntary_exit _ => .done
  -- `api_client.rs:542-548`
  | .get_bls_to_execution_changes => .data (.many (capella.SignedBlsToExecutionChange K))
  -- `api_client.rs:550-555`
  | .post_bls_to_execution_changes _ => .done
  -- `api_client.rs:558-576`
  | .get_expected_withdrawals _ _ => .data (.many (capella.Withdrawal K))
  -- `api_client.rs:579-582`
  | .get_fork_schedule => .data (.many (phase0.Fork K))
  -- `api_client.rs:584-587`
  | .get_spec => .data .texts
  -- `api_client.rs:589-592`
  | .get_deposit_contract_address => .data (.of (api.DepositContract K))
  -- `api_client.rs:596-600`
  | .get_state _ => .versioned (.forks (Json.BeaconState K))
  -- `api_client.rs:603-607`
  | .get_heads => .data (.vec (.head K))
  -- `api_client.rs:610-617`
  | .get_events => .stream
  -- `api_client.rs:620-623`
  | .get_node_identity => .data F.identity
  -- `api_client.rs:625-645`
  | .get_node_peers _ _ => .data (.vec F.peer)
  -- `api_client.rs:647-651`
  | .get_peer _ => .data F.peer
  -- `api_client.rs:653-656`
  | .get_peer_summary => .data (.of (api.PeerSummary K))
  -- `api_client.rs:658-661`; `VersionData`, `types.rs:18-21`
  | .get_node_version => .data (.only "version" .text)
  -- `api_client.rs:663-666`
  | .get_sync_status => .data (.of (api.SyncStatus K))
  -- `api_client.rs:668-680`
  | .get_health => .health
  -- `api_client.rs:683-698`
  | .get_attester_duties _ _ => .checkedRooted (.many (api.AttestationDuty K))
  -- `api_client.rs:700-711`
  | .get_proposer_duties _ => .rooted (.many (api.ProposerDuty K))
  -- `api_client.rs:713-723`
  | .get_sync_committee_duties _ _ => .checked (.many (api.SyncCommitteeDuty K))
  -- `api_client.rs:726-745`
  | .get_block_proposal _ _ _ => .versioned (.forks (Json.BeaconBlock K))
  -- `api_client.rs:747-766`
  | .get_blinded_block_proposal _ _ _ => .versioned (.forks (Json.BlindedBeaconBlock K))
  -- `api_client.rs:768-783`
  | .get_attestation_data _ _ => .data (.of (phase0.AttestationData K))
  -- `api_client.rs:785-800`
  | .get_attestation_aggregate _ _ => .data (.of (phase0.Attestation K))
  -- `api_client.rs:802-821`
  | .post_aggregates_with_proofs _ | .subscribe_subnets_for_attestation_committees _
  | .subscribe_subnets_for_sync_committees _ => .done
  -- `api_client.rs:823-840`
  | .get_sync_committee_contribution _ _ _ => .data (.of (altair.SyncCommitteeContribution K))
  -- `api_client.rs:842-862`
  | .post_sync_committee_contributions_with_proofs _ | .prepare_proposers _
  | .register_validators_with_builders _ => .done
  -- `api_client.rs:864-877`
  | .post_liveness _ _ => .data (.many (api.ValidatorLiveness K))

/-- What a method returns for an answer to its request -/
def Call.read (K : Consts) (F : Foreign) (c : Call) (r : Response) :
    Except Failure (c.want K F).Val :=
  (c.want K F).read r

end Verif.Client
