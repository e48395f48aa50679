import Verif.Model.Api

/-! # The beacon API, as a server sees it

The operations of the standard (https://github.com/ethereum/beacon-APIs) that the client calls, under
their names there, and how a server finds the operation and its arguments in a request. -/

namespace Verif.Spec.Beacon

open Client Json Text Net

/-! ## Arguments -/

/-- The kinds of parameters -/
inductive Kind
  | stateId
  | blockId
  | validatorId
  | validatorStatus
  | uint64
  | hex (size : Nat)
  | broadcastValidation
  | peerState
  | peerDirection
  | topic
  | peerId
  deriving DecidableEq

/-- The values of parameters -/
inductive Arg
  | stateId (x : StateId)
  | blockId (x : BlockId)
  | validatorId (x : PublicKeyOrIndex)
  | validatorStatus (x : ValidatorStatus)
  | uint64 (x : Nat)
  | hex (x : List UInt8)
  | broadcastValidation (x : BroadcastValidation)
  | peerState (x : PeerState)
  | peerDirection (x : ConnectionOrientation)
  | topic (x : List Char)
  | peerId (x : PeerId)
  deriving DecidableEq

/-- One of a list of names -/
def oneOf {α : Type} (names : List (String × α)) (s : List Char) : Option α :=
  (names.find? fun p => p.1.toList == s).map (·.2)

/-- `0x` and two digits for each of `size` bytes -/
def readHex (size : Nat) : List Char → Option (List UInt8)
  | '0' :: 'x' :: digits => (hexDecode digits).filter (·.length == size)
  | _ => none

/-- The value of a parameter, from its text. Decimal numbers and hexadecimal digits are those of
C40. -/
def Kind.read : Kind → List Char → Option Arg
  | .stateId, s => ((oneOf [("head", StateId.Head), ("genesis", .Genesis),
        ("finalized", .Finalized), ("justified", .Justified)] s) <|>
      (readHex 32 s).map StateId.Root <|> (parseU64 s).map StateId.Slot).map .stateId
  | .blockId, s => ((oneOf [("head", BlockId.Head), ("genesis", .Genesis),
        ("finalized", .Finalized)] s) <|>
      (readHex 32 s).map BlockId.Root <|> (parseU64 s).map BlockId.Slot).map .blockId
  | .validatorId, s =>
    ((readHex 48 s).map PublicKeyOrIndex.PublicKey <|> (parseU64 s).map PublicKeyOrIndex.Index).map
      .validatorId
  | .validatorStatus, s => (oneOf [
      ("pending_initialized", ValidatorStatus.PendingInitialized),
      ("pending_queued", .PendingQueued), ("active_ongoing", .ActiveOngoing),
      ("active_exiting", .ActiveExiting), ("active_slashed", .ActiveSlashed),
      ("exited_unslashed", .ExitedUnslashed), ("exited_slashed", .ExitedSlashed),
      ("withdrawal_possible", .WithdrawalPossible), ("withdrawal_done", .WithdrawalDone),
      ("active", .Active), ("pending", .Pending), ("exited", .Exited),
      ("withdrawal", .Withdrawal)] s).map .validatorStatus
  | .uint64, s => (parseU64 s).map .uint64
  | .hex size, s => (readHex size s).map .hex
  | .broadcastValidation, s => (oneOf [("gossip", BroadcastValidation.Gossip),
      ("consensus", .Consensus), ("consensus_and_equivocation", .ConsensusAndEquivocation)] s).map
      .broadcastValidation
  | .peerState, s => (oneOf [("disconnected", PeerState.Disconnected), ("connecting", .Connecting),
      ("connected", .Connected), ("disconnecting", .Disconnecting)] s).map .peerState
  | .peerDirection, s => (oneOf [("inbound", ConnectionOrientation.Inbound),
      ("outbound", .Outbound)] s).map .peerDirection
  | .topic, s => (oneOf [("head", ()), ("block", ()), ("attestation", ()), ("voluntary_exit", ()),
      ("bls_to_execution_change", ()), ("finalized_checkpoint", ()), ("chain_reorg", ()),
      ("contribution_and_proof", ()), ("light_client_finality_update", ()),
      ("light_client_optimistic_update", ()), ("payload_attributes", ())] s).map fun _ => .topic s
  | .peerId, s => (PeerId.from_str s).map .peerId

/-! ## Operations -/

/-- How often a parameter of a query is given -/
inductive Mode
  | required
  | optional
  /-- any number of values, separated by commas -/
  | list
  deriving DecidableEq

/-- What an operation takes as its body -/
inductive BodyKind
  | nothing
  | json
  /-- indices of validators: an array of decimal numbers in strings -/
  | indices
  deriving DecidableEq

/-- An operation of the standard -/
structure Route where
  name : String
  method : Method
  /-- the path, with its parameters in braces -/
  path : String
  /-- the kinds of the parameters of the path -/
  params : List Kind := []
  /-- the parameters of the query -/
  query : List (String × Kind × Mode) := []
  /-- whether the header `Eth-Consensus-Version` is given -/
  versioned : Bool := false
  body : BodyKind := .nothing
  deriving DecidableEq

/-- The operations that the client calls -/
def routes : List Route := [
  { name := "getGenesis", method := .GET, path := "eth/v1/beacon/genesis" },
  { name := "getStateRoot", method := .GET,
    path := "eth/v1/beacon/states/{state_id}/root", params := [.stateId] },
  { name := "getStateFork", method := .GET,
    path := "eth/v1/beacon/states/{state_id}/fork", params := [.stateId] },
  { name := "getStateFinalityCheckpoints", method := .GET,
    path := "eth/v1/beacon/states/{state_id}/finality_checkpoints", params := [.stateId] },
  { name := "getStateValidators", method := .GET,
    path := "eth/v1/beacon/states/{state_id}/validators", params := [.stateId],
    query := [("id", .validatorId, .list), ("status", .validatorStatus, .list)] },
  { name := "getStateValidator", method := .GET,
    path := "eth/v1/beacon/states/{state_id}/validators/{validator_id}",
    params := [.stateId, .validatorId] },
  { name := "getStateValidatorBalances", method := .GET,
    path := "eth/v1/beacon/states/{state_id}/validator_balances", params := [.stateId],
    query := [("id", .validatorId, .list)] },
  { name := "getEpochCommittees", method := .GET,
    path := "eth/v1/beacon/states/{state_id}/committees", params := [.stateId],
    query := [("epoch", .uint64, .optional), ("index", .uint64, .optional),
      ("slot", .uint64, .optional)] },
  { name := "getEpochSyncCommittees", method := .GET,
    path := "eth/v1/beacon/states/{state_id}/sync_committees", params := [.stateId],
    query := [("epoch", .uint64, .optional)] },
  { name := "getStateRandao", method := .GET,
    path := "eth/v1/beacon/states/{state_id}/randao", params := [.stateId],
    query := [("epoch", .uint64, .optional)] },
  { name := "getBlockHeaders", method := .GET, path := "eth/v1/beacon/headers",
    query := [("slot", .uint64, .optional), ("parent_root", .hex 32, .optional)] },
  { name := "getBlockHeader", method := .GET,
    path := "eth/v1/beacon/headers/{block_id}", params := [.blockId] },
  { name := "publishBlindedBlock", method := .POST,
    path := "eth/v1/beacon/blinded_blocks", body := .json },
  { name := "publishBlindedBlockV2", method := .POST, path := "eth/v2/beacon/blinded_blocks",
    query := [("broadcast_validation", .broadcastValidation, .optional)], versioned := true,
    body := .json },
  { name := "publishBlock", method := .POST, path := "eth/v1/beacon/blocks", body := .json },
  { name := "publishBlockV2", method := .POST, path := "eth/v2/beacon/blocks",
    query := [("broadcast_validation", .broadcastValidation, .optional)], versioned := true,
    body := .json },
  { name := "getBlockV2", method := .GET,
    path := "eth/v2/beacon/blocks/{block_id}", params := [.blockId] },
  { name := "getBlockRoot", method := .GET,
    path := "eth/v1/beacon/blocks/{block_id}/root", params := [.blockId] },
  { name := "getBlockAttestations", method := .GET,
    path := "eth/v1/beacon/blocks/{block_id}/attestations", params := [.blockId] },
  { name := "getBlobSidecars", method := .GET,
    path := "eth/v1/beacon/blob_sidecars/{block_id}", params := [.blockId],
    query := [("indices", .uint64, .list)] },
  { name := "getDepositSnapshot", method := .GET, path := "eth/v1/beacon/deposit_snapshot" },
  { name := "getBlindedBlock", method := .GET,
    path := "eth/v1/beacon/blinded_blocks/{block_id}", params := [.blockId] },
  { name := "getLightClientBootstrap", method := .GET,
    path := "eth/v1/beacon/light_client/bootstrap/{block_root}", params := [.hex 32] },
  { name := "getLightClientUpdatesByRange", method := .GET,
    path := "eth/v1/beacon/light_client/updates",
    query := [("start_period", .uint64, .required), ("count", .uint64, .required)] },
  { name := "getLightClientFinalityUpdate", method := .GET,
    path := "eth/v1/beacon/light_client/finality_update" },
  { name := "getLightClientOptimisticUpdate", method := .GET,
    path := "eth/v1/beacon/light_client/optimistic_update" },
  { name := "getPoolAttestations", method := .GET, path := "eth/v1/beacon/pool/attestations",
    query := [("slot", .uint64, .optional), ("committee_index", .uint64, .optional)] },
  { name := "submitPoolAttestations", method := .POST,
    path := "eth/v1/beacon/pool/attestations", body := .json },
  { name := "getPoolAttesterSlashings", method := .GET,
    path := "eth/v1/beacon/pool/attester_slashings" },
  { name := "submitPoolAttesterSlashings", method := .POST,
    path := "eth/v1/beacon/pool/attester_slashings", body := .json },
  { name := "getPoolProposerSlashings", method := .GET,
    path := "eth/v1/beacon/pool/proposer_slashings" },
  { name := "submitPoolProposerSlashings", method := .POST,
    path := "eth/v1/beacon/pool/proposer_slashings", body := .json },
  { name := "submitPoolSyncCommitteeSignatures", method := .POST,
    path := "eth/v1/beacon/pool/sync_committees", body := .json },
  { name := "getPoolVoluntaryExits", method := .GET,
    path := "eth/v1/beacon/pool/voluntary_exits" },
  { name := "submitPoolVoluntaryExit", method := .POST,
    path := "eth/v1/beacon/pool/voluntary_exits", body := .json },
  { name := "getPoolBLSToExecutionChanges", method := .GET,
    path := "eth/v1/beacon/pool/bls_to_execution_changes" },
  { name := "submitPoolBLSToExecutionChange", method := .POST,
    path := "eth/v1/beacon/pool/bls_to_execution_changes", body := .json },
  { name := "getNextWithdrawals", method := .GET,
    path := "eth/v1/builder/states/{state_id}/expected_withdrawals", params := [.stateId],
    query := [("proposal_slot", .uint64, .optional)] },
  { name := "getForkSchedule", method := .GET, path := "eth/v1/config/fork_schedule" },
  { name := "getSpec", method := .GET, path := "eth/v1/config/spec" },
  { name := "getDepositContract", method := .GET, path := "eth/v1/config/deposit_contract" },
  { name := "getStateV2", method := .GET,
    path := "eth/v2/debug/beacon/states/{state_id}", params := [.stateId] },
  { name := "getDebugChainHeadsV2", method := .GET, path := "eth/v2/debug/beacon/heads" },
  { name := "eventstream", method := .GET, path := "eth/v1/events",
    query := [("topics", .topic, .list)] },
  { name := "getNetworkIdentity", method := .GET, path := "eth/v1/node/identity" },
  { name := "getPeers", method := .GET, path := "eth/v1/node/peers",
    query := [("state", .peerState, .list), ("direction", .peerDirection, .list)] },
  { name := "getPeer", method := .GET,
    path := "eth/v1/node/peers/{peer_id}", params := [.peerId] },
  { name := "getPeerCount", method := .GET, path := "eth/v1/node/peer_count" },
  { name := "getNodeVersion", method := .GET, path := "eth/v1/node/version" },
  { name := "getSyncingStatus", method := .GET, path := "eth/v1/node/syncing" },
  { name := "getHealth", method := .GET, path := "eth/v1/node/health" },
  { name := "getAttesterDuties", method := .POST,
    path := "eth/v1/validator/duties/attester/{epoch}", params := [.uint64], body := .indices },
  { name := "getProposerDuties", method := .GET,
    path := "eth/v1/validator/duties/proposer/{epoch}", params := [.uint64] },
  { name := "getSyncCommitteeDuties", method := .POST,
    path := "eth/v1/validator/duties/sync/{epoch}", params := [.uint64], body := .indices },
  { name := "produceBlockV2", method := .GET,
    path := "eth/v2/validator/blocks/{slot}", params := [.uint64],
    query := [("randao_reveal", .hex 96, .required), ("graffiti", .hex 32, .optional)] },
  { name := "produceBlindedBlock", method := .GET,
    path := "eth/v1/validator/blinded_blocks/{slot}", params := [.uint64],
    query := [("randao_reveal", .hex 96, .required), ("graffiti", .hex 32, .optional)] },
  { name := "produceAttestationData", method := .GET, path := "eth/v1/validator/attestation_data",
    query := [("slot", .uint64, .required), ("committee_index", .uint64, .required)] },
  { name := "getAggregatedAttestation", method := .GET,
    path := "eth/v1/validator/aggregate_attestation",
    query := [("attestation_data_root", .hex 32, .required), ("slot", .uint64, .required)] },
  { name := "publishAggregateAndProofs", method := .POST,
    path := "eth/v1/validator/aggregate_and_proofs", body := .json },
  { name := "prepareBeaconCommitteeSubnet", method := .POST,
    path := "eth/v1/validator/beacon_committee_subscriptions", body := .json },
  { name := "prepareSyncCommitteeSubnets", method := .POST,
    path := "eth/v1/validator/sync_committee_subscriptions", body := .json },
  { name := "produceSyncCommitteeContribution", method := .GET,
    path := "eth/v1/validator/sync_committee_contribution",
    query := [("slot", .uint64, .required), ("subcommittee_index", .uint64, .required),
      ("beacon_block_root", .hex 32, .required)] },
  { name := "publishContributionAndProofs", method := .POST,
    path := "eth/v1/validator/contribution_and_proofs", body := .json },
  { name := "prepareBeaconProposer", method := .POST,
    path := "eth/v1/validator/prepare_beacon_proposer", body := .json },
  { name := "registerValidator", method := .POST,
    path := "eth/v1/validator/register_validator", body := .json },
  { name := "getLiveness", method := .POST,
    path := "eth/v1/validator/liveness/{epoch}", params := [.uint64], body := .indices }]

/-- The body of a request -/
inductive Body
  | nothing
  | json (j : Json)
  | indices (is : List Nat)

/-- An operation with its arguments: those of the path in their order, those of the query as they
were given -/
structure Operation where
  name : String
  path : List Arg := []
  query : List (String × List Arg) := []
  version : Option Fork := none
  body : Body := .nothing

/-! ## Serving a request -/

/-- The parts of a text between the occurrences of a character -/
def split (c : Char) : List Char → List (List Char)
  | [] => [[]]
  | x :: xs =>
    if x = c then [] :: split c xs
    else match split c xs with
      | [] => [[x]]
      | part :: parts => (x :: part) :: parts

/-- The text before the first occurrence of a character, and the text after it -/
def cut (c : Char) : List Char → List Char × Option (List Char)
  | [] => ([], none)
  | x :: xs => if x = c then ([], some xs) else ((x :: (cut c xs).1), (cut c xs).2)

/-- The text after a prefix -/
def after : List Char → List Char → Option (List Char)
  | [], s => some s
  | p :: ps, x :: xs => if p = x then after ps xs else none
  | _ :: _, [] => none

/-- The text that was encoded for a query -/
def formDecode : List Char → Option (List Char)
  | [] => some []
  | '+' :: rest => (formDecode rest).map (' ' :: ·)
  | '%' :: a :: b :: rest => do
    let x ← hexValue a
    let y ← hexValue b
    (formDecode rest).map (Char.ofNat (16 * x + y) :: ·)
  | c :: rest => if c = '%' then none else (formDecode rest).map (c :: ·)

/-- One parameter of a query: its name and its value -/
def readPair (s : List Char) : Option (List Char × List Char) := do
  let (name, value) := cut '=' s
  let name ← formDecode name
  let value ← formDecode (← value)
  some (name, value)

/-- The path of a URL below the base, and the parameters of its query -/
def readTarget (s : List Char) : Option (List Char × List (List Char × List Char)) :=
  match cut '?' s with
  | (path, none) => some (path, [])
  | (path, some query) => do
    let pairs ← (split '&' query).mapM readPair
    some (path, pairs)

/-- A part of the path of an operation: itself, or any text -/
inductive Seg
  | lit (s : List Char)
  | par
  deriving DecidableEq

/-- The parts of the path of an operation -/
def Route.segs (r : Route) : List Seg :=
  (split '/' r.path.toList).map fun s => if s.head? = some '{' then .par else .lit s

/-- The texts that stand for the parameters of the path -/
def matchPath : List Seg → List (List Char) → Option (List (List Char))
  | [], [] => some []
  | .lit a :: segs, s :: parts => if s = a then matchPath segs parts else none
  | .par :: segs, s :: parts => (matchPath segs parts).map (s :: ·)
  | _, _ => none

/-- The parameters of the path -/
def readParams : List Kind → List (List Char) → Option (List Arg)
  | [], [] => some []
  | k :: ks, s :: ss => do
    let a ← k.read s
    let as ← readParams ks ss
    some (a :: as)
  | _, _ => none

/-- One parameter of the query: it has to be a parameter of the operation. -/
def readParam (query : List (String × Kind × Mode)) (pair : List Char × List Char) :
    Option (String × List Arg) := do
  let (name, kind, mode) ← query.find? fun p => p.1.toList == pair.1
  let args ← (if mode = .list then split ',' pair.2 else [pair.2]).mapM kind.read
  some (name, args)

/-- The parameters of the query: none is given twice, and none is missing. -/
def readQuery (query : List (String × Kind × Mode)) (pairs : List (List Char × List Char)) :
    Option (List (String × List Arg)) := do
  let args ← pairs.mapM (readParam query)
  if (args.map (·.1)).Nodup ∧
      ∀ p ∈ query, p.2.2 = .required → p.1 ∈ args.map (·.1) then some args
  else none

/-- The version named by the header -/
def readVersion : Option (List Char) → Option (Option Fork)
  | none => some none
  | some s => (oneOf [("phase0", Fork.Phase0), ("altair", .Altair), ("bellatrix", .Bellatrix),
      ("capella", .Capella), ("deneb", .Deneb), ("electra", .Electra)] s).map some

/-- The body -/
def readBody : BodyKind → Option Json → Option Body
  | .nothing, none => some .nothing
  | .json, some j => some (.json j)
  | .indices, some (.arr xs) => do
    let is ← xs.mapM fun
      | .str s => parseU64 s
      | _ => none
    some (.indices is)
  | _, _ => none

/-- The operation that a request asks for, if it is this one -/
def Route.read (route : Route) (r : Request) (path : List Char)
    (pairs : List (List Char × List Char)) : Option Operation := do
  if route.method ≠ r.method then none
  let texts ← matchPath route.segs (split '/' path)
  let path ← readParams route.params texts
  let query ← readQuery route.query pairs
  let version ← readVersion r.version
  if version.isSome ≠ route.versioned then none
  let body ← readBody route.body r.body
  some { name := route.name, path, query, version, body }

/-- The operation that a request asks for of a server whose API begins at `base` -/
def serve (base : List Char) (r : Request) : Option Operation := do
  let target ← after base r.url
  let (path, pairs) ← readTarget target
  routes.findSome? fun route => route.read r path pairs

/-! ## What the methods of the client are for -/

/-- A parameter of a query that may be left out -/
def opt (name : String) (arg : Option Arg) : List (String × List Arg) :=
  match arg with
  | none => []
  | some a => [(name, [a])]

/-- A list of values, left out when it is empty -/
def many (name : String) (args : List Arg) : List (String × List Arg) :=
  if args.isEmpty then [] else [(name, args)]

/-- The operation that each method of the client stands for -/
def meaning : Call → Operation
  | .get_genesis_details => { name := "getGenesis" }
  | .get_state_root id => { name := "getStateRoot", path := [.stateId id] }
  | .get_fork id => { name := "getStateFork", path := [.stateId id] }
  | .get_finality_checkpoints id => { name := "getStateFinalityCheckpoints", path := [.stateId id] }
  | .get_validators id validator_ids filters =>
    { name := "getStateValidators", path := [.stateId id],
      query := many "id" (validator_ids.map .validatorId) ++
        many "status" (filters.map .validatorStatus) }
  | .get_validator id validator_id =>
    { name := "getStateValidator", path := [.stateId id, .validatorId validator_id] }
  | .get_balances id filters =>
    { name := "getStateValidatorBalances", path := [.stateId id],
      query := many "id" (filters.map .validatorId) }
  | .get_all_committees id => { name := "getEpochCommittees", path := [.stateId id] }
  | .get_committees id filter =>
    { name := "getEpochCommittees", path := [.stateId id],
      query := opt "epoch" (filter.epoch.map .uint64) ++ opt "index" (filter.index.map .uint64) ++
        opt "slot" (filter.slot.map .uint64) }
  | .get_sync_committees id epoch =>
    { name := "getEpochSyncCommittees", path := [.stateId id],
      query := opt "epoch" (epoch.map .uint64) }
  | .get_randao id epoch =>
    { name := "getStateRandao", path := [.stateId id], query := opt "epoch" (epoch.map .uint64) }
  | .get_beacon_header_at_head => { name := "getBlockHeaders" }
  | .get_beacon_header_for_slot slot =>
    { name := "getBlockHeaders", query := [("slot", [.uint64 slot])] }
  | .get_beacon_header_for_parent_root parent_root =>
    { name := "getBlockHeaders", query := [("parent_root", [.hex parent_root])] }
  | .get_beacon_header id => { name := "getBlockHeader", path := [.blockId id] }
  | .post_signed_blinded_beacon_block block =>
    { name := "publishBlindedBlock", body := .json block }
  | .post_signed_blinded_beacon_block_v2 block version validation =>
    { name := "publishBlindedBlockV2", body := .json block, version := some version,
      query := opt "broadcast_validation" (validation.map .broadcastValidation) }
  | .post_signed_beacon_block block => { name := "publishBlock", body := .json block }
  | .post_signed_beacon_block_v2 signed_block kzg_proofs blobs version validation =>
    { name := "publishBlockV2", version := some version,
      body := .json (.obj [("signed_block", signed_block), ("kzg_proofs", .arr (kzg_proofs.getD [])),
        ("blobs", .arr (blobs.getD []))]),
      query := opt "broadcast_validation" (validation.map .broadcastValidation) }
  | .get_beacon_block id => { name := "getBlockV2", path := [.blockId id] }
  | .get_beacon_block_root id => { name := "getBlockRoot", path := [.blockId id] }
  | .get_attestations_from_beacon_block id =>
    { name := "getBlockAttestations", path := [.blockId id] }
  | .get_blob_sidecars id indices =>
    { name := "getBlobSidecars", path := [.blockId id],
      query := many "indices" (indices.map .uint64) }
  | .get_deposit_snapshot => { name := "getDepositSnapshot" }
  | .get_blinded_block id => { name := "getBlindedBlock", path := [.blockId id] }
  | .get_light_client_bootstrap block =>
    { name := "getLightClientBootstrap", path := [.hex block] }
  | .get_light_client_updates start count =>
    { name := "getLightClientUpdatesByRange",
      query := [("start_period", [.uint64 start]), ("count", [.uint64 count])] }
  | .get_light_client_finality_update => { name := "getLightClientFinalityUpdate" }
  | .get_light_client_optimistic_update => { name := "getLightClientOptimisticUpdate" }
  | .get_attestations_from_pool slot committee_index =>
    { name := "getPoolAttestations",
      query := opt "slot" (slot.map .uint64) ++
        opt "committee_index" (committee_index.map .uint64) }
  | .post_attestations attestations =>
    { name := "submitPoolAttestations", body := .json (.arr attestations) }
  | .get_attester_slashings_from_pool => { name := "getPoolAttesterSlashings" }
  | .post_attester_slashing slashing =>
    { name := "submitPoolAttesterSlashings", body := .json slashing }
  | .get_proposer_slashings_from_pool => { name := "getPoolProposerSlashings" }
  | .post_proposer_slashing slashing =>
    { name := "submitPoolProposerSlashings", body := .json slashing }
  | .post_sync_committee_messages messages =>
    { name := "submitPoolSyncCommitteeSignatures", body := .json (.arr messages) }
  | .get_voluntary_exits_from_pool => { name := "getPoolVoluntaryExits" }
  | .post_signed_voluntary_exit exit => { name := "submitPoolVoluntaryExit", body := .json exit }
  | .get_bls_to_execution_changes => { name := "getPoolBLSToExecutionChanges" }
  | .post_bls_to_execution_changes changes =>
    { name := "submitPoolBLSToExecutionChange", body := .json (.arr changes) }
  | .get_expected_withdrawals id slot =>
    { name := "getNextWithdrawals", path := [.stateId id],
      query := opt "proposal_slot" (slot.map .uint64) }
  | .get_fork_schedule => { name := "getForkSchedule" }
  | .get_spec => { name := "getSpec" }
  | .get_deposit_contract_address => { name := "getDepositContract" }
  | .get_state id => { name := "getStateV2", path := [.stateId id] }
  | .get_heads => { name := "getDebugChainHeadsV2" }
  | .get_events =>
    { name := "eventstream", query := [("topics", [.topic "payload_attributes".toList])] }
  | .get_node_identity => { name := "getNetworkIdentity" }
  | .get_node_peers states orientations =>
    { name := "getPeers",
      query := many "state" (states.map .peerState) ++
        many "direction" (orientations.map .peerDirection) }
  | .get_peer peer_id => { name := "getPeer", path := [.peerId peer_id] }
  | .get_peer_summary => { name := "getPeerCount" }
  | .get_node_version => { name := "getNodeVersion" }
  | .get_sync_status => { name := "getSyncingStatus" }
  | .get_health => { name := "getHealth" }
  | .get_attester_duties epoch indices =>
    { name := "getAttesterDuties", path := [.uint64 epoch], body := .indices indices }
  | .get_proposer_duties epoch => { name := "getProposerDuties", path := [.uint64 epoch] }
  | .get_sync_committee_duties epoch indices =>
    { name := "getSyncCommitteeDuties", path := [.uint64 epoch], body := .indices indices }
  | .get_block_proposal slot randao_reveal graffiti =>
    { name := "produceBlockV2", path := [.uint64 slot],
      query := ("randao_reveal", [.hex randao_reveal]) :: opt "graffiti" (graffiti.map .hex) }
  | .get_blinded_block_proposal slot randao_reveal graffiti =>
    { name := "produceBlindedBlock", path := [.uint64 slot],
      query := ("randao_reveal", [.hex randao_reveal]) :: opt "graffiti" (graffiti.map .hex) }
  | .get_attestation_data slot committee_index =>
    { name := "produceAttestationData",
      query := [("slot", [.uint64 slot]), ("committee_index", [.uint64 committee_index])] }
  | .get_attestation_aggregate root slot =>
    { name := "getAggregatedAttestation",
      query := [("attestation_data_root", [.hex root]), ("slot", [.uint64 slot])] }
  | .post_aggregates_with_proofs aggregates =>
    { name := "publishAggregateAndProofs", body := .json (.arr aggregates) }
  | .subscribe_subnets_for_attestation_committees descriptors =>
    { name := "prepareBeaconCommitteeSubnet", body := .json (.arr descriptors) }
  | .subscribe_subnets_for_sync_committees descriptors =>
    { name := "prepareSyncCommitteeSubnets", body := .json (.arr descriptors) }
  | .get_sync_committee_contribution slot subcommittee_index beacon_block_root =>
    { name := "produceSyncCommitteeContribution",
      query := [("slot", [.uint64 slot]), ("subcommittee_index", [.uint64 subcommittee_index]),
        ("beacon_block_root", [.hex beacon_block_root])] }
  | .post_sync_committee_contributions_with_proofs contributions =>
    { name := "publishContributionAndProofs", body := .json (.arr contributions) }
  | .prepare_proposers registrations =>
    { name := "prepareBeaconProposer", body := .json (.arr registrations) }
  | .register_validators_with_builders registrations =>
    { name := "registerValidator", body := .json (.arr registrations) }
  | .post_liveness epoch indices =>
    { name := "getLiveness", path := [.uint64 epoch], body := .indices indices }

/-! ## What the types of the arguments hold -/

/-- A state identifier: its slot is a 64-bit integer and its root has 32 bytes. -/
def ValidState : StateId → Prop
  | .Slot slot => slot < 2 ^ 64
  | .Root root => root.length = 32
  | _ => True

/-- A block identifier -/
def ValidBlock : BlockId → Prop
  | .Slot slot => slot < 2 ^ 64
  | .Root root => root.length = 32
  | _ => True

/-- A public key or an index -/
def ValidKey : PublicKeyOrIndex → Prop
  | .PublicKey pk => pk.length = 48
  | .Index i => i < 2 ^ 64

/-- What the Rust types of the arguments of a call ensure -/
def ValidCall : Call → Prop
  | .get_state_root id | .get_fork id | .get_finality_checkpoints id | .get_all_committees id
  | .get_state id => ValidState id
  | .get_validators id ids _ | .get_balances id ids => ValidState id ∧ ∀ x ∈ ids, ValidKey x
  | .get_validator id x => ValidState id ∧ ValidKey x
  | .get_committees id filter => ValidState id ∧ (∀ n ∈ filter.epoch, n < 2 ^ 64) ∧
      (∀ n ∈ filter.index, n < 2 ^ 64) ∧ ∀ n ∈ filter.slot, n < 2 ^ 64
  | .get_sync_committees id m | .get_randao id m | .get_expected_withdrawals id m =>
    ValidState id ∧ ∀ n ∈ m, n < 2 ^ 64
  | .get_beacon_header_for_slot n | .get_proposer_duties n => n < 2 ^ 64
  | .get_beacon_header_for_parent_root root | .get_light_client_bootstrap root => root.length = 32
  | .get_beacon_header id | .get_beacon_block id | .get_beacon_block_root id
  | .get_attestations_from_beacon_block id | .get_blinded_block id => ValidBlock id
  | .get_blob_sidecars id is => ValidBlock id ∧ ∀ i ∈ is, i < 2 ^ 64
  | .get_light_client_updates a b | .get_attestation_data a b => a < 2 ^ 64 ∧ b < 2 ^ 64
  | .get_attestations_from_pool a b => (∀ n ∈ a, n < 2 ^ 64) ∧ ∀ n ∈ b, n < 2 ^ 64
  | .get_peer id => id.multihash.code < 2 ^ 64 ∧ id.multihash.digest.length ≤ 64 ∧
      PeerId.from_multihash id.multihash = some id
  | .get_attester_duties n is | .get_sync_committee_duties n is | .post_liveness n is =>
    n < 2 ^ 64 ∧ ∀ i ∈ is, i < 2 ^ 64
  | .get_block_proposal n reveal graffiti | .get_blinded_block_proposal n reveal graffiti =>
    n < 2 ^ 64 ∧ reveal.length = 96 ∧ ∀ g ∈ graffiti, g.length = 32
  | .get_attestation_aggregate root n => root.length = 32 ∧ n < 2 ^ 64
  | .get_sync_committee_contribution a b root => a < 2 ^ 64 ∧ b < 2 ^ 64 ∧ root.length = 32
  | _ => True

/-- A URL of a server: the path begins with `/`, and there is no `?` before the query. -/
def ValidEndpoint (e : Endpoint) : Prop :=
  e.path.head? = some '/' ∧ '?' ∉ e.origin ∧ '?' ∉ e.path

/-- Where the API of a server begins: at its URL up to and with the last `/` of the path -/
def base (e : Endpoint) : List Char := e.origin ++ dir e.path

end Verif.Spec.Beacon
