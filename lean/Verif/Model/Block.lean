import Verif.Model.Payload

/-! # Block processing: `*/block_processing.rs` -/

namespace Verif

/-- `phase0/block_processing.rs:522-601`, used by every fork. -/
def process_block_header (E : Env) (f : Fork) (b : BeaconBlock) : M Unit := do
  let s ← get
  rejectIf (b.slot ≠ s.slot) .headerStateSlotMismatch
  rejectIf (b.slot ≤ s.latest_block_header.slot) .headerOlderThanLatestBlockHeader
  let proposer_index ← get_beacon_proposer_index E s
  rejectIf (b.proposer_index ≠ proposer_index) .headerProposerIndexMismatch
  rejectIf (b.parent_root ≠ E.header_root s.latest_block_header) .headerParentBlockRootMismatch
  upd fun s => { s with
    latest_block_header := {
      slot := b.slot
      proposer_index := b.proposer_index
      parent_root := b.parent_root
      state_root := zeroBytes 32
      body_root := E.body_root f b.body } }
  let proposer ← idx s.validators b.proposer_index
  rejectIf proposer.slashed .headerProposerSlashed

/-- `phase0/block_processing.rs:603-606` -/
def xor (a b : Bytes32) : Bytes32 := Vector.zipWith (· ^^^ ·) a b

/-- `phase0/block_processing.rs:608-657`, used by every fork. -/
def process_randao (E : Env) (body : BeaconBlockBody) : M Unit := do
  let s ← get
  let epoch ← get_current_epoch E s
  let proposer_index ← get_beacon_proposer_index E s
  let proposer ← idx s.validators proposer_index
  let domain ← get_domain E s .Randao (some epoch)
  rejectIf (!E.verify_signature proposer.public_key
    (compute_signing_root E (E.u64_root epoch) domain) body.randao_reveal) .randao
  let old ← get_randao_mix E s epoch
  let mix := xor old (E.hash body.randao_reveal.toList)
  let mix_index ← epoch %? E.epochs_per_historical_vector
  let mixes ← setIdx s.randao_mixes mix_index mix
  upd fun s => { s with randao_mixes := mixes }

/-- `phase0/block_processing.rs:659-702`, used by every fork. -/
def process_eth1_data (E : Env) (body : BeaconBlockBody) : M Unit := do
  upd fun s => { s with eth1_data_votes := s.eth1_data_votes ++ [body.eth1_data] }
  let s ← get
  let votes_count := s.eth1_data_votes.countP fun vote => decide (vote = body.eth1_data)
  let twice ← votes_count *? 2
  let period ← E.epochs_per_eth1_voting_period *? E.slots_per_epoch
  if twice > period then upd fun s => { s with eth1_data := body.eth1_data } else pure ()

/-- The check on the number of deposits: `phase0/block_processing.rs:739-751`,
`capella/block_processing.rs:139-150`; `electra/block_processing.rs:440-456`, where the
two conditions are nested. -/
def check_deposit_count (E : Env) (f : Fork) (s : State) (body : BeaconBlockBody) : R Unit := do
  match f with
  | .Electra =>
    let limit := min s.eth1_data.deposit_count s.deposit_receipts_start_index
    if s.eth1_deposit_index < limit then
      let due ← limit -? s.eth1_deposit_index
      if body.deposits.length ≠ min E.max_deposits due then .error .depositIncorrectCount
      else rejectIf (!body.deposits.isEmpty) .depositIncorrectCount
    else .ok ()
  | _ =>
    let due ← s.eth1_data.deposit_count -? s.eth1_deposit_index
    rejectIf (body.deposits.length ≠ min E.max_deposits due) .depositIncorrectCount

/-- `phase0/block_processing.rs:704-763` (phase0, altair, bellatrix),
`capella/block_processing.rs:89-164` (capella, deneb),
`electra/block_processing.rs:373-481`. -/
def process_operations (E : Env) (f : Fork) (body : BeaconBlockBody) : M Unit := do
  rd fun s => check_deposit_count E f s body
  forEach body.proposer_slashings (process_proposer_slashing E f)
  forEach body.attester_slashings (process_attester_slashing E f)
  forEach body.attestations (process_attestation E f)
  forEach body.deposits (process_deposit E f)
  forEach body.voluntary_exits (process_voluntary_exit E f)
  match f with
  | .Phase0 | .Altair | .Bellatrix => pure ()
  | .Capella | .Deneb =>
    forEach body.bls_to_execution_changes (process_bls_to_execution_change E)
  | .Electra => do
    forEach body.bls_to_execution_changes (process_bls_to_execution_change E)
    forEach body.execution_payload.withdrawal_requests
      (Electra.process_execution_layer_withdrawal_request E)
    forEach body.execution_payload.deposit_receipts (Electra.process_deposit_receipt E)
    forEach body.consolidations (Electra.process_consolidation E)

/-! ## Sync aggregates -/

/-- `crypto/bls.rs:349-360` `INFINITY_COMPRESSED_SIGNATURE` -/
def infinitySignature : Signature := (zeroBytes 96).set 0 192

/-- `crypto/bls.rs:150-160` -/
def eth_fast_aggregate_verify (E : Env) (pks : List PublicKey) (message : Root)
    (sig : Signature) : Bool :=
  if pks.isEmpty && decide (sig = infinitySignature) then true
  else E.fast_aggregate_verify pks message sig

/-- `all_public_keys.get(public_key)`, `altair/block_processing.rs:257-262`: the map is
collected in order, so a later validator with the same key wins. -/
def lastIndexOfKey (vs : List Validator) (pk : PublicKey) : Option Nat :=
  (vs.zipIdx.foldl (fun found (v, i) => if v.public_key = pk then some i else found) none)

/-- `altair/block_processing.rs:245-254`: reward of one participant and of the
proposer for including them. -/
def sync_rewards (E : Env) (s : State) : R (Nat × Nat) := do
  let total ← get_total_active_balance E s
  let total_active_increments ← total /? E.effective_balance_increment
  let per_increment ← get_base_reward_per_increment E s
  let total_base_rewards ← per_increment *? total_active_increments
  let a ← total_base_rewards *? SYNC_REWARD_WEIGHT
  let b ← a /? WEIGHT_DENOMINATOR
  let max_participant_rewards ← b /? E.slots_per_epoch
  let participant_reward ← max_participant_rewards /? E.sync_committee_size
  let c ← participant_reward *? PROPOSER_WEIGHT
  let d ← WEIGHT_DENOMINATOR -? PROPOSER_WEIGHT
  let proposer_reward ← c /? d
  return (participant_reward, proposer_reward)

/-- `altair/block_processing.rs:263-267`: the registry indices of the committee;
`expect` panics on an unknown key. -/
def sync_committee_indices (s : State) : R (List Nat) :=
  s.current_sync_committee.public_keys.mapM fun k =>
    match lastIndexOfKey s.validators k with
    | some i => .ok i
    | none => .error (.panic .unwrap)

/-- The loop body `altair/block_processing.rs:271-276`. -/
def apply_sync_reward (E : Env) (participant_reward proposer_reward : Nat) (p : Nat × Bool) :
    M Unit :=
  if p.2 then do
    increase_balance p.1 participant_reward
    let s ← get
    let proposer_index ← get_beacon_proposer_index E s
    increase_balance proposer_index proposer_reward
  else decrease_balance p.1 participant_reward

/-- `altair/block_processing.rs:192-280`, used by altair and later forks. -/
def process_sync_aggregate (E : Env) (a : SyncAggregate) : M Unit := do
  let s ← get
  let participants := (s.current_sync_committee.public_keys.zip a.sync_committee_bits).filterMap
    fun (k, bit) => if bit then some k else none
  let previous_slot ← (max s.slot 1) -? 1
  let epoch ← compute_epoch_at_slot E previous_slot
  let domain ← get_domain E s .SyncCommittee (some epoch)
  let root_at_slot ← get_block_root_at_slot E s previous_slot
  let signing_root := compute_signing_root E (E.root_root root_at_slot) domain
  rejectIf (!eth_fast_aggregate_verify E participants signing_root a.sync_committee_signature)
    .syncAggregateInvalidSignature
  let r ← sync_rewards E s
  let committee_indices ← sync_committee_indices s
  forEach (committee_indices.zip a.sync_committee_bits) (apply_sync_reward E r.1 r.2)

/-! ## Blocks -/

/-- The steps of `process_block` between header and randao:
`bellatrix/block_processing.rs:167-169`, `capella/block_processing.rs:464-465`,
`deneb/block_processing.rs:403-404`. -/
def process_block_payload (E : Env) (f : Fork) (b : BeaconBlock) : M Unit :=
  match f with
  | .Phase0 | .Altair => pure ()
  | .Bellatrix => do
    let s ← get
    if is_execution_enabled s b.body then process_execution_payload E f b.body else pure ()
  | _ => do
    process_withdrawals E f b.body.execution_payload
    process_execution_payload E f b.body

/-- `phase0/block_processing.rs:765-805`, `altair/block_processing.rs:282-324`,
`bellatrix/block_processing.rs:120-175`, `capella/block_processing.rs:413-471`,
`deneb/block_processing.rs:350-410` (deneb, electra). -/
def process_block (E : Env) (f : Fork) (b : BeaconBlock) : M Unit := do
  process_block_header E f b
  process_block_payload E f b
  process_randao E b.body
  process_eth1_data E b.body
  process_operations E f b.body
  match f with
  | .Phase0 => pure ()
  | _ => process_sync_aggregate E b.body.sync_aggregate

end Verif
