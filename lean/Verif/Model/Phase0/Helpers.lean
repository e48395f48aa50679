import Verif.Model.Monad
import Verif.Model.Phase0.Shuffle

/-!
# `phase0/helpers.rs` (and `signing.rs`)
-/

namespace Verif

/-! ## Hash sets

`HashSet<usize>` is a list without duplicates, first in the order of the insertions. Where a set is
visited, `iterate` puts it in the order that `Env.visit` chooses. -/

/-- The elements of a hash set as its iterator yields them -/
def iterate (E : Env) (s : State) (set : List Nat) : List Nat := (E.visit s set).1

/-- `set.insert(x)` -/
def setInsert (xs : List Nat) (x : Nat) : List Nat := if x ∈ xs then xs else xs ++ [x]

/-- `HashSet::from_iter` / repeated `insert` -/
def setOfList (xs : List Nat) : List Nat := xs.foldl setInsert []

/-! ## Predicates -/

/-- `phase0/helpers.rs:23-25` -/
def is_active_validator (v : Validator) (epoch : Nat) : Bool :=
  v.activation_epoch ≤ epoch && epoch < v.exit_epoch

/-- `phase0/helpers.rs:27-30` -/
def is_eligible_for_activation_queue (E : Env) (v : Validator) : Bool :=
  v.activation_eligibility_epoch == FAR_FUTURE_EPOCH &&
    v.effective_balance == E.max_effective_balance

/-- `phase0/helpers.rs:32-56` -/
def is_eligible_for_activation (s : State) (v : Validator) : Bool :=
  v.activation_eligibility_epoch ≤ s.finalized_checkpoint.epoch &&
    v.activation_epoch == FAR_FUTURE_EPOCH

/-- `phase0/helpers.rs:58-62` -/
def is_slashable_validator (v : Validator) (epoch : Nat) : Bool :=
  !v.slashed && (v.activation_epoch ≤ epoch && epoch < v.withdrawable_epoch)

/-- `phase0/helpers.rs:64-69` -/
def is_slashable_attestation_data (d1 d2 : AttestationData) : Bool :=
  let double_vote := d1 ≠ d2 && d1.target.epoch == d2.target.epoch
  let surround_vote := d1.source.epoch < d2.source.epoch && d2.target.epoch < d1.target.epoch
  double_vote || surround_vote

/-! ## Epochs, slots, domains -/

/-- `phase0/helpers.rs:485-487` -/
def compute_epoch_at_slot (E : Env) (slot : Nat) : R Nat := slot /? E.slots_per_epoch

/-- `phase0/helpers.rs:489-491` -/
def compute_start_slot_at_epoch (E : Env) (epoch : Nat) : R Nat := epoch *? E.slots_per_epoch

/-- `phase0/helpers.rs:493-495` -/
def compute_activation_exit_epoch (E : Env) (epoch : Nat) : R Nat := do
  let e ← epoch +? 1
  e +? E.max_seed_lookahead

/-- `phase0/helpers.rs:224-247` -/
def get_current_epoch (E : Env) (s : State) : R Nat := compute_epoch_at_slot E s.slot

/-- `phase0/helpers.rs:531-559` -/
def get_previous_epoch (E : Env) (s : State) : R Nat := do
  let current_epoch ← get_current_epoch E s
  if current_epoch = GENESIS_EPOCH then return GENESIS_EPOCH else current_epoch -? 1

/-- `phase0/helpers.rs:522-529` -/
def compute_fork_data_root (E : Env) (v : Version) (root : Root) : Root :=
  E.fork_data_root v root

/-- `phase0/helpers.rs:497-504` -/
def compute_fork_digest (E : Env) (v : Version) (root : Root) : List UInt8 :=
  (compute_fork_data_root E v root).toList.take 4

/-- `phase0/helpers.rs:506-520` -/
def compute_domain (E : Env) (t : DomainType) (fork_version : Option Version)
    (genesis_validators_root : Option Root) : Domain :=
  let fork_version := fork_version.getD E.genesis_fork_version
  let root := genesis_validators_root.getD (zeroBytes 32)
  t.as_bytes ++ (compute_fork_data_root E fork_version root).toList.take 28

/-- `phase0/helpers.rs:190-222` -/
def get_domain (E : Env) (s : State) (t : DomainType) (epoch : Option Nat) : R Domain := do
  let epoch ← (match epoch with
    | some e => pure e
    | none => get_current_epoch E s)
  let fork_version :=
    if epoch < s.fork.epoch then s.fork.previous_version else s.fork.current_version
  return compute_domain E t (some fork_version) (some s.genesis_validators_root)

/-- `signing.rs:14-22`, on the root of the signed object -/
def compute_signing_root (E : Env) (object_root : Root) (domain : Domain) : Root :=
  E.signing_data_root object_root domain

/-- `signing.rs:33-41`, on the root of the signed object -/
def verify_signed_data (E : Env) (object_root : Root) (sig : Signature) (pk : PublicKey)
    (domain : Domain) : R Unit :=
  rejectIf (!E.verify_signature pk (compute_signing_root E object_root domain) sig) .bls

/-! ## Indexed attestations -/

/-- The loop `phase0/helpers.rs:104-121`: rejects as soon as the list is not
sorted; remembers duplicates and rejects at the end. -/
def check_sorted : Nat → Bool → List Nat → R Unit
  | _, dup, [] => rejectIf dup .indexedDuplicateIndices
  | prev, dup, index :: rest =>
    if index < prev then .error .indexedAttestingIndicesNotSorted
    else check_sorted index (dup || index == prev) rest

/-- `phase0/helpers.rs:71-142` -/
def is_valid_indexed_attestation (E : Env) (s : State) (a : IndexedAttestation) : R Unit := do
  match a.attesting_indices with
  | [] => .error .indexedAttestingIndicesEmpty
  | first :: rest =>
    check_sorted first false rest
    let public_keys ← a.attesting_indices.mapM fun index => do
      let v ← getOr s.validators index .indexedInvalidIndex
      return v.public_key
    let domain ← get_domain E s .BeaconAttester (some a.data.target.epoch)
    let signing_root := compute_signing_root E (E.attestation_data_root a.data) domain
    rejectIf (!E.fast_aggregate_verify public_keys signing_root a.signature) .bls

/-- `phase0/helpers.rs:144-188` -/
def verify_block_signature (E : Env) (f : Fork) (s : State) (b : SignedBeaconBlock) : R Unit := do
  let proposer ← getOr s.validators b.message.proposer_index .outOfBounds
  let domain ← get_domain E s .BeaconProposer none
  verify_signed_data E (E.block_root f b.message) b.signature proposer.public_key domain

/-! ## State readers -/

/-- `phase0/helpers.rs:588-618`. The error branch evaluates `state.slot - 1` and
`state.slot + SLOTS_PER_HISTORICAL_ROOT`, which can themselves panic. -/
def get_block_root_at_slot (E : Env) (s : State) (slot : Nat) : R Root := do
  let bad ←
    (if slot ≥ s.slot then pure true
     else do
      let bound ← slot +? E.slots_per_historical_root
      pure (decide (s.slot > bound)))
  if bad then
    let _ ← s.slot -? 1
    let _ ← s.slot +? E.slots_per_historical_root
    .error .slotOutOfRange
  else
    let i ← slot %? E.slots_per_historical_root
    idx s.block_roots i

/-- `phase0/helpers.rs:561-586` -/
def get_block_root (E : Env) (s : State) (epoch : Nat) : R Root := do
  let slot ← compute_start_slot_at_epoch E epoch
  get_block_root_at_slot E s slot

/-- `phase0/helpers.rs:620-644` -/
def get_randao_mix (E : Env) (s : State) (epoch : Nat) : R Bytes32 := do
  let i ← epoch %? E.epochs_per_historical_vector
  idx s.randao_mixes i

/-- The loop `phase0/helpers.rs:668-675` from position `i` on. -/
def active_from (epoch : Nat) : Nat → List Validator → List Nat
  | _, [] => []
  | i, v :: vs =>
    if is_active_validator v epoch then i :: active_from epoch (i + 1) vs
    else active_from epoch (i + 1) vs

/-- `phase0/helpers.rs:646-676` -/
def get_active_validator_indices (s : State) (epoch : Nat) : List Nat :=
  active_from epoch 0 s.validators

/-- `phase0/helpers.rs:678-706` -/
def get_validator_churn_limit (E : Env) (s : State) : R Nat := do
  let epoch ← get_current_epoch E s
  let q ← (get_active_validator_indices s epoch).length /? E.churn_limit_quotient
  return max E.min_per_epoch_churn_limit q

/-- `phase0/helpers.rs:708-739` -/
def get_seed (E : Env) (s : State) (epoch : Nat) (t : DomainType) : R Bytes32 := do
  let a ← E.epochs_per_historical_vector -? E.min_seed_lookahead
  let b ← epoch +? a
  let mix_epoch ← b -? 1
  let mix ← get_randao_mix E s mix_epoch
  return E.hash (t.as_bytes ++ leBytes 8 epoch ++ mix.toList)

/-- `phase0/helpers.rs:741-773` -/
def get_committee_count_per_slot (E : Env) (s : State) (epoch : Nat) : R Nat := do
  let a ← (get_active_validator_indices s epoch).length /? E.slots_per_epoch
  let b ← a /? E.target_committee_size
  return max 1 (min E.max_committees_per_slot b)

/-- `phase0/helpers.rs:775-806` -/
def get_beacon_committee (E : Env) (s : State) (slot index : Nat) : R (List Nat) := do
  let epoch ← compute_epoch_at_slot E slot
  let committees_per_slot ← get_committee_count_per_slot E s epoch
  let indices := get_active_validator_indices s epoch
  let seed ← get_seed E s epoch .BeaconAttester
  let a ← slot %? E.slots_per_epoch
  let b ← a *? committees_per_slot
  let index ← b +? index
  let count ← committees_per_slot *? E.slots_per_epoch
  compute_committee E indices seed index count

/-- `phase0/helpers.rs:362-398`: does the candidate pass in this round? -/
def sample_proposer_index (E : Env) (s : State) (candidate_index round : Nat)
    (seed : Bytes32) : R Bool := do
  let random_byte ← idx (E.hash (seed.toList ++ leBytes 8 (round / 32))).toList (round % 32)
  let v ← idx s.validators candidate_index
  let lhs ← v.effective_balance *? 255
  let rhs ← E.max_effective_balance *? random_byte.toNat
  return decide (lhs ≥ rhs)

/-- The loops `phase0/helpers.rs:434-443` and `445-455`, with fuel; `candidate`
gives the candidate of a round. -/
def proposer_loop (E : Env) (s : State) (seed : Bytes32) (candidate : Nat → R Nat) :
    Nat → Nat → R Nat
  | 0, _ => .error .diverged
  | fuel + 1, round => do
    let c ← candidate round
    let accepted ← sample_proposer_index E s c round seed
    if accepted then return c else proposer_loop E s seed candidate fuel (round + 1)

/-- `phase0/helpers.rs:400-457` -/
def compute_proposer_index (E : Env) (s : State) (indices : List Nat) (seed : Bytes32) :
    R Nat := do
  rejectIf indices.isEmpty .collectionCannotBeEmpty
  let total := indices.length
  if E.shuffling then
    let shuffled_indices ← compute_shuffled_indices E indices seed
    proposer_loop E s seed (fun round => idx shuffled_indices (round % total)) E.fuel 0
  else
    proposer_loop E s seed
      (fun round => do
        let shuffled_index ← compute_shuffled_index E (round % total) total seed
        idx indices shuffled_index)
      E.fuel 0

/-- `phase0/helpers.rs:808-838` -/
def get_beacon_proposer_index (E : Env) (s : State) : R Nat := do
  let epoch ← get_current_epoch E s
  let seed ← get_seed E s epoch .BeaconProposer
  let seed := E.hash (seed.toList ++ leBytes 8 s.slot)
  let indices := get_active_validator_indices s epoch
  compute_proposer_index E s indices seed

/-- `phase0/helpers.rs:840-868`; `indices` is the hash set in iteration order.
`try_fold` stops at the first overflow (`Error::Overflow`), and indexing panics. -/
def get_total_balance (E : Env) (s : State) (indices : List Nat) : R Nat := do
  let total ← indices.foldlM
    (fun acc i => do
      let v ← idx s.validators i
      U64.checkedAdd acc v.effective_balance) 0
  return max total E.effective_balance_increment

/-- `phase0/helpers.rs:870-894` -/
def get_total_active_balance (E : Env) (s : State) : R Nat := do
  let epoch ← get_current_epoch E s
  get_total_balance E s (iterate E s (get_active_validator_indices s epoch))

/-- Positions of a committee whose bit is set: the loop
`phase0/helpers.rs:970-974`. -/
def attesters_of (committee : List Nat) (bits : List Bool) : List Nat :=
  setOfList ((committee.zip bits).filterMap fun (v, b) => if b then some v else none)

/-- `phase0/helpers.rs:936-977` -/
def get_attesting_indices (E : Env) (s : State) (d : AttestationData) (bits : List Bool) :
    R (List Nat) := do
  let committee ← get_beacon_committee E s d.slot d.index
  rejectIf (bits.length ≠ committee.length) .attestationBitfield
  return iterate E s (attesters_of committee bits)

/-- `phase0/helpers.rs:896-934` -/
def get_indexed_attestation (E : Env) (s : State) (a : Attestation) :
    R IndexedAttestation := do
  let indices ← get_attesting_indices E s a.data a.aggregation_bits
  return { attesting_indices := sortBy (· ≤ ·) indices, data := a.data,
           signature := a.signature }

/-- `phase0/helpers.rs:1139-1172` -/
def get_eligible_validator_indices (E : Env) (s : State) : R (List Nat) := do
  let previous_epoch ← get_previous_epoch E s
  let next ← previous_epoch +? 1
  return (s.validators.zipIdx.filter fun (v, _) =>
    is_active_validator v previous_epoch || (v.slashed && next < v.withdrawable_epoch)).map (·.2)

/-! ## State writers -/

/-- `phase0/helpers.rs:979-1003` -/
def increase_balance (index delta : Nat) : M Unit := do
  let s ← get
  let b ← idx s.balances index
  let b' ← b +? delta
  upd fun s => { s with balances := s.balances.set index b' }

/-- `phase0/helpers.rs:1005-1033` -/
def decrease_balance (index delta : Nat) : M Unit := do
  let s ← get
  let b ← idx s.balances index
  let b' ← (if delta > b then pure 0 else b -? delta)
  upd fun s => { s with balances := s.balances.set index b' }

/-- `phase0/helpers.rs:1062-1078`: the exit epoch given to the next exiting
validator. -/
def exit_queue_epoch (E : Env) (s : State) : R Nat := do
  let exit_epochs := (s.validators.filter fun v => v.exit_epoch ≠ FAR_FUTURE_EPOCH).map
    (·.exit_epoch)
  let current_epoch ← get_current_epoch E s
  let e ← compute_activation_exit_epoch E current_epoch
  let exit_queue_epoch := (exit_epochs ++ [e]).foldl max 0
  let exit_queue_churn := s.validators.countP fun v => v.exit_epoch == exit_queue_epoch
  let churn_limit ← get_validator_churn_limit E s
  if exit_queue_churn ≥ churn_limit then exit_queue_epoch +? 1 else return exit_queue_epoch

/-- `phase0/helpers.rs:1035-1086` -/
def initiate_validator_exit (E : Env) (index : Nat) : M Unit := do
  let s ← get
  let v ← idx s.validators index
  if v.exit_epoch ≠ FAR_FUTURE_EPOCH then
    return ()
  else
    let epoch ← exit_queue_epoch E s
    updValidator index fun v => { v with exit_epoch := epoch }
    let w ← U64.checkedAdd epoch E.min_validator_withdrawability_delay
    updValidator index fun v => { v with withdrawable_epoch := w }

end Verif
