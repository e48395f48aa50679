import Verif.Model.Phase0.Helpers
import Verif.Model.Loops

/-! # `altair/constants.rs`, `altair/helpers.rs` (reward deltas are in `Model/Rewards.lean`) -/

namespace Verif

/-! ## Constants, `altair/constants.rs:1-11` -/

def TIMELY_SOURCE_FLAG_INDEX : Nat := 0
def TIMELY_TARGET_FLAG_INDEX : Nat := 1
def TIMELY_HEAD_FLAG_INDEX : Nat := 2
def TIMELY_SOURCE_WEIGHT : Nat := 14
def TIMELY_TARGET_WEIGHT : Nat := 26
def TIMELY_HEAD_WEIGHT : Nat := 14
def SYNC_REWARD_WEIGHT : Nat := 2
def PROPOSER_WEIGHT : Nat := 8
def WEIGHT_DENOMINATOR : Nat := 64

/-- `altair/constants.rs:10-11` -/
def PARTICIPATION_FLAG_WEIGHTS : List Nat :=
  [TIMELY_SOURCE_WEIGHT, TIMELY_TARGET_WEIGHT, TIMELY_HEAD_WEIGHT]

/-! ## Flags -/

/-- `2u8.pow(flag_index as u32)`: panics on overflow of `u8`. -/
def flagBit (flag_index : Nat) : R UInt8 :=
  if flag_index < 8 then .ok (UInt8.ofNat (2 ^ flag_index)) else .error (.panic .overflow)

/-- `altair/helpers.rs:27-30` -/
def add_flag (flags : UInt8) (flag_index : Nat) : R UInt8 := do
  let flag ← flagBit flag_index
  return flags ||| flag

/-- `altair/helpers.rs:33-36` -/
def has_flag (flags : UInt8) (flag_index : Nat) : R Bool := do
  let flag ← flagBit flag_index
  return flags &&& flag == flag

/-! ## Sync committees -/

/-- The loop `altair/helpers.rs:70-88`, with fuel. -/
def sync_committee_loop (E : Env) (s : State) (active : List Nat) (seed : Bytes32) :
    Nat → Nat → List Nat → R (List Nat)
  | 0, _, acc => if acc.length < E.sync_committee_size then .error .diverged else .ok acc
  | fuel + 1, i, acc =>
    if acc.length < E.sync_committee_size then do
      let i' ← i %? active.length
      let shuffled_index ← compute_shuffled_index E i' active.length seed
      let candidate_index ← idx active shuffled_index
      let random_byte ← idx (E.hash (seed.toList ++ leBytes 8 (i / 32))).toList (i % 32)
      let v ← idx s.validators candidate_index
      let lhs ← v.effective_balance *? 255
      let rhs ← E.max_effective_balance *? random_byte.toNat
      sync_committee_loop E s active seed fuel (i + 1)
        (if lhs ≥ rhs then acc ++ [candidate_index] else acc)
    else .ok acc

/-- `altair/helpers.rs:39-90` -/
def get_next_sync_committee_indices (E : Env) (s : State) : R (List Nat) := do
  let current_epoch ← get_current_epoch E s
  let epoch ← current_epoch +? 1
  let active := get_active_validator_indices s epoch
  let seed ← get_seed E s epoch .SyncCommittee
  sync_committee_loop E s active seed E.fuel 0 []

/-- `altair/helpers.rs:93-123`; `eth_aggregate_public_keys` is
`crypto/bls.rs:135-147`, which rejects the empty list. -/
def get_next_sync_committee (E : Env) (s : State) : R SyncCommittee := do
  let indices ← get_next_sync_committee_indices E s
  let public_keys ← indices.mapM fun i => do
    let v ← idx s.validators i
    return v.public_key
  rejectIf public_keys.isEmpty .bls
  match E.aggregate_public_keys public_keys with
  | some k => .ok ⟨public_keys, k⟩
  | none => .error .bls

/-! ## Base rewards and participation -/

/-- `altair/helpers.rs:125-149` -/
def get_base_reward_per_increment (E : Env) (s : State) : R Nat := do
  let a ← E.effective_balance_increment *? E.base_reward_factor
  let total ← get_total_active_balance E s
  a /? isqrt total

/-- `altair/epoch_processing.rs:22-48` -/
def Altair.get_base_reward (E : Env) (s : State) (index : Nat) : R Nat := do
  let v ← idx s.validators index
  let increments ← v.effective_balance /? E.effective_balance_increment
  let per_increment ← get_base_reward_per_increment E s
  increments *? per_increment

/-- `altair/helpers.rs:153-202`. The closure of `filter` evaluates
`epoch_participation[i]` first, then `validators[i]`. -/
def get_unslashed_participating_indices (E : Env) (s : State) (flag_index epoch : Nat) :
    R (List Nat) := do
  let previous_epoch ← get_previous_epoch E s
  let current_epoch ← get_current_epoch E s
  rejectIf (previous_epoch ≠ epoch && current_epoch ≠ epoch) .invalidEpoch
  let participation :=
    if epoch = current_epoch then s.current_epoch_participation
    else s.previous_epoch_participation
  let indices ← (get_active_validator_indices s epoch).filterM fun i => do
    let flags ← idx participation i
    let did_participate ← has_flag flags flag_index
    let v ← idx s.validators i
    return did_participate && !v.slashed
  return iterate E s indices

/-- `altair/helpers.rs:205-262`; from deneb on, `deneb/helpers.rs:23-84`, where the
target flag has no limit on the inclusion delay. -/
def get_attestation_participation_flag_indices (E : Env) (f : Fork) (s : State)
    (d : AttestationData) (inclusion_delay : Nat) : R (List Nat) := do
  let current_epoch ← get_current_epoch E s
  let justified_checkpoint :=
    if d.target.epoch = current_epoch then s.current_justified_checkpoint
    else s.previous_justified_checkpoint
  rejectIf (d.source ≠ justified_checkpoint) .attestationInvalidSource
  let target_root ← get_block_root E s d.target.epoch
  let is_matching_target := decide (d.target.root = target_root)
  let is_matching_head ←
    (if is_matching_target then do
      let r ← get_block_root_at_slot E s d.slot
      pure (decide (d.beacon_block_root = r))
     else pure false)
  let source :=
    if inclusion_delay ≤ isqrt E.slots_per_epoch then [TIMELY_SOURCE_FLAG_INDEX] else []
  let target_is_timely := match f with
    | .Deneb | .Electra => true
    | _ => decide (inclusion_delay ≤ E.slots_per_epoch)
  let target := if is_matching_target && target_is_timely then [TIMELY_TARGET_FLAG_INDEX] else []
  let head :=
    if is_matching_head && inclusion_delay == E.min_attestation_inclusion_delay then
      [TIMELY_HEAD_FLAG_INDEX] else []
  return source ++ target ++ head

end Verif
