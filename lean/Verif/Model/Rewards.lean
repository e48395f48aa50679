import Verif.Model.Altair.Helpers

/-! # Reward and penalty deltas: `phase0/epoch_processing.rs`, `altair/helpers.rs`,
`bellatrix/helpers.rs` -/

namespace Verif

/-- `phase0/constants.rs` -/
def BASE_REWARDS_PER_EPOCH : Nat := 4

/-- A pair of per-validator lists: rewards and penalties. -/
abbrev Deltas := List Nat × List Nat

/-- `(vec![0; n], vec![0; n])` -/
def zeroDeltas (n : Nat) : Deltas := (List.replicate n 0, List.replicate n 0)

/-- `rewards[i] += x` -/
def Deltas.reward (d : Deltas) (i x : Nat) : R Deltas := do
  let r ← addAt d.1 i x
  return (r, d.2)

/-- `penalties[i] += x` -/
def Deltas.penalize (d : Deltas) (i x : Nat) : R Deltas := do
  let p ← addAt d.2 i x
  return (d.1, p)

/-- `phase0/epoch_processing.rs:712-735` -/
def get_finality_delay (E : Env) (s : State) : R Nat := do
  let previous_epoch ← get_previous_epoch E s
  previous_epoch -? s.finalized_checkpoint.epoch

/-- `phase0/epoch_processing.rs:737-760` -/
def is_in_inactivity_leak (E : Env) (s : State) : R Bool := do
  let d ← get_finality_delay E s
  return decide (d > E.min_epochs_to_inactivity_penalty)

namespace Phase0

/-- `phase0/epoch_processing.rs:22-63` -/
def get_matching_source_attestations (E : Env) (s : State) (epoch : Nat) :
    R (List PendingAttestation) := do
  let previous_epoch ← get_previous_epoch E s
  let current_epoch ← get_current_epoch E s
  rejectIf (previous_epoch ≠ epoch && current_epoch ≠ epoch) .invalidEpoch
  return if epoch = current_epoch then s.current_epoch_attestations
    else s.previous_epoch_attestations

/-- `phase0/epoch_processing.rs:65-102` -/
def get_matching_target_attestations (E : Env) (s : State) (epoch : Nat) :
    R (List PendingAttestation) := do
  let source ← get_matching_source_attestations E s epoch
  if source.isEmpty then return []
  else
    let block_root ← get_block_root E s epoch
    return source.filter fun a => decide (a.data.target.root = block_root)

/-- `phase0/epoch_processing.rs:104-136` -/
def get_matching_head_attestations (E : Env) (s : State) (epoch : Nat) :
    R (List PendingAttestation) := do
  let target ← get_matching_target_attestations E s epoch
  target.filterM fun a => do
    let r ← get_block_root_at_slot E s a.data.slot
    return decide (a.data.beacon_block_root = r)

/-- The inner loop `phase0/epoch_processing.rs:164-168`. -/
def insertUnslashed (s : State) : List Nat → List Nat → R (List Nat)
  | out, [] => .ok out
  | out, index :: rest => do
    let v ← idx s.validators index
    insertUnslashed s (if v.slashed then out else setInsert out index) rest

/-- The loop `phase0/epoch_processing.rs:163-169`. -/
def unslashedFrom (E : Env) (s : State) : List Nat → List PendingAttestation → R (List Nat)
  | out, [] => .ok out
  | out, a :: rest => do
    let indices ← get_attesting_indices E s a.data a.aggregation_bits
    let out ← insertUnslashed s out indices
    unslashedFrom E s out rest

/-- `phase0/epoch_processing.rs:138-171` -/
def get_unslashed_attesting_indices (E : Env) (s : State)
    (attestations : List PendingAttestation) : R (List Nat) := do
  let output ← unslashedFrom E s [] attestations
  return iterate E s output

/-- `phase0/epoch_processing.rs:550-583` -/
def get_attesting_balance (E : Env) (s : State) (attestations : List PendingAttestation) :
    R Nat := do
  let indices ← get_unslashed_attesting_indices E s attestations
  get_total_balance E s indices

/-- `phase0/epoch_processing.rs:656-684` -/
def get_base_reward (E : Env) (s : State) (index : Nat) : R Nat := do
  let total_balance ← get_total_active_balance E s
  let v ← idx s.validators index
  let a ← v.effective_balance *? E.base_reward_factor
  let b ← a /? isqrt total_balance
  b /? BASE_REWARDS_PER_EPOCH

/-- `phase0/epoch_processing.rs:686-710` -/
def get_proposer_reward (E : Env) (s : State) (index : Nat) : R Nat := do
  let b ← get_base_reward E s index
  b /? E.proposer_reward_quotient

/-- The loop body `phase0/epoch_processing.rs:796-808`. -/
def component_delta (E : Env) (s : State) (attesters : List Nat)
    (total_balance attesting_balance : Nat) (d : Deltas) (i : Nat) : R Deltas := do
  if attesters.contains i then
    let leak ← is_in_inactivity_leak E s
    if leak then
      let r ← get_base_reward E s i
      d.reward i r
    else
      let b ← get_base_reward E s i
      let x ← attesting_balance /? E.effective_balance_increment
      let reward_numerator ← b *? x
      let y ← total_balance /? E.effective_balance_increment
      let r ← reward_numerator /? y
      d.reward i r
  else
    let r ← get_base_reward E s i
    d.penalize i r

/-- `phase0/epoch_processing.rs:762-811` -/
def get_attestation_component_deltas (E : Env) (s : State)
    (attestations : List PendingAttestation) : R Deltas := do
  let total_balance ← get_total_active_balance E s
  let attesters ← get_unslashed_attesting_indices E s attestations
  let attesting_balance ← get_total_balance E s attesters
  let eligible ← get_eligible_validator_indices E s
  eligible.foldlM (component_delta E s attesters total_balance attesting_balance)
    (zeroDeltas s.validators.length)

/-- `phase0/epoch_processing.rs:813-840` -/
def get_source_deltas (E : Env) (s : State) : R Deltas := do
  let previous_epoch ← get_previous_epoch E s
  let a ← get_matching_source_attestations E s previous_epoch
  get_attestation_component_deltas E s a

/-- `phase0/epoch_processing.rs:842-869` -/
def get_target_deltas (E : Env) (s : State) : R Deltas := do
  let previous_epoch ← get_previous_epoch E s
  let a ← get_matching_target_attestations E s previous_epoch
  get_attestation_component_deltas E s a

/-- `phase0/epoch_processing.rs:871-898` -/
def get_head_deltas (E : Env) (s : State) : R Deltas := do
  let previous_epoch ← get_previous_epoch E s
  let a ← get_matching_head_attestations E s previous_epoch
  get_attestation_component_deltas E s a

/-- `Iterator::min_by` on the inclusion delay: the first minimal element;
`expect` panics on an empty list. -/
def earliest : List PendingAttestation → R PendingAttestation
  | [] => .error (.panic .unwrap)
  | a :: rest =>
    .ok (rest.foldl (fun m b => if b.inclusion_delay < m.inclusion_delay then b else m) a)

/-- The loop body `phase0/epoch_processing.rs:929-942` for validator `i`. -/
def inclusion_delta (E : Env) (s : State) (source : List PendingAttestation)
    (rewards : List Nat) (i : Nat) : R (List Nat) := do
  let attestations ← source.filterM fun a => do
    let indices ← get_attesting_indices E s a.data a.aggregation_bits
    return indices.contains i
  let a ← earliest attestations
  let proposer_reward ← get_proposer_reward E s i
  let rewards ← addAt rewards a.proposer_index proposer_reward
  let base_reward ← get_base_reward E s i
  let max_attester_reward ← base_reward -? proposer_reward
  let r ← max_attester_reward /? a.inclusion_delay
  addAt rewards i r

/-- `phase0/epoch_processing.rs:900-945`; the penalties are zero. -/
def get_inclusion_delay_deltas (E : Env) (s : State) : R (List Nat) := do
  let previous_epoch ← get_previous_epoch E s
  let source ← get_matching_source_attestations E s previous_epoch
  let attesters ← get_unslashed_attesting_indices E s source
  attesters.foldlM (inclusion_delta E s source) (List.replicate s.validators.length 0)

/-- The loop body `phase0/epoch_processing.rs:979-987`. -/
def inactivity_delta (E : Env) (s : State) (target_attesters : List Nat)
    (penalties : List Nat) (i : Nat) : R (List Nat) := do
  let base_reward ← get_base_reward E s i
  let a ← BASE_REWARDS_PER_EPOCH *? base_reward
  let proposer_reward ← get_proposer_reward E s i
  let p ← a -? proposer_reward
  let penalties ← addAt penalties i p
  if target_attesters.contains i then return penalties
  else
    let v ← idx s.validators i
    let delay ← get_finality_delay E s
    let a ← v.effective_balance *? delay
    let q ← a /? E.inactivity_penalty_quotient
    addAt penalties i q

/-- `phase0/epoch_processing.rs:947-993`; the rewards are zero. -/
def get_inactivity_penalty_deltas (E : Env) (s : State) : R (List Nat) := do
  let previous_epoch ← get_previous_epoch E s
  let leak ← is_in_inactivity_leak E s
  if leak then
    let target ← get_matching_target_attestations E s previous_epoch
    let attesters ← get_unslashed_attesting_indices E s target
    let eligible ← get_eligible_validator_indices E s
    eligible.foldlM (inactivity_delta E s attesters) (List.replicate s.validators.length 0)
  else return List.replicate s.validators.length 0

/-- `a[i] + b[i] + c[i] + d[i]` for every `i` below `n`: the loops
`phase0/epoch_processing.rs:1026-1029` and `1032-1035`. -/
def sum4 (n : Nat) (a b c d : List Nat) : R (List Nat) :=
  (List.range n).mapM fun i => do
    let w ← idx a i
    let x ← idx b i
    let wx ← w +? x
    let y ← idx c i
    let wxy ← wx +? y
    let z ← idx d i
    wxy +? z

/-- `phase0/epoch_processing.rs:995-1037` -/
def get_attestation_deltas (E : Env) (s : State) : R Deltas := do
  let source ← get_source_deltas E s
  let target ← get_target_deltas E s
  let head ← get_head_deltas E s
  let inclusion ← get_inclusion_delay_deltas E s
  let inactivity ← get_inactivity_penalty_deltas E s
  let rewards ← sum4 s.validators.length source.1 target.1 head.1 inclusion
  let penalties ← sum4 s.validators.length source.2 target.2 head.2 inactivity
  return (rewards, penalties)

end Phase0

/-! ## Altair and later -/

/-- The loop body `altair/helpers.rs:301-311`. -/
def flag_delta (E : Env) (s : State) (flag_index weight : Nat) (participants : List Nat)
    (participating_increments active_increments : Nat) (not_leaking : Bool) (d : Deltas)
    (index : Nat) : R Deltas := do
  let base_reward ← Altair.get_base_reward E s index
  if participants.contains index then
    if not_leaking then
      let a ← base_reward *? weight
      let reward_numerator ← a *? participating_increments
      let b ← active_increments *? WEIGHT_DENOMINATOR
      let r ← reward_numerator /? b
      d.reward index r
    else return d
  else if flag_index ≠ TIMELY_HEAD_FLAG_INDEX then
    let a ← base_reward *? weight
    let p ← a /? WEIGHT_DENOMINATOR
    d.penalize index p
  else return d

/-- `altair/helpers.rs:265-314` -/
def get_flag_index_deltas (E : Env) (s : State) (flag_index : Nat) : R Deltas := do
  let previous_epoch ← get_previous_epoch E s
  let participants ← get_unslashed_participating_indices E s flag_index previous_epoch
  let weight ← idx PARTICIPATION_FLAG_WEIGHTS flag_index
  let participating_balance ← get_total_balance E s participants
  let participating_increments ← participating_balance /? E.effective_balance_increment
  let total ← get_total_active_balance E s
  let active_increments ← total /? E.effective_balance_increment
  let leak ← is_in_inactivity_leak E s
  let eligible ← get_eligible_validator_indices E s
  eligible.foldlM (flag_delta E s flag_index weight participants participating_increments
    active_increments (!leak)) (zeroDeltas s.validators.length)

/-- The fork's quotient: `altair/helpers.rs:353`, `bellatrix/helpers.rs:54`. -/
def inactivity_penalty_quotient_of (E : Env) : Fork → Nat
  | .Phase0 => E.inactivity_penalty_quotient
  | .Altair => E.inactivity_penalty_quotient_altair
  | _ => E.inactivity_penalty_quotient_bellatrix

/-- The loop body `altair/helpers.rs:348-356`, `bellatrix/helpers.rs:50-56`. -/
def inactivity_delta (E : Env) (f : Fork) (s : State) (target_participants : List Nat)
    (d : Deltas) (i : Nat) : R Deltas := do
  if target_participants.contains i then return d
  else
    let v ← idx s.validators i
    let score ← idx s.inactivity_scores i
    let penalty_numerator ← v.effective_balance *? score
    let penalty_denominator ← E.inactivity_score_bias *? inactivity_penalty_quotient_of E f
    let p ← penalty_numerator /? penalty_denominator
    d.penalize i p

/-- `altair/helpers.rs:316-358`; bellatrix and later: `bellatrix/helpers.rs:13-59`. -/
def get_inactivity_penalty_deltas (E : Env) (f : Fork) (s : State) : R Deltas := do
  let previous_epoch ← get_previous_epoch E s
  let participants ←
    get_unslashed_participating_indices E s TIMELY_TARGET_FLAG_INDEX previous_epoch
  let eligible ← get_eligible_validator_indices E s
  eligible.foldlM (inactivity_delta E f s participants) (zeroDeltas s.validators.length)

end Verif
