import Verif.Model.Slash
import Verif.Model.Rewards

/-! # Epoch processing: `*/epoch_processing.rs` -/

namespace Verif

/-! ## Justification and finalization -/

/-- One of the two blocks `phase0/epoch_processing.rs:619-632`: justify `epoch` if
the target balance reaches two thirds, setting bit `bit`. -/
def justify_epoch (E : Env) (epoch bit target_balance total_active_balance : Nat) : M Unit := do
  let a ← target_balance *? 3
  let b ← total_active_balance *? 2
  if a ≥ b then
    let s ← get
    let root ← get_block_root E s epoch
    upd fun s => { s with
      current_justified_checkpoint := ⟨epoch, root⟩
      justification_bits := s.justification_bits.set bit true }
  else pure ()

/-- `bits[lo..hi].all() && checkpoint.epoch + k == current_epoch` -/
def finalizes (bits : List Bool) (lo hi : Nat) (c : Checkpoint) (k current_epoch : Nat) :
    R Bool :=
  if ((bits.drop lo).take (hi - lo)).all id then do
    let e ← c.epoch +? k
    return decide (e = current_epoch)
  else .ok false

/-- `phase0/epoch_processing.rs:634-651` -/
def process_finalizations (old_previous old_current : Checkpoint) (current_epoch : Nat) :
    M Unit := do
  let s ← get
  let bits := s.justification_bits
  let f₁ ← finalizes bits 1 4 old_previous 3 current_epoch
  upd fun s => { s with finalized_checkpoint := if f₁ then old_previous else s.finalized_checkpoint }
  let f₂ ← finalizes bits 1 3 old_previous 2 current_epoch
  upd fun s => { s with finalized_checkpoint := if f₂ then old_previous else s.finalized_checkpoint }
  let f₃ ← finalizes bits 0 3 old_current 2 current_epoch
  upd fun s => { s with finalized_checkpoint := if f₃ then old_current else s.finalized_checkpoint }
  let f₄ ← finalizes bits 0 2 old_current 1 current_epoch
  upd fun s => { s with finalized_checkpoint := if f₄ then old_current else s.finalized_checkpoint }

/-- `phase0/epoch_processing.rs:585-654`, used by every fork. The bit vector has
`JUSTIFICATION_BITS_LENGTH` = 4 bits; `copy_within(..3, 1)` followed by clearing bit 0
is a shift by one. -/
def weigh_justification_and_finalization (E : Env) (total_active_balance
    previous_epoch_target_balance current_epoch_target_balance : Nat) : M Unit := do
  let s ← get
  let previous_epoch ← get_previous_epoch E s
  let current_epoch ← get_current_epoch E s
  upd fun s => { s with
    previous_justified_checkpoint := s.current_justified_checkpoint
    justification_bits := false :: s.justification_bits.take 3 }
  justify_epoch E previous_epoch 1 previous_epoch_target_balance total_active_balance
  justify_epoch E current_epoch 0 current_epoch_target_balance total_active_balance
  process_finalizations s.previous_justified_checkpoint s.current_justified_checkpoint
    current_epoch

/-- The three balances weighed: `phase0/epoch_processing.rs:201-207`,
`altair/epoch_processing.rs:80-94`. -/
def justification_balances (E : Env) (f : Fork) (s : State) : R (Nat × Nat × Nat) :=
  match f with
  | .Phase0 => do
    let previous_epoch ← get_previous_epoch E s
    let previous_attestations ← Phase0.get_matching_target_attestations E s previous_epoch
    let current_epoch ← get_current_epoch E s
    let current_attestations ← Phase0.get_matching_target_attestations E s current_epoch
    let total ← get_total_active_balance E s
    let previous ← Phase0.get_attesting_balance E s previous_attestations
    let current ← Phase0.get_attesting_balance E s current_attestations
    return (total, previous, current)
  | _ => do
    let current_epoch ← get_current_epoch E s
    let previous_epoch ← get_previous_epoch E s
    let previous_indices ←
      get_unslashed_participating_indices E s TIMELY_TARGET_FLAG_INDEX previous_epoch
    let current_indices ←
      get_unslashed_participating_indices E s TIMELY_TARGET_FLAG_INDEX current_epoch
    let total ← get_total_active_balance E s
    let previous ← get_total_balance E s previous_indices
    let current ← get_total_balance E s current_indices
    return (total, previous, current)

/-- `phase0/epoch_processing.rs:173-215`, `altair/epoch_processing.rs:50-102`. -/
def process_justification_and_finalization (E : Env) (f : Fork) : M Unit := do
  let s ← get
  let current_epoch ← get_current_epoch E s
  if current_epoch ≤ GENESIS_EPOCH + 1 then return ()
  else
    let b ← justification_balances E f s
    weigh_justification_and_finalization E b.1 b.2.1 b.2.2

/-! ## Inactivity scores, rewards -/

/-- The loop body `altair/epoch_processing.rs:141-152` on one score. -/
def next_inactivity_score (E : Env) (participated not_leaking : Bool) (score : Nat) : R Nat := do
  let a ← (if participated then score -? min 1 score else score +? E.inactivity_score_bias)
  if not_leaking then a -? min E.inactivity_score_recovery_rate a else return a

/-- `altair/epoch_processing.rs:104-155`, altair and later. -/
def process_inactivity_updates (E : Env) : M Unit := do
  let s ← get
  let current_epoch ← get_current_epoch E s
  if current_epoch = GENESIS_EPOCH then return ()
  else
    let eligible ← get_eligible_validator_indices E s
    let previous_epoch ← get_previous_epoch E s
    let participants ←
      get_unslashed_participating_indices E s TIMELY_TARGET_FLAG_INDEX previous_epoch
    let leak ← is_in_inactivity_leak E s
    forEach eligible fun index => do
      let s ← get
      let score ← idx s.inactivity_scores index
      let score' ← next_inactivity_score E (participants.contains index) (!leak) score
      upd fun s => { s with inactivity_scores := s.inactivity_scores.set index score' }

/-- The loop `phase0/epoch_processing.rs:244-247`, `altair/epoch_processing.rs:193-196`. -/
def apply_deltas (d : Deltas) : M Unit := do
  let s ← get
  forEach (List.range s.validators.length) fun i => do
    let r ← idx d.1 i
    increase_balance i r
    let p ← idx d.2 i
    decrease_balance i p

/-- `phase0/epoch_processing.rs:217-251`, `altair/epoch_processing.rs:157-199`. -/
def process_rewards_and_penalties (E : Env) (f : Fork) : M Unit := do
  let s ← get
  let current_epoch ← get_current_epoch E s
  if current_epoch = GENESIS_EPOCH then return ()
  else match f with
  | .Phase0 =>
    let d ← Phase0.get_attestation_deltas E s
    apply_deltas d
  | f =>
    let source ← get_flag_index_deltas E s 0
    let target ← get_flag_index_deltas E s 1
    let head ← get_flag_index_deltas E s 2
    let inactivity ← get_inactivity_penalty_deltas E f s
    forEach [source, target, head, inactivity] apply_deltas

/-! ## Registry -/

/-- The fork's `is_eligible_for_activation_queue`. -/
def Fork.is_eligible_for_activation_queue (E : Env) (f : Fork) (v : Validator) : Bool :=
  match f with
  | .Electra => Electra.is_eligible_for_activation_queue E v
  | _ => Verif.is_eligible_for_activation_queue E v

/-- `phase0/epoch_processing.rs:279-282`, `deneb/epoch_processing.rs:39-42`,
`electra/epoch_processing.rs:101-104`. -/
def mark_eligible (E : Env) (f : Fork) (current_epoch i : Nat) : M Unit := do
  let s ← get
  let v ← idx s.validators i
  if f.is_eligible_for_activation_queue E v then
    let next ← current_epoch +? 1
    updValidator i fun v => { v with activation_eligibility_epoch := next }
  else pure ()

/-- `phase0/epoch_processing.rs:284-288`, `deneb/epoch_processing.rs:43-47`,
`electra/epoch_processing.rs:105-109`. -/
def eject_if_low (E : Env) (f : Fork) (current_epoch i : Nat) : M Unit := do
  let s ← get
  let v ← idx s.validators i
  if is_active_validator v current_epoch && decide (v.effective_balance ≤ E.ejection_balance) then
    f.initiate_validator_exit E i
  else pure ()

/-- `phase0/epoch_processing.rs:292-310`, `deneb/epoch_processing.rs:49-66`: the
eligible validators by (eligibility epoch, index). The code sorts indices and looks the
epochs up in the comparator; here the pairs are sorted. -/
def activation_queue (s : State) : List Nat :=
  let pairs := s.validators.zipIdx.filterMap fun (v, i) =>
    if is_eligible_for_activation s v then some (v.activation_eligibility_epoch, i) else none
  (sortBy (fun a b => a.1 < b.1 || (a.1 == b.1 && a.2 ≤ b.2)) pairs).map (·.2)

/-- `phase0/epoch_processing.rs:314`; from deneb on `deneb/helpers.rs:86-114`. -/
def activation_limit (E : Env) (f : Fork) (s : State) : R Nat := do
  let churn_limit ← get_validator_churn_limit E s
  return match f with
    | .Deneb => min E.max_per_epoch_activation_churn_limit churn_limit
    | _ => churn_limit

/-- The validators activated this epoch: a prefix of the queue, and in electra every
eligible validator in index order (`electra/epoch_processing.rs:113-119`). -/
def to_activate (E : Env) (f : Fork) (s : State) : R (List Nat) :=
  match f with
  | .Electra => .ok (s.validators.zipIdx.filterMap fun (v, i) =>
      if is_eligible_for_activation s v then some i else none)
  | f => do
    let n ← activation_limit E f s
    return (activation_queue s).take n

/-- `phase0/epoch_processing.rs:253-319`, `deneb/epoch_processing.rs:11-74`,
`electra/epoch_processing.rs:67-122`. -/
def process_registry_updates (E : Env) (f : Fork) : M Unit := do
  let s ← get
  let current_epoch ← get_current_epoch E s
  forEach (List.range s.validators.length) fun i => do
    mark_eligible E f current_epoch i
    eject_if_low E f current_epoch i
  let activation_epoch ← compute_activation_exit_epoch E current_epoch
  let s ← get
  let dequeued ← to_activate E f s
  forEach dequeued fun i => updValidator i fun v => { v with activation_epoch := activation_epoch }

/-! ## Slashings -/

/-- The fork's multiplier: `phase0/epoch_processing.rs:346`,
`altair/epoch_processing.rs:255`, `bellatrix/epoch_processing.rs:43`. -/
def proportional_slashing_multiplier_of (E : Env) : Fork → Nat
  | .Phase0 => E.proportional_slashing_multiplier
  | .Altair => E.proportional_slashing_multiplier_altair
  | _ => E.proportional_slashing_multiplier_bellatrix

/-- `phase0/epoch_processing.rs:355-358` -/
def slashing_penalty (E : Env) (effective_balance adjusted total_balance : Nat) : R Nat := do
  let a ← effective_balance /? E.effective_balance_increment
  let penalty_numerator ← a *? adjusted
  let b ← penalty_numerator /? total_balance
  b *? E.effective_balance_increment

/-- The loop body `phase0/epoch_processing.rs:351-360`. -/
def apply_slashing_penalty (E : Env) (epoch adjusted total_balance i : Nat) : M Unit := do
  let s ← get
  let v ← idx s.validators i
  if v.slashed then
    let half ← E.epochs_per_slashings_vector /? 2
    let target ← epoch +? half
    if target = v.withdrawable_epoch then
      let penalty ← slashing_penalty E v.effective_balance adjusted total_balance
      decrease_balance i penalty
    else pure ()
  else pure ()

/-- `phase0/epoch_processing.rs:321-364`, `altair/epoch_processing.rs:230-271`,
`bellatrix/epoch_processing.rs:14-59` (bellatrix and later). -/
def process_slashings (E : Env) (f : Fork) : M Unit := do
  let s ← get
  let epoch ← get_current_epoch E s
  let total_balance ← get_total_active_balance E s
  let sum ← sumU64 s.slashings
  let scaled ← sum *? proportional_slashing_multiplier_of E f
  let adjusted := min scaled total_balance
  forEach (List.range s.validators.length) (apply_slashing_penalty E epoch adjusted total_balance)

/-! ## Electra queues -/

namespace Electra

/-- The loop `electra/epoch_processing.rs:161-171`: returns the processed amount and
the number of processed deposits. -/
def pending_deposits_loop (available : Nat) :
    List PendingBalanceDeposit → Nat → Nat → M (Nat × Nat)
  | [], processed, count => pure (processed, count)
  | d :: rest, processed, count => do
    let total ← processed +? d.amount
    if total > available then pure (processed, count)
    else
      increase_balance d.index d.amount
      pending_deposits_loop available rest total (count + 1)

/-- `electra/epoch_processing.rs:124-182` -/
def process_pending_balance_deposits (E : Env) : M Unit := do
  let s ← get
  let churn ← get_activation_exit_churn_limit E s
  let available ← s.deposit_balance_to_consume +? churn
  let r ← pending_deposits_loop available s.pending_balance_deposits 0 0
  upd fun s => { s with pending_balance_deposits := s.pending_balance_deposits.drop r.2 }
  let s ← get
  let left ← (if s.pending_balance_deposits.isEmpty then pure 0 else available -? r.1)
  upd fun s => { s with deposit_balance_to_consume := left }

/-- The loop `electra/epoch_processing.rs:217-235`: returns the number of consolidations
to drop. -/
def pending_consolidations_loop (E : Env) : List PendingConsolidation → Nat → M Nat
  | [], count => pure count
  | c :: rest, count => do
    let s ← get
    let source ← idx s.validators c.source_index
    if source.slashed then pending_consolidations_loop E rest (count + 1)
    else
      let current_epoch ← get_current_epoch E s
      if source.withdrawable_epoch > current_epoch then pure count
      else
        switch_to_compounding_validator E c.target_index
        let s ← get
        let active_balance ← get_active_balance E s c.source_index
        decrease_balance c.source_index active_balance
        increase_balance c.target_index active_balance
        pending_consolidations_loop E rest (count + 1)

/-- `electra/epoch_processing.rs:184-240` -/
def process_pending_consolidations (E : Env) : M Unit := do
  let s ← get
  let count ← pending_consolidations_loop E s.pending_consolidations 0
  upd fun s => { s with pending_consolidations := s.pending_consolidations.drop count }

end Electra

/-! ## Effective balances and final updates -/

/-- `phase0/epoch_processing.rs:366-393` -/
def process_eth1_data_reset (E : Env) : M Unit := do
  let s ← get
  let current_epoch ← get_current_epoch E s
  let next_epoch ← current_epoch +? 1
  let r ← next_epoch %? E.epochs_per_eth1_voting_period
  if r = 0 then upd fun s => { s with eth1_data_votes := [] } else pure ()

/-- The cap on the effective balance: `phase0/epoch_processing.rs:429`,
`electra/epoch_processing.rs:281-285`. -/
def effective_balance_limit (E : Env) (f : Fork) (v : Validator) : Nat :=
  match f with
  | .Electra => if Electra.has_compounding_withdrawal_credential v
      then E.max_effective_balance_electra else E.min_activation_balance
  | _ => E.max_effective_balance

/-- The loop body `phase0/epoch_processing.rs:422-431`, `electra/epoch_processing.rs:279-294`
on one validator. -/
def updated_effective_balance (E : Env) (f : Fork) (downward upward : Nat) (v : Validator)
    (balance : Nat) : R Nat := do
  let lower ← balance +? downward
  let outside ← (if lower < v.effective_balance then pure true
    else do
      let upper ← v.effective_balance +? upward
      pure (decide (upper < balance)))
  if outside then
    let r ← balance %? E.effective_balance_increment
    let a ← balance -? r
    return min a (effective_balance_limit E f v)
  else return v.effective_balance

/-- `phase0/epoch_processing.rs:395-433`, `electra/epoch_processing.rs:242-296`. -/
def process_effective_balance_updates (E : Env) (f : Fork) : M Unit := do
  let increment ← E.effective_balance_increment /? E.hysteresis_quotient
  let downward ← increment *? E.hysteresis_downward_multiplier
  let upward ← increment *? E.hysteresis_upward_multiplier
  let s ← get
  forEach (List.range s.validators.length) fun i => do
    let s ← get
    let v ← idx s.validators i
    let balance ← idx s.balances i
    let e ← updated_effective_balance E f downward upward v balance
    updValidator i fun v => { v with effective_balance := e }

/-- `phase0/epoch_processing.rs:435-461` -/
def process_slashings_reset (E : Env) : M Unit := do
  let s ← get
  let current_epoch ← get_current_epoch E s
  let next_epoch ← current_epoch +? 1
  let i ← next_epoch %? E.epochs_per_slashings_vector
  let slashings ← setIdx s.slashings i 0
  upd fun s => { s with slashings := slashings }

/-- `phase0/epoch_processing.rs:463-489` -/
def process_randao_mixes_reset (E : Env) : M Unit := do
  let s ← get
  let current_epoch ← get_current_epoch E s
  let next_epoch ← current_epoch +? 1
  let i ← next_epoch %? E.epochs_per_historical_vector
  let mix ← get_randao_mix E s current_epoch
  let mixes ← setIdx s.randao_mixes i mix
  upd fun s => { s with randao_mixes := mixes }

/-- `phase0/epoch_processing.rs:491-523`; from capella on
`capella/epoch_processing.rs:13-48`, which keeps the two roots. -/
def process_historical_update (E : Env) (f : Fork) : M Unit := do
  let s ← get
  let current_epoch ← get_current_epoch E s
  let next_epoch ← current_epoch +? 1
  let period ← E.slots_per_historical_root /? E.slots_per_epoch
  let r ← next_epoch %? period
  if r = 0 then
    let block_root := E.roots_root s.block_roots
    let state_root := E.roots_root s.state_roots
    match f with
    | .Phase0 | .Altair | .Bellatrix => upd fun s => { s with
        historical_roots := s.historical_roots ++ [E.historical_batch_root block_root state_root] }
    | _ => upd fun s => { s with
        historical_summaries := s.historical_summaries ++ [⟨block_root, state_root⟩] }
  else pure ()

/-- `phase0/epoch_processing.rs:525-548` -/
def process_participation_record_updates : M Unit :=
  upd fun s => { s with
    previous_epoch_attestations := s.current_epoch_attestations
    current_epoch_attestations := [] }

/-- `altair/epoch_processing.rs:201-228` -/
def process_participation_flag_updates : M Unit :=
  upd fun s => { s with
    previous_epoch_participation := s.current_epoch_participation
    current_epoch_participation := List.replicate s.validators.length 0 }

/-- `altair/epoch_processing.rs:273-303` -/
def process_sync_committee_updates (E : Env) : M Unit := do
  let s ← get
  let current_epoch ← get_current_epoch E s
  let next_epoch ← current_epoch +? 1
  let r ← next_epoch %? E.epochs_per_sync_committee_period
  if r = 0 then
    let next ← get_next_sync_committee E s
    upd fun s => { s with
      current_sync_committee := s.next_sync_committee
      next_sync_committee := next }
  else pure ()

/-- The steps of `process_epoch` that are common to all forks and precede the effective
balance update. -/
def process_epoch_first (E : Env) (f : Fork) : M Unit := do
  process_justification_and_finalization E f
  (match f with
    | .Phase0 => pure ()
    | _ => process_inactivity_updates E)
  process_rewards_and_penalties E f
  process_registry_updates E f
  process_slashings E f
  process_eth1_data_reset E
  (match f with
    | .Electra => do
      Electra.process_pending_balance_deposits E
      Electra.process_pending_consolidations E
    | _ => pure ())

/-- `phase0/epoch_processing.rs:1039-1072`, `altair/epoch_processing.rs:305-340`,
`bellatrix/epoch_processing.rs:61-100`, `capella/epoch_processing.rs:50-89` (capella,
deneb), `electra/epoch_processing.rs:18-65`. -/
def process_epoch (E : Env) (f : Fork) : M Unit := do
  process_epoch_first E f
  process_effective_balance_updates E f
  process_slashings_reset E
  process_randao_mixes_reset E
  process_historical_update E f
  match f with
  | .Phase0 => process_participation_record_updates
  | _ => do
    process_participation_flag_updates
    process_sync_committee_updates E

end Verif
