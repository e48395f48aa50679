import Verif.Proofs.History
import Verif.Examples.Toy

/-!
# C59: every entry point writes only its own part of the state

`ChangesOnly W s s'` says that all 39 fields of the state outside the list `W` have the same
value in `s` and `s'`. `finalState m s` is the state `m` leaves behind, whether it succeeds or
fails.
-/

namespace Verif.Props

open Spec

/-- **C59** Block processing, in every fork, whether or not it succeeds, never changes the
slot, the fork, the genesis data, the recent or historical roots, the justification and
finality data, the sync committees, or the deposit churn. -/
theorem C59_block_frame (E : Env) (f : Fork) (b : BeaconBlock) (s : State) :
    let s' := finalState (process_block E f b) s
    s'.slot = s.slot ∧ s'.fork = s.fork ∧ s'.genesis_time = s.genesis_time ∧
    s'.genesis_validators_root = s.genesis_validators_root ∧
    s'.block_roots = s.block_roots ∧ s'.state_roots = s.state_roots ∧
    s'.historical_roots = s.historical_roots ∧
    s'.historical_summaries = s.historical_summaries ∧
    s'.justification_bits = s.justification_bits ∧
    s'.previous_justified_checkpoint = s.previous_justified_checkpoint ∧
    s'.current_justified_checkpoint = s.current_justified_checkpoint ∧
    s'.finalized_checkpoint = s.finalized_checkpoint ∧
    s'.current_sync_committee = s.current_sync_committee ∧
    s'.next_sync_committee = s.next_sync_committee ∧
    s'.deposit_balance_to_consume = s.deposit_balance_to_consume := by
  have h := fun x => (block_mod (E := E) (f := f) (b := b)).final s x
  exact ⟨h .slot (by decide), h .fork (by decide), h .genesis_time (by decide),
    h .genesis_validators_root (by decide), h .block_roots (by decide), h .state_roots (by decide),
    h .historical_roots (by decide), h .historical_summaries (by decide),
    h .justification_bits (by decide), h .previous_justified_checkpoint (by decide),
    h .current_justified_checkpoint (by decide), h .finalized_checkpoint (by decide),
    h .current_sync_committee (by decide), h .next_sync_committee (by decide),
    h .deposit_balance_to_consume (by decide)⟩

/-- **C59** Epoch processing never changes the slot, the fork, the genesis data, the latest
block header, the recent roots, the deposit data and index, the execution payload header, the
withdrawal cursors, the pending partial withdrawals, or the consolidation churn. -/
theorem C59_epoch_frame (E : Env) (f : Fork) (s : State) :
    let s' := finalState (process_epoch E f) s
    s'.slot = s.slot ∧ s'.fork = s.fork ∧ s'.genesis_time = s.genesis_time ∧
    s'.genesis_validators_root = s.genesis_validators_root ∧
    s'.latest_block_header = s.latest_block_header ∧
    s'.block_roots = s.block_roots ∧ s'.state_roots = s.state_roots ∧
    s'.eth1_data = s.eth1_data ∧ s'.eth1_deposit_index = s.eth1_deposit_index ∧
    s'.latest_execution_payload_header = s.latest_execution_payload_header ∧
    s'.next_withdrawal_index = s.next_withdrawal_index ∧
    s'.next_withdrawal_validator_index = s.next_withdrawal_validator_index ∧
    s'.deposit_receipts_start_index = s.deposit_receipts_start_index ∧
    s'.pending_partial_withdrawals = s.pending_partial_withdrawals ∧
    s'.consolidation_balance_to_consume = s.consolidation_balance_to_consume ∧
    s'.earliest_consolidation_epoch = s.earliest_consolidation_epoch := by
  have h := fun x => (epoch_mod (E := E) (f := f)).final s x
  exact ⟨h .slot (by decide), h .fork (by decide), h .genesis_time (by decide),
    h .genesis_validators_root (by decide), h .latest_block_header (by decide),
    h .block_roots (by decide), h .state_roots (by decide), h .eth1_data (by decide),
    h .eth1_deposit_index (by decide), h .latest_execution_payload_header (by decide),
    h .next_withdrawal_index (by decide), h .next_withdrawal_validator_index (by decide),
    h .deposit_receipts_start_index (by decide), h .pending_partial_withdrawals (by decide),
    h .consolidation_balance_to_consume (by decide), h .earliest_consolidation_epoch (by decide)⟩

/-- **C59** No call ever changes the fork record, the genesis time or the genesis validators
root: only upgrades and genesis write them. -/
theorem C59_identity_is_fixed (E : Env) (f : Fork) (s s' : State) (h : History E f s s') :
    s'.fork = s.fork ∧ s'.genesis_time = s.genesis_time ∧
    s'.genesis_validators_root = s.genesis_validators_root := by
  have hp := history_pres (r := ChangesOnly allMutable) (changesPre _) (fun m hm => entry_mod hm) h
  exact ⟨hp .fork (by decide), hp .genesis_time (by decide),
    hp .genesis_validators_root (by decide)⟩

/-- **C59** The individual operations. -/
theorem C59_operation_frames (E : Env) (f : Fork) (s : State) :
    (∀ b, ChangesOnly [.latest_block_header] s (finalState (process_block_header E f b) s)) ∧
    (∀ b, ChangesOnly [.randao_mixes] s (finalState (process_randao E b) s)) ∧
    (∀ b, ChangesOnly [.eth1_data, .eth1_data_votes] s (finalState (process_eth1_data E b) s)) ∧
    (∀ b, ChangesOnly [.latest_execution_payload_header] s
      (finalState (process_execution_payload E f b) s)) ∧
    (∀ p, ChangesOnly [.balances, .pending_partial_withdrawals, .next_withdrawal_index,
      .next_withdrawal_validator_index] s (finalState (process_withdrawals E f p) s)) ∧
    (∀ a, ChangesOnly [.balances] s (finalState (process_sync_aggregate E a) s)) ∧
    (∀ op, ChangesOnly [.validators, .balances, .slashings, .exit_balance_to_consume,
      .earliest_exit_epoch] s (finalState (process_proposer_slashing E f op) s)) ∧
    (∀ op, ChangesOnly [.validators, .balances, .slashings, .exit_balance_to_consume,
      .earliest_exit_epoch] s (finalState (process_attester_slashing E f op) s)) ∧
    (∀ a, ChangesOnly [.current_epoch_attestations, .previous_epoch_attestations,
      .current_epoch_participation, .previous_epoch_participation, .balances] s
      (finalState (process_attestation E f a) s)) ∧
    (∀ d, ChangesOnly [.eth1_deposit_index, .validators, .balances,
      .previous_epoch_participation, .current_epoch_participation, .inactivity_scores,
      .pending_balance_deposits] s (finalState (process_deposit E f d) s)) ∧
    (∀ op, ChangesOnly [.validators, .exit_balance_to_consume, .earliest_exit_epoch] s
      (finalState (process_voluntary_exit E f op) s)) ∧
    (∀ op, ChangesOnly [.validators] s
      (finalState (process_bls_to_execution_change E op) s)) ∧
    (∀ r, ChangesOnly [.validators, .exit_balance_to_consume, .earliest_exit_epoch,
      .pending_partial_withdrawals] s
      (finalState (Electra.process_execution_layer_withdrawal_request E r) s)) ∧
    (∀ r, ChangesOnly [.deposit_receipts_start_index, .validators, .balances,
      .previous_epoch_participation, .current_epoch_participation, .inactivity_scores,
      .pending_balance_deposits] s (finalState (Electra.process_deposit_receipt E r) s)) ∧
    (∀ op, ChangesOnly [.validators, .consolidation_balance_to_consume,
      .earliest_consolidation_epoch, .pending_consolidations] s
      (finalState (Electra.process_consolidation E op) s)) :=
  ⟨fun _ => header_mod.final s, fun _ => randao_mod.final s,
    fun _ => (Modifies.mono eth1_mod (by decide)).final s, fun _ => payload_mod.final s,
    fun _ => withdrawals_mod.final s, fun _ => sync_aggregate_mod.final s,
    fun _ => proposer_slashing_mod.final s, fun _ => attester_slashing_mod.final s,
    fun _ => attestation_mod.final s, fun _ => deposit_mod.final s,
    fun _ => voluntary_exit_mod.final s, fun _ => bls_change_mod.final s,
    fun _ => withdrawal_request_mod.final s, fun _ => deposit_receipt_mod.final s,
    fun _ => consolidation_mod.final s⟩

/-- **C59** The epoch sub-steps. -/
theorem C59_epoch_step_frames (E : Env) (f : Fork) (s : State) :
    ChangesOnly [.previous_justified_checkpoint, .current_justified_checkpoint,
      .justification_bits, .finalized_checkpoint] s
      (finalState (process_justification_and_finalization E f) s) ∧
    ChangesOnly [.inactivity_scores] s (finalState (process_inactivity_updates E) s) ∧
    ChangesOnly [.balances] s (finalState (process_rewards_and_penalties E f) s) ∧
    ChangesOnly [.validators, .exit_balance_to_consume, .earliest_exit_epoch] s
      (finalState (process_registry_updates E f) s) ∧
    ChangesOnly [.balances] s (finalState (process_slashings E f) s) ∧
    ChangesOnly [.eth1_data_votes] s (finalState (process_eth1_data_reset E) s) ∧
    ChangesOnly [.balances, .pending_balance_deposits, .deposit_balance_to_consume] s
      (finalState (Electra.process_pending_balance_deposits E) s) ∧
    ChangesOnly [.validators, .balances, .pending_balance_deposits, .pending_consolidations] s
      (finalState (Electra.process_pending_consolidations E) s) ∧
    ChangesOnly [.validators] s (finalState (process_effective_balance_updates E f) s) ∧
    ChangesOnly [.slashings] s (finalState (process_slashings_reset E) s) ∧
    ChangesOnly [.randao_mixes] s (finalState (process_randao_mixes_reset E) s) ∧
    ChangesOnly [.historical_roots, .historical_summaries] s
      (finalState (process_historical_update E f) s) ∧
    ChangesOnly [.previous_epoch_attestations, .current_epoch_attestations] s
      (finalState process_participation_record_updates s) ∧
    ChangesOnly [.previous_epoch_participation, .current_epoch_participation] s
      (finalState process_participation_flag_updates s) ∧
    ChangesOnly [.current_sync_committee, .next_sync_committee] s
      (finalState (process_sync_committee_updates E) s) :=
  ⟨justification_mod.final s, inactivity_mod.final s, rewards_mod.final s, registry_mod.final s,
    slashings_mod.final s, eth1_reset_mod.final s, pending_deposits_mod.final s,
    pending_consolidations_mod.final s, effective_mod.final s, slashings_reset_mod.final s,
    randao_reset_mod.final s, historical_mod.final s, record_updates_mod.final s,
    flag_updates_mod.final s, sync_committees_mod.final s⟩

/-- The frame is not empty of content: an epoch does change the fields it may change. -/
example :
    let s' := finalState (process_epoch Toy.env .Altair) (Toy.state 8 15)
    (s'.slot, decide (s'.balances = (Toy.state 8 15).balances),
      decide (s'.randao_mixes = (Toy.state 8 15).randao_mixes)) = (15, false, false) := by
  decide +kernel

end Verif.Props
