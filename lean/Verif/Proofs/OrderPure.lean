import Verif.Spec.Order
import Verif.Proofs.OrderAttr

/-! # Functions that visit no hash set -/

namespace Verif
open Spec

variable {E : Env} {v : Order}

@[ord] theorem pivot_word_ord : pivot_word (reorder E v) = pivot_word E := rfl

@[ord] theorem source_block_ord : source_block (reorder E v) = source_block E := rfl

@[ord] theorem shuffle_round_ord : shuffle_round (reorder E v) = shuffle_round E := rfl

@[ord] theorem compute_shuffled_index_ord :
    compute_shuffled_index (reorder E v) = compute_shuffled_index E :=
  rfl

@[ord] theorem sync_committee_loop_ord :
    sync_committee_loop (reorder E v) = sync_committee_loop E := by
  funext s active seed n i acc
  induction n generalizing i acc with
  | zero => rfl
  | succ n ih =>
    simp only [sync_committee_loop, ih, ord]
    rfl

@[ord] theorem compute_epoch_at_slot_ord :
    compute_epoch_at_slot (reorder E v) = compute_epoch_at_slot E :=
  rfl

@[ord] theorem get_current_epoch_ord : get_current_epoch (reorder E v) = get_current_epoch E := rfl

@[ord] theorem get_randao_mix_ord : get_randao_mix (reorder E v) = get_randao_mix E := rfl

@[ord] theorem get_seed_ord : get_seed (reorder E v) = get_seed E := rfl

@[ord] theorem get_next_sync_committee_indices_ord :
    get_next_sync_committee_indices (reorder E v) = get_next_sync_committee_indices E := by
  unfold get_next_sync_committee_indices
  simp only [ord]
  rfl

@[ord] theorem get_next_sync_committee_ord :
    get_next_sync_committee (reorder E v) = get_next_sync_committee E := by
  unfold get_next_sync_committee
  simp only [ord]
  rfl

@[ord] theorem compute_start_slot_at_epoch_ord :
    compute_start_slot_at_epoch (reorder E v) = compute_start_slot_at_epoch E :=
  rfl

@[ord] theorem get_block_root_at_slot_ord :
    get_block_root_at_slot (reorder E v) = get_block_root_at_slot E :=
  rfl

@[ord] theorem get_block_root_ord : get_block_root (reorder E v) = get_block_root E := rfl

@[ord] theorem get_attestation_participation_flag_indices_ord :
    get_attestation_participation_flag_indices (reorder E v) = get_attestation_participation_flag_indices E :=
  rfl

@[ord] theorem shuffle_step_ord : shuffle_step (reorder E v) = shuffle_step E := rfl

@[ord] theorem shuffle_list_round_ord :
    shuffle_list_round (reorder E v) = shuffle_list_round E :=
  rfl

@[ord] theorem compute_shuffled_indices_ord :
    compute_shuffled_indices (reorder E v) = compute_shuffled_indices E :=
  rfl

@[ord] theorem sample_proposer_index_ord :
    sample_proposer_index (reorder E v) = sample_proposer_index E :=
  rfl

@[ord] theorem proposer_loop_ord : proposer_loop (reorder E v) = proposer_loop E := by
  funext s seed c n i
  induction n generalizing i with
  | zero => rfl
  | succ n ih =>
    simp only [proposer_loop, ih, ord]

@[ord] theorem compute_proposer_index_ord :
    compute_proposer_index (reorder E v) = compute_proposer_index E := by
  unfold compute_proposer_index
  simp only [ord]
  rfl

@[ord] theorem get_beacon_proposer_index_ord :
    get_beacon_proposer_index (reorder E v) = get_beacon_proposer_index E := by
  unfold get_beacon_proposer_index
  simp only [ord]
  rfl

@[ord] theorem process_block_header_ord :
    process_block_header (reorder E v) = process_block_header E := by
  unfold process_block_header
  simp only [ord]
  rfl

@[ord] theorem compute_signing_root_ord :
    compute_signing_root (reorder E v) = compute_signing_root E :=
  rfl

@[ord] theorem compute_fork_data_root_ord :
    compute_fork_data_root (reorder E v) = compute_fork_data_root E :=
  rfl

@[ord] theorem compute_domain_ord : compute_domain (reorder E v) = compute_domain E := rfl

@[ord] theorem get_domain_ord : get_domain (reorder E v) = get_domain E := rfl

@[ord] theorem process_randao_ord : process_randao (reorder E v) = process_randao E := by
  unfold process_randao
  simp only [ord]
  rfl

@[ord] theorem process_eth1_data_ord : process_eth1_data (reorder E v) = process_eth1_data E := rfl

@[ord] theorem check_deposit_count_ord :
    check_deposit_count (reorder E v) = check_deposit_count E :=
  rfl

@[ord] theorem eth_fast_aggregate_verify_ord :
    eth_fast_aggregate_verify (reorder E v) = eth_fast_aggregate_verify E :=
  rfl

@[ord] theorem apply_sync_reward_ord : apply_sync_reward (reorder E v) = apply_sync_reward E := by
  unfold apply_sync_reward
  simp only [ord]

@[ord] theorem compute_timestamp_at_slot_ord :
    compute_timestamp_at_slot (reorder E v) = compute_timestamp_at_slot E :=
  rfl

@[ord] theorem header_of_payload_ord : header_of_payload (reorder E v) = header_of_payload E := rfl

@[ord] theorem kzg_commitment_to_versioned_hash_ord :
    kzg_commitment_to_versioned_hash (reorder E v) = kzg_commitment_to_versioned_hash E :=
  rfl

@[ord] theorem payload_request_ord : payload_request (reorder E v) = payload_request E := rfl

@[ord] theorem process_execution_payload_ord :
    process_execution_payload (reorder E v) = process_execution_payload E :=
  rfl

@[ord] theorem Electra_partials_loop_ord :
    Electra.partials_loop (reorder E v) = Electra.partials_loop E := by
  funext s epoch k l i acc
  induction l generalizing i acc with
  | nil => rfl
  | cons x l ih =>
    simp only [Electra.partials_loop, ih, ord]
    rfl

@[ord] theorem Electra_get_validator_max_effective_balance_ord :
    Electra.get_validator_max_effective_balance (reorder E v) = Electra.get_validator_max_effective_balance E :=
  rfl

@[ord] theorem is_partially_withdrawable_validator_ord :
    is_partially_withdrawable_validator (reorder E v) = is_partially_withdrawable_validator E :=
  rfl

@[ord] theorem sweep_amount_ord : sweep_amount (reorder E v) = sweep_amount E := rfl

@[ord] theorem sweep_loop_ord : sweep_loop (reorder E v) = sweep_loop E := by
  funext f s epoch n i j acc
  induction n generalizing i j acc with
  | zero => rfl
  | succ n ih =>
    simp only [sweep_loop, ih, ord]
    rfl

@[ord] theorem get_expected_withdrawals_ord :
    get_expected_withdrawals (reorder E v) = get_expected_withdrawals E := by
  unfold get_expected_withdrawals
  simp only [ord]
  rfl

@[ord] theorem next_sweep_start_ord : next_sweep_start (reorder E v) = next_sweep_start E := rfl

@[ord] theorem process_withdrawals_ord :
    process_withdrawals (reorder E v) = process_withdrawals E := by
  unfold process_withdrawals
  simp only [ord]

@[ord] theorem process_block_payload_ord :
    process_block_payload (reorder E v) = process_block_payload E := by
  unfold process_block_payload
  simp only [ord]

@[ord] theorem Electra_get_active_balance_ord :
    Electra.get_active_balance (reorder E v) = Electra.get_active_balance E :=
  rfl

@[ord] theorem compute_committee_ord : compute_committee (reorder E v) = compute_committee E := rfl

@[ord] theorem get_committee_count_per_slot_ord :
    get_committee_count_per_slot (reorder E v) = get_committee_count_per_slot E :=
  rfl

@[ord] theorem get_beacon_committee_ord :
    get_beacon_committee (reorder E v) = get_beacon_committee E :=
  rfl

@[ord] theorem Electra_attesters_from_ord :
    Electra.attesters_from (reorder E v) = Electra.attesters_from E := by
  funext s a k l
  induction l generalizing k with
  | nil => rfl
  | cons x l ih =>
    simp only [Electra.attesters_from, ih, ord]

@[ord] theorem Electra_queue_excess_active_balance_ord :
    Electra.queue_excess_active_balance (reorder E v) = Electra.queue_excess_active_balance E :=
  rfl

@[ord] theorem Electra_switch_to_compounding_validator_ord :
    Electra.switch_to_compounding_validator (reorder E v) = Electra.switch_to_compounding_validator E :=
  rfl

@[ord] theorem justify_epoch_ord : justify_epoch (reorder E v) = justify_epoch E := rfl

@[ord] theorem get_previous_epoch_ord :
    get_previous_epoch (reorder E v) = get_previous_epoch E :=
  rfl

@[ord] theorem weigh_justification_and_finalization_ord :
    weigh_justification_and_finalization (reorder E v) = weigh_justification_and_finalization E :=
  rfl

@[ord] theorem next_inactivity_score_ord :
    next_inactivity_score (reorder E v) = next_inactivity_score E :=
  rfl

@[ord] theorem mark_eligible_ord : mark_eligible (reorder E v) = mark_eligible E := rfl

@[ord] theorem get_validator_churn_limit_ord :
    get_validator_churn_limit (reorder E v) = get_validator_churn_limit E :=
  rfl

@[ord] theorem activation_limit_ord : activation_limit (reorder E v) = activation_limit E := rfl

@[ord] theorem to_activate_ord : to_activate (reorder E v) = to_activate E := rfl

@[ord] theorem proportional_slashing_multiplier_of_ord :
    proportional_slashing_multiplier_of (reorder E v) = proportional_slashing_multiplier_of E :=
  rfl

@[ord] theorem slashing_penalty_ord : slashing_penalty (reorder E v) = slashing_penalty E := rfl

@[ord] theorem apply_slashing_penalty_ord :
    apply_slashing_penalty (reorder E v) = apply_slashing_penalty E :=
  rfl

@[ord] theorem Electra_pending_consolidations_loop_ord :
    Electra.pending_consolidations_loop (reorder E v) = Electra.pending_consolidations_loop E := by
  funext l k
  induction l generalizing k with
  | nil => rfl
  | cons x l ih =>
    simp only [Electra.pending_consolidations_loop, ih, ord]

@[ord] theorem Electra_process_pending_consolidations_ord :
    Electra.process_pending_consolidations (reorder E v) = Electra.process_pending_consolidations E := by
  unfold Electra.process_pending_consolidations
  simp only [ord]

@[ord] theorem process_eth1_data_reset_ord :
    process_eth1_data_reset (reorder E v) = process_eth1_data_reset E :=
  rfl

@[ord] theorem effective_balance_limit_ord :
    effective_balance_limit (reorder E v) = effective_balance_limit E :=
  rfl

@[ord] theorem updated_effective_balance_ord :
    updated_effective_balance (reorder E v) = updated_effective_balance E :=
  rfl

@[ord] theorem process_effective_balance_updates_ord :
    process_effective_balance_updates (reorder E v) = process_effective_balance_updates E :=
  rfl

@[ord] theorem process_slashings_reset_ord :
    process_slashings_reset (reorder E v) = process_slashings_reset E :=
  rfl

@[ord] theorem process_randao_mixes_reset_ord :
    process_randao_mixes_reset (reorder E v) = process_randao_mixes_reset E :=
  rfl

@[ord] theorem process_historical_update_ord :
    process_historical_update (reorder E v) = process_historical_update E :=
  rfl

@[ord] theorem process_sync_committee_updates_ord :
    process_sync_committee_updates (reorder E v) = process_sync_committee_updates E := by
  unfold process_sync_committee_updates
  simp only [ord]
  rfl

@[ord] theorem fork_slot_ord : fork_slot (reorder E v) = fork_slot E := rfl

@[ord] theorem check_attestation_data_ord :
    check_attestation_data (reorder E v) = check_attestation_data E :=
  rfl

@[ord] theorem check_attestation_committee_ord :
    check_attestation_committee (reorder E v) = check_attestation_committee E :=
  rfl

@[ord] theorem Electra_participants_count_ord :
    Electra.participants_count (reorder E v) = Electra.participants_count E := by
  funext s slot c l n
  induction l generalizing n with
  | nil => rfl
  | cons x l ih =>
    simp only [Electra.participants_count, ih, ord]

@[ord] theorem Electra_check_attestation_committees_ord :
    Electra.check_attestation_committees (reorder E v) = Electra.check_attestation_committees E := by
  unfold Electra.check_attestation_committees
  simp only [ord]

@[ord] theorem reward_attestation_proposer_ord :
    reward_attestation_proposer (reorder E v) = reward_attestation_proposer E := by
  unfold reward_attestation_proposer
  simp only [ord]

@[ord] theorem get_validator_from_deposit_ord :
    get_validator_from_deposit (reorder E v) = get_validator_from_deposit E :=
  rfl

@[ord] theorem add_validator_to_registry_ord :
    add_validator_to_registry (reorder E v) = add_validator_to_registry E :=
  rfl

@[ord] theorem deposit_signature_ok_ord :
    deposit_signature_ok (reorder E v) = deposit_signature_ok E :=
  rfl

@[ord] theorem Phase0_apply_deposit_ord :
    Phase0.apply_deposit (reorder E v) = Phase0.apply_deposit E :=
  rfl

@[ord] theorem Electra_apply_deposit_ord :
    Electra.apply_deposit (reorder E v) = Electra.apply_deposit E :=
  rfl

@[ord] theorem apply_deposit_ord : apply_deposit (reorder E v) = apply_deposit E := rfl

@[ord] theorem process_deposit_ord : process_deposit (reorder E v) = process_deposit E := rfl

@[ord] theorem voluntary_exit_domain_ord :
    voluntary_exit_domain (reorder E v) = voluntary_exit_domain E :=
  rfl

@[ord] theorem verify_signed_data_ord :
    verify_signed_data (reorder E v) = verify_signed_data E :=
  rfl

@[ord] theorem process_bls_to_execution_change_ord :
    process_bls_to_execution_change (reorder E v) = process_bls_to_execution_change E :=
  rfl

@[ord] theorem Electra_process_deposit_receipt_ord :
    Electra.process_deposit_receipt (reorder E v) = Electra.process_deposit_receipt E :=
  rfl

@[ord] theorem compute_activation_exit_epoch_ord :
    compute_activation_exit_epoch (reorder E v) = compute_activation_exit_epoch E :=
  rfl

@[ord] theorem is_valid_indexed_attestation_ord :
    is_valid_indexed_attestation (reorder E v) = is_valid_indexed_attestation E :=
  rfl

@[ord] theorem verify_block_signature_ord :
    verify_block_signature (reorder E v) = verify_block_signature E :=
  rfl

@[ord] theorem get_total_balance_ord : get_total_balance (reorder E v) = get_total_balance E := rfl

@[ord] theorem get_eligible_validator_indices_ord :
    get_eligible_validator_indices (reorder E v) = get_eligible_validator_indices E :=
  rfl

@[ord] theorem exit_queue_epoch_ord : exit_queue_epoch (reorder E v) = exit_queue_epoch E := rfl

@[ord] theorem initiate_validator_exit_ord :
    initiate_validator_exit (reorder E v) = initiate_validator_exit E :=
  rfl

@[ord] theorem get_finality_delay_ord :
    get_finality_delay (reorder E v) = get_finality_delay E :=
  rfl

@[ord] theorem is_in_inactivity_leak_ord :
    is_in_inactivity_leak (reorder E v) = is_in_inactivity_leak E :=
  rfl

@[ord] theorem Phase0_get_matching_source_attestations_ord :
    Phase0.get_matching_source_attestations (reorder E v) = Phase0.get_matching_source_attestations E :=
  rfl

@[ord] theorem Phase0_get_matching_target_attestations_ord :
    Phase0.get_matching_target_attestations (reorder E v) = Phase0.get_matching_target_attestations E :=
  rfl

@[ord] theorem Phase0_get_matching_head_attestations_ord :
    Phase0.get_matching_head_attestations (reorder E v) = Phase0.get_matching_head_attestations E :=
  rfl

@[ord] theorem inactivity_penalty_quotient_of_ord :
    inactivity_penalty_quotient_of (reorder E v) = inactivity_penalty_quotient_of E :=
  rfl

@[ord] theorem inactivity_delta_ord : inactivity_delta (reorder E v) = inactivity_delta E := rfl

@[ord] theorem min_slashing_penalty_quotient_of_ord :
    min_slashing_penalty_quotient_of (reorder E v) = min_slashing_penalty_quotient_of E :=
  rfl

@[ord] theorem whistleblower_reward_quotient_of_ord :
    whistleblower_reward_quotient_of (reorder E v) = whistleblower_reward_quotient_of E :=
  rfl

@[ord] theorem slashing_proposer_reward_ord :
    slashing_proposer_reward (reorder E v) = slashing_proposer_reward E :=
  rfl

@[ord] theorem process_slot_ord : process_slot (reorder E v) = process_slot E := rfl

@[ord] theorem verify_block_signature_if_ord :
    verify_block_signature_if (reorder E v) = verify_block_signature_if E :=
  rfl

@[ord] theorem defaultSyncCommittee_ord :
    defaultSyncCommittee (reorder E v) = defaultSyncCommittee E :=
  rfl

@[ord] theorem altair_base_ord : altair_base (reorder E v) = altair_base E := rfl

@[ord] theorem upgrade_to_bellatrix_ord :
    upgrade_to_bellatrix (reorder E v) = upgrade_to_bellatrix E :=
  rfl

@[ord] theorem upgrade_to_capella_ord :
    upgrade_to_capella (reorder E v) = upgrade_to_capella E :=
  rfl

@[ord] theorem upgrade_to_deneb_ord : upgrade_to_deneb (reorder E v) = upgrade_to_deneb E := rfl

@[ord] theorem electra_base_ord : electra_base (reorder E v) = electra_base E := rfl


end Verif
