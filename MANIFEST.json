{
 "claims": [
  {
   "property": "C01",
   "status": "proved",
   "theorems": [
    "Verif.Props.C01_compute_shuffled_index_permutation"
   ],
   "note": ""
  },
  {
   "property": "C02",
   "status": "proved",
   "theorems": [
    "Verif.Props.C02_list_shuffle_eq_index_shuffle",
    "Verif.Props.C02_committee_feature_independent",
    "Verif.Props.C02_proposer_feature_independent"
   ],
   "note": ""
  },
  {
   "property": "C03",
   "status": "proved",
   "theorems": [
    "Verif.Props.C03_committees_partition",
    "Verif.Props.C03_exactly_one_committee"
   ],
   "note": ""
  },
  {
   "property": "C04",
   "status": "proved",
   "theorems": [
    "Verif.Props.C04_committee_count_bounds",
    "Verif.Props.C04_committee_sizes_balanced"
   ],
   "note": ""
  },
  {
   "property": "C05",
   "status": "proved",
   "theorems": [
    "Verif.Props.C05_proposer_first_accepted",
    "Verif.Props.C05_no_active_validator",
    "Verif.Props.C05_feature_independent"
   ],
   "note": ""
  },
  {
   "property": "C06",
   "status": "proved",
   "theorems": [
    "Verif.Props.C06_slashable_iff",
    "Verif.Props.C06_honest_iff_not_slashable",
    "Verif.Props.C06_cautious_never_slashable"
   ],
   "note": ""
  },
  {
   "property": "C07",
   "status": "proved",
   "theorems": [
    "Verif.Props.C07_indexed_attestation_iff",
    "Verif.Props.C07_indexed_attestation_no_panic"
   ],
   "note": ""
  },
  {
   "property": "C08",
   "status": "proved",
   "theorems": [
    "Verif.Props.C08_decrease_balance",
    "Verif.Props.C08_increase_balance",
    "Verif.Props.C08_balance_out_of_range"
   ],
   "note": ""
  },
  {
   "property": "C09",
   "status": "proved",
   "theorems": [
    "Verif.Props.C09_exit_idempotent",
    "Verif.Props.C09_exit_assigns",
    "Verif.Props.C09_exit_rate",
    "Verif.Props.C09_exit_sequence_rate",
    "Verif.Props.C09_exit_succeeds"
   ],
   "note": ""
  },
  {
   "property": "C10",
   "status": "proved",
   "theorems": [
    "Verif.Props.C10_slash_validator_effects",
    "Verif.Props.C10_slash_validator_validators",
    "Verif.Props.C10_slash_validator_balances"
   ],
   "note": ""
  },
  {
   "property": "C11",
   "status": "proved",
   "theorems": [
    "Verif.Props.C11_registry_moves_forward",
    "Verif.Props.C11_withdrawable_never_lowered",
    "Verif.Props.C11_withdrawal_address_is_fixed"
   ],
   "note": ""
  },
  {
   "property": "C12",
   "status": "proved",
   "theorems": [
    "Verif.Props.C12_reachable_states_are_parallel",
    "Verif.Props.C12_calls_keep_lengths"
   ],
   "note": ""
  },
  {
   "property": "C13",
   "status": "proved",
   "theorems": [
    "Verif.Props.C13_proposer_slashing_iff",
    "Verif.Props.C13_proposer_slashing_rejects"
   ],
   "note": ""
  },
  {
   "property": "C14",
   "status": "proved",
   "theorems": [
    "Verif.Props.C14_attester_slashing_iff",
    "Verif.Props.C14_attester_slashing_slashes"
   ],
   "note": ""
  },
  {
   "property": "C15",
   "status": "proved",
   "theorems": [
    "Verif.Props.C15_block_header_iff",
    "Verif.Props.C15_one_block_per_slot"
   ],
   "note": ""
  },
  {
   "property": "C16",
   "status": "proved",
   "theorems": [
    "Verif.Props.C16_rejects_past_targets",
    "Verif.Props.C16_process_slots_iff",
    "Verif.Props.C16_epoch_ends",
    "Verif.Props.C16_epoch_count",
    "Verif.Props.C16_stages"
   ],
   "note": ""
  },
  {
   "property": "C17",
   "status": "proved",
   "theorems": [
    "Verif.Props.C17_block_roots_remembered",
    "Verif.Props.C17_state_roots_remembered",
    "Verif.Props.C17_log_is_complete",
    "Verif.Props.C17_other_slots_are_errors",
    "Verif.Props.C17_slot_out_of_range"
   ],
   "note": ""
  },
  {
   "property": "C18",
   "status": "proved",
   "theorems": [
    "Verif.Props.C18_process_randao_iff",
    "Verif.Props.C18_process_randao_history",
    "Verif.Props.C18_process_randao_current",
    "Verif.Props.C18_mix_involutive",
    "Verif.Props.C18_reset",
    "Verif.Props.C18_history"
   ],
   "note": ""
  },
  {
   "property": "C19",
   "status": "proved",
   "theorems": [
    "Verif.Props.C19_rules",
    "Verif.Props.C19_order",
    "Verif.Props.C19_monotone",
    "Verif.Props.C19_genesis",
    "Verif.Props.C19_justified",
    "Verif.Props.C19_finalized"
   ],
   "note": ""
  },
  {
   "property": "C20",
   "status": "proved",
   "theorems": [
    "Verif.Props.C20_update",
    "Verif.Props.C20_capped"
   ],
   "note": ""
  },
  {
   "property": "C21",
   "status": "proved",
   "theorems": [
    "Verif.Props.C21_queue"
   ],
   "note": ""
  },
  {
   "property": "C22",
   "status": "proved",
   "theorems": [
    "Verif.Props.C22_penalties",
    "Verif.Props.C22_bound"
   ],
   "note": ""
  },
  {
   "property": "C23",
   "status": "proved",
   "theorems": [
    "Verif.Props.C23_block_adds_to_current_epoch",
    "Verif.Props.C23_reset",
    "Verif.Props.C23_epoch_resets_next_entry",
    "Verif.Props.C23_window",
    "Verif.Props.C23_sum"
   ],
   "note": ""
  },
  {
   "property": "C24",
   "status": "proved",
   "theorems": [
    "Verif.Props.C24_process_eth1_data",
    "Verif.Props.C24_reset",
    "Verif.Props.C24_votes_bounded",
    "Verif.Props.C24_slots_keep_eth1_data"
   ],
   "note": ""
  },
  {
   "property": "C25",
   "status": "proved",
   "theorems": [
    "Verif.Props.C25_process_deposit_iff",
    "Verif.Props.C25_electra_process_deposit_iff",
    "Verif.Props.C25_effect_unique",
    "Verif.Props.C25_deposits_in_order",
    "Verif.Props.C25_block"
   ],
   "note": ""
  },
  {
   "property": "C26",
   "status": "partial",
   "theorems": [
    "Verif.Props.C26_due_deposits_partial",
    "Verif.Props.C26_wrong_count_rejected_partial",
    "Verif.Props.C26_electra_due_deposits_reject_everything",
    "Verif.Props.C26_electra_no_due_deposits_no_check"
   ],
   "note": "Proved for every fork before electra. False of the code in electra: C26_electra_due_deposits_reject_everything and C26_electra_no_due_deposits_no_check say what it does instead."
  },
  {
   "property": "C27",
   "status": "proved",
   "theorems": [
    "Verif.Props.C27_voluntary_exit_iff",
    "Verif.Props.C27_voluntary_exit_once"
   ],
   "note": ""
  },
  {
   "property": "C28",
   "status": "proved",
   "theorems": [
    "Verif.Props.C28_process_attestation_iff",
    "Verif.Props.C28_voters_unique"
   ],
   "note": ""
  },
  {
   "property": "C29",
   "status": "proved",
   "theorems": [
    "Verif.Props.C29_kept",
    "Verif.Props.C29_add_flag",
    "Verif.Props.C29_has_flag",
    "Verif.Props.C29_add_flag_laws",
    "Verif.Props.C29_flags_determine"
   ],
   "note": ""
  },
  {
   "property": "C30",
   "status": "proved",
   "theorems": [
    "Verif.Props.C30_process_attestation_effect",
    "Verif.Props.C30_flags_never_cleared",
    "Verif.Props.C30_no_reward_twice",
    "Verif.Props.C30_visiting_order",
    "Verif.Props.C30_electra_process_attestation_effect"
   ],
   "note": ""
  },
  {
   "property": "C31",
   "status": "proved",
   "theorems": [
    "Verif.Props.C31_scores"
   ],
   "note": ""
  },
  {
   "property": "C32",
   "status": "proved",
   "theorems": [
    "Verif.Props.C32_sync_aggregate",
    "Verif.Props.C32_amounts"
   ],
   "note": ""
  },
  {
   "property": "C33",
   "status": "proved",
   "theorems": [
    "Verif.Props.C33_drawn",
    "Verif.Props.C33_rotation",
    "Verif.Props.C33_constant"
   ],
   "note": ""
  },
  {
   "property": "C34",
   "status": "proved",
   "theorems": [
    "Verif.Props.C34_carried",
    "Verif.Props.C34_altair",
    "Verif.Props.C34_bellatrix",
    "Verif.Props.C34_capella",
    "Verif.Props.C34_deneb",
    "Verif.Props.C34_electra",
    "Verif.Props.C34_electra_total"
   ],
   "note": ""
  },
  {
   "property": "C35",
   "status": "proved",
   "theorems": [
    "Verif.Props.C35_crossing",
    "Verif.Props.C35_boundary",
    "Verif.Props.C35_same_fork",
    "Verif.Props.C35_no_downgrade",
    "Verif.Props.C35_result",
    "Verif.Props.C35_failure",
    "Verif.Props.C35_stuck"
   ],
   "note": ""
  },
  {
   "property": "C36",
   "status": "proved",
   "theorems": [
    "Verif.Props.C36_latest_reached",
    "Verif.Props.C36_total",
    "Verif.Props.C36_monotone",
    "Verif.Props.C36_version"
   ],
   "note": ""
  },
  {
   "property": "C37",
   "status": "proved",
   "theorems": [
    "Verif.Props.C37_builder_domain",
    "Verif.Props.C37_builder_separate",
    "Verif.Props.C37_domain_types_distinct",
    "Verif.Props.C37_compute_domain",
    "Verif.Props.C37_purposes_separate",
    "Verif.Props.C37_forks_separate",
    "Verif.Props.C37_get_domain",
    "Verif.Props.C37_get_domain_default"
   ],
   "note": ""
  },
  {
   "property": "C38",
   "status": "proved",
   "theorems": [
    "Verif.Props.C38_slot_iff",
    "Verif.Props.C38_before_genesis",
    "Verif.Props.C38_seconds",
    "Verif.Props.C38_roundtrip",
    "Verif.Props.C38_timestamp_iff",
    "Verif.Props.C38_monotone",
    "Verif.Props.C38_epoch",
    "Verif.Props.C38_until_slot",
    "Verif.Props.C38_until_next_slot",
    "Verif.Props.C38_no_panic",
    "Verif.Props.C38_networks",
    "Verif.Props.C38_genesis_times",
    "Verif.Props.C38_hoodi",
    "Verif.Props.C38_typical",
    "Verif.Props.C38_typical_iff"
   ],
   "note": "The genesis times are those published by the networks (Spec/Clock.lean). The code knows none for Hoodi: C38_hoodi."
  },
  {
   "property": "C39",
   "status": "partial",
   "theorems": [
    "Verif.Props.C39_current_partial",
    "Verif.Props.C39_sorted_partial",
    "Verif.Props.C39_once_partial",
    "Verif.Props.C39_next_partial",
    "Verif.Props.C39_no_panic",
    "Verif.Props.C39_skips",
    "Verif.Props.C39_repeats"
   ],
   "note": "The full claim is false of the code: C39_skips (a consumer that polls late) and C39_repeats (a slot that starts during a poll). The partial theorems hold for every schedule, or for every schedule without these two."
  },
  {
   "property": "C40",
   "status": "proved",
   "theorems": [
    "Verif.Props.C40_hex_roundtrip",
    "Verif.Props.C40_hex_written",
    "Verif.Props.C40_hex_iff",
    "Verif.Props.C40_hex_odd",
    "Verif.Props.C40_vector",
    "Verif.Props.C40_list",
    "Verif.Props.C40_abbreviation",
    "Verif.Props.C40_decimal_roundtrip",
    "Verif.Props.C40_decimal_written",
    "Verif.Props.C40_decimal_iff",
    "Verif.Props.C40_sequence",
    "Verif.Props.C40_sequence_iff"
   ],
   "note": ""
  },
  {
   "property": "C41",
   "status": "proved",
   "theorems": [
    "Verif.Props.C41_state_iff",
    "Verif.Props.C41_state_roundtrip",
    "Verif.Props.C41_unprefixed_root_is_a_slot",
    "Verif.Props.C41_block",
    "Verif.Props.C41_block_injective",
    "Verif.Props.C41_validator_injective",
    "Verif.Props.C41_status_injective",
    "Verif.Props.C41_network",
    "Verif.Props.C41_network_iff",
    "Verif.Props.C41_custom_network"
   ],
   "note": "BlockId, PublicKeyOrIndex and ValidatorStatus are only printed by the code: injectivity is proved. Custom networks do not parse back (C41_custom_network), roots without 0x may be read as slots (C41_unprefixed_root_is_a_slot)."
  },
  {
   "property": "C42",
   "status": "partial",
   "theorems": [
    "Verif.Props.C42_raw_partial",
    "Verif.Props.C42_sized_partial",
    "Verif.Props.C42_too_long",
    "Verif.Props.C42_dropped",
    "Verif.Props.C42_drops",
    "Verif.Props.C42_decode_panics"
   ],
   "note": "Raw and sized round trips for every length except those just above a multiple of 130048 bytes (including the header), for which the end of the data is dropped: C42_dropped says exactly what comes back, C42_drops is the counterexample. C42_decode_panics: the size check of the decoder is off by the header length."
  },
  {
   "property": "C43",
   "status": "proved",
   "theorems": [
    "Verif.Props.C43_packs",
    "Verif.Props.C43_valid",
    "Verif.Props.C43_count"
   ],
   "note": ""
  },
  {
   "property": "C44",
   "status": "proved",
   "theorems": [
    "Verif.Props.C44_expected",
    "Verif.Props.C44_bounded",
    "Verif.Props.C44_processed",
    "Verif.Props.C44_rejected",
    "Verif.Props.C44_conserved",
    "Verif.Props.C44_cursor_in_registry"
   ],
   "note": ""
  },
  {
   "property": "C45",
   "status": "proved",
   "theorems": [
    "Verif.Props.C45_no_skip",
    "Verif.Props.C45_paid_in_time"
   ],
   "note": ""
  },
  {
   "property": "C46",
   "status": "proved",
   "theorems": [
    "Verif.Props.C46_credential_change_iff",
    "Verif.Props.C46_credential_change_once"
   ],
   "note": ""
  },
  {
   "property": "C47",
   "status": "proved",
   "theorems": [
    "Verif.Props.C47_execution_payload_iff",
    "Verif.Props.C47_header_summarises",
    "Verif.Props.C47_payloads_chain",
    "Verif.Props.C47_payloads_chain_bellatrix"
   ],
   "note": ""
  },
  {
   "property": "C48",
   "status": "proved",
   "theorems": [
    "Verif.Props.C48_validated",
    "Verif.Props.C48_unvalidated",
    "Verif.Props.C48_same_state",
    "Verif.Props.C48_proposer",
    "Verif.Props.C48_apply_block"
   ],
   "note": ""
  },
  {
   "property": "C49",
   "status": "proved",
   "theorems": [
    "Verif.Props.C49_registry",
    "Verif.Props.C49_one_per_key",
    "Verif.Props.C49_activated",
    "Verif.Props.C49_state",
    "Verif.Props.C49_electra_signed",
    "Verif.Props.C49_succeeds",
    "Verif.Props.C49_valid_iff",
    "Verif.Props.C49_block"
   ],
   "note": ""
  },
  {
   "property": "C50",
   "status": "proved",
   "theorems": [
    "Verif.Props.C50_assigned",
    "Verif.Props.C50_never_earlier",
    "Verif.Props.C50_bounded",
    "Verif.Props.C50_bounded_by_churn",
    "Verif.Props.C50_churn_max",
    "Verif.Props.C50_never_back",
    "Verif.Props.C50_consolidations",
    "Verif.Props.C50_initiated"
   ],
   "note": ""
  },
  {
   "property": "C51",
   "status": "proved",
   "theorems": [
    "Verif.Props.C51_credited",
    "Verif.Props.C51_conserved"
   ],
   "note": ""
  },
  {
   "property": "C52",
   "status": "proved",
   "theorems": [
    "Verif.Props.C52_processed",
    "Verif.Props.C52_conserved"
   ],
   "note": ""
  },
  {
   "property": "C53",
   "status": "partial",
   "theorems": [
    "Verif.Props.C53_attesting_indices_partial",
    "Verif.Props.C53_attesting_indices_actual",
    "Verif.Props.C53_false_for_two_committees"
   ],
   "note": "Proved for attestations of one committee. False of the code for several, C53_false_for_two_committees; C53_attesting_indices_actual says exactly what is counted instead."
  },
  {
   "property": "C54",
   "status": "partial",
   "theorems": [
    "Verif.Props.C54_requests_partial",
    "Verif.Props.C54_debits_cursor",
    "Verif.Props.C54_wrong_validator"
   ],
   "note": "Order, amounts and addresses of the payments are proved. That the requesting validator is debited is false of the code: C54_debits_cursor says who is, C54_wrong_validator is the counterexample."
  },
  {
   "property": "C55",
   "status": "proved",
   "theorems": [
    "Verif.Props.C55_proposer_slashing",
    "Verif.Props.C55_attester_slashing",
    "Verif.Props.C55_attestation",
    "Verif.Props.C55_voluntary_exit",
    "Verif.Props.C55_header",
    "Verif.Props.C55_randao",
    "Verif.Props.C55_eth1_data",
    "Verif.Props.C55_deposit",
    "Verif.Props.C55_sync_aggregate",
    "Verif.Props.C55_withdrawals",
    "Verif.Props.C55_execution_payload",
    "Verif.Props.C55_bls_to_execution_change",
    "Verif.Props.C55_block",
    "Verif.Props.C55_block_wellformed",
    "Verif.Props.C55_deposit_count_panics",
    "Verif.Props.C55_block_fails"
   ],
   "note": "Every operation of phase0 to deneb, and process_block as a whole, on states described by Spec/Safety.lean. A whole block needs one condition that is not about size: no vote for a deposit count below the number of processed deposits; without it C55_deposit_count_panics is a counterexample. Electra's operations and blocks are C78."
  },
  {
   "property": "C56",
   "status": "proved",
   "theorems": [
    "Verif.Props.C56_total_balance",
    "Verif.Props.C56_total_balance_order"
   ],
   "note": ""
  },
  {
   "property": "C57",
   "status": "proved",
   "theorems": [
    "Verif.Props.C57_range",
    "Verif.Props.C57_first",
    "Verif.Props.C57_terminates",
    "Verif.Props.C57_no_panic",
    "Verif.Props.C57_generate",
    "Verif.Props.C57_paths_distinct"
   ],
   "note": "HKDF and SHA-256 are arbitrary functions, so termination is not provable: C57_terminates says exactly when the loop ends."
  },
  {
   "property": "C58",
   "status": "partial",
   "theorems": [
    "Verif.Props.C58_exact",
    "Verif.Props.C58_first_unique",
    "Verif.Props.C58_leak",
    "Verif.Props.C58_bound_partial",
    "Verif.Props.C58_exceeds"
   ],
   "note": "C58_exact gives every balance exactly, C58_leak settles the second half. The first half is false when attesters leave between the two epochs (C58_exceeds): the attesting balance is compared with the balance active now. C58_bound_partial is the bound when nobody left."
  },
  {
   "property": "C59",
   "status": "proved",
   "theorems": [
    "Verif.Props.C59_block_frame",
    "Verif.Props.C59_epoch_frame",
    "Verif.Props.C59_identity_is_fixed",
    "Verif.Props.C59_operation_frames",
    "Verif.Props.C59_epoch_step_frames"
   ],
   "note": ""
  },
  {
   "property": "C60",
   "status": "partial",
   "theorems": [
    "Verif.Props.C60_no_skip_partial",
    "Verif.Props.C60_skips"
   ],
   "note": "Proved for payloads that are not full. False of the code for full ones: C60_skips."
  },
  {
   "property": "C61",
   "status": "partial",
   "theorems": [
    "Verif.Props.C61_keystore_opens_partial",
    "Verif.Props.C61_counter_wraps"
   ],
   "note": "For every initialisation vector except those whose last eight bytes are all 0xff, where the 64-bit counter of Ctr64BE wraps but the 128-bit counter of the standard carries (C61_counter_wraps)."
  },
  {
   "property": "C62",
   "status": "proved",
   "theorems": [
    "Verif.Props.C62_epoch_end",
    "Verif.Props.C62_within_epoch"
   ],
   "note": ""
  },
  {
   "property": "C63",
   "status": "proved",
   "theorems": [
    "Verif.Props.C63_slot",
    "Verif.Props.C63_commits",
    "Verif.Props.C63_complete"
   ],
   "note": ""
  },
  {
   "property": "C64",
   "status": "proved",
   "theorems": [
    "Verif.Props.C64_exact",
    "Verif.Props.C64_leak",
    "Verif.Props.C64_timely",
    "Verif.Props.C64_bystander",
    "Verif.Props.C64_bound"
   ],
   "note": ""
  },
  {
   "property": "C65",
   "status": "proved",
   "theorems": [
    "Verif.Props.C65_recorded",
    "Verif.Props.C65_rewarded"
   ],
   "note": ""
  },
  {
   "property": "C66",
   "status": "proved",
   "theorems": [
    "Verif.Props.C66_epoch",
    "Verif.Props.C66_epoch_wellformed",
    "Verif.Props.C66_slots",
    "Verif.Props.C66_next_epoch",
    "Verif.Props.C66_within_epoch",
    "Verif.Props.C66_transition",
    "Verif.Props.C66_transition_far",
    "Verif.Props.C66_transition_wellformed",
    "Verif.Props.C66_nobody_panics"
   ],
   "note": "All steps of epoch processing, slots, and the transition, phase0 to deneb, on states described by EpochReady and BlockReady in Spec/Safety.lean; C66_nobody_panics shows that one condition that is not about size is needed. Electra is C78."
  },
  {
   "property": "C67",
   "status": "proved",
   "theorems": [
    "Verif.Props.C67_parent",
    "Verif.Props.C67_history",
    "Verif.Props.C67_block",
    "Verif.Props.C67_lookup"
   ],
   "note": ""
  },
  {
   "property": "C68",
   "status": "proved",
   "theorems": [
    "Verif.Props.C68_active",
    "Verif.Props.C68_keys",
    "Verif.Props.C68_seed",
    "Verif.Props.C68_committee"
   ],
   "note": ""
  },
  {
   "property": "C69",
   "status": "proved",
   "theorems": [
    "Verif.Props.C69_request",
    "Verif.Props.C69_covered",
    "Verif.Props.C69_limit",
    "Verif.Props.C69_receipt_iff",
    "Verif.Props.C69_consolidation_fails"
   ],
   "note": ""
  },
  {
   "property": "C70",
   "status": "proved",
   "theorems": [
    "Verif.Props.C70_justified",
    "Verif.Props.C70_finalized",
    "Verif.Props.C70_accountable",
    "Verif.Props.C70_accountable_final",
    "Verif.Props.C70_third"
   ],
   "note": "The registry has at most 2^40 validators (the limit of its type). C70_third needs the two links to be counted among the same validators with the same balances; how far registries of two chains can drift apart is not modelled. Signatures and hashes are arbitrary functions; that roots do not collide is a hypothesis (HashesHold)."
  },
  {
   "property": "C71",
   "status": "proved",
   "theorems": [
    "Verif.Props.C71_types",
    "Verif.Props.C71_injective"
   ],
   "note": "The model starts at the tree of JSON values and follows the documented behaviour of serde's derive and of ssz_rs for List, Vector, Bitlist and Bitvector. The shapes of the 129 types are transcribed by a script and hold for every value of the const generics."
  },
  {
   "property": "C72",
   "status": "partial",
   "theorems": [
    "Verif.Props.C72_integers_as_strings_partial",
    "Verif.Props.C72_numbers",
    "Verif.Props.C72_string_slot_refused"
   ],
   "note": "False for the eleven types of `numbered`, whose slots or counts lack the attribute: C72_numbers and C72_string_slot_refused."
  },
  {
   "property": "C73",
   "status": "partial",
   "theorems": [
    "Verif.Props.C73_forks_partial",
    "Verif.Props.C73_variants",
    "Verif.Props.C73_electra_read_as_deneb"
   ],
   "note": "The last sentence is false: there is no variant for Electra, and C73_electra_read_as_deneb shows that its states, payloads and headers are read as Deneb, dropping fields."
  },
  {
   "property": "C74",
   "status": "partial",
   "theorems": [
    "Verif.Props.C74_sources_partial",
    "Verif.Props.C74_states_not_owned"
   ],
   "note": "False for the types of `borrowing` that hold a list of integers: C74_states_not_owned shows it for every beacon state."
  },
  {
   "property": "C75",
   "status": "proved",
   "theorems": [
    "Verif.Props.C75_verify_iff",
    "Verif.Props.C75_unique",
    "Verif.Props.C75_domains",
    "Verif.Props.C75_aggregate",
    "Verif.Props.C75_fast_aggregate_iff",
    "Verif.Props.C75_aggregate_verify_iff",
    "Verif.Props.C75_aggregate_verify_lengths",
    "Verif.Props.C75_aggregate_key",
    "Verif.Props.C75_eth_fast_aggregate_iff",
    "Verif.Props.C75_order"
   ],
   "note": "blst is modelled from its documentation over an abstract curve; its mathematics (SoundCurve) is the hypothesis. Randomness and key generation are not modelled."
  },
  {
   "property": "C76",
   "status": "proved",
   "theorems": [
    "Verif.Props.C76_roots",
    "Verif.Props.C76_signing_roots",
    "Verif.Props.C76_signing_domains",
    "Verif.Props.C76_presets"
   ],
   "note": "ssz_rs is modelled from the SSZ specification, over the shapes of all containers; the hash of two nodes is a parameter."
  },
  {
   "property": "C77",
   "status": "proved",
   "theorems": [
    "Verif.Props.C77_sound",
    "Verif.Props.C77_complete",
    "Verif.Props.C77_sidecar",
    "Verif.Props.C77_sidecar_complete",
    "Verif.Props.C77_sidecar_index",
    "Verif.Props.C77_depths",
    "Verif.Props.C77_light_client",
    "Verif.Props.C77_light_client_electra",
    "Verif.Props.C77_deposit"
   ],
   "note": "is_valid_merkle_branch, get_subtree_index and generalized_index of ssz_rs are modelled from their documentation. Electra has no module for light clients; C77_light_client_electra records the indices its state would need."
  },
  {
   "property": "C78",
   "status": "partial",
   "theorems": [
    "Verif.Props.C78_block",
    "Verif.Props.C78_block_wellformed",
    "Verif.Props.C78_epoch",
    "Verif.Props.C78_epoch_wellformed",
    "Verif.Props.C78_slots",
    "Verif.Props.C78_next_epoch",
    "Verif.Props.C78_transition",
    "Verif.Props.C78_transition_far",
    "Verif.Props.C78_transition_wellformed",
    "Verif.Props.C78_upgrade",
    "Verif.Props.C78_presets",
    "Verif.Props.C78_consolidation_panics",
    "Verif.Props.C78_slashings_overflow"
   ],
   "note": "The full claim (no panic for every block and state) is false of the code: C78_consolidation_panics and C78_slashings_overflow are the counterexamples; ElectraBlockReady and ElectraEpochReady exclude them."
  },
  {
   "property": "C79",
   "status": "proved",
   "theorems": [
    "Verif.Props.C79_made",
    "Verif.Props.C79_bytes",
    "Verif.Props.C79_text",
    "Verif.Props.C79_injective",
    "Verif.Props.C79_written",
    "Verif.Props.C79_read",
    "Verif.Props.C79_sound",
    "Verif.Props.C79_characters"
   ],
   "note": "bs58, unsigned-varint and multihash are modelled from their documentation."
  },
  {
   "property": "C80",
   "status": "partial",
   "theorems": [
    "Verif.Props.C80_served_partial",
    "Verif.Props.C80_sent",
    "Verif.Props.C80_injective",
    "Verif.Props.C80_base",
    "Verif.Props.C80_liveness_refused",
    "Verif.Props.C80_outside"
   ],
   "note": "The full claim is false of the code for the calls in Departs: get_peer and get_events drop the path of the endpoint, post_liveness sends numbers for strings, get_blob_sidecars cannot send indices, and post_signed_beacon_block_v2 sends null for missing blobs. C80_served_partial is exact: these calls and no others. url, serde_urlencoded and reqwest are modelled from their documentation; the routes of the standard are in Spec/Api.lean."
  },
  {
   "property": "C81",
   "status": "partial",
   "theorems": [
    "Verif.Props.C81_read_partial",
    "Verif.Props.C81_misread",
    "Verif.Props.C81_version_ignored",
    "Verif.Props.C81_error",
    "Verif.Props.C81_accepted",
    "Verif.Props.C81_error_said",
    "Verif.Props.C81_data",
    "Verif.Props.C81_from_data",
    "Verif.Props.C81_status_ignored",
    "Verif.Props.C81_dependent_root"
   ],
   "note": "The full claim is false of the code for the calls in Misreads (C81_misread), and blocks and states of forks the client's types do not know are left out. reqwest and serde_json are modelled from their documentation; NetworkIdentity and PeerDescription are parameters; the stream of events is not modelled."
  },
  {
   "property": "C82",
   "status": "proved",
   "theorems": [
    "Verif.Accessors.C82_field",
    "Verif.Accessors.C82_view",
    "Verif.Accessors.C82_version",
    "Verif.Accessors.C82_total",
    "Verif.Accessors.C82_variant",
    "Verif.Accessors.C82_mut",
    "Verif.Accessors.C82_complete",
    "Verif.Accessors.C82_from"
   ],
   "note": "The tables of arms are transcribed by a script from the generated Rust; the types of fields are those of JsonTypes."
  },
  {
   "property": "C83",
   "status": "proved",
   "theorems": [
    "Verif.Props.C83_roundtrip",
    "Verif.Props.C83_injective",
    "Verif.Props.C83_canonical",
    "Verif.Props.C83_one_encoding",
    "Verif.Props.C83_total",
    "Verif.Props.C83_size",
    "Verif.Props.C83_fixed",
    "Verif.Props.C83_field",
    "Verif.Props.C83_element",
    "Verif.Props.C83_presets"
   ],
   "note": "ssz_rs is not in the sandbox: its encodings are modelled from the SSZ specification. Canonicity is for byte strings of less than 2^32 bytes, beyond which offsets cannot reach."
  },
  {
   "property": "C84",
   "status": "proved",
   "theorems": [
    "Verif.Props.C84_file",
    "Verif.Props.C84_parameters",
    "Verif.Props.C84_accepted",
    "Verif.Props.C84_unknown",
    "Verif.Props.C84_order",
    "Verif.Props.C84_networks",
    "Verif.Props.C84_custom",
    "Verif.Props.C84_contexts",
    "Verif.Props.C84_capacities",
    "Verif.Props.C84_bounds"
   ],
   "note": "The tables are transcribed by a script. What serde_yaml makes of a node is a parameter, so the notation of numbers in files is left open; execution_engine and kzg_settings of a context are not modelled. The name of a context from a file is that in the file, which need not lead back to the file."
  },
  {
   "property": "C85",
   "status": "proved",
   "theorems": [
    "Verif.Props.C85_commitment",
    "Verif.Props.C85_polynomial",
    "Verif.Props.C85_evaluation",
    "Verif.Props.C85_evaluates",
    "Verif.Props.C85_point_accepted",
    "Verif.Props.C85_verify",
    "Verif.Props.C85_binding",
    "Verif.Props.C85_verify_blob",
    "Verif.Props.C85_blob_accepted",
    "Verif.Props.C85_batch",
    "Verif.Props.C85_batch_sound",
    "Verif.Props.C85_batch_one",
    "Verif.Props.C85_batch_lengths",
    "Verif.Props.C85_no_panic",
    "Verif.Props.C85_bundle",
    "Verif.Props.C85_bundle_accepted",
    "Verif.Props.C85_packed"
   ],
   "note": "c-kzg is not in the sandbox: its functions are modelled from their published algorithm over abstract groups. SoundSetup is what the trusted setup is assumed to be; toySetup_sound shows that it can be met. That the hard problem is hard and that hashes are random are not claimed."
  },
  {
   "property": "C86",
   "status": "proved",
   "theorems": [
    "Verif.Props.C86_block",
    "Verif.Props.C86_header",
    "Verif.Props.C86_reveal",
    "Verif.Props.C86_vote",
    "Verif.Props.C86_payload",
    "Verif.Props.C86_withdrawals",
    "Verif.Props.C86_proposer_slashings",
    "Verif.Props.C86_attester_slashings",
    "Verif.Props.C86_attestations_phase0",
    "Verif.Props.C86_attestations",
    "Verif.Props.C86_deposits",
    "Verif.Props.C86_depositors",
    "Verif.Props.C86_newcomers",
    "Verif.Props.C86_exits",
    "Verif.Props.C86_credentials",
    "Verif.Props.C86_requests",
    "Verif.Props.C86_consolidations",
    "Verif.Props.C86_sync",
    "Verif.Props.C86_proposer",
    "Verif.Props.C86_registry",
    "Verif.Props.C86_balances"
   ],
   "note": ""
  },
  {
   "property": "C87",
   "status": "proved",
   "theorems": [
    "Verif.Props.C87_proper",
    "Verif.Props.C87_finality",
    "Verif.Props.C87_scores",
    "Verif.Props.C87_settled",
    "Verif.Props.C87_registry",
    "Verif.Props.C87_balances",
    "Verif.Props.C87_effective",
    "Verif.Props.C87_resets",
    "Verif.Props.C87_epoch"
   ],
   "note": ""
  },
  {
   "property": "C88",
   "status": "proved",
   "theorems": [
    "Verif.Props.C88_ledger",
    "Verif.Props.C88_no_minting",
    "Verif.Props.C88_slashed",
    "Verif.Props.C88_slashings"
   ],
   "note": "The rewards for attestations are given by InclusionRewards, which determines them. Withdrawals queued in electra (pending_partial_withdrawals) are not part of the books: see C54, C69. Electra charges the withdrawals of the payload as the payload states them; whom it should have charged is C54."
  },
  {
   "property": "C89",
   "status": "proved",
   "theorems": [
    "Verif.Props.C89_one_validator_per_key",
    "Verif.Props.C89_for_ever",
    "Verif.Props.C89_slots",
    "Verif.Props.C89_upgrade",
    "Verif.Props.C89_members",
    "Verif.Props.C89_registration",
    "Verif.Props.C89_seats"
   ],
   "note": "For every reachable state and every history, including failing calls and all fork upgrades. C89_registration and C89_seats are about accepted blocks in states with less than 2^40 validators before slot 2^63."
  },
  {
   "property": "C90",
   "status": "proved",
   "theorems": [
    "Verif.Props.C90_issuance",
    "Verif.Props.C90_per_epoch",
    "Verif.Props.C90_assumptions",
    "Verif.Props.C90_sqrt",
    "Verif.Props.C90_rated",
    "Verif.Props.C90_turnout",
    "Verif.Props.C90_exceeds"
   ],
   "note": "From altair on; a stretch lies within one fork. The condition Turnout is needed (C90_exceeds), holds if nobody leaves (C90_turnout), and the protocol has the same condition: it is not a departure of the code. The stretch consists of single slots and blocks that are accepted; state_transition is made of these."
  },
  {
   "property": "C91",
   "status": "proved",
   "theorems": [
    "Verif.Props.C91_transition",
    "Verif.Props.C91_block",
    "Verif.Props.C91_slots",
    "Verif.Props.C91_epoch",
    "Verif.Props.C91_attestation",
    "Verif.Props.C91_upgrade",
    "Verif.Props.C91_exact",
    "Verif.Props.C91_apply_block",
    "Verif.Props.C91_nodes_agree",
    "Verif.Props.C91_no_split"
   ],
   "note": "About success: which error a rejected block gives, and the state an error leaves behind, may depend on the order of a sum that overflows. An order is a function of the state and the set; two sets with the same elements visited in the same state are visited alike."
  },
  {
   "property": "C92",
   "status": "proved",
   "theorems": [
    "Verif.SpecGen.C92_total",
    "Verif.SpecGen.C92_once",
    "Verif.SpecGen.C92_names",
    "Verif.SpecGen.C92_items",
    "Verif.SpecGen.C92_imports",
    "Verif.SpecGen.C92_calls",
    "Verif.SpecGen.C92_repo",
    "Verif.SpecGen.C92_constant_twice",
    "Verif.SpecGen.C92_dangling_import",
    "Verif.SpecGen.C92_stale_call"
   ],
   "note": "The conventions are hypotheses (Tidy, Steady, Threaded); C92_repo shows that the sources of the repository meet them and that the model of the generator writes the committed modules, a finite fact evaluated in the kernel on data extracted by a script. C92_constant_twice, C92_dangling_import and C92_stale_call show what happens without them. Generic arguments are not modelled."
  },
  {
   "property": "C93",
   "status": "proved",
   "theorems": [
    "Verif.Props.C93_assumptions",
    "Verif.Props.C93_joins",
    "Verif.Props.C93_in_time",
    "Verif.Props.C93_in_order"
   ],
   "note": "Within one fork: C93_in_time and C93_in_order range over every continuation by slots and accepted blocks. nextFreeEpoch < FAR_FUTURE_EPOCH excludes the last epochs before 2^64. In Deneb MAX_PER_EPOCH_ACTIVATION_CHURN_LIMIT must not be zero."
  },
  {
   "property": "C94",
   "status": "proved",
   "theorems": [
    "Verif.Props.C94_wait",
    "Verif.Props.C94_exit",
    "Verif.Props.C94_home",
    "Verif.Props.C94_paid",
    "Verif.Props.C94_settled",
    "Verif.Props.C94_electra_wait",
    "Verif.Props.C94_electra_exit"
   ],
   "note": "The wait before electra is bounded in every reachable state; in electra, whose exits are rationed by balance, along every run of the queue (C94_electra_wait, C94_electra_exit), and the payment there is not covered. C94_home and C94_paid bound the sweep within capella or within deneb; the counters of the sweep are assumed in range (SweepReady, next_withdrawal_index below 2^64), as C44 has it for reachable states. C94_settled is for phase0 to deneb. That a block finds the balance at zero covers a validator paid by an earlier block."
  },
  {
   "property": "C95",
   "status": "proved",
   "theorems": [
    "Verif.Props.C95_counted",
    "Verif.Props.C95_justified",
    "Verif.Props.C95_justified_late",
    "Verif.Props.C95_finalised",
    "Verif.Props.C95_finalised_late"
   ],
   "note": "Upgrades are taken at the first slot of an epoch, where the code's Executor makes them. Slots below 2^63 and at most 2^40 validators. In electra who attests is what get_attesting_indices selects (C53). The source of a vote need not be assumed: a block with another source is not accepted."
  },
  {
   "property": "C96",
   "status": "proved",
   "theorems": [
    "Verif.Props.C96_epoch",
    "Verif.Props.C96_slots",
    "Verif.Props.C96_slots_certain",
    "Verif.Props.C96_votes_block",
    "Verif.Props.C96_votes_slots",
    "Verif.Props.C96_block",
    "Verif.Props.C96_block_exists",
    "Verif.Props.C96_goes_on",
    "Verif.Props.C96_electra_epoch",
    "Verif.Props.C96_electra_slots",
    "Verif.Props.C96_electra_slots_certain",
    "Verif.Props.C96_electra_block",
    "Verif.Props.C96_electra_block_exists",
    "Verif.Props.C96_electra_goes_on"
   ],
   "note": "Every fork; C96_electra_* are the theorems for electra, under the hypotheses of C78. There the withdrawals accepted are those the code expects, which name the wrong validator for a requested withdrawal (C54). C96_slots covers this epoch and the next; further slots follow by applying it again, as its conclusion and C96_votes_slots give back what it needs of the shape of the state, but the numeric bounds (EpochReady, exit epochs at most 2^62) are then assumed anew. That somebody is elected is a hypothesis of C96_block_exists: the loop of the code has no bound. Blocks with operations are the subject of C86."
  },
  {
   "property": "C97",
   "status": "proved",
   "theorems": [
    "Verif.Props.C97_slashed",
    "Verif.Props.C97_innocent",
    "Verif.Props.C97_new",
    "Verif.Props.C97_time",
    "Verif.Props.C97_fork",
    "Verif.Props.C97_proposer_accepted",
    "Verif.Props.C97_attesters_accepted",
    "Verif.Props.C97_electra_proposer_accepted",
    "Verif.Props.C97_electra_attesters_accepted"
   ],
   "note": "C97_slashed, C97_innocent and C97_new hold in every fork and of any configuration and signature scheme. The calls are those of a client (process_slots, process_block, state_transition with or without checks); slash_validator called directly slashes whom it is told to. Acceptance of evidence is shown in every fork (C97_electra_* for electra), for states within the numeric bounds in which a proposer is elected; domain and fork version are those the state holds (C08), so evidence signed under a version two forks back cannot be verified."
  },
  {
   "property": "C98",
   "status": "proved",
   "theorems": [
    "Verif.Props.C98_keeps",
    "Verif.Props.C98_attested",
    "Verif.Props.C98_block",
    "Verif.Props.C98_epoch",
    "Verif.Props.C98_upgrade"
   ],
   "note": "Every fork. Phase0 asks for more: a wrong head vote is a loss there, and in a leak even a right vote is one unless it is included in the very next slot. In electra the stretch must have no pending consolidation away from the validator, as that moves its balance to the target. A missed proposal costs nothing, so proposing is not among the duties. C98_attested, which finds the vote in a block of the chain, is for altair on."
  },
  {
   "property": "C99",
   "status": "proved",
   "theorems": [
    "Verif.Props.C99_leave",
    "Verif.Props.C99_join",
    "Verif.Props.C99_join_on",
    "Verif.Props.C99_turnover"
   ],
   "note": "Phase0 to deneb; electra rations by balance (C50, C51). The bound on joining needs a client that follows a chain: one that calls process_epoch twice, or again after it failed midway, activates more."
  },
  {
   "property": "C100",
   "status": "proved",
   "theorems": [
    "Verif.Props.C100_locked",
    "Verif.Props.C100_punishable",
    "Verif.Props.C100_punishable_always",
    "Verif.Props.C100_stake_stays",
    "Verif.Props.C100_answers",
    "Verif.Props.C100_answers_proposer",
    "Verif.Props.C100_answers_proposer_electra",
    "Verif.Props.C100_answers_electra"
   ],
   "note": "Every fork. C100_stake_stays is about capella and deneb: before them nothing is paid, and in electra a requested withdrawal is paid to the wrong validator (C54). C100_answers is for two votes, C100_answers_proposer for two headers; domain and fork version are those the state holds (C97)."
  },
  {
   "property": "C101",
   "status": "partial",
   "theorems": [
    "Verif.Props.C101_entries_partial",
    "Verif.Props.C101_counter_wraps",
    "Verif.Props.C101_prefix"
   ],
   "note": "Partial as C61 is: the cipher counts in 64 bits, so a vector whose last eight bytes are all 0xff makes a keystore that the standard does not open (C101_counter_wraps). The public key is written with a prefix that EIP-2335 does not have (C101_prefix)."
  },
  {
   "property": "C102",
   "status": "proved",
   "theorems": [
    "Verif.Props.C102_deposit_is_honoured",
    "Verif.Props.C102_electra_stake",
    "Verif.Props.C102_electra_enrols",
    "Verif.Props.C102_electra"
   ],
   "note": "Within one fork. Phase0 to deneb from the block with the deposit. Electra in three parts: the block enrols the validator and queues the amount (C102_electra_enrols; C26 shows that only receipts of the payload get this far), from any state in which the validator has the stake (C102_electra_stake), and from the end of the epoch at which the deposits are credited (C102_electra; C103 says when that is), if its effective balance is below the minimum by more than the hysteresis before. Finality is a hypothesis: if the chain does not finalize nobody is activated."
  },
  {
   "property": "C103",
   "status": "proved",
   "theorems": [
    "Verif.Props.C103_credits",
    "Verif.Props.C103_in_order",
    "Verif.Props.C103_in_time",
    "Verif.Props.C103_other_slots",
    "Verif.Props.C103_blocks"
   ],
   "note": "Within electra. That what leaves the queue is credited is the step DepositsCredited of C51, between the slashings and the consolidations of the same end of an epoch."
  },
  {
   "property": "C104",
   "status": "proved",
   "theorems": [
    "Verif.Props.C104_variants",
    "Verif.Props.C104_generics",
    "Verif.Props.C104_accessors",
    "Verif.Props.C104_complete",
    "Verif.Props.C104_once",
    "Verif.Props.C104_newest",
    "Verif.Props.C104_repo",
    "Verif.Props.C104_committed",
    "Verif.Props.C104_gap",
    "Verif.Props.C104_undeclared"
   ],
   "note": "C104_gap and C104_undeclared show what is written for structs that break the conventions, which the generator does not check: a fork missing in the middle gives variants the structs of other forks, an undeclared removal gives a function for a field that is not there. C104_committed compares with the transcription of the committed files that C82 uses. Imports, the text of signatures, derived traits and layout are not modelled."
  },
  {
   "property": "C105",
   "status": "proved",
   "theorems": [
    "Verif.Props.C105_block",
    "Verif.Props.C105_transition",
    "Verif.Props.C105_deposit",
    "Verif.Props.C105_exit",
    "Verif.Props.C105_exits",
    "Verif.Props.C105_exits_distinct",
    "Verif.Props.C105_change",
    "Verif.Props.C105_changes",
    "Verif.Props.C105_slashed_once",
    "Verif.Props.C105_proposer_slashings",
    "Verif.Props.C105_proposer_slashings_distinct",
    "Verif.Props.C105_changes_distinct",
    "Verif.Props.C105_attester_slashing"
   ],
   "note": "Attestations may be included again by design, and the withdrawal requests and deposit receipts of electra carry no mark: they are not claimed. An attester slashing can be accepted again for common attesters who could not be slashed at first; C105_slashed_once says that nobody is slashed twice."
  },
  {
   "property": "C106",
   "status": "partial",
   "theorems": [
    "Verif.Props.C106_current",
    "Verif.Props.C106_previous_partial",
    "Verif.Props.C106_partial_withdrawals",
    "Verif.Props.C106_consolidations",
    "Verif.Props.C106_overflow"
   ],
   "note": "The bound for the attestations of the previous epoch is false: those of the last slots of an epoch can be included again, block after block, in the next epoch. C106_overflow is a chain from genesis on which the list outgrows its capacity; C106_previous_partial is the bound that holds, twice the capacity. The length of pending_balance_deposits and of the registry is bounded by no check in the code and is not claimed."
  },
  {
   "property": "C107",
   "status": "proved",
   "theorems": [
    "Verif.Props.C107_header_fields",
    "Verif.Props.C107_header_fields_electra",
    "Verif.Props.C107_header",
    "Verif.Props.C107_header_electra",
    "Verif.Props.C107_blinded",
    "Verif.Props.C107_signed",
    "Verif.Props.C107_exists",
    "Verif.Props.C107_one_block",
    "Verif.Props.C107_faithful",
    "Verif.Props.C107_block_header",
    "Verif.Props.C107_block_header_exists"
   ],
   "note": "ssz_rs is modelled from the SSZ specification (C76), over the declared fields of the types. The code has no function that blinds a block: what StandsFor says is what a user of the types does. Electra has headers but no blinded blocks in the code. The theorems on roots speak of blinded blocks and headers that stand for a block; C107_exists and C107_block_header_exists show that every block has one, and are what fails when the declarations of the types drift apart."
  }
 ]
}
