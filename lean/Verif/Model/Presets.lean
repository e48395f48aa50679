import Verif.Model.Env

/-!
# `Context::for_mainnet`, `Context::for_minimal`, … (`state_transition/context.rs:330-442`)

The constants of `*/presets/{mainnet,minimal}.rs` and `configs/*.rs`.
-/

namespace Verif.Context

/-- `state_transition/context.rs:330-347`, `configs/mainnet.rs`, `*/presets/mainnet.rs` -/
def mainnet : Context where
  max_committees_per_slot := 64
  target_committee_size := 128
  shuffle_round_count := 90
  hysteresis_quotient := 4
  hysteresis_downward_multiplier := 1
  hysteresis_upward_multiplier := 5
  min_deposit_amount := 10 ^ 9
  max_effective_balance := 32 * 10 ^ 9
  effective_balance_increment := 10 ^ 9
  min_attestation_inclusion_delay := 1
  slots_per_epoch := 32
  min_seed_lookahead := 1
  max_seed_lookahead := 4
  min_epochs_to_inactivity_penalty := 4
  epochs_per_eth1_voting_period := 64
  slots_per_historical_root := 8192
  epochs_per_historical_vector := 65536
  epochs_per_slashings_vector := 8192
  base_reward_factor := 64
  whistleblower_reward_quotient := 512
  proposer_reward_quotient := 8
  inactivity_penalty_quotient := 2 ^ 26
  min_slashing_penalty_quotient := 128
  proportional_slashing_multiplier := 1
  max_deposits := 16
  inactivity_penalty_quotient_altair := 50331648
  min_slashing_penalty_quotient_altair := 64
  proportional_slashing_multiplier_altair := 2
  sync_committee_size := 512
  epochs_per_sync_committee_period := 256
  inactivity_penalty_quotient_bellatrix := 16777216
  min_slashing_penalty_quotient_bellatrix := 32
  proportional_slashing_multiplier_bellatrix := 3
  max_withdrawals_per_payload := 16
  max_validators_per_withdrawals_sweep := 16384
  max_blobs_per_block := 6
  min_activation_balance := 32 * 10 ^ 9
  max_effective_balance_electra := 2048 * 10 ^ 9
  min_slashing_penalty_quotient_electra := 4096
  whistleblower_reward_quotient_electra := 4096
  pending_partial_withdrawals_limit := 2 ^ 27
  pending_consolidations_limit := 2 ^ 18
  max_pending_partials_per_withdrawals_sweep := 8
  min_genesis_active_validator_count := 16384
  min_genesis_time := 1606824000
  genesis_fork_version := #v[0, 0, 0, 0]
  genesis_delay := 604800
  altair_fork_version := #v[1, 0, 0, 0]
  altair_fork_epoch := 74240
  bellatrix_fork_version := #v[2, 0, 0, 0]
  bellatrix_fork_epoch := 144896
  capella_fork_version := #v[3, 0, 0, 0]
  capella_fork_epoch := 194048
  deneb_fork_version := #v[4, 0, 0, 0]
  deneb_fork_epoch := 269568
  electra_fork_version := #v[5, 0, 0, 0]
  electra_fork_epoch := FAR_FUTURE_EPOCH
  seconds_per_slot := 12
  min_validator_withdrawability_delay := 256
  shard_committee_period := 256
  inactivity_score_bias := 4
  inactivity_score_recovery_rate := 16
  ejection_balance := 16 * 10 ^ 9
  min_per_epoch_churn_limit := 4
  max_per_epoch_activation_churn_limit := 8
  min_per_epoch_churn_limit_electra := 128 * 10 ^ 9
  max_per_epoch_activation_exit_churn_limit := 256 * 10 ^ 9
  churn_limit_quotient := 65536

/-- `state_transition/context.rs:349-366`, `configs/minimal.rs`, `*/presets/minimal.rs` -/
def minimal : Context where
  max_committees_per_slot := 4
  target_committee_size := 4
  shuffle_round_count := 10
  hysteresis_quotient := 4
  hysteresis_downward_multiplier := 1
  hysteresis_upward_multiplier := 5
  min_deposit_amount := 10 ^ 9
  max_effective_balance := 32 * 10 ^ 9
  effective_balance_increment := 10 ^ 9
  min_attestation_inclusion_delay := 1
  slots_per_epoch := 8
  min_seed_lookahead := 1
  max_seed_lookahead := 4
  min_epochs_to_inactivity_penalty := 4
  epochs_per_eth1_voting_period := 4
  slots_per_historical_root := 64
  epochs_per_historical_vector := 64
  epochs_per_slashings_vector := 64
  base_reward_factor := 64
  whistleblower_reward_quotient := 512
  proposer_reward_quotient := 8
  inactivity_penalty_quotient := 2 ^ 25
  min_slashing_penalty_quotient := 64
  proportional_slashing_multiplier := 2
  max_deposits := 16
  inactivity_penalty_quotient_altair := 50331648
  min_slashing_penalty_quotient_altair := 64
  proportional_slashing_multiplier_altair := 2
  sync_committee_size := 32
  epochs_per_sync_committee_period := 8
  inactivity_penalty_quotient_bellatrix := 16777216
  min_slashing_penalty_quotient_bellatrix := 32
  proportional_slashing_multiplier_bellatrix := 3
  max_withdrawals_per_payload := 4
  max_validators_per_withdrawals_sweep := 16
  max_blobs_per_block := 6
  min_activation_balance := 32 * 10 ^ 9
  max_effective_balance_electra := 2048 * 10 ^ 9
  min_slashing_penalty_quotient_electra := 4096
  whistleblower_reward_quotient_electra := 4096
  pending_partial_withdrawals_limit := 2 ^ 6
  pending_consolidations_limit := 2 ^ 6
  max_pending_partials_per_withdrawals_sweep := 1
  min_genesis_active_validator_count := 64
  min_genesis_time := 1578009600
  genesis_fork_version := #v[0, 0, 0, 1]
  genesis_delay := 300
  altair_fork_version := #v[1, 0, 0, 1]
  altair_fork_epoch := FAR_FUTURE_EPOCH
  bellatrix_fork_version := #v[2, 0, 0, 1]
  bellatrix_fork_epoch := FAR_FUTURE_EPOCH
  capella_fork_version := #v[3, 0, 0, 1]
  capella_fork_epoch := FAR_FUTURE_EPOCH
  deneb_fork_version := #v[4, 0, 0, 1]
  deneb_fork_epoch := FAR_FUTURE_EPOCH
  electra_fork_version := #v[5, 0, 0, 1]
  electra_fork_epoch := FAR_FUTURE_EPOCH
  seconds_per_slot := 6
  min_validator_withdrawability_delay := 256
  shard_committee_period := 64
  inactivity_score_bias := 4
  inactivity_score_recovery_rate := 16
  ejection_balance := 16 * 10 ^ 9
  min_per_epoch_churn_limit := 2
  max_per_epoch_activation_churn_limit := 4
  min_per_epoch_churn_limit_electra := 64 * 10 ^ 9
  max_per_epoch_activation_exit_churn_limit := 128 * 10 ^ 9
  churn_limit_quotient := 32

/-- `state_transition/context.rs:368-385`, `configs/goerli.rs`, `*/presets/mainnet.rs` -/
def goerli : Context where
  max_committees_per_slot := 64
  target_committee_size := 128
  shuffle_round_count := 90
  hysteresis_quotient := 4
  hysteresis_downward_multiplier := 1
  hysteresis_upward_multiplier := 5
  min_deposit_amount := 10 ^ 9
  max_effective_balance := 32 * 10 ^ 9
  effective_balance_increment := 10 ^ 9
  min_attestation_inclusion_delay := 1
  slots_per_epoch := 32
  min_seed_lookahead := 1
  max_seed_lookahead := 4
  min_epochs_to_inactivity_penalty := 4
  epochs_per_eth1_voting_period := 64
  slots_per_historical_root := 8192
  epochs_per_historical_vector := 65536
  epochs_per_slashings_vector := 8192
  base_reward_factor := 64
  whistleblower_reward_quotient := 512
  proposer_reward_quotient := 8
  inactivity_penalty_quotient := 2 ^ 26
  min_slashing_penalty_quotient := 128
  proportional_slashing_multiplier := 1
  max_deposits := 16
  inactivity_penalty_quotient_altair := 50331648
  min_slashing_penalty_quotient_altair := 64
  proportional_slashing_multiplier_altair := 2
  sync_committee_size := 512
  epochs_per_sync_committee_period := 256
  inactivity_penalty_quotient_bellatrix := 16777216
  min_slashing_penalty_quotient_bellatrix := 32
  proportional_slashing_multiplier_bellatrix := 3
  max_withdrawals_per_payload := 16
  max_validators_per_withdrawals_sweep := 16384
  max_blobs_per_block := 6
  min_activation_balance := 32 * 10 ^ 9
  max_effective_balance_electra := 2048 * 10 ^ 9
  min_slashing_penalty_quotient_electra := 4096
  whistleblower_reward_quotient_electra := 4096
  pending_partial_withdrawals_limit := 2 ^ 27
  pending_consolidations_limit := 2 ^ 18
  max_pending_partials_per_withdrawals_sweep := 8
  min_genesis_active_validator_count := 16384
  min_genesis_time := 1614588812
  genesis_fork_version := #v[0, 0, 16, 32]
  genesis_delay := 1919188
  altair_fork_version := #v[1, 0, 16, 32]
  altair_fork_epoch := 36660
  bellatrix_fork_version := #v[2, 0, 16, 32]
  bellatrix_fork_epoch := 112260
  capella_fork_version := #v[3, 0, 16, 32]
  capella_fork_epoch := 162304
  deneb_fork_version := #v[4, 0, 16, 32]
  deneb_fork_epoch := 231680
  electra_fork_version := #v[5, 0, 16, 32]
  electra_fork_epoch := FAR_FUTURE_EPOCH
  seconds_per_slot := 12
  min_validator_withdrawability_delay := 256
  shard_committee_period := 256
  inactivity_score_bias := 4
  inactivity_score_recovery_rate := 16
  ejection_balance := 16 * 10 ^ 9
  min_per_epoch_churn_limit := 4
  max_per_epoch_activation_churn_limit := 8
  min_per_epoch_churn_limit_electra := 128 * 10 ^ 9
  max_per_epoch_activation_exit_churn_limit := 256 * 10 ^ 9
  churn_limit_quotient := 65536

/-- `state_transition/context.rs:387-404`, `configs/sepolia.rs`, `*/presets/mainnet.rs` -/
def sepolia : Context where
  max_committees_per_slot := 64
  target_committee_size := 128
  shuffle_round_count := 90
  hysteresis_quotient := 4
  hysteresis_downward_multiplier := 1
  hysteresis_upward_multiplier := 5
  min_deposit_amount := 10 ^ 9
  max_effective_balance := 32 * 10 ^ 9
  effective_balance_increment := 10 ^ 9
  min_attestation_inclusion_delay := 1
  slots_per_epoch := 32
  min_seed_lookahead := 1
  max_seed_lookahead := 4
  min_epochs_to_inactivity_penalty := 4
  epochs_per_eth1_voting_period := 64
  slots_per_historical_root := 8192
  epochs_per_historical_vector := 65536
  epochs_per_slashings_vector := 8192
  base_reward_factor := 64
  whistleblower_reward_quotient := 512
  proposer_reward_quotient := 8
  inactivity_penalty_quotient := 2 ^ 26
  min_slashing_penalty_quotient := 128
  proportional_slashing_multiplier := 1
  max_deposits := 16
  inactivity_penalty_quotient_altair := 50331648
  min_slashing_penalty_quotient_altair := 64
  proportional_slashing_multiplier_altair := 2
  sync_committee_size := 512
  epochs_per_sync_committee_period := 256
  inactivity_penalty_quotient_bellatrix := 16777216
  min_slashing_penalty_quotient_bellatrix := 32
  proportional_slashing_multiplier_bellatrix := 3
  max_withdrawals_per_payload := 16
  max_validators_per_withdrawals_sweep := 16384
  max_blobs_per_block := 6
  min_activation_balance := 32 * 10 ^ 9
  max_effective_balance_electra := 2048 * 10 ^ 9
  min_slashing_penalty_quotient_electra := 4096
  whistleblower_reward_quotient_electra := 4096
  pending_partial_withdrawals_limit := 2 ^ 27
  pending_consolidations_limit := 2 ^ 18
  max_pending_partials_per_withdrawals_sweep := 8
  min_genesis_active_validator_count := 1300
  min_genesis_time := 1655647200
  genesis_fork_version := #v[144, 0, 0, 105]
  genesis_delay := 86400
  altair_fork_version := #v[144, 0, 0, 112]
  altair_fork_epoch := 50
  bellatrix_fork_version := #v[144, 0, 0, 113]
  bellatrix_fork_epoch := 100
  capella_fork_version := #v[144, 0, 0, 114]
  capella_fork_epoch := 56832
  deneb_fork_version := #v[144, 0, 0, 115]
  deneb_fork_epoch := 132608
  electra_fork_version := #v[144, 0, 0, 116]
  electra_fork_epoch := FAR_FUTURE_EPOCH
  seconds_per_slot := 12
  min_validator_withdrawability_delay := 256
  shard_committee_period := 256
  inactivity_score_bias := 4
  inactivity_score_recovery_rate := 16
  ejection_balance := 16 * 10 ^ 9
  min_per_epoch_churn_limit := 4
  max_per_epoch_activation_churn_limit := 8
  min_per_epoch_churn_limit_electra := 128 * 10 ^ 9
  max_per_epoch_activation_exit_churn_limit := 256 * 10 ^ 9
  churn_limit_quotient := 65536

/-- `state_transition/context.rs:406-423`, `configs/holesky.rs`, `*/presets/mainnet.rs` -/
def holesky : Context where
  max_committees_per_slot := 64
  target_committee_size := 128
  shuffle_round_count := 90
  hysteresis_quotient := 4
  hysteresis_downward_multiplier := 1
  hysteresis_upward_multiplier := 5
  min_deposit_amount := 10 ^ 9
  max_effective_balance := 32 * 10 ^ 9
  effective_balance_increment := 10 ^ 9
  min_attestation_inclusion_delay := 1
  slots_per_epoch := 32
  min_seed_lookahead := 1
  max_seed_lookahead := 4
  min_epochs_to_inactivity_penalty := 4
  epochs_per_eth1_voting_period := 64
  slots_per_historical_root := 8192
  epochs_per_historical_vector := 65536
  epochs_per_slashings_vector := 8192
  base_reward_factor := 64
  whistleblower_reward_quotient := 512
  proposer_reward_quotient := 8
  inactivity_penalty_quotient := 2 ^ 26
  min_slashing_penalty_quotient := 128
  proportional_slashing_multiplier := 1
  max_deposits := 16
  inactivity_penalty_quotient_altair := 50331648
  min_slashing_penalty_quotient_altair := 64
  proportional_slashing_multiplier_altair := 2
  sync_committee_size := 512
  epochs_per_sync_committee_period := 256
  inactivity_penalty_quotient_bellatrix := 16777216
  min_slashing_penalty_quotient_bellatrix := 32
  proportional_slashing_multiplier_bellatrix := 3
  max_withdrawals_per_payload := 16
  max_validators_per_withdrawals_sweep := 16384
  max_blobs_per_block := 6
  min_activation_balance := 32 * 10 ^ 9
  max_effective_balance_electra := 2048 * 10 ^ 9
  min_slashing_penalty_quotient_electra := 4096
  whistleblower_reward_quotient_electra := 4096
  pending_partial_withdrawals_limit := 2 ^ 27
  pending_consolidations_limit := 2 ^ 18
  max_pending_partials_per_withdrawals_sweep := 8
  min_genesis_active_validator_count := 16384
  min_genesis_time := 1695902100
  genesis_fork_version := #v[1, 1, 112, 0]
  genesis_delay := 300
  altair_fork_version := #v[2, 1, 112, 0]
  altair_fork_epoch := 0
  bellatrix_fork_version := #v[3, 1, 112, 0]
  bellatrix_fork_epoch := 0
  capella_fork_version := #v[4, 1, 112, 0]
  capella_fork_epoch := 256
  deneb_fork_version := #v[5, 1, 112, 0]
  deneb_fork_epoch := 29696
  electra_fork_version := #v[6, 1, 112, 0]
  electra_fork_epoch := FAR_FUTURE_EPOCH
  seconds_per_slot := 12
  min_validator_withdrawability_delay := 256
  shard_committee_period := 256
  inactivity_score_bias := 4
  inactivity_score_recovery_rate := 16
  ejection_balance := 28 * 10 ^ 9
  min_per_epoch_churn_limit := 4
  max_per_epoch_activation_churn_limit := 8
  min_per_epoch_churn_limit_electra := 128 * 10 ^ 9
  max_per_epoch_activation_exit_churn_limit := 256 * 10 ^ 9
  churn_limit_quotient := 65536

/-- `state_transition/context.rs:425-442`, `configs/hoodi.rs`, `*/presets/mainnet.rs` -/
def hoodi : Context where
  max_committees_per_slot := 64
  target_committee_size := 128
  shuffle_round_count := 90
  hysteresis_quotient := 4
  hysteresis_downward_multiplier := 1
  hysteresis_upward_multiplier := 5
  min_deposit_amount := 10 ^ 9
  max_effective_balance := 32 * 10 ^ 9
  effective_balance_increment := 10 ^ 9
  min_attestation_inclusion_delay := 1
  slots_per_epoch := 32
  min_seed_lookahead := 1
  max_seed_lookahead := 4
  min_epochs_to_inactivity_penalty := 4
  epochs_per_eth1_voting_period := 64
  slots_per_historical_root := 8192
  epochs_per_historical_vector := 65536
  epochs_per_slashings_vector := 8192
  base_reward_factor := 64
  whistleblower_reward_quotient := 512
  proposer_reward_quotient := 8
  inactivity_penalty_quotient := 2 ^ 26
  min_slashing_penalty_quotient := 128
  proportional_slashing_multiplier := 1
  max_deposits := 16
  inactivity_penalty_quotient_altair := 50331648
  min_slashing_penalty_quotient_altair := 64
  proportional_slashing_multiplier_altair := 2
  sync_committee_size := 512
  epochs_per_sync_committee_period := 256
  inactivity_penalty_quotient_bellatrix := 16777216
  min_slashing_penalty_quotient_bellatrix := 32
  proportional_slashing_multiplier_bellatrix := 3
  max_withdrawals_per_payload := 16
  max_validators_per_withdrawals_sweep := 16384
  max_blobs_per_block := 6
  min_activation_balance := 32 * 10 ^ 9
  max_effective_balance_electra := 2048 * 10 ^ 9
  min_slashing_penalty_quotient_electra := 4096
  whistleblower_reward_quotient_electra := 4096
  pending_partial_withdrawals_limit := 2 ^ 27
  pending_consolidations_limit := 2 ^ 18
  max_pending_partials_per_withdrawals_sweep := 8
  min_genesis_active_validator_count := 16384
  min_genesis_time := 1742212800
  genesis_fork_version := #v[16, 0, 9, 16]
  genesis_delay := 600
  altair_fork_version := #v[32, 0, 9, 16]
  altair_fork_epoch := 0
  bellatrix_fork_version := #v[48, 0, 9, 16]
  bellatrix_fork_epoch := 0
  capella_fork_version := #v[64, 0, 9, 16]
  capella_fork_epoch := 0
  deneb_fork_version := #v[80, 0, 9, 16]
  deneb_fork_epoch := 0
  electra_fork_version := #v[96, 0, 9, 16]
  electra_fork_epoch := 2048
  seconds_per_slot := 12
  min_validator_withdrawability_delay := 256
  shard_committee_period := 256
  inactivity_score_bias := 4
  inactivity_score_recovery_rate := 16
  ejection_balance := 16 * 10 ^ 9
  min_per_epoch_churn_limit := 4
  max_per_epoch_activation_churn_limit := 8
  min_per_epoch_churn_limit_electra := 128 * 10 ^ 9
  max_per_epoch_activation_exit_churn_limit := 256 * 10 ^ 9
  churn_limit_quotient := 65536

end Verif.Context
