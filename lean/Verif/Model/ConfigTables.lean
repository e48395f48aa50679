import Verif.Model.Config

/-! # The tables of `Config`: presets, configurations and what `Context::from` copies

Transcribed by a script from `*/presets/mainnet.rs`, `*/presets/minimal.rs`, `configs/*.rs` and
`state_transition/context.rs`. Constants that other constants are made of are replaced by their
expressions; `as` between `u64` and `usize` is left out. -/

namespace Verif.Config

/-- The constants of `phase0/presets/mainnet.rs:5-84` -/
def mainnet.phase0.constants : List (String × Nat) := [
  ("MAX_COMMITTEES_PER_SLOT", 64),
  ("TARGET_COMMITTEE_SIZE", 128),
  ("MAX_VALIDATORS_PER_COMMITTEE", 2048),
  ("SHUFFLE_ROUND_COUNT", 90),
  ("HYSTERESIS_QUOTIENT", 4),
  ("HYSTERESIS_DOWNWARD_MULTIPLIER", 1),
  ("HYSTERESIS_UPWARD_MULTIPLIER", 5),
  ("MIN_DEPOSIT_AMOUNT", 10 ^ 9),
  ("MAX_EFFECTIVE_BALANCE", 32 * 10 ^ 9),
  ("EFFECTIVE_BALANCE_INCREMENT", 10 ^ 9),
  ("MIN_ATTESTATION_INCLUSION_DELAY", 1),
  ("SLOTS_PER_EPOCH", 32),
  ("MIN_SEED_LOOKAHEAD", 1),
  ("MAX_SEED_LOOKAHEAD", 4),
  ("MIN_EPOCHS_TO_INACTIVITY_PENALTY", 4),
  ("EPOCHS_PER_ETH1_VOTING_PERIOD", 64),
  ("SLOTS_PER_HISTORICAL_ROOT", 8192),
  ("EPOCHS_PER_HISTORICAL_VECTOR", 65536),
  ("EPOCHS_PER_SLASHINGS_VECTOR", 8192),
  ("HISTORICAL_ROOTS_LIMIT", 16777216),
  ("VALIDATOR_REGISTRY_LIMIT", 2 ^ 40),
  ("BASE_REWARD_FACTOR", 64),
  ("WHISTLEBLOWER_REWARD_QUOTIENT", 512),
  ("PROPOSER_REWARD_QUOTIENT", 8),
  ("INACTIVITY_PENALTY_QUOTIENT", 2 ^ 26),
  ("MIN_SLASHING_PENALTY_QUOTIENT", 128),
  ("PROPORTIONAL_SLASHING_MULTIPLIER", 1),
  ("MAX_PROPOSER_SLASHINGS", 16),
  ("MAX_ATTESTER_SLASHINGS", 2),
  ("MAX_ATTESTATIONS", 128),
  ("MAX_DEPOSITS", 16),
  ("MAX_VOLUNTARY_EXITS", 16),
  ("TARGET_AGGREGATORS_PER_COMMITTEE", 16),
  ("RANDOM_SUBNETS_PER_VALIDATOR", 1),
  ("EPOCHS_PER_RANDOM_SUBNET_SUBSCRIPTION", 256),
  ("ETH1_DATA_VOTES_BOUND", 64  * 32),
  ("PENDING_ATTESTATIONS_BOUND", 128 * 32)]

/-- `PRESET`, `phase0/presets/mainnet.rs:42-75` -/
def mainnet.phase0 : List (String × Nat) := select mainnet.phase0.constants [
  ("max_committees_per_slot", "MAX_COMMITTEES_PER_SLOT"),
  ("target_committee_size", "TARGET_COMMITTEE_SIZE"),
  ("max_validators_per_committee", "MAX_VALIDATORS_PER_COMMITTEE"),
  ("shuffle_round_count", "SHUFFLE_ROUND_COUNT"),
  ("hysteresis_quotient", "HYSTERESIS_QUOTIENT"),
  ("hysteresis_downward_multiplier", "HYSTERESIS_DOWNWARD_MULTIPLIER"),
  ("hysteresis_upward_multiplier", "HYSTERESIS_UPWARD_MULTIPLIER"),
  ("min_deposit_amount", "MIN_DEPOSIT_AMOUNT"),
  ("max_effective_balance", "MAX_EFFECTIVE_BALANCE"),
  ("effective_balance_increment", "EFFECTIVE_BALANCE_INCREMENT"),
  ("min_attestation_inclusion_delay", "MIN_ATTESTATION_INCLUSION_DELAY"),
  ("slots_per_epoch", "SLOTS_PER_EPOCH"),
  ("min_seed_lookahead", "MIN_SEED_LOOKAHEAD"),
  ("max_seed_lookahead", "MAX_SEED_LOOKAHEAD"),
  ("min_epochs_to_inactivity_penalty", "MIN_EPOCHS_TO_INACTIVITY_PENALTY"),
  ("epochs_per_eth1_voting_period", "EPOCHS_PER_ETH1_VOTING_PERIOD"),
  ("slots_per_historical_root", "SLOTS_PER_HISTORICAL_ROOT"),
  ("epochs_per_historical_vector", "EPOCHS_PER_HISTORICAL_VECTOR"),
  ("epochs_per_slashings_vector", "EPOCHS_PER_SLASHINGS_VECTOR"),
  ("historical_roots_limit", "HISTORICAL_ROOTS_LIMIT"),
  ("validator_registry_limit", "VALIDATOR_REGISTRY_LIMIT"),
  ("base_reward_factor", "BASE_REWARD_FACTOR"),
  ("whistleblower_reward_quotient", "WHISTLEBLOWER_REWARD_QUOTIENT"),
  ("proposer_reward_quotient", "PROPOSER_REWARD_QUOTIENT"),
  ("inactivity_penalty_quotient", "INACTIVITY_PENALTY_QUOTIENT"),
  ("min_slashing_penalty_quotient", "MIN_SLASHING_PENALTY_QUOTIENT"),
  ("proportional_slashing_multiplier", "PROPORTIONAL_SLASHING_MULTIPLIER"),
  ("max_proposer_slashings", "MAX_PROPOSER_SLASHINGS"),
  ("max_attester_slashings", "MAX_ATTESTER_SLASHINGS"),
  ("max_attestations", "MAX_ATTESTATIONS"),
  ("max_deposits", "MAX_DEPOSITS"),
  ("max_voluntary_exits", "MAX_VOLUNTARY_EXITS")]

/-- The constants of `altair/presets/mainnet.rs:16-25` -/
def mainnet.altair.constants : List (String × Nat) := [
  ("INACTIVITY_PENALTY_QUOTIENT_ALTAIR", 50331648),
  ("MIN_SLASHING_PENALTY_QUOTIENT_ALTAIR", 64),
  ("PROPORTIONAL_SLASHING_MULTIPLIER_ALTAIR", 2),
  ("SYNC_COMMITTEE_SIZE", 512),
  ("EPOCHS_PER_SYNC_COMMITTEE_PERIOD", 256),
  ("MIN_SYNC_COMMITTEE_PARTICIPANTS", 1),
  ("UPDATE_TIMEOUT", 8192),
  ("TARGET_AGGREGATORS_PER_SYNC_SUBCOMMITTEE", 16),
  ("SYNC_SUBCOMMITTEE_SIZE", 512 / 4)]

/-- `PRESET`, `altair/presets/mainnet.rs:27-35` -/
def mainnet.altair : List (String × Nat) := select mainnet.altair.constants [
  ("inactivity_penalty_quotient_altair", "INACTIVITY_PENALTY_QUOTIENT_ALTAIR"),
  ("min_slashing_penalty_quotient_altair", "MIN_SLASHING_PENALTY_QUOTIENT_ALTAIR"),
  ("proportional_slashing_multiplier_altair", "PROPORTIONAL_SLASHING_MULTIPLIER_ALTAIR"),
  ("sync_committee_size", "SYNC_COMMITTEE_SIZE"),
  ("epochs_per_sync_committee_period", "EPOCHS_PER_SYNC_COMMITTEE_PERIOD"),
  ("min_sync_committee_participants", "MIN_SYNC_COMMITTEE_PARTICIPANTS"),
  ("update_timeout", "UPDATE_TIMEOUT")]

/-- The constants of `bellatrix/presets/mainnet.rs:18-24` -/
def mainnet.bellatrix.constants : List (String × Nat) := [
  ("INACTIVITY_PENALTY_QUOTIENT_BELLATRIX", 16777216),
  ("MIN_SLASHING_PENALTY_QUOTIENT_BELLATRIX", 32),
  ("PROPORTIONAL_SLASHING_MULTIPLIER_BELLATRIX", 3),
  ("MAX_BYTES_PER_TRANSACTION", 1073741824),
  ("MAX_TRANSACTIONS_PER_PAYLOAD", 1048576),
  ("BYTES_PER_LOGS_BLOOM", 256),
  ("MAX_EXTRA_DATA_BYTES", 32)]

/-- `PRESET`, `bellatrix/presets/mainnet.rs:26-34` -/
def mainnet.bellatrix : List (String × Nat) := select mainnet.bellatrix.constants [
  ("inactivity_penalty_quotient_bellatrix", "INACTIVITY_PENALTY_QUOTIENT_BELLATRIX"),
  ("min_slashing_penalty_quotient_bellatrix", "MIN_SLASHING_PENALTY_QUOTIENT_BELLATRIX"),
  ("proportional_slashing_multiplier_bellatrix", "PROPORTIONAL_SLASHING_MULTIPLIER_BELLATRIX"),
  ("max_bytes_per_transaction", "MAX_BYTES_PER_TRANSACTION"),
  ("max_transactions_per_payload", "MAX_TRANSACTIONS_PER_PAYLOAD"),
  ("bytes_per_logs_bloom", "BYTES_PER_LOGS_BLOOM"),
  ("max_extra_data_bytes", "MAX_EXTRA_DATA_BYTES")]

/-- The constants of `capella/presets/mainnet.rs:18-20` -/
def mainnet.capella.constants : List (String × Nat) := [
  ("MAX_WITHDRAWALS_PER_PAYLOAD", 16),
  ("MAX_BLS_TO_EXECUTION_CHANGES", 16),
  ("MAX_VALIDATORS_PER_WITHDRAWALS_SWEEP", 16384)]

/-- `PRESET`, `capella/presets/mainnet.rs:22-26` -/
def mainnet.capella : List (String × Nat) := select mainnet.capella.constants [
  ("max_bls_to_execution_changes", "MAX_BLS_TO_EXECUTION_CHANGES"),
  ("max_withdrawals_per_payload", "MAX_WITHDRAWALS_PER_PAYLOAD"),
  ("max_validators_per_withdrawals_sweep", "MAX_VALIDATORS_PER_WITHDRAWALS_SWEEP")]

/-- The constants of `deneb/presets/mainnet.rs:19-27` -/
def mainnet.deneb.constants : List (String × Nat) := [
  ("FIELD_ELEMENTS_PER_BLOB", 4096),
  ("MAX_BLOB_COMMITMENTS_PER_BLOCK", 4096),
  ("MAX_BLOBS_PER_BLOCK", 6),
  ("KZG_COMMITMENT_INCLUSION_PROOF_DEPTH", 17),
  ("BYTES_PER_BLOB", 32 * 4096),
  ("MAX_REQUEST_BLOB_SIDECARS", (2 ^ 7) * 6)]

/-- `PRESET`, `deneb/presets/mainnet.rs:29-33` -/
def mainnet.deneb : List (String × Nat) := select mainnet.deneb.constants [
  ("field_elements_per_blob", "FIELD_ELEMENTS_PER_BLOB"),
  ("max_blob_commitments_per_block", "MAX_BLOB_COMMITMENTS_PER_BLOCK"),
  ("max_blobs_per_block", "MAX_BLOBS_PER_BLOCK")]

/-- The constants of `electra/presets/mainnet.rs:6-18` -/
def mainnet.electra.constants : List (String × Nat) := [
  ("MIN_ACTIVATION_BALANCE", 32 * 10 ^ 9),
  ("MAX_EFFECTIVE_BALANCE_ELECTRA", 2048 * 10 ^ 9),
  ("MIN_SLASHING_PENALTY_QUOTIENT_ELECTRA", 4096),
  ("WHISTLEBLOWER_REWARD_QUOTIENT_ELECTRA", 4096),
  ("PENDING_BALANCE_DEPOSITS_LIMIT", 2 ^ 27),
  ("PENDING_PARTIAL_WITHDRAWALS_LIMIT", 2 ^ 27),
  ("PENDING_CONSOLIDATIONS_LIMIT", 2 ^ 18),
  ("MAX_ATTESTER_SLASHINGS_ELECTRA", 1),
  ("MAX_ATTESTATIONS_ELECTRA", 8),
  ("MAX_CONSOLIDATIONS", 1),
  ("MAX_DEPOSIT_RECEIPTS_PER_PAYLOAD", 8192),
  ("MAX_WITHDRAWAL_REQUESTS_PER_PAYLOAD", 16),
  ("MAX_PENDING_PARTIALS_PER_WITHDRAWALS_SWEEP", 8)]

/-- `PRESET`, `electra/presets/mainnet.rs:20-34` -/
def mainnet.electra : List (String × Nat) := select mainnet.electra.constants [
  ("min_activation_balance", "MIN_ACTIVATION_BALANCE"),
  ("max_effective_balance_electra", "MAX_EFFECTIVE_BALANCE_ELECTRA"),
  ("min_slashing_penalty_quotient_electra", "MIN_SLASHING_PENALTY_QUOTIENT_ELECTRA"),
  ("whistleblower_reward_quotient_electra", "WHISTLEBLOWER_REWARD_QUOTIENT_ELECTRA"),
  ("pending_balance_deposits_limit", "PENDING_BALANCE_DEPOSITS_LIMIT"),
  ("pending_partial_withdrawals_limit", "PENDING_PARTIAL_WITHDRAWALS_LIMIT"),
  ("pending_consolidations_limit", "PENDING_CONSOLIDATIONS_LIMIT"),
  ("max_attester_slashings_electra", "MAX_ATTESTER_SLASHINGS_ELECTRA"),
  ("max_attestations_electra", "MAX_ATTESTATIONS_ELECTRA"),
  ("max_consolidations", "MAX_CONSOLIDATIONS"),
  ("max_deposit_receipts_per_payload", "MAX_DEPOSIT_RECEIPTS_PER_PAYLOAD"),
  ("max_withdrawal_requests_per_payload", "MAX_WITHDRAWAL_REQUESTS_PER_PAYLOAD"),
  ("max_pending_partials_per_withdrawals_sweep", "MAX_PENDING_PARTIALS_PER_WITHDRAWALS_SWEEP")]

/-- The presets of all forks -/
def mainnet : Source → List (String × Nat)
  | .phase0 => mainnet.phase0
  | .altair => mainnet.altair
  | .bellatrix => mainnet.bellatrix
  | .capella => mainnet.capella
  | .deneb => mainnet.deneb
  | .electra => mainnet.electra
  | .config => []

/-- The constants of all forks -/
def mainnet.constants : List (String × Nat) :=
  mainnet.phase0.constants ++
    mainnet.altair.constants ++
    mainnet.bellatrix.constants ++
    mainnet.capella.constants ++
    mainnet.deneb.constants ++
    mainnet.electra.constants

/-- The constants of `phase0/presets/minimal.rs:5-84` -/
def minimal.phase0.constants : List (String × Nat) := [
  ("MAX_COMMITTEES_PER_SLOT", 4),
  ("TARGET_COMMITTEE_SIZE", 4),
  ("MAX_VALIDATORS_PER_COMMITTEE", 2048),
  ("SHUFFLE_ROUND_COUNT", 10),
  ("HYSTERESIS_QUOTIENT", 4),
  ("HYSTERESIS_DOWNWARD_MULTIPLIER", 1),
  ("HYSTERESIS_UPWARD_MULTIPLIER", 5),
  ("MIN_DEPOSIT_AMOUNT", 10 ^ 9),
  ("MAX_EFFECTIVE_BALANCE", 32 * 10 ^ 9),
  ("EFFECTIVE_BALANCE_INCREMENT", 10 ^ 9),
  ("MIN_ATTESTATION_INCLUSION_DELAY", 1),
  ("SLOTS_PER_EPOCH", 8),
  ("MIN_SEED_LOOKAHEAD", 1),
  ("MAX_SEED_LOOKAHEAD", 4),
  ("EPOCHS_PER_ETH1_VOTING_PERIOD", 4),
  ("SLOTS_PER_HISTORICAL_ROOT", 64),
  ("MIN_EPOCHS_TO_INACTIVITY_PENALTY", 4),
  ("EPOCHS_PER_HISTORICAL_VECTOR", 64),
  ("EPOCHS_PER_SLASHINGS_VECTOR", 64),
  ("HISTORICAL_ROOTS_LIMIT", 16777216),
  ("VALIDATOR_REGISTRY_LIMIT", 2 ^ 40),
  ("BASE_REWARD_FACTOR", 64),
  ("WHISTLEBLOWER_REWARD_QUOTIENT", 512),
  ("PROPOSER_REWARD_QUOTIENT", 8),
  ("INACTIVITY_PENALTY_QUOTIENT", 2 ^ 25),
  ("MIN_SLASHING_PENALTY_QUOTIENT", 64),
  ("PROPORTIONAL_SLASHING_MULTIPLIER", 2),
  ("MAX_PROPOSER_SLASHINGS", 16),
  ("MAX_ATTESTER_SLASHINGS", 2),
  ("MAX_ATTESTATIONS", 128),
  ("MAX_DEPOSITS", 16),
  ("MAX_VOLUNTARY_EXITS", 16),
  ("TARGET_AGGREGATORS_PER_COMMITTEE", 16),
  ("RANDOM_SUBNETS_PER_VALIDATOR", 1),
  ("EPOCHS_PER_RANDOM_SUBNET_SUBSCRIPTION", 256),
  ("ETH1_DATA_VOTES_BOUND", 4  * 8),
  ("PENDING_ATTESTATIONS_BOUND", 128 * 8)]

/-- `PRESET`, `phase0/presets/minimal.rs:42-75` -/
def minimal.phase0 : List (String × Nat) := select minimal.phase0.constants [
  ("max_committees_per_slot", "MAX_COMMITTEES_PER_SLOT"),
  ("target_committee_size", "TARGET_COMMITTEE_SIZE"),
  ("max_validators_per_committee", "MAX_VALIDATORS_PER_COMMITTEE"),
  ("shuffle_round_count", "SHUFFLE_ROUND_COUNT"),
  ("hysteresis_quotient", "HYSTERESIS_QUOTIENT"),
  ("hysteresis_downward_multiplier", "HYSTERESIS_DOWNWARD_MULTIPLIER"),
  ("hysteresis_upward_multiplier", "HYSTERESIS_UPWARD_MULTIPLIER"),
  ("min_deposit_amount", "MIN_DEPOSIT_AMOUNT"),
  ("max_effective_balance", "MAX_EFFECTIVE_BALANCE"),
  ("effective_balance_increment", "EFFECTIVE_BALANCE_INCREMENT"),
  ("min_attestation_inclusion_delay", "MIN_ATTESTATION_INCLUSION_DELAY"),
  ("slots_per_epoch", "SLOTS_PER_EPOCH"),
  ("min_seed_lookahead", "MIN_SEED_LOOKAHEAD"),
  ("max_seed_lookahead", "MAX_SEED_LOOKAHEAD"),
  ("min_epochs_to_inactivity_penalty", "MIN_EPOCHS_TO_INACTIVITY_PENALTY"),
  ("epochs_per_eth1_voting_period", "EPOCHS_PER_ETH1_VOTING_PERIOD"),
  ("slots_per_historical_root", "SLOTS_PER_HISTORICAL_ROOT"),
  ("epochs_per_historical_vector", "EPOCHS_PER_HISTORICAL_VECTOR"),
  ("epochs_per_slashings_vector", "EPOCHS_PER_SLASHINGS_VECTOR"),
  ("historical_roots_limit", "HISTORICAL_ROOTS_LIMIT"),
  ("validator_registry_limit", "VALIDATOR_REGISTRY_LIMIT"),
  ("base_reward_factor", "BASE_REWARD_FACTOR"),
  ("whistleblower_reward_quotient", "WHISTLEBLOWER_REWARD_QUOTIENT"),
  ("proposer_reward_quotient", "PROPOSER_REWARD_QUOTIENT"),
  ("inactivity_penalty_quotient", "INACTIVITY_PENALTY_QUOTIENT"),
  ("min_slashing_penalty_quotient", "MIN_SLASHING_PENALTY_QUOTIENT"),
  ("proportional_slashing_multiplier", "PROPORTIONAL_SLASHING_MULTIPLIER"),
  ("max_proposer_slashings", "MAX_PROPOSER_SLASHINGS"),
  ("max_attester_slashings", "MAX_ATTESTER_SLASHINGS"),
  ("max_attestations", "MAX_ATTESTATIONS"),
  ("max_deposits", "MAX_DEPOSITS"),
  ("max_voluntary_exits", "MAX_VOLUNTARY_EXITS")]

/-- The constants of `altair/presets/minimal.rs:16-25` -/
def minimal.altair.constants : List (String × Nat) := [
  ("INACTIVITY_PENALTY_QUOTIENT_ALTAIR", 50331648),
  ("MIN_SLASHING_PENALTY_QUOTIENT_ALTAIR", 64),
  ("PROPORTIONAL_SLASHING_MULTIPLIER_ALTAIR", 2),
  ("SYNC_COMMITTEE_SIZE", 32),
  ("EPOCHS_PER_SYNC_COMMITTEE_PERIOD", 8),
  ("MIN_SYNC_COMMITTEE_PARTICIPANTS", 1),
  ("UPDATE_TIMEOUT", 64),
  ("TARGET_AGGREGATORS_PER_SYNC_SUBCOMMITTEE", 16),
  ("SYNC_SUBCOMMITTEE_SIZE", 32 / 4)]

/-- `PRESET`, `altair/presets/minimal.rs:27-35` -/
def minimal.altair : List (String × Nat) := select minimal.altair.constants [
  ("inactivity_penalty_quotient_altair", "INACTIVITY_PENALTY_QUOTIENT_ALTAIR"),
  ("min_slashing_penalty_quotient_altair", "MIN_SLASHING_PENALTY_QUOTIENT_ALTAIR"),
  ("proportional_slashing_multiplier_altair", "PROPORTIONAL_SLASHING_MULTIPLIER_ALTAIR"),
  ("sync_committee_size", "SYNC_COMMITTEE_SIZE"),
  ("epochs_per_sync_committee_period", "EPOCHS_PER_SYNC_COMMITTEE_PERIOD"),
  ("min_sync_committee_participants", "MIN_SYNC_COMMITTEE_PARTICIPANTS"),
  ("update_timeout", "UPDATE_TIMEOUT")]

/-- The constants of `bellatrix/presets/minimal.rs:18-24` -/
def minimal.bellatrix.constants : List (String × Nat) := [
  ("INACTIVITY_PENALTY_QUOTIENT_BELLATRIX", 16777216),
  ("MIN_SLASHING_PENALTY_QUOTIENT_BELLATRIX", 32),
  ("PROPORTIONAL_SLASHING_MULTIPLIER_BELLATRIX", 3),
  ("MAX_BYTES_PER_TRANSACTION", 1073741824),
  ("MAX_TRANSACTIONS_PER_PAYLOAD", 1048576),
  ("BYTES_PER_LOGS_BLOOM", 256),
  ("MAX_EXTRA_DATA_BYTES", 32)]

/-- `PRESET`, `bellatrix/presets/minimal.rs:26-34` -/
def minimal.bellatrix : List (String × Nat) := select minimal.bellatrix.constants [
  ("inactivity_penalty_quotient_bellatrix", "INACTIVITY_PENALTY_QUOTIENT_BELLATRIX"),
  ("min_slashing_penalty_quotient_bellatrix", "MIN_SLASHING_PENALTY_QUOTIENT_BELLATRIX"),
  ("proportional_slashing_multiplier_bellatrix", "PROPORTIONAL_SLASHING_MULTIPLIER_BELLATRIX"),
  ("max_bytes_per_transaction", "MAX_BYTES_PER_TRANSACTION"),
  ("max_transactions_per_payload", "MAX_TRANSACTIONS_PER_PAYLOAD"),
  ("bytes_per_logs_bloom", "BYTES_PER_LOGS_BLOOM"),
  ("max_extra_data_bytes", "MAX_EXTRA_DATA_BYTES")]

/-- The constants of `capella/presets/minimal.rs:18-20` -/
def minimal.capella.constants : List (String × Nat) := [
  ("MAX_WITHDRAWALS_PER_PAYLOAD", 4),
  ("MAX_BLS_TO_EXECUTION_CHANGES", 16),
  ("MAX_VALIDATORS_PER_WITHDRAWALS_SWEEP", 16)]

/-- `PRESET`, `capella/presets/minimal.rs:22-26` -/
def minimal.capella : List (String × Nat) := select minimal.capella.constants [
  ("max_bls_to_execution_changes", "MAX_BLS_TO_EXECUTION_CHANGES"),
  ("max_withdrawals_per_payload", "MAX_WITHDRAWALS_PER_PAYLOAD"),
  ("max_validators_per_withdrawals_sweep", "MAX_VALIDATORS_PER_WITHDRAWALS_SWEEP")]

/-- The constants of `deneb/presets/minimal.rs:19-27` -/
def minimal.deneb.constants : List (String × Nat) := [
  ("FIELD_ELEMENTS_PER_BLOB", 4096),
  ("MAX_BLOB_COMMITMENTS_PER_BLOCK", 16),
  ("MAX_BLOBS_PER_BLOCK", 6),
  ("KZG_COMMITMENT_INCLUSION_PROOF_DEPTH", 9),
  ("BYTES_PER_BLOB", 32 * 4096),
  ("MAX_REQUEST_BLOB_SIDECARS", (2 ^ 7) * 6)]

/-- `PRESET`, `deneb/presets/minimal.rs:29-33` -/
def minimal.deneb : List (String × Nat) := select minimal.deneb.constants [
  ("field_elements_per_blob", "FIELD_ELEMENTS_PER_BLOB"),
  ("max_blob_commitments_per_block", "MAX_BLOB_COMMITMENTS_PER_BLOCK"),
  ("max_blobs_per_block", "MAX_BLOBS_PER_BLOCK")]

/-- The constants of `electra/presets/minimal.rs:6-18` -/
def minimal.electra.constants : List (String × Nat) := [
  ("MIN_ACTIVATION_BALANCE", 32 * 10 ^ 9),
  ("MAX_EFFECTIVE_BALANCE_ELECTRA", 2048 * 10 ^ 9),
  ("MIN_SLASHING_PENALTY_QUOTIENT_ELECTRA", 4096),
  ("WHISTLEBLOWER_REWARD_QUOTIENT_ELECTRA", 4096),
  ("PENDING_BALANCE_DEPOSITS_LIMIT", 2 ^ 27),
  ("PENDING_PARTIAL_WITHDRAWALS_LIMIT", 2 ^ 6),
  ("PENDING_CONSOLIDATIONS_LIMIT", 2 ^ 6),
  ("MAX_ATTESTER_SLASHINGS_ELECTRA", 1),
  ("MAX_ATTESTATIONS_ELECTRA", 8),
  ("MAX_CONSOLIDATIONS", 1),
  ("MAX_DEPOSIT_RECEIPTS_PER_PAYLOAD", 4),
  ("MAX_WITHDRAWAL_REQUESTS_PER_PAYLOAD", 2),
  ("MAX_PENDING_PARTIALS_PER_WITHDRAWALS_SWEEP", 1)]

/-- `PRESET`, `electra/presets/minimal.rs:20-34` -/
def minimal.electra : List (String × Nat) := select minimal.electra.constants [
  ("min_activation_balance", "MIN_ACTIVATION_BALANCE"),
  ("max_effective_balance_electra", "MAX_EFFECTIVE_BALANCE_ELECTRA"),
  ("min_slashing_penalty_quotient_electra", "MIN_SLASHING_PENALTY_QUOTIENT_ELECTRA"),
  ("whistleblower_reward_quotient_electra", "WHISTLEBLOWER_REWARD_QUOTIENT_ELECTRA"),
  ("pending_balance_deposits_limit", "PENDING_BALANCE_DEPOSITS_LIMIT"),
  ("pending_partial_withdrawals_limit", "PENDING_PARTIAL_WITHDRAWALS_LIMIT"),
  ("pending_consolidations_limit", "PENDING_CONSOLIDATIONS_LIMIT"),
  ("max_attester_slashings_electra", "MAX_ATTESTER_SLASHINGS_ELECTRA"),
  ("max_attestations_electra", "MAX_ATTESTATIONS_ELECTRA"),
  ("max_consolidations", "MAX_CONSOLIDATIONS"),
  ("max_deposit_receipts_per_payload", "MAX_DEPOSIT_RECEIPTS_PER_PAYLOAD"),
  ("max_withdrawal_requests_per_payload", "MAX_WITHDRAWAL_REQUESTS_PER_PAYLOAD"),
  ("max_pending_partials_per_withdrawals_sweep", "MAX_PENDING_PARTIALS_PER_WITHDRAWALS_SWEEP")]

/-- The presets of all forks -/
def minimal : Source → List (String × Nat)
  | .phase0 => minimal.phase0
  | .altair => minimal.altair
  | .bellatrix => minimal.bellatrix
  | .capella => minimal.capella
  | .deneb => minimal.deneb
  | .electra => minimal.electra
  | .config => []

/-- The constants of all forks -/
def minimal.constants : List (String × Nat) :=
  minimal.phase0.constants ++
    minimal.altair.constants ++
    minimal.bellatrix.constants ++
    minimal.capella.constants ++
    minimal.deneb.constants ++
    minimal.electra.constants

/-- The fields of `Config` with their keys in files (`rename_all` and `rename`) and types,
`configs/mod.rs:14-66` -/
def fields : List (String × String × Kind) := [
  ("preset_base", "PRESET_BASE", .text),
  ("name", "CONFIG_NAME", .network),
  ("terminal_total_difficulty", "TERMINAL_TOTAL_DIFFICULTY", .u256),
  ("terminal_block_hash", "TERMINAL_BLOCK_HASH", .bytes 32),
  ("terminal_block_hash_activation_epoch", "TERMINAL_BLOCK_HASH_ACTIVATION_EPOCH", .u64),
  ("min_genesis_active_validator_count", "MIN_GENESIS_ACTIVE_VALIDATOR_COUNT", .u64),
  ("min_genesis_time", "MIN_GENESIS_TIME", .u64),
  ("genesis_fork_version", "GENESIS_FORK_VERSION", .bytes 4),
  ("genesis_delay", "GENESIS_DELAY", .u64),
  ("altair_fork_version", "ALTAIR_FORK_VERSION", .bytes 4),
  ("altair_fork_epoch", "ALTAIR_FORK_EPOCH", .u64),
  ("bellatrix_fork_version", "BELLATRIX_FORK_VERSION", .bytes 4),
  ("bellatrix_fork_epoch", "BELLATRIX_FORK_EPOCH", .u64),
  ("capella_fork_version", "CAPELLA_FORK_VERSION", .bytes 4),
  ("capella_fork_epoch", "CAPELLA_FORK_EPOCH", .u64),
  ("deneb_fork_version", "DENEB_FORK_VERSION", .bytes 4),
  ("deneb_fork_epoch", "DENEB_FORK_EPOCH", .u64),
  ("electra_fork_version", "ELECTRA_FORK_VERSION", .bytes 4),
  ("electra_fork_epoch", "ELECTRA_FORK_EPOCH", .u64),
  ("seconds_per_slot", "SECONDS_PER_SLOT", .u64),
  ("seconds_per_eth1_block", "SECONDS_PER_ETH1_BLOCK", .u64),
  ("min_validator_withdrawability_delay", "MIN_VALIDATOR_WITHDRAWABILITY_DELAY", .u64),
  ("shard_committee_period", "SHARD_COMMITTEE_PERIOD", .u64),
  ("eth1_follow_distance", "ETH1_FOLLOW_DISTANCE", .u64),
  ("inactivity_score_bias", "INACTIVITY_SCORE_BIAS", .u64),
  ("inactivity_score_recovery_rate", "INACTIVITY_SCORE_RECOVERY_RATE", .u64),
  ("ejection_balance", "EJECTION_BALANCE", .u64),
  ("min_per_epoch_churn_limit", "MIN_PER_EPOCH_CHURN_LIMIT", .u64),
  ("max_per_epoch_activation_churn_limit", "MAX_PER_EPOCH_ACTIVATION_CHURN_LIMIT", .u64),
  ("churn_limit_quotient", "CHURN_LIMIT_QUOTIENT", .u64),
  ("min_per_epoch_churn_limit_electra", "MIN_PER_EPOCH_CHURN_LIMIT_ELECTRA", .u64),
  ("max_per_epoch_activation_exit_churn_limit", "MAX_PER_EPOCH_ACTIVATION_EXIT_CHURN_LIMIT", .u64),
  ("proposer_score_boost", "PROPOSER_SCORE_BOOST", .u64),
  ("deposit_chain_id", "DEPOSIT_CHAIN_ID", .u64),
  ("deposit_network_id", "DEPOSIT_NETWORK_ID", .u64),
  ("deposit_contract_address", "DEPOSIT_CONTRACT_ADDRESS", .bytes 20)]

/-- Which field of which argument `Context::from` copies to a field, without `execution_engine` and
`kzg_settings`, `state_transition/context.rs:207-327` -/
def assignments : List (String × Source × String) := [
  ("max_committees_per_slot", .phase0, "max_committees_per_slot"),
  ("target_committee_size", .phase0, "target_committee_size"),
  ("max_validators_per_committee", .phase0, "max_validators_per_committee"),
  ("shuffle_round_count", .phase0, "shuffle_round_count"),
  ("hysteresis_quotient", .phase0, "hysteresis_quotient"),
  ("hysteresis_downward_multiplier", .phase0, "hysteresis_downward_multiplier"),
  ("hysteresis_upward_multiplier", .phase0, "hysteresis_upward_multiplier"),
  ("min_deposit_amount", .phase0, "min_deposit_amount"),
  ("max_effective_balance", .phase0, "max_effective_balance"),
  ("effective_balance_increment", .phase0, "effective_balance_increment"),
  ("min_attestation_inclusion_delay", .phase0, "min_attestation_inclusion_delay"),
  ("slots_per_epoch", .phase0, "slots_per_epoch"),
  ("min_seed_lookahead", .phase0, "min_seed_lookahead"),
  ("max_seed_lookahead", .phase0, "max_seed_lookahead"),
  ("min_epochs_to_inactivity_penalty", .phase0, "min_epochs_to_inactivity_penalty"),
  ("epochs_per_eth1_voting_period", .phase0, "epochs_per_eth1_voting_period"),
  ("slots_per_historical_root", .phase0, "slots_per_historical_root"),
  ("epochs_per_historical_vector", .phase0, "epochs_per_historical_vector"),
  ("epochs_per_slashings_vector", .phase0, "epochs_per_slashings_vector"),
  ("historical_roots_limit", .phase0, "historical_roots_limit"),
  ("validator_registry_limit", .phase0, "validator_registry_limit"),
  ("base_reward_factor", .phase0, "base_reward_factor"),
  ("whistleblower_reward_quotient", .phase0, "whistleblower_reward_quotient"),
  ("proposer_reward_quotient", .phase0, "proposer_reward_quotient"),
  ("inactivity_penalty_quotient", .phase0, "inactivity_penalty_quotient"),
  ("min_slashing_penalty_quotient", .phase0, "min_slashing_penalty_quotient"),
  ("proportional_slashing_multiplier", .phase0, "proportional_slashing_multiplier"),
  ("max_proposer_slashings", .phase0, "max_proposer_slashings"),
  ("max_attester_slashings", .phase0, "max_attester_slashings"),
  ("max_attestations", .phase0, "max_attestations"),
  ("max_deposits", .phase0, "max_deposits"),
  ("max_voluntary_exits", .phase0, "max_voluntary_exits"),
  ("inactivity_penalty_quotient_altair", .altair, "inactivity_penalty_quotient_altair"),
  ("min_slashing_penalty_quotient_altair", .altair, "min_slashing_penalty_quotient_altair"),
  ("proportional_slashing_multiplier_altair", .altair, "proportional_slashing_multiplier_altair"),
  ("sync_committee_size", .altair, "sync_committee_size"),
  ("epochs_per_sync_committee_period", .altair, "epochs_per_sync_committee_period"),
  ("min_sync_committee_participants", .altair, "min_sync_committee_participants"),
  ("update_timeout", .altair, "update_timeout"),
  ("inactivity_penalty_quotient_bellatrix", .bellatrix, "inactivity_penalty_quotient_bellatrix"),
  ("min_slashing_penalty_quotient_bellatrix", .bellatrix, "min_slashing_penalty_quotient_bellatrix"),
  ("proportional_slashing_multiplier_bellatrix", .bellatrix, "proportional_slashing_multiplier_bellatrix"),
  ("max_bytes_per_transaction", .bellatrix, "max_bytes_per_transaction"),
  ("max_transactions_per_payload", .bellatrix, "max_transactions_per_payload"),
  ("bytes_per_logs_bloom", .bellatrix, "bytes_per_logs_bloom"),
  ("max_extra_data_bytes", .bellatrix, "max_extra_data_bytes"),
  ("max_bls_to_execution_changes", .capella, "max_bls_to_execution_changes"),
  ("max_withdrawals_per_payload", .capella, "max_withdrawals_per_payload"),
  ("max_validators_per_withdrawals_sweep", .capella, "max_validators_per_withdrawals_sweep"),
  ("field_elements_per_blob", .deneb, "field_elements_per_blob"),
  ("max_blob_commitments_per_block", .deneb, "max_blob_commitments_per_block"),
  ("max_blobs_per_block", .deneb, "max_blobs_per_block"),
  ("min_activation_balance", .electra, "min_activation_balance"),
  ("max_effective_balance_electra", .electra, "max_effective_balance_electra"),
  ("min_slashing_penalty_quotient_electra", .electra, "min_slashing_penalty_quotient_electra"),
  ("whistleblower_reward_quotient_electra", .electra, "whistleblower_reward_quotient_electra"),
  ("pending_balance_deposits_limit", .electra, "pending_balance_deposits_limit"),
  ("pending_partial_withdrawals_limit", .electra, "pending_partial_withdrawals_limit"),
  ("pending_consolidations_limit", .electra, "pending_consolidations_limit"),
  ("max_attester_slashings_electra", .electra, "max_attester_slashings_electra"),
  ("max_attestations_electra", .electra, "max_attestations_electra"),
  ("max_consolidations", .electra, "max_consolidations"),
  ("max_deposit_receipts_per_payload", .electra, "max_deposit_receipts_per_payload"),
  ("max_withdrawal_requests_per_payload", .electra, "max_withdrawal_requests_per_payload"),
  ("max_pending_partials_per_withdrawals_sweep", .electra, "max_pending_partials_per_withdrawals_sweep"),
  ("name", .config, "name"),
  ("terminal_total_difficulty", .config, "terminal_total_difficulty"),
  ("terminal_block_hash", .config, "terminal_block_hash"),
  ("terminal_block_hash_activation_epoch", .config, "terminal_block_hash_activation_epoch"),
  ("min_genesis_active_validator_count", .config, "min_genesis_active_validator_count"),
  ("min_genesis_time", .config, "min_genesis_time"),
  ("genesis_fork_version", .config, "genesis_fork_version"),
  ("genesis_delay", .config, "genesis_delay"),
  ("altair_fork_version", .config, "altair_fork_version"),
  ("altair_fork_epoch", .config, "altair_fork_epoch"),
  ("bellatrix_fork_version", .config, "bellatrix_fork_version"),
  ("bellatrix_fork_epoch", .config, "bellatrix_fork_epoch"),
  ("capella_fork_version", .config, "capella_fork_version"),
  ("capella_fork_epoch", .config, "capella_fork_epoch"),
  ("deneb_fork_version", .config, "deneb_fork_version"),
  ("deneb_fork_epoch", .config, "deneb_fork_epoch"),
  ("electra_fork_version", .config, "electra_fork_version"),
  ("electra_fork_epoch", .config, "electra_fork_epoch"),
  ("seconds_per_slot", .config, "seconds_per_slot"),
  ("seconds_per_eth1_block", .config, "seconds_per_eth1_block"),
  ("min_validator_withdrawability_delay", .config, "min_validator_withdrawability_delay"),
  ("shard_committee_period", .config, "shard_committee_period"),
  ("eth1_follow_distance", .config, "eth1_follow_distance"),
  ("inactivity_score_bias", .config, "inactivity_score_bias"),
  ("inactivity_score_recovery_rate", .config, "inactivity_score_recovery_rate"),
  ("ejection_balance", .config, "ejection_balance"),
  ("min_per_epoch_churn_limit", .config, "min_per_epoch_churn_limit"),
  ("max_per_epoch_activation_churn_limit", .config, "max_per_epoch_activation_churn_limit"),
  ("min_per_epoch_churn_limit_electra", .config, "min_per_epoch_churn_limit_electra"),
  ("max_per_epoch_activation_exit_churn_limit", .config, "max_per_epoch_activation_exit_churn_limit"),
  ("churn_limit_quotient", .config, "churn_limit_quotient"),
  ("proposer_score_boost", .config, "proposer_score_boost"),
  ("deposit_chain_id", .config, "deposit_chain_id"),
  ("deposit_network_id", .config, "deposit_network_id"),
  ("deposit_contract_address", .config, "deposit_contract_address")]

/-- `config`, `configs/mainnet.rs:39-92`, with its constants -/
def config_mainnet : List (String × Value) := [
  ("preset_base", .text "mainnet"),
  ("name", .network .Mainnet),
  ("terminal_total_difficulty",
    .num (ofLeBytes [0, 0, 56, 215, 40, 161, 8, 216, 112, 12, 0, 0, 0, 0, 0, 0, 0, 0, 0,
      0, 0, 0, 0, 0, 0, 0, 0, 0, 0, 0, 0, 0])),
  ("terminal_block_hash", .bytes (List.replicate 32 0)),
  ("terminal_block_hash_activation_epoch", .num (2 ^ 64 - 1)),
  ("min_genesis_active_validator_count", .num 16384),
  ("min_genesis_time", .num 1606824000),
  ("genesis_fork_version", .bytes (List.replicate 4 0)),
  ("genesis_delay", .num 604800),
  ("altair_fork_version", .bytes [1, 0, 0, 0]),
  ("altair_fork_epoch", .num 74240),
  ("bellatrix_fork_version", .bytes [2, 0, 0, 0]),
  ("bellatrix_fork_epoch", .num 144896),
  ("capella_fork_version", .bytes [3, 0, 0, 0]),
  ("capella_fork_epoch", .num 194048),
  ("deneb_fork_version", .bytes [4, 0, 0, 0]),
  ("deneb_fork_epoch", .num 269568),
  ("electra_fork_version", .bytes [5, 0, 0, 0]),
  ("electra_fork_epoch", .num (2 ^ 64 - 1)),
  ("seconds_per_slot", .num 12),
  ("seconds_per_eth1_block", .num 14),
  ("min_validator_withdrawability_delay", .num 256),
  ("shard_committee_period", .num 256),
  ("eth1_follow_distance", .num 2048),
  ("inactivity_score_bias", .num 4),
  ("inactivity_score_recovery_rate", .num 16),
  ("ejection_balance", .num (16 * 10 ^ 9)),
  ("min_per_epoch_churn_limit", .num 4),
  ("max_per_epoch_activation_churn_limit", .num 8),
  ("min_per_epoch_churn_limit_electra", .num (128 * 10 ^ 9)),
  ("max_per_epoch_activation_exit_churn_limit", .num (256 * 10 ^ 9)),
  ("churn_limit_quotient", .num 65536),
  ("proposer_score_boost", .num 40),
  ("deposit_chain_id", .num 1),
  ("deposit_network_id", .num 1),
  ("deposit_contract_address",
    .bytes [0, 0, 0, 0, 33, 154, 181, 64, 53, 108, 187, 131, 156, 190, 5, 48, 61, 119, 5, 250])]

/-- `config`, `configs/minimal.rs:39-93`, with its constants -/
def config_minimal : List (String × Value) := [
  ("preset_base", .text "minimal"),
  ("name", .network (.Custom "minimal")),
  ("terminal_total_difficulty",
    .num (ofLeBytes [0, 252, 255, 255, 255, 255, 255, 255, 255, 255, 255, 255, 255, 255,
      255, 255, 255, 255, 255, 255, 255, 255, 255, 255, 255, 255, 255, 255, 255, 255, 255,
      255])),
  ("terminal_block_hash", .bytes (List.replicate 32 0)),
  ("terminal_block_hash_activation_epoch", .num (2 ^ 64 - 1)),
  ("min_genesis_active_validator_count", .num 64),
  ("min_genesis_time", .num 1578009600),
  ("genesis_fork_version", .bytes [0, 0, 0, 1]),
  ("genesis_delay", .num 300),
  ("altair_fork_version", .bytes [1, 0, 0, 1]),
  ("altair_fork_epoch", .num (2 ^ 64 - 1)),
  ("bellatrix_fork_version", .bytes [2, 0, 0, 1]),
  ("bellatrix_fork_epoch", .num (2 ^ 64 - 1)),
  ("capella_fork_version", .bytes [3, 0, 0, 1]),
  ("capella_fork_epoch", .num (2 ^ 64 - 1)),
  ("deneb_fork_version", .bytes [4, 0, 0, 1]),
  ("deneb_fork_epoch", .num (2 ^ 64 - 1)),
  ("electra_fork_version", .bytes [5, 0, 0, 1]),
  ("electra_fork_epoch", .num (2 ^ 64 - 1)),
  ("seconds_per_slot", .num 6),
  ("seconds_per_eth1_block", .num 14),
  ("min_validator_withdrawability_delay", .num 256),
  ("shard_committee_period", .num 64),
  ("eth1_follow_distance", .num 16),
  ("inactivity_score_bias", .num 4),
  ("inactivity_score_recovery_rate", .num 16),
  ("ejection_balance", .num (16 * 10 ^ 9)),
  ("min_per_epoch_churn_limit", .num 2),
  ("max_per_epoch_activation_churn_limit", .num 4),
  ("min_per_epoch_churn_limit_electra", .num (64 * 10 ^ 9)),
  ("max_per_epoch_activation_exit_churn_limit", .num (128 * 10 ^ 9)),
  ("churn_limit_quotient", .num 32),
  ("proposer_score_boost", .num 40),
  ("deposit_chain_id", .num 5),
  ("deposit_network_id", .num 5),
  ("deposit_contract_address",
    .bytes [18, 52, 86, 120, 144, 18, 52, 86, 120, 144, 18, 52, 86, 120, 144, 18, 52, 86,
      120, 144])]

/-- `config`, `configs/goerli.rs:39-94`, with its constants -/
def config_goerli : List (String × Value) := [
  ("preset_base", .text "mainnet"),
  ("name", .network .Goerli),
  ("terminal_total_difficulty",
    .num (ofLeBytes [112, 164, 164, 0, 0, 0, 0, 0, 0, 0, 0, 0, 0, 0, 0, 0, 0, 0, 0, 0, 0,
      0, 0, 0, 0, 0, 0, 0, 0, 0, 0, 0])),
  ("terminal_block_hash", .bytes (List.replicate 32 0)),
  ("terminal_block_hash_activation_epoch", .num (2 ^ 64 - 1)),
  ("min_genesis_active_validator_count", .num 16384),
  ("min_genesis_time", .num 1614588812),
  ("genesis_fork_version", .bytes [0, 0, 16, 32]),
  ("genesis_delay", .num 1919188),
  ("altair_fork_version", .bytes [1, 0, 16, 32]),
  ("altair_fork_epoch", .num 36660),
  ("bellatrix_fork_version", .bytes [2, 0, 16, 32]),
  ("bellatrix_fork_epoch", .num 112260),
  ("capella_fork_version", .bytes [3, 0, 16, 32]),
  ("capella_fork_epoch", .num 162304),
  ("deneb_fork_version", .bytes [4, 0, 16, 32]),
  ("deneb_fork_epoch", .num 231680),
  ("electra_fork_version", .bytes [5, 0, 16, 32]),
  ("electra_fork_epoch", .num (2 ^ 64 - 1)),
  ("seconds_per_slot", .num 12),
  ("seconds_per_eth1_block", .num 14),
  ("min_validator_withdrawability_delay", .num 256),
  ("shard_committee_period", .num 256),
  ("eth1_follow_distance", .num 2048),
  ("inactivity_score_bias", .num 4),
  ("inactivity_score_recovery_rate", .num 16),
  ("ejection_balance", .num (16 * 10 ^ 9)),
  ("min_per_epoch_churn_limit", .num 4),
  ("max_per_epoch_activation_churn_limit", .num 8),
  ("min_per_epoch_churn_limit_electra", .num (128 * 10 ^ 9)),
  ("max_per_epoch_activation_exit_churn_limit", .num (256 * 10 ^ 9)),
  ("churn_limit_quotient", .num 65536),
  ("proposer_score_boost", .num 40),
  ("deposit_chain_id", .num 5),
  ("deposit_network_id", .num 5),
  ("deposit_contract_address",
    .bytes [255, 80, 237, 61, 14, 192, 58, 192, 29, 76, 121, 170, 215, 73, 40, 191, 244,
      138, 123, 43])]

/-- `config`, `configs/sepolia.rs:39-95`, with its constants -/
def config_sepolia : List (String × Value) := [
  ("preset_base", .text "mainnet"),
  ("name", .network .Sepolia),
  ("terminal_total_difficulty",
    .num (ofLeBytes [0, 128, 46, 241, 104, 101, 60, 0, 0, 0, 0, 0, 0, 0, 0, 0, 0, 0, 0, 0,
      0, 0, 0, 0, 0, 0, 0, 0, 0, 0, 0, 0])),
  ("terminal_block_hash", .bytes (List.replicate 32 0)),
  ("terminal_block_hash_activation_epoch", .num (2 ^ 64 - 1)),
  ("min_genesis_active_validator_count", .num 1300),
  ("min_genesis_time", .num 1655647200),
  ("genesis_fork_version", .bytes [144, 0, 0, 105]),
  ("genesis_delay", .num 86400),
  ("altair_fork_version", .bytes [144, 0, 0, 112]),
  ("altair_fork_epoch", .num 50),
  ("bellatrix_fork_version", .bytes [144, 0, 0, 113]),
  ("bellatrix_fork_epoch", .num 100),
  ("capella_fork_version", .bytes [144, 0, 0, 114]),
  ("capella_fork_epoch", .num 56832),
  ("deneb_fork_version", .bytes [144, 0, 0, 115]),
  ("deneb_fork_epoch", .num 132608),
  ("electra_fork_version", .bytes [144, 0, 0, 116]),
  ("electra_fork_epoch", .num (2 ^ 64 - 1)),
  ("seconds_per_slot", .num 12),
  ("seconds_per_eth1_block", .num 14),
  ("min_validator_withdrawability_delay", .num 256),
  ("shard_committee_period", .num 256),
  ("eth1_follow_distance", .num 2048),
  ("inactivity_score_bias", .num 4),
  ("inactivity_score_recovery_rate", .num 16),
  ("ejection_balance", .num (16 * 10 ^ 9)),
  ("min_per_epoch_churn_limit", .num 4),
  ("max_per_epoch_activation_churn_limit", .num 8),
  ("min_per_epoch_churn_limit_electra", .num (128 * 10 ^ 9)),
  ("max_per_epoch_activation_exit_churn_limit", .num (256 * 10 ^ 9)),
  ("churn_limit_quotient", .num 65536),
  ("proposer_score_boost", .num 40),
  ("deposit_chain_id", .num 11155111),
  ("deposit_network_id", .num 11155111),
  ("deposit_contract_address",
    .bytes [127, 2, 195, 227, 201, 139, 19, 48, 85, 184, 179, 72, 178, 172, 98, 86, 105,
      237, 41, 93])]

/-- `config`, `configs/holesky.rs:40-90`, with its constants -/
def config_holesky : List (String × Value) := [
  ("preset_base", .text "mainnet"),
  ("name", .network .Holesky),
  ("terminal_total_difficulty", .num 0),
  ("terminal_block_hash", .bytes (List.replicate 32 0)),
  ("terminal_block_hash_activation_epoch", .num (2 ^ 64 - 1)),
  ("min_genesis_active_validator_count", .num 16384),
  ("min_genesis_time", .num 1695902100),
  ("genesis_fork_version", .bytes [1, 1, 112, 0]),
  ("genesis_delay", .num 300),
  ("altair_fork_version", .bytes [2, 1, 112, 0]),
  ("altair_fork_epoch", .num 0),
  ("bellatrix_fork_version", .bytes [3, 1, 112, 0]),
  ("bellatrix_fork_epoch", .num 0),
  ("capella_fork_version", .bytes [4, 1, 112, 0]),
  ("capella_fork_epoch", .num 256),
  ("deneb_fork_version", .bytes [5, 1, 112, 0]),
  ("deneb_fork_epoch", .num 29696),
  ("electra_fork_version", .bytes [6, 1, 112, 0]),
  ("electra_fork_epoch", .num (2 ^ 64 - 1)),
  ("seconds_per_slot", .num 12),
  ("seconds_per_eth1_block", .num 14),
  ("min_validator_withdrawability_delay", .num 256),
  ("shard_committee_period", .num 256),
  ("eth1_follow_distance", .num 2048),
  ("inactivity_score_bias", .num 4),
  ("inactivity_score_recovery_rate", .num 16),
  ("ejection_balance", .num (28 * 10 ^ 9)),
  ("min_per_epoch_churn_limit", .num 4),
  ("max_per_epoch_activation_churn_limit", .num 8),
  ("min_per_epoch_churn_limit_electra", .num (128 * 10 ^ 9)),
  ("max_per_epoch_activation_exit_churn_limit", .num (256 * 10 ^ 9)),
  ("churn_limit_quotient", .num 65536),
  ("proposer_score_boost", .num 40),
  ("deposit_chain_id", .num 17000),
  ("deposit_network_id", .num 17000),
  ("deposit_contract_address",
    .bytes [66, 66, 66, 66, 66, 66, 66, 66, 66, 66, 66, 66, 66, 66, 66, 66, 66, 66, 66, 66])]

/-- `config`, `configs/hoodi.rs:40-91`, with its constants -/
def config_hoodi : List (String × Value) := [
  ("preset_base", .text "mainnet"),
  ("name", .network .Hoodi),
  ("terminal_total_difficulty", .num 0),
  ("terminal_block_hash", .bytes (List.replicate 32 0)),
  ("terminal_block_hash_activation_epoch", .num (2 ^ 64 - 1)),
  ("min_genesis_active_validator_count", .num 16384),
  ("min_genesis_time", .num 1742212800),
  ("genesis_fork_version", .bytes [16, 0, 9, 16]),
  ("genesis_delay", .num 600),
  ("altair_fork_version", .bytes [32, 0, 9, 16]),
  ("altair_fork_epoch", .num 0),
  ("bellatrix_fork_version", .bytes [48, 0, 9, 16]),
  ("bellatrix_fork_epoch", .num 0),
  ("capella_fork_version", .bytes [64, 0, 9, 16]),
  ("capella_fork_epoch", .num 0),
  ("deneb_fork_version", .bytes [80, 0, 9, 16]),
  ("deneb_fork_epoch", .num 0),
  ("electra_fork_version", .bytes [96, 0, 9, 16]),
  ("electra_fork_epoch", .num 2048),
  ("seconds_per_slot", .num 12),
  ("seconds_per_eth1_block", .num 12),
  ("min_validator_withdrawability_delay", .num 256),
  ("shard_committee_period", .num 256),
  ("eth1_follow_distance", .num 2048),
  ("inactivity_score_bias", .num 4),
  ("inactivity_score_recovery_rate", .num 16),
  ("ejection_balance", .num (16 * 10 ^ 9)),
  ("min_per_epoch_churn_limit", .num 4),
  ("max_per_epoch_activation_churn_limit", .num 8),
  ("min_per_epoch_churn_limit_electra", .num (128 * 10 ^ 9)),
  ("max_per_epoch_activation_exit_churn_limit", .num (256 * 10 ^ 9)),
  ("churn_limit_quotient", .num 65536),
  ("proposer_score_boost", .num 40),
  ("deposit_chain_id", .num 560048),
  ("deposit_network_id", .num 560048),
  ("deposit_contract_address",
    .bytes [0, 0, 0, 0, 33, 154, 181, 64, 53, 108, 187, 131, 156, 190, 5, 48, 61, 119, 5, 250])]

end Verif.Config
