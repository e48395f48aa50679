import Verif.Model.ConfigLoad

/-! # What configuration files say -/

namespace Verif.Spec

open Config

/-- A name in capital letters -/
def capitals (name : String) : String := String.ofList (name.toList.map Char.toUpper)

/-- The key of a parameter in a file -/
def keyOf (name : String) : String := if name = "name" then "CONFIG_NAME" else capitals name

/-- The parameters that a configuration file sets, and what values they have -/
def configParameters : List (String × Kind) := [
  ("preset_base", .text),
  ("name", .network),
  ("terminal_total_difficulty", .u256),
  ("terminal_block_hash", .bytes 32),
  ("terminal_block_hash_activation_epoch", .u64),
  ("min_genesis_active_validator_count", .u64),
  ("min_genesis_time", .u64),
  ("genesis_fork_version", .bytes 4),
  ("genesis_delay", .u64),
  ("altair_fork_version", .bytes 4),
  ("altair_fork_epoch", .u64),
  ("bellatrix_fork_version", .bytes 4),
  ("bellatrix_fork_epoch", .u64),
  ("capella_fork_version", .bytes 4),
  ("capella_fork_epoch", .u64),
  ("deneb_fork_version", .bytes 4),
  ("deneb_fork_epoch", .u64),
  ("electra_fork_version", .bytes 4),
  ("electra_fork_epoch", .u64),
  ("seconds_per_slot", .u64),
  ("seconds_per_eth1_block", .u64),
  ("min_validator_withdrawability_delay", .u64),
  ("shard_committee_period", .u64),
  ("eth1_follow_distance", .u64),
  ("inactivity_score_bias", .u64),
  ("inactivity_score_recovery_rate", .u64),
  ("ejection_balance", .u64),
  ("min_per_epoch_churn_limit", .u64),
  ("max_per_epoch_activation_churn_limit", .u64),
  ("churn_limit_quotient", .u64),
  ("min_per_epoch_churn_limit_electra", .u64),
  ("max_per_epoch_activation_exit_churn_limit", .u64),
  ("proposer_score_boost", .u64),
  ("deposit_chain_id", .u64),
  ("deposit_network_id", .u64),
  ("deposit_contract_address", .bytes 20)]

/-- The parameters that a preset sets -/
def presetParameters : List String := [
  "max_committees_per_slot", "target_committee_size", "max_validators_per_committee",
  "shuffle_round_count", "hysteresis_quotient", "hysteresis_downward_multiplier",
  "hysteresis_upward_multiplier", "min_deposit_amount", "max_effective_balance",
  "effective_balance_increment", "min_attestation_inclusion_delay", "slots_per_epoch",
  "min_seed_lookahead", "max_seed_lookahead", "min_epochs_to_inactivity_penalty",
  "epochs_per_eth1_voting_period", "slots_per_historical_root", "epochs_per_historical_vector",
  "epochs_per_slashings_vector", "historical_roots_limit", "validator_registry_limit",
  "base_reward_factor", "whistleblower_reward_quotient", "proposer_reward_quotient",
  "inactivity_penalty_quotient", "min_slashing_penalty_quotient",
  "proportional_slashing_multiplier", "max_proposer_slashings", "max_attester_slashings",
  "max_attestations", "max_deposits", "max_voluntary_exits", "inactivity_penalty_quotient_altair",
  "min_slashing_penalty_quotient_altair", "proportional_slashing_multiplier_altair",
  "sync_committee_size", "epochs_per_sync_committee_period", "min_sync_committee_participants",
  "update_timeout", "inactivity_penalty_quotient_bellatrix",
  "min_slashing_penalty_quotient_bellatrix", "proportional_slashing_multiplier_bellatrix",
  "max_bytes_per_transaction", "max_transactions_per_payload", "bytes_per_logs_bloom",
  "max_extra_data_bytes", "max_bls_to_execution_changes", "max_withdrawals_per_payload",
  "max_validators_per_withdrawals_sweep", "field_elements_per_blob",
  "max_blob_commitments_per_block", "max_blobs_per_block", "min_activation_balance",
  "max_effective_balance_electra", "min_slashing_penalty_quotient_electra",
  "whistleblower_reward_quotient_electra", "pending_balance_deposits_limit",
  "pending_partial_withdrawals_limit", "pending_consolidations_limit",
  "max_attester_slashings_electra", "max_attestations_electra", "max_consolidations",
  "max_deposit_receipts_per_payload", "max_withdrawal_requests_per_payload",
  "max_pending_partials_per_withdrawals_sweep"]

/-- The presets -/
inductive Base
  | mainnet
  | minimal
  deriving DecidableEq

/-- The name of a preset in a file -/
def Base.name : Base → String
  | .mainnet => "mainnet"
  | .minimal => "minimal"

/-- The constants of a preset -/
def Base.constants : Base → List (String × Nat)
  | .mainnet => Config.mainnet.constants
  | .minimal => Config.minimal.constants

/-- A node stands for a value. -/
inductive Denotes (Y : Yaml) (node : Y.Node) : Kind → Value → Prop
  | u64 {n} : Y.uint node = some n → n < 2 ^ 64 → Denotes Y node .u64 (.num n)
  | u256 {n} : Y.u256 node = some n → n < 2 ^ 256 → Denotes Y node .u256 (.num n)
  | bytes {k s data} : Y.text node = some s → Text.try_bytes_from_hex_str s.toList = some data →
      data.length = k → Denotes Y node (.bytes k) (.bytes data)
  | text {s} : Y.text node = some s → Denotes Y node .text (.text s)
  | network {s} : Y.text node = some s → Denotes Y node .network (.network (Network.ofString s))

/-- The file has a single entry for the parameter, with this value. -/
def Gives (Y : Yaml) (file : File Y) (name : String) (kind : Kind) (v : Value) : Prop :=
  ∃ before node after, file = before ++ (keyOf name, node) :: after ∧
    (∀ p ∈ before ++ after, p.1 ≠ keyOf name) ∧ Denotes Y node kind v

end Verif.Spec
