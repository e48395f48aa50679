import Verif.Proofs.ConfigFiles
import Verif.Model.Presets
import Verif.Props.Ssz

/-! # Configurations -/

namespace Verif.Props

open Config Spec

/-! ## C84: contexts have the parameters that their configurations say -/

/-- A context from a file has the value of the file for every parameter that files set, and that of the
preset named in the file for the others. -/
theorem C84_file (Y : Yaml) (file : File Y) {c : Parameters}
    (h : try_from_file Y (some file) = .ok c) :
    (∀ p ∈ configParameters, p.1 ≠ "preset_base" →
      ∃ v, Gives Y file p.1 p.2 v ∧ get c p.1 = some v) ∧
    ∃ b : Base, Gives Y file "preset_base" .text (.text b.name) ∧
      ∀ name ∈ presetParameters, ∃ k, get b.constants (capitals name) = some k ∧
        get c name = some (.num k) := by
  obtain ⟨config, hr, b, hb, rfl⟩ := try_ok h
  constructor
  · intro p hp hne
    obtain ⟨v, hv, hg⟩ := readConfig_iff hr p hp
    exact ⟨v, hg, (from_config hp hne).trans hv⟩
  · obtain ⟨v, hv, hg⟩ := readConfig_iff hr _ base_mem
    rw [hb] at hv
    cases hv
    exact ⟨b, hg, fun n hn => from_preset hn⟩

/-- It has no other parameters. -/
theorem C84_parameters (Y : Yaml) (file : File Y) {c : Parameters}
    (h : try_from_file Y (some file) = .ok c) (name : String) (v : Value)
    (hv : get c name = some v) :
    name ∈ presetParameters ∨ (name ∈ configParameters.map (·.1) ∧ name ≠ "preset_base") := by
  obtain ⟨config, hr, b, hb, rfl⟩ := try_ok h
  by_contra hn
  refine absurd hv ?_
  rw [get_none]
  · simp
  · intro hm
    simp only [Context_from, List.mem_map, List.mem_filterMap, Option.map_eq_some_iff] at hm
    obtain ⟨x, ⟨a, ha, w, hw, rfl⟩, rfl⟩ := hm
    exact hn (assigned_names a ha)

/-- A file is accepted just if it has one readable entry for every parameter and names a preset. -/
theorem C84_accepted (Y : Yaml) (file : File Y) :
    (∃ c, try_from_file Y (some file) = .ok c) ↔
      (∀ p ∈ configParameters, ∃ v, Gives Y file p.1 p.2 v) ∧
      ∃ b : Base, Gives Y file "preset_base" .text (.text b.name) := by
  constructor
  · rintro ⟨c, h⟩
    obtain ⟨config, hr, b, hb, rfl⟩ := try_ok h
    refine ⟨fun p hp => ?_, b, ?_⟩
    · obtain ⟨v, -, hg⟩ := readConfig_iff hr p hp
      exact ⟨v, hg⟩
    · obtain ⟨v, hv, hg⟩ := readConfig_iff hr _ base_mem
      rw [hb] at hv
      cases hv
      exact hg
  · rintro ⟨h1, b, h2⟩
    obtain ⟨config, hr⟩ := readConfig_some h1
    obtain ⟨v, hv, hg⟩ := readConfig_iff hr _ base_mem
    cases gives_unique hg h2
    exact ⟨_, try_of_config hr hv⟩

/-- A preset that is not known is named in the error. -/
theorem C84_unknown (Y : Yaml) (file : File Y) (other : String)
    (h : ∀ p ∈ configParameters, ∃ v, Gives Y file p.1 p.2 v)
    (ho : Gives Y file "preset_base" .text (.text other)) (hne : ∀ b : Base, other ≠ b.name) :
    try_from_file Y (some file) = .error (.unknownPreset other) := by
  obtain ⟨config, hr⟩ := readConfig_some h
  obtain ⟨v, hv, hg⟩ := readConfig_iff hr _ base_mem
  cases gives_unique hg ho
  unfold try_from_file
  simp only [hr, Option.elim, bind, Except.bind, hv]
  split
  · rename_i e; cases e; exact absurd rfl (hne .mainnet)
  · rename_i e; cases e; exact absurd rfl (hne .minimal)
  · rename_i e; cases e; rfl
  · rename_i e; exact absurd rfl (e other)

/-- The order of entries and entries for other keys do not matter. -/
theorem C84_order (Y : Yaml) (file file' : File Y)
    (h : ∀ p ∈ configParameters, file.filter (fun e => e.1 == keyOf p.1) =
      file'.filter (fun e => e.1 == keyOf p.1)) :
    try_from_file Y (some file) = try_from_file Y (some file') := by
  have hr : readConfig Y fields file = readConfig Y fields file' := by
    unfold readConfig
    rw [fields_eq]
    rw [List.mapM_map, List.mapM_map]
    refine mapM_congr fun p hp => ?_
    simp only [Function.comp_apply, readField, h p hp]
  unfold try_from_file
  simp only [Option.elim, bind, Except.bind, hr]

/-- The networks with a configuration in the code -/
def builtin : List (Network × List (String × Value)) := [
  (.Mainnet, config_mainnet), (.Sepolia, config_sepolia), (.Goerli, config_goerli),
  (.Holesky, config_holesky), (.Hoodi, config_hoodi)]

/-- The context of a network that the code knows bears its name and is the one that would be loaded from
a file with the parameters of the network. -/
theorem C84_networks (Y : Yaml) (files : String → Option (File Y)) (p : Network × List (String × Value))
    (hp : p ∈ builtin) : ∃ c, try_from_network Y files p.1 = .ok c ∧
    get c "name" = some (.network p.1) ∧
    ∀ file : File Y, (∀ q ∈ configParameters, ∃ v, get p.2 q.1 = some v ∧ Gives Y file q.1 q.2 v) →
      try_from_file Y (some file) = .ok c := by
  have hb : ∀ p ∈ builtin, get p.2 "preset_base" = some (.text "mainnet") ∧
      get p.2 "name" = some (.network p.1) := by decide +kernel
  have hmain : try_from_network Y files p.1 = .ok (Context_from Config.mainnet p.2) := by
    simp only [builtin, List.mem_cons, List.not_mem_nil, or_false] at hp
    rcases hp with rfl | rfl | rfl | rfl | rfl <;> rfl
  refine ⟨_, hmain, ?_, ?_⟩
  · exact (from_config (p := ("name", .network)) (by decide +kernel) (by decide)).trans (hb p hp).2
  · intro file hf
    obtain ⟨config, hr⟩ := readConfig_some fun q hq => by
      obtain ⟨v, -, hv⟩ := hf q hq
      exact ⟨v, hv⟩
    have hc : ∀ q ∈ configParameters, get config q.1 = get p.2 q.1 := by
      intro q hq
      obtain ⟨v, hv, hg⟩ := readConfig_iff hr q hq
      obtain ⟨w, hw, hg'⟩ := hf q hq
      rw [hv, hw, gives_unique hg hg']
    rw [try_of_config (b := .mainnet) hr (by rw [hc _ base_mem, (hb p hp).1]; rfl)]
    congr 1
    unfold Context_from
    refine List.filterMap_congr fun a ha => ?_
    obtain ⟨n, source, field⟩ := a
    have hs : ∀ a ∈ assignments, a.2.1 = .config → a.2.2 ∈ configParameters.map (·.1) := by
      decide +kernel
    cases source <;> try rfl
    obtain ⟨q, hq, hqn⟩ := List.mem_map.mp (hs _ ha rfl)
    simp only at hqn
    simp only [← hqn, hc q hq]

/-- The context of another network is loaded from its directory. -/
theorem C84_custom (Y : Yaml) (files : String → Option (File Y)) (dir : String) :
    try_from_network Y files (.Custom dir) = try_from_file Y (files (join dir "config.yaml")) := rfl

/-! ### The parameters of the rest of the model -/

/-- An integer parameter -/
def number (c : Parameters) (name : String) : Nat :=
  match get c name with
  | some (.num n) => n
  | _ => 0

/-- A version -/
def version (c : Parameters) (name : String) : Version :=
  match get c name with
  | some (.bytes data) => .ofFn fun i => data.getD i 0
  | _ => .replicate 4 0

/-- The parameters that the rest of the model uses -/
def contextOf (c : Parameters) : Context where
  max_committees_per_slot := number c "max_committees_per_slot"
  target_committee_size := number c "target_committee_size"
  shuffle_round_count := number c "shuffle_round_count"
  hysteresis_quotient := number c "hysteresis_quotient"
  hysteresis_downward_multiplier := number c "hysteresis_downward_multiplier"
  hysteresis_upward_multiplier := number c "hysteresis_upward_multiplier"
  min_deposit_amount := number c "min_deposit_amount"
  max_effective_balance := number c "max_effective_balance"
  effective_balance_increment := number c "effective_balance_increment"
  min_attestation_inclusion_delay := number c "min_attestation_inclusion_delay"
  slots_per_epoch := number c "slots_per_epoch"
  min_seed_lookahead := number c "min_seed_lookahead"
  max_seed_lookahead := number c "max_seed_lookahead"
  min_epochs_to_inactivity_penalty := number c "min_epochs_to_inactivity_penalty"
  epochs_per_eth1_voting_period := number c "epochs_per_eth1_voting_period"
  slots_per_historical_root := number c "slots_per_historical_root"
  epochs_per_historical_vector := number c "epochs_per_historical_vector"
  epochs_per_slashings_vector := number c "epochs_per_slashings_vector"
  base_reward_factor := number c "base_reward_factor"
  whistleblower_reward_quotient := number c "whistleblower_reward_quotient"
  proposer_reward_quotient := number c "proposer_reward_quotient"
  inactivity_penalty_quotient := number c "inactivity_penalty_quotient"
  min_slashing_penalty_quotient := number c "min_slashing_penalty_quotient"
  proportional_slashing_multiplier := number c "proportional_slashing_multiplier"
  max_deposits := number c "max_deposits"
  inactivity_penalty_quotient_altair := number c "inactivity_penalty_quotient_altair"
  min_slashing_penalty_quotient_altair := number c "min_slashing_penalty_quotient_altair"
  proportional_slashing_multiplier_altair := number c "proportional_slashing_multiplier_altair"
  sync_committee_size := number c "sync_committee_size"
  epochs_per_sync_committee_period := number c "epochs_per_sync_committee_period"
  inactivity_penalty_quotient_bellatrix := number c "inactivity_penalty_quotient_bellatrix"
  min_slashing_penalty_quotient_bellatrix := number c "min_slashing_penalty_quotient_bellatrix"
  proportional_slashing_multiplier_bellatrix := number c "proportional_slashing_multiplier_bellatrix"
  max_withdrawals_per_payload := number c "max_withdrawals_per_payload"
  max_validators_per_withdrawals_sweep := number c "max_validators_per_withdrawals_sweep"
  max_blobs_per_block := number c "max_blobs_per_block"
  min_activation_balance := number c "min_activation_balance"
  max_effective_balance_electra := number c "max_effective_balance_electra"
  min_slashing_penalty_quotient_electra := number c "min_slashing_penalty_quotient_electra"
  whistleblower_reward_quotient_electra := number c "whistleblower_reward_quotient_electra"
  pending_partial_withdrawals_limit := number c "pending_partial_withdrawals_limit"
  pending_consolidations_limit := number c "pending_consolidations_limit"
  max_pending_partials_per_withdrawals_sweep := number c "max_pending_partials_per_withdrawals_sweep"
  min_genesis_active_validator_count := number c "min_genesis_active_validator_count"
  min_genesis_time := number c "min_genesis_time"
  genesis_fork_version := version c "genesis_fork_version"
  genesis_delay := number c "genesis_delay"
  altair_fork_version := version c "altair_fork_version"
  altair_fork_epoch := number c "altair_fork_epoch"
  bellatrix_fork_version := version c "bellatrix_fork_version"
  bellatrix_fork_epoch := number c "bellatrix_fork_epoch"
  capella_fork_version := version c "capella_fork_version"
  capella_fork_epoch := number c "capella_fork_epoch"
  deneb_fork_version := version c "deneb_fork_version"
  deneb_fork_epoch := number c "deneb_fork_epoch"
  electra_fork_version := version c "electra_fork_version"
  electra_fork_epoch := number c "electra_fork_epoch"
  seconds_per_slot := number c "seconds_per_slot"
  min_validator_withdrawability_delay := number c "min_validator_withdrawability_delay"
  shard_committee_period := number c "shard_committee_period"
  inactivity_score_bias := number c "inactivity_score_bias"
  inactivity_score_recovery_rate := number c "inactivity_score_recovery_rate"
  ejection_balance := number c "ejection_balance"
  min_per_epoch_churn_limit := number c "min_per_epoch_churn_limit"
  max_per_epoch_activation_churn_limit := number c "max_per_epoch_activation_churn_limit"
  min_per_epoch_churn_limit_electra := number c "min_per_epoch_churn_limit_electra"
  max_per_epoch_activation_exit_churn_limit := number c "max_per_epoch_activation_exit_churn_limit"
  churn_limit_quotient := number c "churn_limit_quotient"

deriving instance DecidableEq for Context

/-- The contexts that the other properties are shown to apply to are those of the tables. -/
theorem C84_contexts :
    contextOf for_mainnet = Context.mainnet ∧ contextOf for_minimal = Context.minimal ∧
    contextOf for_goerli = Context.goerli ∧ contextOf for_sepolia = Context.sepolia ∧
    contextOf for_holesky = Context.holesky ∧ contextOf for_hoodi = Context.hoodi := by
  refine ⟨?_, ?_, ?_, ?_, ?_, ?_⟩ <;> decide +kernel

/-- The capacities of the containers with a parameter of the same name -/
def capacities (K : Json.Consts) : List (String × Nat) := [
  ("max_proposer_slashings", K.MAX_PROPOSER_SLASHINGS),
  ("max_validators_per_committee", K.MAX_VALIDATORS_PER_COMMITTEE),
  ("max_attester_slashings", K.MAX_ATTESTER_SLASHINGS),
  ("max_attestations", K.MAX_ATTESTATIONS),
  ("max_deposits", K.MAX_DEPOSITS),
  ("max_voluntary_exits", K.MAX_VOLUNTARY_EXITS),
  ("slots_per_historical_root", K.SLOTS_PER_HISTORICAL_ROOT),
  ("historical_roots_limit", K.HISTORICAL_ROOTS_LIMIT),
  ("validator_registry_limit", K.VALIDATOR_REGISTRY_LIMIT),
  ("epochs_per_historical_vector", K.EPOCHS_PER_HISTORICAL_VECTOR),
  ("epochs_per_slashings_vector", K.EPOCHS_PER_SLASHINGS_VECTOR),
  ("sync_committee_size", K.SYNC_COMMITTEE_SIZE),
  ("bytes_per_logs_bloom", K.BYTES_PER_LOGS_BLOOM),
  ("max_extra_data_bytes", K.MAX_EXTRA_DATA_BYTES),
  ("max_bytes_per_transaction", K.MAX_BYTES_PER_TRANSACTION),
  ("max_transactions_per_payload", K.MAX_TRANSACTIONS_PER_PAYLOAD),
  ("max_withdrawals_per_payload", K.MAX_WITHDRAWALS_PER_PAYLOAD),
  ("max_bls_to_execution_changes", K.MAX_BLS_TO_EXECUTION_CHANGES),
  ("max_blob_commitments_per_block", K.MAX_BLOB_COMMITMENTS_PER_BLOCK),
  ("max_committees_per_slot", K.MAX_COMMITTEES_PER_SLOT),
  ("max_deposit_receipts_per_payload", K.MAX_DEPOSIT_RECEIPTS_PER_PAYLOAD),
  ("max_withdrawal_requests_per_payload", K.MAX_WITHDRAWAL_REQUESTS_PER_PAYLOAD),
  ("max_consolidations", K.MAX_CONSOLIDATIONS),
  ("pending_balance_deposits_limit", K.PENDING_BALANCE_DEPOSITS_LIMIT),
  ("pending_partial_withdrawals_limit", K.PENDING_PARTIAL_WITHDRAWALS_LIMIT),
  ("pending_consolidations_limit", K.PENDING_CONSOLIDATIONS_LIMIT)]

/-- The capacities of containers are the parameters of the same name, in both presets. -/
theorem C84_capacities :
    (∀ p ∈ capacities mainnetConsts, get for_mainnet p.1 = some (.num p.2)) ∧
    (∀ p ∈ capacities minimalConsts, get for_minimal p.1 = some (.num p.2)) := by
  decide +kernel

/-- The capacities that are computed have room for the votes and the attestations of a whole period, and
for the field elements of a blob. -/
theorem C84_bounds : ∀ p ∈ [(for_mainnet, mainnetConsts), (for_minimal, minimalConsts)],
    p.2.ETH1_DATA_VOTES_BOUND =
      number p.1 "epochs_per_eth1_voting_period" * number p.1 "slots_per_epoch" ∧
    p.2.PENDING_ATTESTATIONS_BOUND = number p.1 "max_attestations" * number p.1 "slots_per_epoch" ∧
    p.2.BYTES_PER_BLOB = 32 * number p.1 "field_elements_per_blob" ∧
    p.2.SYNC_SUBCOMMITTEE_SIZE * p.2.SYNC_COMMITTEE_SUBNET_COUNT =
      number p.1 "sync_committee_size" := by
  decide +kernel

/-! ### Examples -/

/-- A notation of files in which every value is written plainly -/
def plain : Yaml where
  Node := Value
  uint
    | .num n => some n
    | _ => none
  u256
    | .num n => some n
    | _ => none
  text
    | .text s => some s
    | .network n => some n.display
    | .bytes data => some (String.ofList (Text.write_bytes_to_lower_hex data))
    | _ => none

/-- The file that says a configuration, with another entry first -/
def fileOf (config : List (String × Value)) : File plain :=
  ("MAX_REQUEST_BLOCKS", .num 1024) :: config.map fun p => (keyOf p.1, p.2)

instance : DecidableEq plain.Node := inferInstanceAs (DecidableEq Value)

/-- It is read. -/
example : try_from_file plain (some (fileOf config_holesky)) = .ok for_holesky ∧
    try_from_file plain (some (fileOf config_hoodi).reverse) = .ok for_hoodi := by decide +kernel

/-- A file without an entry, one with two, one of a preset that is not known, and none at all -/
example :
    try_from_file plain (some (fileOf (config_holesky.drop 3))) = .error .yaml ∧
    try_from_file plain (some (fileOf (("seconds_per_slot", .num 12) :: config_holesky))) =
      .error .yaml ∧
    try_from_file plain (some (fileOf (("preset_base", .text "gnosis") :: config_holesky.drop 1))) =
      .error (.unknownPreset "gnosis") ∧
    try_from_file plain none = .error .io := by decide +kernel

/-- A custom network: the name of the context is that in the file. -/
example :
    let file := fileOf (("name", .text "devnet") ::
      config_holesky.filter fun p => p.1 != "name")
    try_from_network plain (fun path => if path = "nets/a/config.yaml" then some file else none)
      (.Custom "nets/a") = .ok (for_holesky.map fun p =>
        if p.1 = "name" then ("name", .network (.Custom "devnet")) else p) := by
  decide +kernel

end Verif.Props
