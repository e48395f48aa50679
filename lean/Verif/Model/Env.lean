import Verif.Model.Types

/-!
# Environment: `Context`, cargo features, and the abstract primitives
-/

namespace Verif

/-- `domains.rs:2-17` -/
inductive DomainType
  | BeaconProposer | BeaconAttester | Randao | Deposit | VoluntaryExit
  | SelectionProof | AggregateAndProof | SyncCommittee
  | SyncCommitteeSelectionProof | ContributionAndProof | BlsToExecutionChange
  | Consolidation | ApplicationMask | ApplicationBuilder
  deriving DecidableEq, Repr

/-- The discriminant `*self as u32` used in `domains.rs:25` (declaration order). -/
def DomainType.discriminant : DomainType → Nat
  | .BeaconProposer => 0 | .BeaconAttester => 1 | .Randao => 2 | .Deposit => 3
  | .VoluntaryExit => 4 | .SelectionProof => 5 | .AggregateAndProof => 6
  | .SyncCommittee => 7 | .SyncCommitteeSelectionProof => 8
  | .ContributionAndProof => 9 | .BlsToExecutionChange => 10 | .Consolidation => 11
  | .ApplicationMask => 12 | .ApplicationBuilder => 13

/-- `domains.rs:20-29` -/
def DomainType.as_bytes : DomainType → List UInt8
  | .ApplicationMask => [0, 0, 0, 1]
  | .ApplicationBuilder => [0, 0, 0, 1]
  | d => leBytes 4 d.discriminant

/-- `state_transition/context.rs:19-149` `Context`: the fields used by the
modelled code. Const generics with the same meaning (`SLOTS_PER_HISTORICAL_ROOT`,
`EPOCHS_PER_HISTORICAL_VECTOR`, `EPOCHS_PER_SLASHINGS_VECTOR`,
`SYNC_COMMITTEE_SIZE`, `MAX_DEPOSITS`, …) are identified with these fields. -/
structure Context where
  max_committees_per_slot : Nat
  target_committee_size : Nat
  shuffle_round_count : Nat
  hysteresis_quotient : Nat
  hysteresis_downward_multiplier : Nat
  hysteresis_upward_multiplier : Nat
  min_deposit_amount : Nat
  max_effective_balance : Nat
  effective_balance_increment : Nat
  min_attestation_inclusion_delay : Nat
  slots_per_epoch : Nat
  min_seed_lookahead : Nat
  max_seed_lookahead : Nat
  min_epochs_to_inactivity_penalty : Nat
  epochs_per_eth1_voting_period : Nat
  slots_per_historical_root : Nat
  epochs_per_historical_vector : Nat
  epochs_per_slashings_vector : Nat
  base_reward_factor : Nat
  whistleblower_reward_quotient : Nat
  proposer_reward_quotient : Nat
  inactivity_penalty_quotient : Nat
  min_slashing_penalty_quotient : Nat
  proportional_slashing_multiplier : Nat
  max_deposits : Nat
  -- altair preset
  inactivity_penalty_quotient_altair : Nat
  min_slashing_penalty_quotient_altair : Nat
  proportional_slashing_multiplier_altair : Nat
  sync_committee_size : Nat
  epochs_per_sync_committee_period : Nat
  -- bellatrix preset
  inactivity_penalty_quotient_bellatrix : Nat
  min_slashing_penalty_quotient_bellatrix : Nat
  proportional_slashing_multiplier_bellatrix : Nat
  -- capella preset
  max_withdrawals_per_payload : Nat
  max_validators_per_withdrawals_sweep : Nat
  -- deneb preset
  max_blobs_per_block : Nat
  -- electra preset
  min_activation_balance : Nat
  max_effective_balance_electra : Nat
  min_slashing_penalty_quotient_electra : Nat
  whistleblower_reward_quotient_electra : Nat
  pending_partial_withdrawals_limit : Nat
  pending_consolidations_limit : Nat
  max_pending_partials_per_withdrawals_sweep : Nat
  -- config
  min_genesis_active_validator_count : Nat
  min_genesis_time : Nat
  genesis_fork_version : Version
  genesis_delay : Nat
  altair_fork_version : Version
  altair_fork_epoch : Nat
  bellatrix_fork_version : Version
  bellatrix_fork_epoch : Nat
  capella_fork_version : Version
  capella_fork_epoch : Nat
  deneb_fork_version : Version
  deneb_fork_epoch : Nat
  electra_fork_version : Version
  electra_fork_epoch : Nat
  seconds_per_slot : Nat
  min_validator_withdrawability_delay : Nat
  shard_committee_period : Nat
  inactivity_score_bias : Nat
  inactivity_score_recovery_rate : Nat
  ejection_balance : Nat
  min_per_epoch_churn_limit : Nat
  max_per_epoch_activation_churn_limit : Nat
  min_per_epoch_churn_limit_electra : Nat
  max_per_epoch_activation_exit_churn_limit : Nat
  churn_limit_quotient : Nat

/-- The argument of `verify_and_notify_new_payload`: the payload alone in bellatrix
and capella, `NewPayloadRequest` from deneb on (`deneb/execution_engine.rs`,
`electra/execution_engine.rs`). -/
inductive PayloadRequest
  | payload (execution_payload : ExecutionPayload)
  | newPayload (execution_payload : ExecutionPayload) (versioned_hashes : List Bytes32)
      (parent_beacon_block_root : Root)
  deriving DecidableEq

/-- The primitives that are not modelled: hashing, SSZ merkleisation, BLS, Merkle
branches, the execution engine. They are arbitrary functions; theorems quantify
over all of them. Merkleisation and signature verification are total here: the
Rust functions can also fail with an encoding error, which is folded into
"does not verify" (`Err.bls`). -/
structure Primitives where
  /-- `crypto/bls.rs:12` SHA-256 -/
  hash : List UInt8 → Bytes32
  /-- `crypto/bls.rs:64-77` -/
  verify_signature : PublicKey → Root → Signature → Bool
  /-- `crypto/bls.rs:114-132` -/
  fast_aggregate_verify : List PublicKey → Root → Signature → Bool
  /-- `crypto/bls.rs:135-147`, for a non-empty list -/
  aggregate_public_keys : List PublicKey → Option PublicKey
  /-- `ssz_rs` `is_valid_merkle_branch`: leaf, branch, depth, index, root -/
  is_valid_merkle_branch : Root → List Root → Nat → Nat → Root → Bool
  /-- `signing.rs` `SigningData::hash_tree_root` -/
  signing_data_root : Root → Domain → Root
  /-- `ForkData::hash_tree_root` -/
  fork_data_root : Version → Root → Root
  header_root : BeaconBlockHeader → Root
  /-- roots of the fork-specific containers: of the fields the fork has -/
  body_root : Fork → BeaconBlockBody → Root
  block_root : Fork → BeaconBlock → Root
  state_root : Fork → State → Root
  attestation_data_root : AttestationData → Root
  deposit_message_root : DepositMessage → Root
  deposit_data_root : DepositData → Root
  voluntary_exit_root : VoluntaryExit → Root
  u64_root : Nat → Root
  root_root : Root → Root
  /-- root of `Vector<Root, N>` -/
  roots_root : List Root → Root
  /-- root of `HistoricalSummary`/`HistoricalBatch` given the two vector roots -/
  historical_batch_root : Root → Root → Root
  validators_root : List Validator → Root
  bls_change_root : BlsToExecutionChange → Root
  consolidation_root : Consolidation → Root
  transactions_root : List (List UInt8) → Root
  withdrawals_root : List Withdrawal → Root
  deposit_receipts_root : List DepositReceipt → Root
  withdrawal_requests_root : List ExecutionLayerWithdrawalRequest → Root
  deposit_data_list_root : List DepositData → Root
  /-- `execution_engine.rs` `verify_and_notify_new_payload` returns `Ok` -/
  engine_accepts : PayloadRequest → Bool
  /-- The order in which a `HashSet` of validator indices is visited. `std` leaves it open and seeds it
  at random for each set. Here it may depend on the state and on the order of the insertions. -/
  visit : State → (indices : List Nat) → { order : List Nat // order.Perm indices } :=
    fun _ indices => ⟨indices, .refl _⟩

/-- Everything a transition function takes besides the state and its input. -/
structure Env extends Context, Primitives where
  /-- cargo feature `shuffling` (`cfg!(feature = "shuffling")`) -/
  shuffling : Bool
  /-- bound on the number of iterations of the rejection-sampling loops; running
  out is reported as `Err.diverged` -/
  fuel : Nat

end Verif
