import Verif.Model.Env

/-!
# Side conditions used by the theorems

`SaneConfig` collects what the code assumes of a configuration: divisors are not
zero and the constants are small. All presets of the repository satisfy it
(`Verif/Examples/Presets.lean`). `Shaped` collects what the Rust types say of a
state and the model's lists do not: lengths of SSZ vectors, capacity of the
validator registry.
-/

namespace Verif.Spec

/-- The configuration is sensible. -/
structure SaneConfig (E : Env) : Prop where
  shuffle_round_count : 0 < E.shuffle_round_count
  slots_per_epoch : 0 < E.slots_per_epoch ∧ E.slots_per_epoch ≤ 2 ^ 8
  target_committee_size : 0 < E.target_committee_size
  max_committees_per_slot : 0 < E.max_committees_per_slot ∧ E.max_committees_per_slot ≤ 2 ^ 8
  epochs_per_historical_vector :
    E.min_seed_lookahead < E.epochs_per_historical_vector ∧
      E.epochs_per_historical_vector ≤ 2 ^ 32
  max_seed_lookahead : E.max_seed_lookahead ≤ 2 ^ 16
  slots_per_historical_root :
    E.slots_per_epoch < E.slots_per_historical_root ∧ E.slots_per_historical_root ≤ 2 ^ 32
  epochs_per_slashings_vector :
    0 < E.epochs_per_slashings_vector ∧ E.epochs_per_slashings_vector ≤ 2 ^ 32
  churn_limit_quotient : 0 < E.churn_limit_quotient
  effective_balance_increment : 0 < E.effective_balance_increment
  max_effective_balance : E.max_effective_balance ≤ 2 ^ 48
  withdrawability_delay :
    0 < E.min_validator_withdrawability_delay ∧ E.min_validator_withdrawability_delay ≤ 2 ^ 32
  min_attestation_inclusion_delay : E.min_attestation_inclusion_delay ≤ 2 ^ 16
  min_per_epoch_churn_limit : 0 < E.min_per_epoch_churn_limit

/-- The state has the lengths its Rust type enforces. -/
structure Shaped (E : Env) (s : State) : Prop where
  block_roots : s.block_roots.length = E.slots_per_historical_root
  state_roots : s.state_roots.length = E.slots_per_historical_root
  randao_mixes : s.randao_mixes.length = E.epochs_per_historical_vector
  slashings : s.slashings.length = E.epochs_per_slashings_vector
  /-- `VALIDATOR_REGISTRY_LIMIT` -/
  registry : s.validators.length ≤ 2 ^ 40
  justification_bits : s.justification_bits.length = 4

/-- "active at epoch `e`": activated and not yet exited. -/
def ActiveAt (v : Validator) (e : Nat) : Prop := v.activation_epoch ≤ e ∧ e < v.exit_epoch

instance (v : Validator) (e : Nat) : Decidable (ActiveAt v e) :=
  inferInstanceAs (Decidable (_ ∧ _))

/-- The indices of the active validators, in registry order. -/
def activeIndices (s : State) (e : Nat) : List Nat :=
  (List.range s.validators.length).filter fun i =>
    match s.validators[i]? with
    | some v => decide (ActiveAt v e)
    | none => false

/-- The epoch a slot belongs to. -/
def epochOf (E : Env) (slot : Nat) : Nat := slot / E.slots_per_epoch

/-- The seed of an epoch for a domain type: hash of the type, the epoch and the
RANDAO mix of `min_seed_lookahead + 1` epochs before. -/
def seedAt (E : Env) (s : State) (epoch : Nat) (t : DomainType) : Bytes32 :=
  let mix := s.randao_mixes.getD
    ((epoch + E.epochs_per_historical_vector - E.min_seed_lookahead - 1) %
      E.epochs_per_historical_vector) (zeroBytes 32)
  E.hash (t.as_bytes ++ leBytes 8 epoch ++ mix.toList)

end Verif.Spec
