import Verif.Proofs.OrderPure
import Verif.Proofs.Participation

/-! # Functions whose result does not depend on the order of the hash sets -/

namespace Verif
open Spec

variable {E : Env} {v : Order}

@[ord] theorem get_total_active_balance_ord :
    get_total_active_balance (reorder E v) = get_total_active_balance E := by
  funext s
  rw [total_active_val, total_active_val]
  rfl

@[ord] theorem get_base_reward_per_increment_ord :
    get_base_reward_per_increment (reorder E v) = get_base_reward_per_increment E := by
  unfold get_base_reward_per_increment
  simp only [ord]
  rfl

@[ord] theorem altair_base_reward_ord :
    Altair.get_base_reward (reorder E v) = Altair.get_base_reward E := by
  unfold Altair.get_base_reward
  simp only [ord]
  rfl

@[ord] theorem phase0_base_reward_ord :
    Phase0.get_base_reward (reorder E v) = Phase0.get_base_reward E := by
  unfold Phase0.get_base_reward
  simp only [ord]
  rfl

@[ord] theorem phase0_proposer_reward_ord :
    Phase0.get_proposer_reward (reorder E v) = Phase0.get_proposer_reward E := by
  unfold Phase0.get_proposer_reward
  simp only [ord]
  rfl

@[ord] theorem sync_rewards_ord : sync_rewards (reorder E v) = sync_rewards E := by
  unfold sync_rewards
  simp only [ord]
  rfl

@[ord] theorem process_sync_aggregate_ord :
    process_sync_aggregate (reorder E v) = process_sync_aggregate E := by
  unfold process_sync_aggregate
  simp only [ord]
  rfl

/-! ## Electra's churn -/

@[ord] theorem balance_churn_limit_ord :
    Electra.get_balance_churn_limit (reorder E v) = Electra.get_balance_churn_limit E := by
  unfold Electra.get_balance_churn_limit
  simp only [ord]
  rfl

@[ord] theorem activation_exit_churn_limit_ord :
    Electra.get_activation_exit_churn_limit (reorder E v) =
      Electra.get_activation_exit_churn_limit E := by
  unfold Electra.get_activation_exit_churn_limit
  simp only [ord]
  rfl

@[ord] theorem consolidation_churn_limit_ord :
    Electra.get_consolidation_churn_limit (reorder E v) =
      Electra.get_consolidation_churn_limit E := by
  unfold Electra.get_consolidation_churn_limit
  simp only [ord]

@[ord] theorem churn_step_ord : Electra.churn_step (reorder E v) = Electra.churn_step E := by
  unfold Electra.churn_step
  simp only [ord]

@[ord] theorem exit_churn_ord : Electra.compute_exit_epoch_and_update_churn (reorder E v) =
    Electra.compute_exit_epoch_and_update_churn E := by
  unfold Electra.compute_exit_epoch_and_update_churn
  simp only [ord]

@[ord] theorem consolidation_churn_ord :
    Electra.compute_consolidation_epoch_and_update_churn (reorder E v) =
      Electra.compute_consolidation_epoch_and_update_churn E := by
  unfold Electra.compute_consolidation_epoch_and_update_churn
  simp only [ord]

@[ord] theorem electra_exit_ord :
    Electra.initiate_validator_exit (reorder E v) = Electra.initiate_validator_exit E := by
  unfold Electra.initiate_validator_exit
  simp only [ord]
  rfl

@[ord] theorem fork_exit_ord :
    Fork.initiate_validator_exit (reorder E v) = Fork.initiate_validator_exit E := by
  unfold Fork.initiate_validator_exit
  simp only [ord]

@[ord] theorem slash_validator_ord : slash_validator (reorder E v) = slash_validator E := by
  unfold slash_validator
  simp only [ord]
  rfl

@[ord] theorem process_proposer_slashing_ord :
    process_proposer_slashing (reorder E v) = process_proposer_slashing E := by
  unfold process_proposer_slashing
  simp only [ord]
  rfl

@[ord] theorem slash_all_ord : slash_all (reorder E v) = slash_all E := by
  funext f epoch l b
  induction l generalizing b with
  | nil => rfl
  | cons i l ih => simp only [slash_all, ord, ih]

theorem sort_perm {l m : List Nat} (h : l.Perm m) :
    sortBy (· ≤ ·) l = sortBy (· ≤ ·) m := by
  refine List.Perm.eq_of_pairwise (le := (· ≤ ·)) ?_ ?_ ?_
    ((sortBy_perm l).trans (h.trans (sortBy_perm m).symm))
  · intro a b _ _ h h'; omega
  all_goals
    refine (sortBy_sorted ?_ ?_ _).imp ?_
    · intro a b c; simp; omega
    · intro a b; simp; omega
    · intro a b; simp

@[ord] theorem sort_iterate_ord {s : State} {l : List Nat} :
    sortBy (· ≤ ·) (iterate (reorder E v) s l) = sortBy (· ≤ ·) (iterate E s l) :=
  sort_perm ((iterate_perm _ s l).trans (iterate_perm E s l).symm)

@[ord] theorem process_attester_slashing_ord :
    process_attester_slashing (reorder E v) = process_attester_slashing E := by
  unfold process_attester_slashing
  simp only [ord]

@[ord] theorem process_voluntary_exit_ord :
    process_voluntary_exit (reorder E v) = process_voluntary_exit E := by
  unfold process_voluntary_exit
  simp only [ord]
  rfl

@[ord] theorem process_withdrawal_request_ord :
    Electra.process_execution_layer_withdrawal_request (reorder E v) =
      Electra.process_execution_layer_withdrawal_request E := by
  unfold Electra.process_execution_layer_withdrawal_request
  simp only [ord]
  rfl

@[ord] theorem check_consolidation_ord :
    Electra.check_consolidation (reorder E v) = Electra.check_consolidation E := by
  unfold Electra.check_consolidation
  simp only [ord]
  rfl

@[ord] theorem process_consolidation_ord :
    Electra.process_consolidation (reorder E v) = Electra.process_consolidation E := by
  unfold Electra.process_consolidation
  simp only [ord]
  rfl

/-! ## Attestations -/

@[ord] theorem indexed_attestation_ord :
    get_indexed_attestation (reorder E v) = get_indexed_attestation E := by
  funext s a
  simp only [get_indexed_attestation, get_attesting_indices, bind_assoc, pure_bind, ord]

@[ord] theorem electra_indexed_attestation_ord :
    Electra.get_indexed_attestation (reorder E v) = Electra.get_indexed_attestation E := by
  funext s a
  simp only [Electra.get_indexed_attestation, Electra.get_attesting_indices, bind_assoc, pure_bind,
    ord]

@[ord] theorem phase0_attestation_ord :
    Phase0.process_attestation (reorder E v) = Phase0.process_attestation E := by
  unfold Phase0.process_attestation
  simp only [ord]

@[ord] theorem apply_flag_ord : apply_flag (reorder E v) = apply_flag E := by
  unfold apply_flag
  simp only [ord]

@[ord] theorem apply_flags_ord : apply_flags (reorder E v) = apply_flags E := by
  unfold apply_flags
  simp only [ord]

/-! ## Epochs -/

@[ord] theorem component_delta_ord :
    Phase0.component_delta (reorder E v) = Phase0.component_delta E := by
  unfold Phase0.component_delta
  simp only [ord]
  rfl

@[ord] theorem inclusion_delta_ord :
    Phase0.inclusion_delta (reorder E v) = Phase0.inclusion_delta E := by
  funext s source rewards i
  simp only [Phase0.inclusion_delta, get_attesting_indices, bind_assoc, pure_bind, ord,
    contains_iterate]

@[ord] theorem phase0_inactivity_delta_ord :
    Phase0.inactivity_delta (reorder E v) = Phase0.inactivity_delta E := by
  unfold Phase0.inactivity_delta
  simp only [ord]
  rfl

@[ord] theorem flag_delta_ord : flag_delta (reorder E v) = flag_delta E := by
  unfold flag_delta
  simp only [ord]

@[ord] theorem eject_if_low_ord : eject_if_low (reorder E v) = eject_if_low E := by
  unfold eject_if_low
  simp only [ord]
  rfl

@[ord] theorem process_registry_updates_ord :
    process_registry_updates (reorder E v) = process_registry_updates E := by
  unfold process_registry_updates
  simp only [ord]

@[ord] theorem process_slashings_ord : process_slashings (reorder E v) = process_slashings E := by
  unfold process_slashings
  simp only [ord]

@[ord] theorem pending_balance_deposits_ord :
    Electra.process_pending_balance_deposits (reorder E v) =
      Electra.process_pending_balance_deposits E := by
  unfold Electra.process_pending_balance_deposits
  simp only [ord]

/-! ## Upgrades -/

@[ord] theorem electra_init_queues_ord :
    electra_init_queues (reorder E v) = electra_init_queues E := by
  unfold electra_init_queues
  simp only [ord]

@[ord] theorem upgrade_to_electra_ord :
    upgrade_to_electra (reorder E v) = upgrade_to_electra E := by
  unfold upgrade_to_electra
  simp only [ord]

end Verif
