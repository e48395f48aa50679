import Verif.Proofs.Queues
import Verif.Proofs.History

/-! # The electra queues never move back -/

namespace Verif
open Spec

/-- Neither queue has moved back. -/
def Onward (s s' : State) : Prop :=
  s.earliest_exit_epoch ≤ s'.earliest_exit_epoch ∧
  s.earliest_consolidation_epoch ≤ s'.earliest_consolidation_epoch

theorem onwardPre : Preorder' Onward :=
  ⟨fun _ => ⟨Nat.le_refl _, Nat.le_refl _⟩,
   fun h h' => ⟨Nat.le_trans h.1 h'.1, Nat.le_trans h.2 h'.2⟩⟩

theorem onward_mod {α : Type} {W : List Field} {m : M α} (h : Modifies W m)
    (hW : Field.earliest_exit_epoch ∉ W ∧ Field.earliest_consolidation_epoch ∉ W) :
    Pres Onward m :=
  Pres.mono h fun s s' h => by
    have h1 := h _ hW.1
    have h2 := h _ hW.2
    simp only [Field.same] at h1 h2
    exact ⟨Nat.le_of_eq h1.symm, Nat.le_of_eq h2.symm⟩

theorem onward_upd {g : State → State}
    (h : ∀ s, (g s).earliest_exit_epoch = s.earliest_exit_epoch)
    (h' : ∀ s, (g s).earliest_consolidation_epoch = s.earliest_consolidation_epoch) :
    Pres Onward (upd g) :=
  Pres.upd fun s => ⟨Nat.le_of_eq (h s).symm, Nat.le_of_eq (h' s).symm⟩

theorem onward_updValidator {i : Nat} {g : Validator → Validator} :
    Pres Onward (updValidator i g) :=
  Pres.updValidator onwardPre fun _ _ _ => ⟨Nat.le_refl _, Nat.le_refl _⟩

theorem queue_start_ge {E : Env} {s : State} {e b : Nat} : e ≤ (queueStart E s e b).1 := by
  unfold queueStart
  split <;> dsimp only <;> omega

theorem churn_step_onward {E : Env} {s : State} {a b c : Nat} {r : Nat × Nat}
    (h : Electra.churn_step E s a b c = .ok r) : a ≤ r.1 :=
  Nat.le_trans queue_start_ge (churn_step_eq_ok h).2.not_before

theorem exit_churn_onward {E : Env} {b : Nat} :
    Pres Onward (Electra.compute_exit_epoch_and_update_churn E b) := by
  intro s
  unfold Electra.compute_exit_epoch_and_update_churn
  simp only [wps]
  exact ⟨fun r hr => ⟨fun _ _ => ⟨churn_step_onward hr, Nat.le_refl _⟩,
    fun _ _ => onwardPre.refl s⟩, fun _ _ => onwardPre.refl s⟩

theorem consolidation_churn_onward {E : Env} {b : Nat} :
    Pres Onward (Electra.compute_consolidation_epoch_and_update_churn E b) := by
  intro s
  unfold Electra.compute_consolidation_epoch_and_update_churn
  simp only [wps]
  exact ⟨fun r hr => ⟨fun _ _ => ⟨Nat.le_refl _, churn_step_onward hr⟩,
    fun _ _ => onwardPre.refl s⟩, fun _ _ => onwardPre.refl s⟩

theorem exit_onward {E : Env} {f : Fork} {i : Nat} :
    Pres Onward (f.initiate_validator_exit E i) := by
  unfold Fork.initiate_validator_exit Electra.initiate_validator_exit
  walk onwardPre [exit_churn_onward, onward_updValidator, onward_mod phase0_exit_mod (by decide)]

theorem electra_exit_onward {E : Env} {i : Nat} :
    Pres Onward (Electra.initiate_validator_exit E i) := by
  unfold Electra.initiate_validator_exit
  walk onwardPre [exit_churn_onward, onward_updValidator]

theorem slash_onward {E : Env} {f : Fork} {i : Nat} {w : Option Nat} :
    Pres Onward (slash_validator E f i w) := by
  unfold slash_validator
  walk onwardPre [exit_onward, onward_updValidator, onward_upd, onward_mod increase_mod (by decide),
    onward_mod decrease_mod (by decide)]

theorem slash_all_onward {E : Env} {f : Fork} {e : Nat} {l : List Nat} {b : Bool} :
    Pres Onward (slash_all E f e l b) := by
  induction l generalizing b with
  | nil => unfold slash_all; walk onwardPre
  | cons x l ih => unfold slash_all; walk onwardPre [slash_onward, ih]

theorem proposer_slashing_onward {E : Env} {f : Fork} {op : ProposerSlashing} :
    Pres Onward (process_proposer_slashing E f op) := by
  unfold process_proposer_slashing; walk onwardPre [slash_onward]

theorem attester_slashing_onward {E : Env} {f : Fork} {op : AttesterSlashing} :
    Pres Onward (process_attester_slashing E f op) := by
  unfold process_attester_slashing; walk onwardPre [slash_all_onward]

theorem voluntary_exit_onward {E : Env} {f : Fork} {op : SignedVoluntaryExit} :
    Pres Onward (process_voluntary_exit E f op) := by
  unfold process_voluntary_exit; walk onwardPre [exit_onward]

theorem withdrawal_request_onward {E : Env} {r : ExecutionLayerWithdrawalRequest} :
    Pres Onward (Electra.process_execution_layer_withdrawal_request E r) := by
  unfold Electra.process_execution_layer_withdrawal_request
  walk onwardPre [electra_exit_onward, exit_churn_onward, onward_upd]

theorem consolidation_onward {E : Env} {op : SignedConsolidation} :
    Pres Onward (Electra.process_consolidation E op) := by
  unfold Electra.process_consolidation
  walk onwardPre [consolidation_churn_onward, onward_updValidator, onward_upd]

theorem operations_onward {E : Env} {f : Fork} {b : BeaconBlockBody} :
    Pres Onward (process_operations E f b) := by
  unfold process_operations
  walk onwardPre [proposer_slashing_onward, attester_slashing_onward,
    onward_mod attestation_mod (by decide), onward_mod deposit_mod (by decide),
    voluntary_exit_onward, onward_mod bls_change_mod (by decide), withdrawal_request_onward,
    onward_mod deposit_receipt_mod (by decide), consolidation_onward]

theorem block_onward {E : Env} {f : Fork} {b : BeaconBlock} :
    Pres Onward (process_block E f b) := by
  unfold process_block
  walk onwardPre [onward_mod header_mod (by decide), onward_mod block_payload_mod (by decide),
    onward_mod randao_mod (by decide), onward_mod eth1_mod (by decide), operations_onward,
    onward_mod sync_aggregate_mod (by decide)]

theorem eject_onward {E : Env} {f : Fork} {e i : Nat} :
    Pres Onward (eject_if_low E f e i) := by
  unfold eject_if_low; walk onwardPre [exit_onward]

theorem registry_onward {E : Env} {f : Fork} : Pres Onward (process_registry_updates E f) := by
  unfold process_registry_updates
  walk onwardPre [onward_mod mark_mod (by decide), eject_onward, onward_updValidator]

theorem epoch_first_onward {E : Env} {f : Fork} : Pres Onward (process_epoch_first E f) := by
  unfold process_epoch_first
  walk onwardPre [onward_mod justification_mod (by decide), onward_mod inactivity_mod (by decide),
    onward_mod rewards_mod (by decide), registry_onward, onward_mod slashings_mod (by decide),
    onward_mod eth1_reset_mod (by decide), onward_mod pending_deposits_mod (by decide),
    onward_mod pending_consolidations_mod (by decide)]

theorem epoch_onward {E : Env} {f : Fork} : Pres Onward (process_epoch E f) := by
  unfold process_epoch
  walk onwardPre [epoch_first_onward, onward_mod effective_mod (by decide),
    onward_mod slashings_reset_mod (by decide), onward_mod randao_reset_mod (by decide),
    onward_mod historical_mod (by decide), onward_mod record_updates_mod (by decide),
    onward_mod flag_updates_mod (by decide), onward_mod sync_committees_mod (by decide)]

theorem slot_step_onward {E : Env} {f : Fork} : Pres Onward (slot_step E f) := by
  unfold slot_step process_epoch_if_due
  walk onwardPre [onward_mod slot_mod (by decide), epoch_onward, onward_upd]

theorem slots_loop_onward {E : Env} {f : Fork} {t n : Nat} :
    Pres Onward (slots_loop E f t n) := by
  induction n with
  | zero => unfold slots_loop; walk onwardPre
  | succ n ih => unfold slots_loop; walk onwardPre [slot_step_onward, ih]

theorem slots_onward {E : Env} {f : Fork} {t : Nat} : Pres Onward (process_slots E f t) := by
  unfold process_slots; walk onwardPre [slots_loop_onward]

theorem block_in_slot_onward {E : Env} {f : Fork} {b : SignedBeaconBlock} {v : Validation} :
    Pres Onward (state_transition_block_in_slot E f b v) := by
  unfold state_transition_block_in_slot
  walk onwardPre [onward_mod signature_if_mod (by decide), block_onward]

theorem transition_onward {E : Env} {f : Fork} {b : SignedBeaconBlock} {v : Validation} :
    Pres Onward (state_transition E f b v) := by
  unfold state_transition; walk onwardPre [slots_onward, block_in_slot_onward]

theorem entry_onward {E : Env} {f : Fork} {m : M Unit} (h : EntryPoint E f m) :
    Pres Onward m := by
  cases h with
  | process_slots => exact slots_onward
  | state_transition => exact transition_onward
  | state_transition_block_in_slot => exact block_in_slot_onward
  | process_slot => exact onward_mod slot_mod (by decide)
  | process_epoch => exact epoch_onward
  | process_block => exact block_onward
  | process_block_header => exact onward_mod header_mod (by decide)
  | process_randao => exact onward_mod randao_mod (by decide)
  | process_eth1_data => exact onward_mod eth1_mod (by decide)
  | process_operations => exact operations_onward
  | process_execution_payload => exact onward_mod payload_mod (by decide)
  | process_withdrawals => exact onward_mod withdrawals_mod (by decide)
  | process_sync_aggregate => exact onward_mod sync_aggregate_mod (by decide)
  | process_proposer_slashing => exact proposer_slashing_onward
  | process_attester_slashing => exact attester_slashing_onward
  | process_attestation => exact onward_mod attestation_mod (by decide)
  | process_deposit => exact onward_mod deposit_mod (by decide)
  | process_voluntary_exit => exact voluntary_exit_onward
  | process_bls_to_execution_change => exact onward_mod bls_change_mod (by decide)
  | process_execution_layer_withdrawal_request => exact withdrawal_request_onward
  | process_deposit_receipt => exact onward_mod deposit_receipt_mod (by decide)
  | process_consolidation => exact consolidation_onward
  | initiate_validator_exit => exact exit_onward
  | slash_validator => exact slash_onward
  | increase_balance => exact onward_mod increase_mod (by decide)
  | decrease_balance => exact onward_mod decrease_mod (by decide)

theorem history_onward {E : Env} {f : Fork} {s s' : State} (h : History E f s s') :
    Onward s s' := history_pres onwardPre (fun _ => entry_onward) h

end Verif
