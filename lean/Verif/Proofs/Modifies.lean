import Verif.Spec.Fields
import Verif.Proofs.Wp
import Verif.Model.Transition

/-!
# Which fields each function writes

`Modifies W m`: whether `m` succeeds or fails, it changes only the fields `W`.
-/

namespace Verif

open Spec

theorem Field.same_refl (f : Field) (s : State) : f.same s s := by cases f <;> rfl

theorem Field.same_trans (f : Field) {a b c : State} (h : f.same a b) (h' : f.same b c) :
    f.same a c := by
  cases f <;> exact h'.trans h

theorem changesPre (W : List Field) : Preorder' (ChangesOnly W) :=
  ⟨fun s f _ => Field.same_refl f s, fun h h' f hf => Field.same_trans f (h f hf) (h' f hf)⟩

/-- Whether it succeeds or fails, `m` changes only the fields `W`. -/
abbrev Modifies {α : Type} (W : List Field) (m : M α) : Prop := Pres (ChangesOnly W) m

theorem Pres.mono {α : Type} {r r' : State → State → Prop} {m : M α} (h : Pres r m)
    (hr : ∀ s s', r s s' → r' s s') : Pres r' m := fun s =>
  wp_mono (h s) (fun _ s' => hr s s') (fun _ s' => hr s s')

theorem Modifies.mono {α : Type} {V W : List Field} {m : M α} (h : Modifies V m)
    (hV : ∀ f ∈ V, f ∈ W) : Modifies W m :=
  Pres.mono h fun _ _ h f hf => h f fun hv => hf (hV f hv)

theorem changes_updValidator (W : List Field) (hW : Field.validators ∈ W) {i : Nat}
    {f : Validator → Validator} : Modifies W (updValidator i f) :=
  Pres.updValidator (changesPre W) fun _ _ _ g hg => by
    cases g <;> first | rfl | exact absurd hW hg

/-- Close `Modifies` goals by the structure of the program, given the facts about the
functions it calls. -/
syntax "mods" (" [" term,* "]")? : tactic

macro_rules
  | `(tactic| mods) => `(tactic| mods [])
  | `(tactic| mods [$ts,*]) => do
    let ts := ts.getElems
    `(tactic| repeat' first
      | with_reducible apply Pres.pure (changesPre _)
      | with_reducible apply Pres.get (changesPre _)
      | with_reducible apply Pres.liftM (changesPre _)
      | with_reducible apply Pres.rd (changesPre _)
      $[| (with_reducible apply Modifies.mono $ts; decide)]*
      | (with_reducible apply changes_updValidator; decide)
      | with_reducible apply Pres.bind (changesPre _)
      | with_reducible apply Pres.ite
      | with_reducible apply Pres.forEach (changesPre _)
      | with_reducible apply Pres.foldlM (changesPre _)
      | (with_reducible apply Pres.upd
         intro s f hf
         cases f <;> first
           | exact absurd (by decide) hf
           | rfl
           | (dsimp only [Field.same]; (repeat' split) <;> rfl))
      | with_reducible intro _
      | split)

theorem increase_mod {i d : Nat} : Modifies [.balances] (increase_balance i d) := by
  unfold increase_balance; mods

theorem decrease_mod {i d : Nat} : Modifies [.balances] (decrease_balance i d) := by
  unfold decrease_balance; mods

theorem phase0_exit_mod {E : Env} {i : Nat} : Modifies [.validators] (initiate_validator_exit E i) := by
  unfold initiate_validator_exit; mods

theorem exit_churn_mod {E : Env} {b : Nat} :
    Modifies [.exit_balance_to_consume, .earliest_exit_epoch]
      (Electra.compute_exit_epoch_and_update_churn E b) := by
  unfold Electra.compute_exit_epoch_and_update_churn; mods

theorem consolidation_churn_mod {E : Env} {b : Nat} :
    Modifies [.consolidation_balance_to_consume, .earliest_consolidation_epoch]
      (Electra.compute_consolidation_epoch_and_update_churn E b) := by
  unfold Electra.compute_consolidation_epoch_and_update_churn; mods

theorem electra_exit_mod {E : Env} {i : Nat} :
    Modifies [.validators, .exit_balance_to_consume, .earliest_exit_epoch]
      (Electra.initiate_validator_exit E i) := by
  unfold Electra.initiate_validator_exit; mods [exit_churn_mod]

theorem exit_mod {E : Env} {f : Fork} {i : Nat} :
    Modifies [.validators, .exit_balance_to_consume, .earliest_exit_epoch]
      (f.initiate_validator_exit E i) := by
  unfold Fork.initiate_validator_exit; mods [electra_exit_mod, phase0_exit_mod]

theorem slash_mod {E : Env} {f : Fork} {i : Nat} {w : Option Nat} :
    Modifies [.validators, .balances, .slashings, .exit_balance_to_consume, .earliest_exit_epoch]
      (slash_validator E f i w) := by
  unfold slash_validator; mods [exit_mod, increase_mod, decrease_mod]

/-! ## Operations -/

theorem proposer_slashing_mod {E : Env} {f : Fork} {op : ProposerSlashing} :
    Modifies [.validators, .balances, .slashings, .exit_balance_to_consume, .earliest_exit_epoch]
      (process_proposer_slashing E f op) := by
  unfold process_proposer_slashing; mods [slash_mod]

theorem slash_all_mod {E : Env} {f : Fork} {e : Nat} {l : List Nat} {b : Bool} :
    Modifies [.validators, .balances, .slashings, .exit_balance_to_consume, .earliest_exit_epoch]
      (slash_all E f e l b) := by
  induction l generalizing b with
  | nil => unfold slash_all; mods
  | cons x l ih => unfold slash_all; mods [slash_mod, ih]

theorem attester_slashing_mod {E : Env} {f : Fork} {op : AttesterSlashing} :
    Modifies [.validators, .balances, .slashings, .exit_balance_to_consume, .earliest_exit_epoch]
      (process_attester_slashing E f op) := by
  unfold process_attester_slashing; mods [slash_all_mod]

theorem phase0_attestation_mod {E : Env} {a : Attestation} :
    Modifies [.current_epoch_attestations, .previous_epoch_attestations]
      (Phase0.process_attestation E a) := by
  unfold Phase0.process_attestation; mods

theorem setParticipation_changes {c : Bool} {g : State → List UInt8} {s : State} :
    ChangesOnly [.current_epoch_participation, .previous_epoch_participation] s
      (setParticipation c (g s) s) := by
  intro f hf
  unfold setParticipation
  cases c <;> cases f <;> first | exact absurd (by decide) hf | rfl

theorem apply_flag_mod {E : Env} {c : Bool} {fl : List Nat} {i n : Nat} {x : Nat × Nat} :
    Modifies [.current_epoch_participation, .previous_epoch_participation]
      (apply_flag E c fl i n x) := by
  unfold apply_flag; mods [Pres.upd fun _ => setParticipation_changes (c := c) (g := fun s => _)]

theorem apply_flags_mod {E : Env} {c : Bool} {fl l : List Nat} :
    Modifies [.current_epoch_participation, .previous_epoch_participation]
      (apply_flags E c fl l) := by
  unfold apply_flags; mods [apply_flag_mod]

theorem reward_proposer_mod {E : Env} {n : Nat} :
    Modifies [.balances] (reward_attestation_proposer E n) := by
  unfold reward_attestation_proposer; mods [increase_mod]

theorem attestation_mod {E : Env} {f : Fork} {a : Attestation} :
    Modifies [.current_epoch_attestations, .previous_epoch_attestations,
      .current_epoch_participation, .previous_epoch_participation, .balances]
      (process_attestation E f a) := by
  unfold process_attestation Electra.process_attestation Altair.process_attestation
  mods [phase0_attestation_mod, apply_flags_mod, reward_proposer_mod]

theorem queue_excess_mod {E : Env} {i : Nat} :
    Modifies [.balances, .pending_balance_deposits] (Electra.queue_excess_active_balance E i) := by
  unfold Electra.queue_excess_active_balance; mods

theorem switch_mod {E : Env} {i : Nat} :
    Modifies [.validators, .balances, .pending_balance_deposits]
      (Electra.switch_to_compounding_validator E i) := by
  unfold Electra.switch_to_compounding_validator; mods [queue_excess_mod]

theorem queue_entire_mod {i : Nat} :
    Modifies [.validators, .balances, .pending_balance_deposits]
      (Electra.queue_entire_balance_and_reset_validator i) := by
  unfold Electra.queue_entire_balance_and_reset_validator; mods

theorem add_validator_mod {E : Env} {f : Fork} {k : PublicKey} {w : Bytes32} {n : Nat} :
    Modifies [.validators, .balances, .previous_epoch_participation, .current_epoch_participation,
      .inactivity_scores, .pending_balance_deposits] (add_validator_to_registry E f k w n) := by
  unfold add_validator_to_registry; mods

theorem phase0_apply_deposit_mod {E : Env} {f : Fork} {k : PublicKey} {w : Bytes32} {n : Nat}
    {sig : Signature} :
    Modifies [.validators, .balances, .previous_epoch_participation, .current_epoch_participation,
      .inactivity_scores, .pending_balance_deposits] (Phase0.apply_deposit E f k w n sig) := by
  unfold Phase0.apply_deposit; mods [increase_mod, add_validator_mod]

theorem electra_apply_deposit_mod {E : Env} {k : PublicKey} {w : Bytes32} {n : Nat}
    {sig : Signature} :
    Modifies [.validators, .balances, .previous_epoch_participation, .current_epoch_participation,
      .inactivity_scores, .pending_balance_deposits] (Electra.apply_deposit E k w n sig) := by
  unfold Electra.apply_deposit; mods [switch_mod, add_validator_mod]

theorem apply_deposit_mod {E : Env} {f : Fork} {k : PublicKey} {w : Bytes32} {n : Nat}
    {sig : Signature} :
    Modifies [.validators, .balances, .previous_epoch_participation, .current_epoch_participation,
      .inactivity_scores, .pending_balance_deposits] (apply_deposit E f k w n sig) := by
  unfold apply_deposit; mods [phase0_apply_deposit_mod, electra_apply_deposit_mod]

theorem deposit_mod {E : Env} {f : Fork} {d : Deposit} :
    Modifies [.eth1_deposit_index, .validators, .balances, .previous_epoch_participation,
      .current_epoch_participation, .inactivity_scores, .pending_balance_deposits]
      (process_deposit E f d) := by
  unfold process_deposit; mods [apply_deposit_mod]

theorem voluntary_exit_mod {E : Env} {f : Fork} {op : SignedVoluntaryExit} :
    Modifies [.validators, .exit_balance_to_consume, .earliest_exit_epoch]
      (process_voluntary_exit E f op) := by
  unfold process_voluntary_exit; mods [exit_mod]

theorem bls_change_mod {E : Env} {op : SignedBlsToExecutionChange} :
    Modifies [.validators] (process_bls_to_execution_change E op) := by
  unfold process_bls_to_execution_change; mods

theorem withdrawal_request_mod {E : Env} {r : ExecutionLayerWithdrawalRequest} :
    Modifies [.validators, .exit_balance_to_consume, .earliest_exit_epoch,
      .pending_partial_withdrawals] (Electra.process_execution_layer_withdrawal_request E r) := by
  unfold Electra.process_execution_layer_withdrawal_request; mods [electra_exit_mod, exit_churn_mod]

theorem deposit_receipt_mod {E : Env} {r : DepositReceipt} :
    Modifies [.deposit_receipts_start_index, .validators, .balances,
      .previous_epoch_participation, .current_epoch_participation, .inactivity_scores,
      .pending_balance_deposits] (Electra.process_deposit_receipt E r) := by
  unfold Electra.process_deposit_receipt; mods [electra_apply_deposit_mod]

theorem consolidation_mod {E : Env} {op : SignedConsolidation} :
    Modifies [.validators, .consolidation_balance_to_consume, .earliest_consolidation_epoch,
      .pending_consolidations] (Electra.process_consolidation E op) := by
  unfold Electra.process_consolidation; mods [consolidation_churn_mod]

/-- The fields operations may write. -/
def operationFields : List Field :=
  [.validators, .balances, .slashings, .eth1_deposit_index,
   .current_epoch_attestations, .previous_epoch_attestations,
   .current_epoch_participation, .previous_epoch_participation, .inactivity_scores,
   .deposit_receipts_start_index, .pending_balance_deposits, .pending_partial_withdrawals,
   .pending_consolidations, .exit_balance_to_consume, .earliest_exit_epoch,
   .consolidation_balance_to_consume, .earliest_consolidation_epoch]

theorem operations_mod {E : Env} {f : Fork} {b : BeaconBlockBody} :
    Modifies operationFields (process_operations E f b) := by
  unfold process_operations
  mods [proposer_slashing_mod, attester_slashing_mod, attestation_mod, deposit_mod,
    voluntary_exit_mod, bls_change_mod, withdrawal_request_mod, deposit_receipt_mod,
    consolidation_mod]

/-! ## Blocks -/

theorem header_mod {E : Env} {f : Fork} {b : BeaconBlock} :
    Modifies [.latest_block_header] (process_block_header E f b) := by
  unfold process_block_header; mods

theorem randao_mod {E : Env} {b : BeaconBlockBody} :
    Modifies [.randao_mixes] (process_randao E b) := by
  unfold process_randao; mods

theorem eth1_mod {E : Env} {b : BeaconBlockBody} :
    Modifies [.eth1_data_votes, .eth1_data] (process_eth1_data E b) := by
  unfold process_eth1_data; mods

theorem payload_mod {E : Env} {f : Fork} {b : BeaconBlockBody} :
    Modifies [.latest_execution_payload_header] (process_execution_payload E f b) := by
  unfold process_execution_payload; mods

theorem withdrawals_mod {E : Env} {f : Fork} {p : ExecutionPayload} :
    Modifies [.balances, .pending_partial_withdrawals, .next_withdrawal_index,
      .next_withdrawal_validator_index] (process_withdrawals E f p) := by
  unfold process_withdrawals; mods [decrease_mod]

theorem block_payload_mod {E : Env} {f : Fork} {b : BeaconBlock} :
    Modifies [.balances, .pending_partial_withdrawals, .next_withdrawal_index,
      .next_withdrawal_validator_index, .latest_execution_payload_header]
      (process_block_payload E f b) := by
  unfold process_block_payload; mods [withdrawals_mod, payload_mod]

theorem sync_reward_mod {E : Env} {a b : Nat} {p : Nat × Bool} :
    Modifies [.balances] (apply_sync_reward E a b p) := by
  unfold apply_sync_reward; mods [increase_mod, decrease_mod]

theorem sync_aggregate_mod {E : Env} {a : SyncAggregate} :
    Modifies [.balances] (process_sync_aggregate E a) := by
  unfold process_sync_aggregate; mods [sync_reward_mod]

/-- The fields block processing may write. -/
def blockFields : List Field :=
  [.latest_block_header, .randao_mixes, .eth1_data, .eth1_data_votes,
   .latest_execution_payload_header, .next_withdrawal_index,
   .next_withdrawal_validator_index] ++ operationFields

theorem block_mod {E : Env} {f : Fork} {b : BeaconBlock} :
    Modifies blockFields (process_block E f b) := by
  unfold process_block
  mods [header_mod, block_payload_mod, randao_mod, eth1_mod, operations_mod, sync_aggregate_mod]

/-! ## Epochs -/

theorem justify_mod {E : Env} {a b c d : Nat} :
    Modifies [.current_justified_checkpoint, .justification_bits] (justify_epoch E a b c d) := by
  unfold justify_epoch; mods

theorem finalizations_mod {a b : Checkpoint} {e : Nat} :
    Modifies [.finalized_checkpoint] (process_finalizations a b e) := by
  unfold process_finalizations; mods

theorem weigh_mod {E : Env} {a b c : Nat} :
    Modifies [.previous_justified_checkpoint, .current_justified_checkpoint, .justification_bits,
      .finalized_checkpoint] (weigh_justification_and_finalization E a b c) := by
  unfold weigh_justification_and_finalization; mods [justify_mod, finalizations_mod]

theorem justification_mod {E : Env} {f : Fork} :
    Modifies [.previous_justified_checkpoint, .current_justified_checkpoint, .justification_bits,
      .finalized_checkpoint] (process_justification_and_finalization E f) := by
  unfold process_justification_and_finalization; mods [weigh_mod]

theorem inactivity_mod {E : Env} :
    Modifies [.inactivity_scores] (process_inactivity_updates E) := by
  unfold process_inactivity_updates; mods

theorem deltas_mod {d : Deltas} : Modifies [.balances] (apply_deltas d) := by
  unfold apply_deltas; mods [increase_mod, decrease_mod]

theorem rewards_mod {E : Env} {f : Fork} :
    Modifies [.balances] (process_rewards_and_penalties E f) := by
  unfold process_rewards_and_penalties; mods [deltas_mod]

theorem mark_mod {E : Env} {f : Fork} {e i : Nat} :
    Modifies [.validators] (mark_eligible E f e i) := by
  unfold mark_eligible; mods

theorem eject_mod {E : Env} {f : Fork} {e i : Nat} :
    Modifies [.validators, .exit_balance_to_consume, .earliest_exit_epoch]
      (eject_if_low E f e i) := by
  unfold eject_if_low; mods [exit_mod]

theorem registry_mod {E : Env} {f : Fork} :
    Modifies [.validators, .exit_balance_to_consume, .earliest_exit_epoch]
      (process_registry_updates E f) := by
  unfold process_registry_updates; mods [mark_mod, eject_mod]

theorem slashing_penalty_mod {E : Env} {a b c d : Nat} :
    Modifies [.balances] (apply_slashing_penalty E a b c d) := by
  unfold apply_slashing_penalty; mods [decrease_mod]

theorem slashings_mod {E : Env} {f : Fork} : Modifies [.balances] (process_slashings E f) := by
  unfold process_slashings; mods [slashing_penalty_mod]

theorem pending_deposits_loop_mod {a b c : Nat} {l : List PendingBalanceDeposit} :
    Modifies [.balances] (Electra.pending_deposits_loop a l b c) := by
  induction l generalizing b c with
  | nil => unfold Electra.pending_deposits_loop; mods
  | cons d l ih => unfold Electra.pending_deposits_loop; mods [increase_mod, ih]

theorem pending_deposits_mod {E : Env} :
    Modifies [.balances, .pending_balance_deposits, .deposit_balance_to_consume]
      (Electra.process_pending_balance_deposits E) := by
  unfold Electra.process_pending_balance_deposits; mods [pending_deposits_loop_mod]

theorem pending_consolidations_loop_mod {E : Env} {a : Nat} {l : List PendingConsolidation} :
    Modifies [.validators, .balances, .pending_balance_deposits]
      (Electra.pending_consolidations_loop E l a) := by
  induction l generalizing a with
  | nil => unfold Electra.pending_consolidations_loop; mods
  | cons d l ih =>
    unfold Electra.pending_consolidations_loop
    mods [ih, increase_mod, decrease_mod, switch_mod]

theorem pending_consolidations_mod {E : Env} :
    Modifies [.validators, .balances, .pending_balance_deposits, .pending_consolidations]
      (Electra.process_pending_consolidations E) := by
  unfold Electra.process_pending_consolidations; mods [pending_consolidations_loop_mod]

theorem eth1_reset_mod {E : Env} : Modifies [.eth1_data_votes] (process_eth1_data_reset E) := by
  unfold process_eth1_data_reset; mods

theorem effective_mod {E : Env} {f : Fork} :
    Modifies [.validators] (process_effective_balance_updates E f) := by
  unfold process_effective_balance_updates; mods

theorem slashings_reset_mod {E : Env} : Modifies [.slashings] (process_slashings_reset E) := by
  unfold process_slashings_reset; mods

theorem randao_reset_mod {E : Env} : Modifies [.randao_mixes] (process_randao_mixes_reset E) := by
  unfold process_randao_mixes_reset; mods

theorem historical_mod {E : Env} {f : Fork} :
    Modifies [.historical_roots, .historical_summaries] (process_historical_update E f) := by
  unfold process_historical_update; mods

theorem record_updates_mod :
    Modifies [.previous_epoch_attestations, .current_epoch_attestations]
      process_participation_record_updates := by
  unfold process_participation_record_updates; mods

theorem flag_updates_mod :
    Modifies [.previous_epoch_participation, .current_epoch_participation]
      process_participation_flag_updates := by
  unfold process_participation_flag_updates; mods

theorem sync_committees_mod {E : Env} :
    Modifies [.current_sync_committee, .next_sync_committee]
      (process_sync_committee_updates E) := by
  unfold process_sync_committee_updates; mods

/-- The fields epoch processing may write. -/
def epochFields : List Field :=
  [.previous_justified_checkpoint, .current_justified_checkpoint, .justification_bits,
   .finalized_checkpoint, .inactivity_scores, .balances, .validators, .exit_balance_to_consume,
   .earliest_exit_epoch, .pending_balance_deposits, .deposit_balance_to_consume,
   .pending_consolidations, .eth1_data_votes, .slashings, .randao_mixes, .historical_roots,
   .historical_summaries, .previous_epoch_attestations, .current_epoch_attestations,
   .previous_epoch_participation, .current_epoch_participation, .current_sync_committee,
   .next_sync_committee]

theorem epoch_first_mod {E : Env} {f : Fork} : Modifies epochFields (process_epoch_first E f) := by
  unfold process_epoch_first
  mods [justification_mod, inactivity_mod, rewards_mod, registry_mod, slashings_mod,
    eth1_reset_mod, pending_deposits_mod, pending_consolidations_mod]

theorem epoch_mod {E : Env} {f : Fork} : Modifies epochFields (process_epoch E f) := by
  unfold process_epoch
  mods [epoch_first_mod, effective_mod, slashings_reset_mod, randao_reset_mod, historical_mod,
    record_updates_mod, flag_updates_mod, sync_committees_mod]

/-! ## Slots and transitions -/

theorem slot_mod {E : Env} {f : Fork} :
    Modifies [.state_roots, .latest_block_header, .block_roots] (process_slot E f) := by
  unfold process_slot; mods

theorem epoch_if_due_mod {E : Env} {f : Fork} :
    Modifies epochFields (process_epoch_if_due E f) := by
  unfold process_epoch_if_due; mods [epoch_mod]

/-- The fields slot processing may write. -/
def slotFields : List Field :=
  [.slot, .state_roots, .latest_block_header, .block_roots] ++ epochFields

theorem slot_step_mod {E : Env} {f : Fork} : Modifies slotFields (slot_step E f) := by
  unfold slot_step; mods [slot_mod, epoch_if_due_mod]

theorem slots_loop_mod {E : Env} {f : Fork} {t n : Nat} :
    Modifies slotFields (slots_loop E f t n) := by
  induction n with
  | zero => unfold slots_loop; mods
  | succ n ih => unfold slots_loop; mods [slot_step_mod, ih]

theorem slots_mod {E : Env} {f : Fork} {t : Nat} : Modifies slotFields (process_slots E f t) := by
  unfold process_slots; mods [slots_loop_mod]

theorem signature_if_mod {E : Env} {f : Fork} {v : Validation} {b : SignedBeaconBlock} :
    Modifies [] (verify_block_signature_if E f v b) := by
  unfold verify_block_signature_if; mods

theorem block_in_slot_mod {E : Env} {f : Fork} {b : SignedBeaconBlock} {v : Validation} :
    Modifies blockFields (state_transition_block_in_slot E f b v) := by
  unfold state_transition_block_in_slot; mods [signature_if_mod, block_mod]

theorem transition_mod {E : Env} {f : Fork} {b : SignedBeaconBlock} {v : Validation} :
    Modifies (slotFields ++ blockFields) (state_transition E f b v) := by
  unfold state_transition; mods [slots_mod, block_in_slot_mod]

end Verif
