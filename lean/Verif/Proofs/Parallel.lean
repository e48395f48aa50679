import Verif.Proofs.Registry

/-! # Lists that stay parallel, vectors that keep their length -/

namespace Verif

open Spec

/-- What every entry point does to lengths. -/
structure Len (f : Fork) (s s' : State) : Prop where
  grow : s.validators.length ≤ s'.validators.length
  parallel : Parallel f s → Parallel f s'
  sizes : SameSizes s s'

theorem lenPre (f : Fork) : Preorder' (Len f) :=
  ⟨fun _ => ⟨Nat.le_refl _, id, rfl, rfl, rfl, rfl, id⟩,
   fun h h' => ⟨Nat.le_trans h.grow h'.grow, fun x => h'.parallel (h.parallel x),
     h'.sizes.1.trans h.sizes.1, h'.sizes.2.1.trans h.sizes.2.1,
     h'.sizes.2.2.1.trans h.sizes.2.2.1, h'.sizes.2.2.2.1.trans h.sizes.2.2.2.1,
     fun x => h'.sizes.2.2.2.2 (h.sizes.2.2.2.2 x)⟩⟩

/-- The fields whose length matters. -/
def sizedFields : List Field :=
  [.validators, .balances, .previous_epoch_participation, .current_epoch_participation,
   .inactivity_scores, .block_roots, .state_roots, .randao_mixes, .slashings,
   .justification_bits]

theorem len_mod {f : Fork} {α : Type} {W : List Field} {m : M α} (h : Modifies W m)
    (hW : ∀ x ∈ sizedFields, x ∉ W) : Pres (Len f) m :=
  Pres.mono h fun s s' h => by
    have h1 : s'.validators = s.validators := h _ (hW .validators (by decide))
    have h2 : s'.balances = s.balances := h _ (hW .balances (by decide))
    have h3 : s'.previous_epoch_participation = s.previous_epoch_participation :=
      h _ (hW .previous_epoch_participation (by decide))
    have h4 : s'.current_epoch_participation = s.current_epoch_participation :=
      h _ (hW .current_epoch_participation (by decide))
    have h5 : s'.inactivity_scores = s.inactivity_scores := h _ (hW .inactivity_scores (by decide))
    have h6 : s'.block_roots = s.block_roots := h _ (hW .block_roots (by decide))
    have h7 : s'.state_roots = s.state_roots := h _ (hW .state_roots (by decide))
    have h8 : s'.randao_mixes = s.randao_mixes := h _ (hW .randao_mixes (by decide))
    have h9 : s'.slashings = s.slashings := h _ (hW .slashings (by decide))
    have h10 : s'.justification_bits = s.justification_bits :=
      h _ (hW .justification_bits (by decide))
    refine ⟨by rw [h1]; exact Nat.le_refl _, ?_, ?_⟩
    · unfold Parallel; rw [h1, h2, h3, h4, h5]; exact id
    · unfold SameSizes; rw [h6, h7, h8, h9, h10]; exact ⟨rfl, rfl, rfl, rfl, id⟩

theorem upd_len {f : Fork} {g : State → State} (h : ∀ s, Len f s (g s)) : Pres (Len f) (upd g) :=
  Pres.upd h

/-- Decide how a concrete write changes lengths. -/
macro "lens" : tactic => `(tactic|
  (refine ⟨?_, ?_, ?_⟩ <;>
    simp +contextual [Parallel, SameSizes, List.length_set, List.length_append]))

theorem len_updValidator {f : Fork} {i : Nat} {g : Validator → Validator} :
    Pres (Len f) (updValidator i g) := by
  apply Pres.updValidator (lenPre f)
  intro s v _
  lens

theorem increase_len {f : Fork} {i d : Nat} : Pres (Len f) (increase_balance i d) := by
  unfold increase_balance
  have p := lenPre f
  walk p [upd_len] <;> lens

theorem decrease_len {f : Fork} {i d : Nat} : Pres (Len f) (decrease_balance i d) := by
  unfold decrease_balance
  have p := lenPre f
  walk p [upd_len] <;> lens

theorem exit_len {E : Env} {f g : Fork} {i : Nat} :
    Pres (Len g) (f.initiate_validator_exit E i) := by
  unfold Fork.initiate_validator_exit Verif.initiate_validator_exit Electra.initiate_validator_exit
  have p := lenPre g
  walk p [len_mod exit_churn_mod (by decide), len_updValidator]

theorem electra_exit_len {E : Env} {g : Fork} {i : Nat} :
    Pres (Len g) (Electra.initiate_validator_exit E i) := exit_len (f := .Electra)

theorem slash_len {E : Env} {f g : Fork} {i : Nat} {w : Option Nat} :
    Pres (Len g) (slash_validator E f i w) := by
  unfold slash_validator
  have p := lenPre g
  walk p [exit_len, len_updValidator, increase_len, decrease_len, upd_len] <;> lens

/-! ## Operations -/

theorem slash_all_len {E : Env} {f g : Fork} {e : Nat} {l : List Nat} {b : Bool} :
    Pres (Len g) (slash_all E f e l b) := by
  have p := lenPre g
  induction l generalizing b with
  | nil => unfold slash_all; walk p
  | cons x l ih => unfold slash_all; walk p [slash_len, ih]

theorem proposer_slashing_len {E : Env} {f g : Fork} {op : ProposerSlashing} :
    Pres (Len g) (process_proposer_slashing E f op) := by
  unfold process_proposer_slashing
  have p := lenPre g
  walk p [slash_len]

theorem attester_slashing_len {E : Env} {f g : Fork} {op : AttesterSlashing} :
    Pres (Len g) (process_attester_slashing E f op) := by
  unfold process_attester_slashing
  have p := lenPre g
  walk p [slash_all_len]

theorem apply_flag_len {E : Env} {g : Fork} {c : Bool} {fl : List Nat} {i n : Nat}
    {x : Nat × Nat} : Pres (Len g) (apply_flag E c fl i n x) := by
  unfold apply_flag
  have p := lenPre g
  walk p [upd_len]
  unfold setParticipation participationOf
  cases c <;> lens

theorem attestation_len {E : Env} {f g : Fork} {a : Attestation} :
    Pres (Len g) (process_attestation E f a) := by
  unfold process_attestation Electra.process_attestation Altair.process_attestation apply_flags
    reward_attestation_proposer
  have p := lenPre g
  walk p [len_mod phase0_attestation_mod (by decide), apply_flag_len, increase_len]

theorem queue_excess_len {E : Env} {g : Fork} {i : Nat} :
    Pres (Len g) (Electra.queue_excess_active_balance E i) := by
  unfold Electra.queue_excess_active_balance
  have p := lenPre g
  walk p [upd_len] <;> lens

theorem switch_len {E : Env} {g : Fork} {i : Nat} :
    Pres (Len g) (Electra.switch_to_compounding_validator E i) := by
  unfold Electra.switch_to_compounding_validator
  have p := lenPre g
  walk p [queue_excess_len, len_updValidator]

theorem queue_entire_len {g : Fork} {i : Nat} :
    Pres (Len g) (Electra.queue_entire_balance_and_reset_validator i) := by
  unfold Electra.queue_entire_balance_and_reset_validator
  have p := lenPre g
  walk p [len_updValidator, upd_len] <;> lens

theorem add_validator_len {E : Env} {f : Fork} {k : PublicKey} {w : Bytes32} {n : Nat} :
    Pres (Len f) (add_validator_to_registry E f k w n) := by
  unfold add_validator_to_registry
  have p := lenPre f
  cases f <;> walk p [upd_len] <;> lens

theorem apply_deposit_len {E : Env} {f : Fork} {k : PublicKey} {w : Bytes32} {n : Nat}
    {sig : Signature} : Pres (Len f) (apply_deposit E f k w n sig) := by
  unfold apply_deposit Phase0.apply_deposit Electra.apply_deposit
  have p := lenPre f
  cases f <;> walk p [switch_len, add_validator_len, increase_len, upd_len] <;> lens

theorem deposit_len {E : Env} {f : Fork} {d : Deposit} : Pres (Len f) (process_deposit E f d) := by
  unfold process_deposit
  have p := lenPre f
  walk p [apply_deposit_len, upd_len] <;> lens

theorem voluntary_exit_len {E : Env} {f g : Fork} {op : SignedVoluntaryExit} :
    Pres (Len g) (process_voluntary_exit E f op) := by
  unfold process_voluntary_exit
  have p := lenPre g
  walk p [exit_len]

theorem bls_change_len {E : Env} {g : Fork} {op : SignedBlsToExecutionChange} :
    Pres (Len g) (process_bls_to_execution_change E op) := by
  unfold process_bls_to_execution_change
  have p := lenPre g
  walk p [len_updValidator]

theorem withdrawal_request_len {E : Env} {g : Fork} {r : ExecutionLayerWithdrawalRequest} :
    Pres (Len g) (Electra.process_execution_layer_withdrawal_request E r) := by
  unfold Electra.process_execution_layer_withdrawal_request
  have p := lenPre g
  walk p [electra_exit_len, len_mod exit_churn_mod (by decide), upd_len] <;> lens

theorem electra_apply_deposit_len {E : Env} {k : PublicKey} {w : Bytes32} {n : Nat}
    {sig : Signature} : Pres (Len .Electra) (Electra.apply_deposit E k w n sig) :=
  apply_deposit_len (f := .Electra)

theorem deposit_receipt_len {E : Env} {r : DepositReceipt} :
    Pres (Len .Electra) (Electra.process_deposit_receipt E r) := by
  unfold Electra.process_deposit_receipt
  have p := lenPre .Electra
  walk p [electra_apply_deposit_len, upd_len] <;> lens

theorem consolidation_len {E : Env} {g : Fork} {op : SignedConsolidation} :
    Pres (Len g) (Electra.process_consolidation E op) := by
  unfold Electra.process_consolidation
  have p := lenPre g
  walk p [len_mod consolidation_churn_mod (by decide), len_updValidator, upd_len] <;> lens

theorem operations_len {E : Env} {f : Fork} {b : BeaconBlockBody} :
    Pres (Len f) (process_operations E f b) := by
  unfold process_operations
  have p := lenPre f
  cases f <;> walk p [proposer_slashing_len, attester_slashing_len, attestation_len, deposit_len,
    voluntary_exit_len, bls_change_len, withdrawal_request_len, deposit_receipt_len,
    consolidation_len]

/-! ## Blocks -/

theorem randao_len {E : Env} {g : Fork} {b : BeaconBlockBody} :
    Pres (Len g) (process_randao E b) := by
  intro s
  have p := (lenPre g).refl s
  unfold process_randao
  simp only [wps]
  repeat' first
    | exact p
    | intro h
    | with_reducible refine And.intro ?_ (fun _ _ => p)
  rw [setIdx_eq_ok] at h
  obtain ⟨_, rfl⟩ := h
  lens

theorem withdrawals_len {E : Env} {f g : Fork} {q : ExecutionPayload} :
    Pres (Len g) (process_withdrawals E f q) := by
  unfold process_withdrawals
  have p := lenPre g
  walk p [decrease_len, upd_len] <;> lens

theorem block_payload_len {E : Env} {f g : Fork} {b : BeaconBlock} :
    Pres (Len g) (process_block_payload E f b) := by
  unfold process_block_payload
  have p := lenPre g
  walk p [withdrawals_len, len_mod payload_mod (by decide)]

theorem sync_aggregate_len {E : Env} {g : Fork} {a : SyncAggregate} :
    Pres (Len g) (process_sync_aggregate E a) := by
  unfold process_sync_aggregate apply_sync_reward
  have p := lenPre g
  walk p [increase_len, decrease_len]

theorem block_len {E : Env} {f : Fork} {b : BeaconBlock} :
    Pres (Len f) (process_block E f b) := by
  unfold process_block
  have p := lenPre f
  walk p [len_mod header_mod (by decide), block_payload_len, randao_len,
    len_mod eth1_mod (by decide), operations_len, sync_aggregate_len]

/-! ## Epochs -/

theorem justification_len {E : Env} {f g : Fork} :
    Pres (Len g) (process_justification_and_finalization E f) := by
  unfold process_justification_and_finalization weigh_justification_and_finalization justify_epoch
  have p := lenPre g
  walk p [len_mod finalizations_mod (by decide), upd_len] <;> lens

theorem inactivity_len {E : Env} {g : Fork} : Pres (Len g) (process_inactivity_updates E) := by
  unfold process_inactivity_updates
  have p := lenPre g
  walk p [upd_len] <;> lens

theorem deltas_len {g : Fork} {d : Deltas} : Pres (Len g) (apply_deltas d) := by
  unfold apply_deltas
  have p := lenPre g
  walk p [increase_len, decrease_len]

theorem rewards_len {E : Env} {f g : Fork} :
    Pres (Len g) (process_rewards_and_penalties E f) := by
  unfold process_rewards_and_penalties
  have p := lenPre g
  walk p [deltas_len]

theorem registry_len {E : Env} {f g : Fork} : Pres (Len g) (process_registry_updates E f) := by
  unfold process_registry_updates mark_eligible eject_if_low
  have p := lenPre g
  walk p [exit_len, len_updValidator]

theorem slashings_len {E : Env} {f g : Fork} : Pres (Len g) (process_slashings E f) := by
  unfold process_slashings apply_slashing_penalty
  have p := lenPre g
  walk p [decrease_len]

theorem pending_deposits_loop_len {g : Fork} {a b c : Nat} {l : List PendingBalanceDeposit} :
    Pres (Len g) (Electra.pending_deposits_loop a l b c) := by
  have p := lenPre g
  induction l generalizing b c with
  | nil => unfold Electra.pending_deposits_loop; walk p
  | cons d l ih => unfold Electra.pending_deposits_loop; walk p [increase_len, ih]

theorem pending_deposits_len {E : Env} {g : Fork} :
    Pres (Len g) (Electra.process_pending_balance_deposits E) := by
  unfold Electra.process_pending_balance_deposits
  have p := lenPre g
  walk p [pending_deposits_loop_len, upd_len] <;> lens

theorem pending_consolidations_loop_len {E : Env} {g : Fork} {a : Nat}
    {l : List PendingConsolidation} :
    Pres (Len g) (Electra.pending_consolidations_loop E l a) := by
  have p := lenPre g
  induction l generalizing a with
  | nil => unfold Electra.pending_consolidations_loop; walk p
  | cons d l ih =>
    unfold Electra.pending_consolidations_loop
    walk p [ih, increase_len, decrease_len, switch_len]

theorem pending_consolidations_len {E : Env} {g : Fork} :
    Pres (Len g) (Electra.process_pending_consolidations E) := by
  unfold Electra.process_pending_consolidations
  have p := lenPre g
  walk p [pending_consolidations_loop_len, upd_len] <;> lens

theorem effective_len {E : Env} {f g : Fork} :
    Pres (Len g) (process_effective_balance_updates E f) := by
  unfold process_effective_balance_updates
  have p := lenPre g
  walk p [len_updValidator]

theorem slashings_reset_len {E : Env} {g : Fork} : Pres (Len g) (process_slashings_reset E) := by
  intro s
  have p := (lenPre g).refl s
  unfold process_slashings_reset
  simp only [wps]
  repeat' first
    | exact p
    | intro h
    | with_reducible refine And.intro ?_ (fun _ _ => p)
  rw [setIdx_eq_ok] at h
  obtain ⟨_, rfl⟩ := h
  lens

theorem randao_reset_len {E : Env} {g : Fork} : Pres (Len g) (process_randao_mixes_reset E) := by
  intro s
  have p := (lenPre g).refl s
  unfold process_randao_mixes_reset
  simp only [wps]
  repeat' first
    | exact p
    | intro h
    | with_reducible refine And.intro ?_ (fun _ _ => p)
  rw [setIdx_eq_ok] at h
  obtain ⟨_, rfl⟩ := h
  lens

theorem flag_updates_len {g : Fork} (hg : g ≠ .Phase0) :
    Pres (Len g) process_participation_flag_updates := by
  unfold process_participation_flag_updates
  apply upd_len
  intro s
  refine ⟨?_, ?_, ?_⟩ <;> simp +contextual [Parallel, SameSizes, hg]

theorem epoch_len {E : Env} {f : Fork} : Pres (Len f) (process_epoch E f) := by
  unfold process_epoch process_epoch_first
  have p := lenPre f
  cases f <;> walk p [justification_len, inactivity_len, rewards_len, registry_len, slashings_len,
    len_mod eth1_reset_mod (by decide), pending_deposits_len, pending_consolidations_len,
    effective_len, slashings_reset_len, randao_reset_len, len_mod historical_mod (by decide),
    len_mod record_updates_mod (by decide), flag_updates_len (by decide),
    len_mod sync_committees_mod (by decide)]

/-! ## Slots and transitions -/

theorem slot_len {E : Env} {f g : Fork} : Pres (Len g) (process_slot E f) := by
  intro s
  have p := (lenPre g).refl s
  unfold process_slot
  simp only [wps]
  refine ⟨fun i _ => ⟨fun l h => ?_, fun _ _ => p⟩, fun _ _ => p⟩
  rw [setIdx_eq_ok] at h
  obtain ⟨_, rfl⟩ := h
  refine ⟨fun j _ => ⟨fun l h => ?_, fun _ _ => ?_⟩, fun _ _ => ?_⟩
  · rw [setIdx_eq_ok] at h
    obtain ⟨_, rfl⟩ := h
    lens
  · lens
  · lens

theorem slots_loop_len {E : Env} {f : Fork} {t n : Nat} : Pres (Len f) (slots_loop E f t n) := by
  have p := lenPre f
  induction n with
  | zero => unfold slots_loop; walk p
  | succ n ih =>
    unfold slots_loop slot_step process_epoch_if_due
    walk p [slot_len, epoch_len, ih, upd_len]
    lens

theorem slots_len {E : Env} {f : Fork} {t : Nat} : Pres (Len f) (process_slots E f t) := by
  unfold process_slots
  have p := lenPre f
  walk p [slots_loop_len]

theorem block_in_slot_len {E : Env} {f : Fork} {b : SignedBeaconBlock} {v : Validation} :
    Pres (Len f) (state_transition_block_in_slot E f b v) := by
  unfold state_transition_block_in_slot
  have p := lenPre f
  walk p [len_mod signature_if_mod (by decide), block_len]

theorem transition_len {E : Env} {f : Fork} {b : SignedBeaconBlock} {v : Validation} :
    Pres (Len f) (state_transition E f b v) := by
  unfold state_transition
  have p := lenPre f
  walk p [slots_len, block_in_slot_len]

end Verif
