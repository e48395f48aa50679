import Verif.Spec.History
import Verif.Proofs.Parallel

/-! # Invariants of reachable states -/

namespace Verif

open Spec

theorem entry_reg {E : Env} (hE : SaneConfig E) {f : Fork} {m : M Unit} (h : EntryPoint E f m) :
    Pres Reg m := by
  cases h with
  | process_slots => exact slots_reg hE
  | state_transition => exact transition_reg hE
  | state_transition_block_in_slot => exact block_in_slot_reg hE
  | process_slot => exact reg_mod slot_mod (by decide)
  | process_epoch => exact epoch_reg hE
  | process_block => exact block_reg hE
  | process_block_header => exact reg_mod header_mod (by decide)
  | process_randao => exact reg_mod randao_mod (by decide)
  | process_eth1_data => exact reg_mod eth1_mod (by decide)
  | process_operations => exact operations_reg hE
  | process_execution_payload => exact reg_mod payload_mod (by decide)
  | process_withdrawals => exact reg_mod withdrawals_mod (by decide)
  | process_sync_aggregate => exact reg_mod sync_aggregate_mod (by decide)
  | process_proposer_slashing => exact proposer_slashing_reg hE
  | process_attester_slashing => exact attester_slashing_reg hE
  | process_attestation => exact attestation_reg
  | process_deposit => exact deposit_reg
  | process_voluntary_exit => exact voluntary_exit_reg hE
  | process_bls_to_execution_change => exact bls_change_reg
  | process_execution_layer_withdrawal_request => exact withdrawal_request_reg hE
  | process_deposit_receipt => exact deposit_receipt_reg
  | process_consolidation => exact consolidation_reg hE
  | initiate_validator_exit => exact exit_reg hE
  | slash_validator => exact slash_reg hE
  | increase_balance => exact reg_mod increase_mod (by decide)
  | decrease_balance => exact reg_mod decrease_mod (by decide)

theorem entry_len {E : Env} {f : Fork} {m : M Unit} (h : EntryPoint E f m) : Pres (Len f) m := by
  cases h with
  | process_slots => exact slots_len
  | state_transition => exact transition_len
  | state_transition_block_in_slot => exact block_in_slot_len
  | process_slot => exact slot_len
  | process_epoch => exact epoch_len
  | process_block => exact block_len
  | process_block_header => exact len_mod header_mod (by decide)
  | process_randao => exact randao_len
  | process_eth1_data => exact len_mod eth1_mod (by decide)
  | process_operations => exact operations_len
  | process_execution_payload => exact len_mod payload_mod (by decide)
  | process_withdrawals => exact withdrawals_len
  | process_sync_aggregate => exact sync_aggregate_len
  | process_proposer_slashing => exact proposer_slashing_len
  | process_attester_slashing => exact attester_slashing_len
  | process_attestation => exact attestation_len
  | process_deposit => exact deposit_len
  | process_voluntary_exit => exact voluntary_exit_len
  | process_bls_to_execution_change => exact bls_change_len
  | process_execution_layer_withdrawal_request => exact withdrawal_request_len
  | process_deposit_receipt _ h => subst h; exact deposit_receipt_len
  | process_consolidation => exact consolidation_len
  | initiate_validator_exit => exact exit_len
  | slash_validator => exact slash_len
  | increase_balance => exact increase_len
  | decrease_balance => exact decrease_len

/-- All fields calls may write. -/
def allMutable : List Field := slotFields ++ blockFields

theorem entry_mod {E : Env} {f : Fork} {m : M Unit} (h : EntryPoint E f m) :
    Modifies allMutable m := by
  cases h with
  | process_slots => exact Modifies.mono slots_mod (by decide)
  | state_transition => exact Modifies.mono transition_mod (by decide)
  | state_transition_block_in_slot => exact Modifies.mono block_in_slot_mod (by decide)
  | process_slot => exact Modifies.mono slot_mod (by decide)
  | process_epoch => exact Modifies.mono epoch_mod (by decide)
  | process_block => exact Modifies.mono block_mod (by decide)
  | process_block_header => exact Modifies.mono header_mod (by decide)
  | process_randao => exact Modifies.mono randao_mod (by decide)
  | process_eth1_data => exact Modifies.mono eth1_mod (by decide)
  | process_operations => exact Modifies.mono operations_mod (by decide)
  | process_execution_payload => exact Modifies.mono payload_mod (by decide)
  | process_withdrawals => exact Modifies.mono withdrawals_mod (by decide)
  | process_sync_aggregate => exact Modifies.mono sync_aggregate_mod (by decide)
  | process_proposer_slashing => exact Modifies.mono proposer_slashing_mod (by decide)
  | process_attester_slashing => exact Modifies.mono attester_slashing_mod (by decide)
  | process_attestation => exact Modifies.mono attestation_mod (by decide)
  | process_deposit => exact Modifies.mono deposit_mod (by decide)
  | process_voluntary_exit => exact Modifies.mono voluntary_exit_mod (by decide)
  | process_bls_to_execution_change => exact Modifies.mono bls_change_mod (by decide)
  | process_execution_layer_withdrawal_request => exact Modifies.mono withdrawal_request_mod (by decide)
  | process_deposit_receipt => exact Modifies.mono deposit_receipt_mod (by decide)
  | process_consolidation => exact Modifies.mono consolidation_mod (by decide)
  | initiate_validator_exit => exact Modifies.mono exit_mod (by decide)
  | slash_validator => exact Modifies.mono slash_mod (by decide)
  | increase_balance => exact Modifies.mono increase_mod (by decide)
  | decrease_balance => exact Modifies.mono decrease_mod (by decide)

theorem history_pres {E : Env} {f : Fork} {r : State → State → Prop} (hr : Preorder' r)
    (h : ∀ m, EntryPoint E f m → Pres r m) {s s' : State} (hs : History E f s s') : r s s' := by
  induction hs with
  | start => exact hr.refl s
  | call _ hm ih => exact hr.trans ih ((h _ hm).final _)

theorem history_reg {E : Env} (hE : SaneConfig E) {f : Fork} {s s' : State}
    (h : History E f s s') : Reg s s' :=
  history_pres regPre (fun _ => entry_reg hE) h

theorem history_len {E : Env} {f : Fork} {s s' : State} (h : History E f s s') : Len f s s' :=
  history_pres (lenPre f) (fun _ => entry_len) h

/-! ## Genesis and upgrades -/

theorem runLocal_eq_ok {m : M Unit} {s s' : State} :
    runLocal m s = .ok s' ↔ m s = .ok () s' := by
  unfold runLocal
  cases h : m s <;> simp

/-- Only the part of `Reg` about withdrawals. -/
def Ebw (s s' : State) : Prop := ExitBeforeWithdrawal s → ExitBeforeWithdrawal s'

theorem ebwPre : Preorder' Ebw := ⟨fun _ => id, fun h h' x => h' (h x)⟩

theorem ebw_mod {α : Type} {W : List Field} {m : M α} (h : Modifies W m)
    (hW : Field.validators ∉ W) : Pres Ebw m :=
  Pres.mono (reg_mod h hW) fun _ _ h => h.2

theorem ebw_updValidator {i : Nat} {g : Validator → Validator}
    (h : ∀ v, (v.exit_epoch = FAR_FUTURE_EPOCH → v.withdrawable_epoch = FAR_FUTURE_EPOCH) →
      (g v).exit_epoch = FAR_FUTURE_EPOCH → (g v).withdrawable_epoch = FAR_FUTURE_EPOCH) :
    Pres Ebw (updValidator i g) := by
  apply Pres.updValidator ebwPre
  intro s v hv hs u hu
  rcases List.mem_or_eq_of_mem_set hu with hu | rfl
  · exact hs u hu
  · exact h v (hs v (List.mem_of_getElem? hv))

theorem ebw_upd {g : State → State} (h : ∀ s, (g s).validators = s.validators) :
    Pres Ebw (upd g) := Pres.upd fun s => (reg_of_same (h s)).2

theorem genesis_deposits_len {E : Env} {f : Fork} {l : List DepositData} {ds : List Deposit} :
    Pres (Len f) (genesis_deposits E f l ds) := by
  have p := lenPre f
  induction ds generalizing l with
  | nil => unfold genesis_deposits; walk p
  | cons d ds ih => unfold genesis_deposits; walk p [deposit_len, ih, upd_len]; lens

theorem deposit_ebw {E : Env} {f : Fork} {d : Deposit} : Pres Ebw (process_deposit E f d) :=
  Pres.mono deposit_reg fun _ _ h => h.2

theorem genesis_deposits_ebw {E : Env} {f : Fork} {l : List DepositData} {ds : List Deposit} :
    Pres Ebw (genesis_deposits E f l ds) := by
  induction ds generalizing l with
  | nil => unfold genesis_deposits; walk ebwPre
  | cons d ds ih =>
    unfold genesis_deposits
    walk ebwPre [deposit_ebw, ih, ebw_upd]

theorem genesis_fill_len {E : Env} {f : Fork} {ds : List Deposit} :
    Pres (Len f) (genesis_fill E f ds) := by
  unfold genesis_fill genesis_pending_deposits genesis_activate genesis_sync_committees
  have p := lenPre f
  walk p [genesis_deposits_len, increase_len, len_updValidator, upd_len] <;> lens

theorem genesis_fill_ebw {E : Env} {f : Fork} {ds : List Deposit} :
    Pres Ebw (genesis_fill E f ds) := by
  unfold genesis_fill genesis_pending_deposits genesis_activate genesis_sync_committees
  walk ebwPre [genesis_deposits_ebw, ebw_mod increase_mod (by decide), ebw_upd]
  apply ebw_updValidator
  intro v h
  split <;> exact h

/-- The vectors have the configured lengths. -/
def Sized (E : Env) (s : State) : Prop :=
  s.block_roots.length = E.slots_per_historical_root ∧
  s.state_roots.length = E.slots_per_historical_root ∧
  s.randao_mixes.length = E.epochs_per_historical_vector ∧
  s.slashings.length = E.epochs_per_slashings_vector ∧
  s.justification_bits.length = 4

theorem sized_of_same {E : Env} {s s' : State} (h : SameSizes s s') (hs : Sized E s) :
    Sized E s' :=
  ⟨h.1.trans hs.1, h.2.1.trans hs.2.1, h.2.2.1.trans hs.2.2.1, h.2.2.2.1.trans hs.2.2.2.1,
    h.2.2.2.2 hs.2.2.2.2⟩

/-- The invariant of reachable states. -/
structure Inv (E : Env) (f : Fork) (s : State) : Prop where
  parallel : Parallel f s
  sized : Sized E s
  exits : ExitBeforeWithdrawal s

theorem genesis_inv {E : Env} {f : Fork} {h : Bytes32} {t : Nat} {ds : List Deposit}
    {p : Option ExecutionPayloadHeader} {s : State}
    (hs : initialize_beacon_state_from_eth1 E f h t ds p = .ok s) : Inv E f s := by
  unfold initialize_beacon_state_from_eth1 genesis_candidate at hs
  simp only [run] at hs
  obtain ⟨_, ⟨gt, _, rfl⟩, hs⟩ := hs
  rw [runLocal_eq_ok] at hs
  have hl := genesis_fill_len.ok hs
  have he := genesis_fill_ebw.ok hs
  refine ⟨hl.parallel ?_, sized_of_same hl.sizes ?_, he ?_⟩
  · exact ⟨rfl, fun _ => ⟨rfl, rfl, rfl⟩⟩
  · exact ⟨List.length_replicate, List.length_replicate, List.length_replicate,
      List.length_replicate, rfl⟩
  · intro v hv; cases hv

theorem translate_mod {E : Env} {l : List PendingAttestation} :
    Modifies [.previous_epoch_participation] (translate_participation E l) := by
  unfold translate_participation translate_flags; mods

theorem translate_len {E : Env} {f : Fork} {l : List PendingAttestation} :
    Pres (Len f) (translate_participation E l) := by
  unfold translate_participation translate_flags
  have p := lenPre f
  walk p [upd_len] <;> lens

theorem init_queues_len {E : Env} {f : Fork} : Pres (Len f) (electra_init_queues E) := by
  unfold electra_init_queues
  have p := lenPre f
  walk p [queue_entire_len, queue_excess_len, upd_len] <;> lens

theorem init_queues_ebw {E : Env} : Pres Ebw (electra_init_queues E) := by
  unfold electra_init_queues Electra.queue_entire_balance_and_reset_validator
  walk ebwPre [ebw_mod queue_excess_mod (by decide), ebw_upd]
  apply ebw_updValidator
  intro v h; exact h

theorem upgrade_inv {E : Env} {f g : Fork} {s s' : State} (hs : Inv E f s)
    (hg : g.ord = f.ord + 1) (h : upgrade_to E g s = .ok s') : Inv E g s' := by
  obtain ⟨hp, hz, he⟩ := hs
  cases g <;> unfold upgrade_to at h <;> dsimp only at h
  case Phase0 => cases h
  case Altair =>
    unfold upgrade_to_altair at h
    simp only [run, runLocal_eq_ok] at h
    obtain ⟨e, _, post, hpost, c, _, rfl⟩ := h
    have hl := (translate_len (f := .Altair)).ok hpost
    have hv : post.validators = s.validators := (translate_mod.ok hpost) .validators (by decide)
    have hq := hl.parallel
      ⟨hp.1, fun _ => ⟨List.length_replicate, List.length_replicate, List.length_replicate⟩⟩
    refine ⟨hq, sized_of_same hl.sizes hz, ?_⟩
    intro v hm
    exact he v (hv ▸ hm)
  case Electra =>
    have hf : f ≠ .Phase0 := by intro hf; subst hf; cases hg
    unfold upgrade_to_electra at h
    simp only [run, runLocal_eq_ok] at h
    obtain ⟨e, _, x, _, y, _, h⟩ := h
    have hl := (init_queues_len (f := .Electra)).ok h
    exact ⟨hl.parallel ⟨hp.1, fun _ => hp.2 hf⟩, sized_of_same hl.sizes hz,
      (init_queues_ebw.ok h) he⟩
  all_goals
    have hf : f ≠ .Phase0 := by intro hf; subst hf; cases hg
    first
      | unfold upgrade_to_bellatrix at h
      | unfold upgrade_to_capella at h
      | unfold upgrade_to_deneb at h
    simp only [run] at h
    obtain ⟨e, _, rfl⟩ := h
    exact ⟨⟨hp.1, fun _ => hp.2 hf⟩, hz, he⟩

theorem reachable_inv {E : Env} (hE : SaneConfig E) {f : Fork} {s : State}
    (h : Reachable E f s) : Inv E f s := by
  induction h with
  | genesis h => exact genesis_inv h
  | call _ hm ih =>
    have hl := (entry_len hm).final
    exact ⟨(hl _).parallel ih.parallel, sized_of_same (hl _).sizes ih.sized,
      ((entry_reg hE hm).final _).2 ih.exits⟩
  | upgrade _ hg h ih => exact upgrade_inv ih hg h

end Verif
