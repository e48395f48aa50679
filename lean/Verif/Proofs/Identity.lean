import Verif.Spec.Identity
import Verif.Proofs.History
import Verif.Proofs.Deposits
import Verif.Proofs.Proposer

/-! # Public keys in the registry: kept, in order, and each once -/

namespace Verif

open Spec

/-- The keys of the registry are kept, more may follow, and they stay different. -/
def KeyStep (s s' : State) : Prop :=
  s.validators.map (·.public_key) <+: s'.validators.map (·.public_key) ∧
    (DistinctKeys s → DistinctKeys s')

theorem keyPre : Preorder' KeyStep :=
  ⟨fun _ => ⟨List.prefix_refl _, id⟩, fun h h' => ⟨h.1.trans h'.1, fun x => h'.2 (h.2 x)⟩⟩

theorem key_of_same {s s' : State}
    (h : s'.validators.map (·.public_key) = s.validators.map (·.public_key)) : KeyStep s s' := by
  unfold KeyStep DistinctKeys
  rw [h]
  exact ⟨List.prefix_refl _, id⟩

theorem key_mod {α : Type} {W : List Field} {m : M α} (h : Modifies W m)
    (hW : Field.validators ∉ W) : Pres KeyStep m :=
  Pres.mono h fun s s' h => key_of_same (by
    rw [show s'.validators = s.validators from h .validators hW])

/-- The keys of the registry stay exactly as they are. -/
def SameKeys (s s' : State) : Prop :=
  s'.validators.map (·.public_key) = s.validators.map (·.public_key)

theorem samePre : Preorder' SameKeys := ⟨fun _ => rfl, fun h h' => Eq.trans h' h⟩

theorem sameKeys_mod {α : Type} {W : List Field} {m : M α} (h : Modifies W m)
    (hW : Field.validators ∉ W) : Pres SameKeys m :=
  Pres.mono h fun s s' h => by
    unfold SameKeys
    rw [show s'.validators = s.validators from h .validators hW]

theorem sameKeys_updValidator {i : Nat} {g : Validator → Validator}
    (h : ∀ v, (g v).public_key = v.public_key) : Pres SameKeys (updValidator i g) := by
  apply Pres.updValidator samePre
  intro s v hv
  exact set_key_same hv (h v)

theorem sameKeys_upd {g : State → State} (h : ∀ s, (g s).validators = s.validators) :
    Pres SameKeys (upd g) :=
  Pres.upd fun s => by unfold SameKeys; rw [h s]

theorem key_same {α : Type} {m : M α} (h : Pres SameKeys m) : Pres KeyStep m :=
  Pres.mono h fun _ _ h => key_of_same h

theorem key_upd {g : State → State} (h : ∀ s, (g s).validators = s.validators) :
    Pres KeyStep (upd g) :=
  Pres.upd fun s => key_of_same (by rw [h s])

theorem exit_same {E : Env} {f : Fork} {i : Nat} : Pres SameKeys (f.initiate_validator_exit E i) := by
  have h1 : Pres SameKeys (initiate_validator_exit E i) := by
    unfold initiate_validator_exit
    walk samePre [sameKeys_updValidator]
  have h2 : Pres SameKeys (Electra.initiate_validator_exit E i) := by
    unfold Electra.initiate_validator_exit
    walk samePre [sameKeys_mod exit_churn_mod (by decide), sameKeys_updValidator]
  cases f <;> first | exact h1 | exact h2

theorem electra_exit_same {E : Env} {i : Nat} :
    Pres SameKeys (Electra.initiate_validator_exit E i) := exit_same (f := .Electra)

theorem slash_same {E : Env} {f : Fork} {i : Nat} {w : Option Nat} :
    Pres SameKeys (slash_validator E f i w) := by
  unfold slash_validator
  walk samePre [exit_same, sameKeys_updValidator, sameKeys_mod increase_mod (by decide),
    sameKeys_mod decrease_mod (by decide), sameKeys_upd]

theorem slash_all_same {E : Env} {f : Fork} {e : Nat} {l : List Nat} {b : Bool} :
    Pres SameKeys (slash_all E f e l b) := by
  induction l generalizing b with
  | nil => unfold slash_all; walk samePre
  | cons x l ih => unfold slash_all; walk samePre [slash_same, ih]

theorem switch_same {E : Env} {i : Nat} :
    Pres SameKeys (Electra.switch_to_compounding_validator E i) := by
  unfold Electra.switch_to_compounding_validator
  walk samePre [sameKeys_mod queue_excess_mod (by decide), sameKeys_updValidator]

theorem new_validator_key {E : Env} {f : Fork} {k : PublicKey} {w : Bytes32} {n : Nat}
    {v : Validator} (h : get_validator_from_deposit E f k w n = .ok v) : v.public_key = k := by
  unfold get_validator_from_deposit at h
  cases f <;> simp only [run] at h <;> obtain ⟨_, _, rfl⟩ := h <;> rfl

theorem key_append {s s' : State} {v : Validator} (h : s'.validators = s.validators ++ [v])
    (hk : ∀ u ∈ s.validators, u.public_key ≠ v.public_key) : KeyStep s s' := by
  refine ⟨⟨[v.public_key], by rw [h]; simp⟩, fun hd => ?_⟩
  unfold DistinctKeys at *
  rw [h, List.map_append, List.nodup_append]
  refine ⟨hd, by simp, ?_⟩
  rintro a ha b' hb rfl
  simp only [List.map_cons, List.map_nil, List.mem_singleton] at hb
  obtain ⟨u, hu, he⟩ := List.mem_map.1 ha
  exact hk u hu (he.trans hb)

theorem add_validator_key {E : Env} {f : Fork} {k : PublicKey} {w : Bytes32} {n : Nat} {s : State}
    (hk : ∀ v ∈ s.validators, v.public_key ≠ k) :
    wp (add_validator_to_registry E f k w n) (fun _ s' => KeyStep s s') (fun _ s' => KeyStep s s')
      s := by
  unfold add_validator_to_registry
  rw [wp_bind, wp_liftM]
  refine ⟨fun v hv => ?_, fun _ _ => keyPre.refl s⟩
  have e := new_validator_key hv
  cases f <;> exact key_append (v := v) rfl (by rw [e]; exact hk)

theorem unknown_key {s : State} {k : PublicKey}
    (h : (s.validators.findIdx? fun v => v.public_key == k) = none) :
    ∀ v ∈ s.validators, v.public_key ≠ k := by
  intro v hv
  have := List.findIdx?_eq_none_iff.1 h v hv
  simpa using this

theorem phase0_apply_deposit_key {E : Env} {f : Fork} {k : PublicKey} {w : Bytes32} {n : Nat}
    {sig : Signature} : Pres KeyStep (Phase0.apply_deposit E f k w n sig) := by
  intro s
  unfold Phase0.apply_deposit
  rw [wp_bind, wp_get]
  split
  · exact (key_mod increase_mod (by decide)) s
  · rename_i h
    rw [wp_ite]
    exact ⟨fun _ => add_validator_key (unknown_key h), fun _ => keyPre.refl s⟩

theorem electra_apply_deposit_key {E : Env} {k : PublicKey} {w : Bytes32} {n : Nat}
    {sig : Signature} : Pres KeyStep (Electra.apply_deposit E k w n sig) := by
  intro s
  unfold Electra.apply_deposit
  rw [wp_bind, wp_get]
  split
  · rename_i i h
    have : Pres KeyStep (do
        let v ← idx s.validators i
        upd fun s => { s with
          pending_balance_deposits := s.pending_balance_deposits ++ [⟨i, n⟩] }
        rejectIf (!deposit_signature_ok E k w n sig) .bls
        if Electra.is_compounding_withdrawal_credential w &&
            has_eth1_withdrawal_credential v then
          Electra.switch_to_compounding_validator E i
        else return () : M Unit) := by
      walk keyPre [key_upd, (key_same switch_same)]
    exact this s
  · rename_i h
    rw [wp_bind, wp_liftM]
    exact ⟨fun _ _ => add_validator_key (unknown_key h), fun _ _ => keyPre.refl s⟩

theorem apply_deposit_key {E : Env} {f : Fork} {k : PublicKey} {w : Bytes32} {n : Nat}
    {sig : Signature} : Pres KeyStep (apply_deposit E f k w n sig) := by
  cases f <;> first | exact electra_apply_deposit_key | exact phase0_apply_deposit_key

theorem deposit_key {E : Env} {f : Fork} {d : Deposit} : Pres KeyStep (process_deposit E f d) := by
  unfold process_deposit
  walk keyPre [apply_deposit_key, key_upd]

theorem receipt_key {E : Env} {r : DepositReceipt} :
    Pres KeyStep (Electra.process_deposit_receipt E r) := by
  unfold Electra.process_deposit_receipt
  walk keyPre [electra_apply_deposit_key, key_upd]

theorem proposer_slashing_same {E : Env} {f : Fork} {op : ProposerSlashing} :
    Pres SameKeys (process_proposer_slashing E f op) := by
  unfold process_proposer_slashing; walk samePre [slash_same]

theorem attester_slashing_same {E : Env} {f : Fork} {op : AttesterSlashing} :
    Pres SameKeys (process_attester_slashing E f op) := by
  unfold process_attester_slashing; walk samePre [slash_all_same]

theorem voluntary_exit_same {E : Env} {f : Fork} {op : SignedVoluntaryExit} :
    Pres SameKeys (process_voluntary_exit E f op) := by
  unfold process_voluntary_exit; walk samePre [exit_same]

theorem bls_change_same {E : Env} {op : SignedBlsToExecutionChange} :
    Pres SameKeys (process_bls_to_execution_change E op) := by
  unfold process_bls_to_execution_change
  walk samePre [sameKeys_updValidator]

theorem withdrawal_request_same {E : Env} {r : ExecutionLayerWithdrawalRequest} :
    Pres SameKeys (Electra.process_execution_layer_withdrawal_request E r) := by
  unfold Electra.process_execution_layer_withdrawal_request
  walk samePre [electra_exit_same, sameKeys_mod exit_churn_mod (by decide), sameKeys_upd]

theorem consolidation_same {E : Env} {op : SignedConsolidation} :
    Pres SameKeys (Electra.process_consolidation E op) := by
  unfold Electra.process_consolidation
  walk samePre [sameKeys_mod consolidation_churn_mod (by decide), sameKeys_updValidator, sameKeys_upd]

theorem operations_key {E : Env} {f : Fork} {b : BeaconBlockBody} :
    Pres KeyStep (process_operations E f b) := by
  unfold process_operations
  walk keyPre [(key_same proposer_slashing_same), (key_same attester_slashing_same), key_mod attestation_mod (by decide),
    deposit_key, (key_same voluntary_exit_same), (key_same bls_change_same), (key_same withdrawal_request_same), receipt_key,
    (key_same consolidation_same)]

theorem block_key {E : Env} {f : Fork} {b : BeaconBlock} : Pres KeyStep (process_block E f b) := by
  unfold process_block
  walk keyPre [key_mod header_mod (by decide), key_mod block_payload_mod (by decide),
    key_mod randao_mod (by decide), key_mod eth1_mod (by decide), operations_key,
    key_mod sync_aggregate_mod (by decide)]

theorem registry_same {E : Env} {f : Fork} : Pres SameKeys (process_registry_updates E f) := by
  unfold process_registry_updates mark_eligible eject_if_low
  walk samePre [exit_same, sameKeys_updValidator]

theorem pending_consolidations_loop_same {E : Env} {a : Nat} {l : List PendingConsolidation} :
    Pres SameKeys (Electra.pending_consolidations_loop E l a) := by
  induction l generalizing a with
  | nil => unfold Electra.pending_consolidations_loop; walk samePre
  | cons d l ih =>
    unfold Electra.pending_consolidations_loop
    walk samePre [ih, sameKeys_mod increase_mod (by decide), sameKeys_mod decrease_mod (by decide), switch_same]

theorem pending_consolidations_same {E : Env} :
    Pres SameKeys (Electra.process_pending_consolidations E) := by
  unfold Electra.process_pending_consolidations
  walk samePre [pending_consolidations_loop_same, sameKeys_upd]

theorem effective_same {E : Env} {f : Fork} :
    Pres SameKeys (process_effective_balance_updates E f) := by
  unfold process_effective_balance_updates
  walk samePre [sameKeys_updValidator]

theorem epoch_same {E : Env} {f : Fork} : Pres SameKeys (process_epoch E f) := by
  have h : Pres SameKeys (process_epoch_first E f) := by
    unfold process_epoch_first
    walk samePre [sameKeys_mod justification_mod (by decide), sameKeys_mod inactivity_mod (by decide),
      sameKeys_mod rewards_mod (by decide), registry_same, sameKeys_mod slashings_mod (by decide),
      sameKeys_mod eth1_reset_mod (by decide), sameKeys_mod pending_deposits_mod (by decide),
      pending_consolidations_same]
  unfold process_epoch
  walk samePre [h, effective_same, sameKeys_mod slashings_reset_mod (by decide),
    sameKeys_mod randao_reset_mod (by decide), sameKeys_mod historical_mod (by decide),
    sameKeys_mod record_updates_mod (by decide), sameKeys_mod flag_updates_mod (by decide),
    sameKeys_mod sync_committees_mod (by decide)]

theorem slots_same {E : Env} {f : Fork} {t : Nat} : Pres SameKeys (process_slots E f t) := by
  have h1 : Pres SameKeys (slot_step E f) := by
    unfold slot_step process_epoch_if_due
    walk samePre [sameKeys_mod slot_mod (by decide), epoch_same, sameKeys_upd]
  have h2 : ∀ n, Pres SameKeys (slots_loop E f t n) := by
    intro n
    induction n with
    | zero => unfold slots_loop; walk samePre
    | succ n ih => unfold slots_loop; walk samePre [h1, ih]
  unfold process_slots; walk samePre [h2]

theorem block_in_slot_key {E : Env} {f : Fork} {b : SignedBeaconBlock} {v : Validation} :
    Pres KeyStep (state_transition_block_in_slot E f b v) := by
  unfold state_transition_block_in_slot
  walk keyPre [key_mod signature_if_mod (by decide), block_key]

theorem entry_key {E : Env} {f : Fork} {m : M Unit} (h : EntryPoint E f m) : Pres KeyStep m := by
  cases h with
  | process_slots => exact (key_same slots_same)
  | state_transition =>
    unfold state_transition; walk keyPre [(key_same slots_same), block_in_slot_key]
  | state_transition_block_in_slot => exact block_in_slot_key
  | process_slot => exact key_mod slot_mod (by decide)
  | process_epoch => exact (key_same epoch_same)
  | process_block => exact block_key
  | process_block_header => exact key_mod header_mod (by decide)
  | process_randao => exact key_mod randao_mod (by decide)
  | process_eth1_data => exact key_mod eth1_mod (by decide)
  | process_operations => exact operations_key
  | process_execution_payload => exact key_mod payload_mod (by decide)
  | process_withdrawals => exact key_mod withdrawals_mod (by decide)
  | process_sync_aggregate => exact key_mod sync_aggregate_mod (by decide)
  | process_proposer_slashing => exact (key_same proposer_slashing_same)
  | process_attester_slashing => exact (key_same attester_slashing_same)
  | process_attestation => exact key_mod attestation_mod (by decide)
  | process_deposit => exact deposit_key
  | process_voluntary_exit => exact (key_same voluntary_exit_same)
  | process_bls_to_execution_change => exact (key_same bls_change_same)
  | process_execution_layer_withdrawal_request => exact (key_same withdrawal_request_same)
  | process_deposit_receipt => exact receipt_key
  | process_consolidation => exact (key_same consolidation_same)
  | initiate_validator_exit => exact (key_same exit_same)
  | slash_validator => exact (key_same slash_same)
  | increase_balance => exact key_mod increase_mod (by decide)
  | decrease_balance => exact key_mod decrease_mod (by decide)

theorem history_key {E : Env} {f : Fork} {s s' : State} (h : History E f s s') : KeyStep s s' :=
  history_pres keyPre (fun _ => entry_key) h

theorem genesis_deposits_key {E : Env} {f : Fork} {l : List DepositData} {ds : List Deposit} :
    Pres KeyStep (genesis_deposits E f l ds) := by
  induction ds generalizing l with
  | nil => unfold genesis_deposits; walk keyPre
  | cons d ds ih => unfold genesis_deposits; walk keyPre [deposit_key, ih, key_upd]

theorem genesis_key {E : Env} {f : Fork} {h : Bytes32} {t : Nat} {ds : List Deposit}
    {p : Option ExecutionPayloadHeader} {s : State}
    (hs : initialize_beacon_state_from_eth1 E f h t ds p = .ok s) : DistinctKeys s := by
  have hf : Pres KeyStep (genesis_fill E f ds) := by
    unfold genesis_fill genesis_pending_deposits genesis_activate genesis_sync_committees
    walk keyPre [genesis_deposits_key, key_mod increase_mod (by decide), key_upd, (key_same (sameKeys_updValidator fun _ => by split <;> rfl))]
  unfold initialize_beacon_state_from_eth1 genesis_candidate at hs
  simp only [run] at hs
  obtain ⟨_, ⟨gt, _, rfl⟩, hs⟩ := hs
  rw [runLocal_eq_ok] at hs
  exact (hf.ok hs).2 List.nodup_nil

theorem init_queues_same {E : Env} : Pres SameKeys (electra_init_queues E) := by
  unfold electra_init_queues Electra.queue_entire_balance_and_reset_validator
  walk samePre [sameKeys_mod queue_excess_mod (by decide), sameKeys_updValidator, sameKeys_upd]

theorem upgrade_key {E : Env} {g : Fork} {s s' : State} (h : upgrade_to E g s = .ok s') :
    s'.validators.map (·.public_key) = s.validators.map (·.public_key) := by
  cases g <;> unfold upgrade_to at h <;> dsimp only at h
  case Phase0 => cases h
  case Altair =>
    unfold upgrade_to_altair at h
    simp only [run, runLocal_eq_ok] at h
    obtain ⟨e, _, post, hpost, c, _, rfl⟩ := h
    have hv : post.validators = s.validators := (translate_mod.ok hpost) .validators (by decide)
    show post.validators.map _ = _
    rw [hv]
  case Electra =>
    unfold upgrade_to_electra at h
    simp only [run, runLocal_eq_ok] at h
    obtain ⟨e, _, x, _, y, _, h⟩ := h
    have := init_queues_same.ok h
    exact this
  all_goals
    first
      | unfold upgrade_to_bellatrix at h
      | unfold upgrade_to_capella at h
      | unfold upgrade_to_deneb at h
    simp only [run] at h
    obtain ⟨e, _, rfl⟩ := h
    rfl

theorem reachable_key {E : Env} {f : Fork} {s : State} (h : Reachable E f s) :
    DistinctKeys s := by
  induction h with
  | genesis h => exact genesis_key h
  | call _ hm ih => exact ((entry_key hm).final _).2 ih
  | upgrade _ _ h ih => unfold DistinctKeys; rw [upgrade_key h]; exact ih

/-! ## Members of the sync committees -/

/-- Whoever was known stays known, and so do the members of the committees. -/
def Sit (s s' : State) : Prop := KeyStep s s' ∧ (MembersKnown s → MembersKnown s')

theorem sitPre : Preorder' Sit :=
  ⟨fun s => ⟨keyPre.refl s, id⟩,
    fun h h' => ⟨keyPre.trans h.1 h'.1, fun x => h'.2 (h.2 x)⟩⟩

theorem known_mono {s s' : State} (h : KeyStep s s') {k : PublicKey}
    (hk : ∃ v ∈ s.validators, v.public_key = k) : ∃ v ∈ s'.validators, v.public_key = k := by
  have : k ∈ s.validators.map (·.public_key) := List.mem_map.2 hk
  exact List.mem_map.1 (h.1.subset this)

theorem sit_of {α : Type} {W : List Field} {m : M α} (hk : Pres KeyStep m) (hm : Modifies W m)
    (hW : ∀ x ∈ [Field.current_sync_committee, .next_sync_committee], x ∉ W) : Pres Sit m := by
  intro s
  have key : ∀ t, KeyStep s t → ChangesOnly W s t → Sit s t := by
    intro t h1 h2
    refine ⟨h1, fun h => ?_⟩
    have e1 : t.current_sync_committee = s.current_sync_committee :=
      h2 .current_sync_committee (hW _ (by decide))
    have e2 : t.next_sync_committee = s.next_sync_committee :=
      h2 .next_sync_committee (hW _ (by decide))
    unfold MembersKnown
    rw [e1, e2]
    exact fun k hk => known_mono h1 (h k hk)
  exact wp_mono (wp_and (hk s) (hm s)) (fun _ t h => key t h.1 h.2) fun _ t h => key t h.1 h.2

theorem sit_mod {α : Type} {W : List Field} {m : M α} (h : Modifies W m)
    (hW : ∀ x ∈ [Field.validators, .current_sync_committee, .next_sync_committee], x ∉ W) :
    Pres Sit m :=
  sit_of (key_mod h (hW _ (by decide))) h fun x hx => hW x (List.mem_cons_of_mem _ hx)

theorem mapM_known {s : State} {l : List Nat} {ks : List PublicKey}
    (h : (l.mapM fun i => do
      let v ← idx s.validators i
      return v.public_key : R (List PublicKey)) = .ok ks) :
    ∀ k ∈ ks, ∃ v ∈ s.validators, v.public_key = k := by
  induction l generalizing ks with
  | nil =>
    rw [List.mapM_nil] at h
    cases h
    intro k hk; cases hk
  | cons i l ih =>
    rw [List.mapM_cons] at h
    simp only [run] at h
    obtain ⟨k, ⟨v, hv, rfl⟩, ks', h1, rfl⟩ := h
    intro k hk
    rcases List.mem_cons.1 hk with rfl | hk
    · exact ⟨v, List.mem_of_getElem? hv, rfl⟩
    · exact ih h1 k hk

theorem next_committee_known {E : Env} {s : State} {c : SyncCommittee}
    (h : get_next_sync_committee E s = .ok c) :
    ∀ k ∈ c.public_keys, ∃ v ∈ s.validators, v.public_key = k := by
  simp only [get_next_sync_committee, run] at h
  obtain ⟨l, hl, ks, hks, hne, h⟩ := h
  split at h
  · cases h; exact mapM_known hks
  · cases h

theorem sync_committees_sit {E : Env} : Pres Sit (process_sync_committee_updates E) := by
  intro s
  unfold process_sync_committee_updates
  rw [wp_bind, wp_get, wp_bind, wp_liftM]
  refine ⟨fun e _ => ?_, fun _ _ => sitPre.refl s⟩
  rw [wp_bind, wp_liftM]
  refine ⟨fun n _ => ?_, fun _ _ => sitPre.refl s⟩
  rw [wp_bind, wp_liftM]
  refine ⟨fun r _ => ?_, fun _ _ => sitPre.refl s⟩
  rw [wp_ite]
  refine ⟨fun _ => ?_, fun _ => sitPre.refl s⟩
  rw [wp_bind, wp_liftM]
  refine ⟨fun c hc => ?_, fun _ _ => sitPre.refl s⟩
  refine ⟨key_of_same rfl, fun h k hk => ?_⟩
  rcases List.mem_append.1 hk with hk | hk
  · exact h k (List.mem_append_right _ hk)
  · exact next_committee_known hc k hk

theorem epoch_sit {E : Env} {f : Fork} : Pres Sit (process_epoch E f) := by
  unfold process_epoch process_epoch_first
  walk sitPre [sit_mod justification_mod (by decide), sit_mod inactivity_mod (by decide),
      sit_mod rewards_mod (by decide), sit_of (key_same registry_same) registry_mod (by decide),
      sit_mod slashings_mod (by decide),
      sit_mod eth1_reset_mod (by decide), sit_mod pending_deposits_mod (by decide),
      sit_of (key_same pending_consolidations_same) pending_consolidations_mod (by decide),
      sit_of (key_same effective_same) effective_mod (by decide), sit_mod slashings_reset_mod (by decide),
      sit_mod randao_reset_mod (by decide), sit_mod historical_mod (by decide),
      sit_mod record_updates_mod (by decide), sit_mod flag_updates_mod (by decide),
      sync_committees_sit]

theorem slots_sit {E : Env} {f : Fork} {t : Nat} : Pres Sit (process_slots E f t) := by
  have h0 : ∀ g : State → State, (∀ s, (g s).validators = s.validators) →
      (∀ s, (g s).current_sync_committee = s.current_sync_committee) →
      (∀ s, (g s).next_sync_committee = s.next_sync_committee) → Pres Sit (upd g) :=
    fun g h1 h2 h3 => Pres.upd fun s => ⟨key_of_same (by rw [h1 s]), fun h => by
      unfold MembersKnown; rw [h1, h2, h3]; exact h⟩
  have h1 : Pres Sit (slot_step E f) := by
    unfold slot_step process_epoch_if_due
    walk sitPre [sit_mod slot_mod (by decide), epoch_sit, h0]
  have h2 : ∀ n, Pres Sit (slots_loop E f t n) := by
    intro n
    induction n with
    | zero => unfold slots_loop; walk sitPre
    | succ n ih => unfold slots_loop; walk sitPre [h1, ih]
  unfold process_slots; walk sitPre [h2]

theorem block_in_slot_sit {E : Env} {f : Fork} {b : SignedBeaconBlock} {v : Validation} :
    Pres Sit (state_transition_block_in_slot E f b v) :=
  sit_of block_in_slot_key block_in_slot_mod (by decide)

theorem entry_sit {E : Env} {f : Fork} {m : M Unit} (h : EntryPoint E f m) : Pres Sit m := by
  have k := entry_key h
  cases h with
  | process_slots => exact slots_sit
  | state_transition =>
    unfold state_transition; walk sitPre [slots_sit, block_in_slot_sit]
  | process_epoch => exact epoch_sit
  | state_transition_block_in_slot => exact block_in_slot_sit
  | process_slot => exact sit_of k slot_mod (by decide)
  | process_block => exact sit_of k block_mod (by decide)
  | process_block_header => exact sit_of k header_mod (by decide)
  | process_randao => exact sit_of k randao_mod (by decide)
  | process_eth1_data => exact sit_of k eth1_mod (by decide)
  | process_operations => exact sit_of k operations_mod (by decide)
  | process_execution_payload => exact sit_of k payload_mod (by decide)
  | process_withdrawals => exact sit_of k withdrawals_mod (by decide)
  | process_sync_aggregate => exact sit_of k sync_aggregate_mod (by decide)
  | process_proposer_slashing => exact sit_of k proposer_slashing_mod (by decide)
  | process_attester_slashing => exact sit_of k attester_slashing_mod (by decide)
  | process_attestation => exact sit_of k attestation_mod (by decide)
  | process_deposit => exact sit_of k deposit_mod (by decide)
  | process_voluntary_exit => exact sit_of k voluntary_exit_mod (by decide)
  | process_bls_to_execution_change => exact sit_of k bls_change_mod (by decide)
  | process_execution_layer_withdrawal_request => exact sit_of k withdrawal_request_mod (by decide)
  | process_deposit_receipt => exact sit_of k deposit_receipt_mod (by decide)
  | process_consolidation => exact sit_of k consolidation_mod (by decide)
  | initiate_validator_exit => exact sit_of k exit_mod (by decide)
  | slash_validator => exact sit_of k slash_mod (by decide)
  | increase_balance => exact sit_of k increase_mod (by decide)
  | decrease_balance => exact sit_of k decrease_mod (by decide)

theorem genesis_sit {E : Env} {f : Fork} (hf : f ≠ .Phase0) {h : Bytes32} {t : Nat}
    {ds : List Deposit} {p : Option ExecutionPayloadHeader} {s : State}
    (hs : initialize_beacon_state_from_eth1 E f h t ds p = .ok s) : MembersKnown s := by
  unfold initialize_beacon_state_from_eth1 genesis_fill at hs
  simp only [run] at hs
  obtain ⟨c, -, hs⟩ := hs
  rw [runLocal_eq_ok] at hs
  simp only [run, M_bind_unit_eq_ok] at hs
  obtain ⟨s1, -, s2, -, s3, -, hs⟩ := hs
  have : ∃ t c, get_next_sync_committee E t = .ok c ∧
      s = { t with
        current_sync_committee := c
        next_sync_committee := c } := by
    unfold genesis_sync_committees at hs
    cases f <;> first | exact absurd rfl hf | skip
    all_goals
      simp only [run] at hs
      obtain ⟨t, -, c, hc, hs⟩ := hs
      exact ⟨t, c, hc, hs.symm⟩
  obtain ⟨t, c, hc, rfl⟩ := this
  intro k hk
  rcases List.mem_append.1 hk with hk | hk <;> exact next_committee_known hc k hk

theorem upgrade_sit {E : Env} {f g : Fork} {s s' : State} (hg : g.ord = f.ord + 1)
    (hs : f ≠ .Phase0 → MembersKnown s) (h : upgrade_to E g s = .ok s') : MembersKnown s' := by
  have hk := upgrade_key h
  have keep : f ≠ .Phase0 → s'.current_sync_committee = s.current_sync_committee →
      s'.next_sync_committee = s.next_sync_committee → MembersKnown s' := by
    intro hf h1 h2 k hm
    rw [h1, h2] at hm
    obtain ⟨v, hv, he⟩ := hs hf k hm
    have : k ∈ s'.validators.map (·.public_key) := by
      rw [hk]; exact List.mem_map.2 ⟨v, hv, he⟩
    exact List.mem_map.1 this
  cases g <;> unfold upgrade_to at h <;> dsimp only at h
  case Phase0 => cases h
  case Altair =>
    unfold upgrade_to_altair at h
    simp only [run, runLocal_eq_ok] at h
    obtain ⟨e, _, post, hpost, c, hc, rfl⟩ := h
    intro k hk
    rcases List.mem_append.1 hk with hk | hk <;> exact next_committee_known hc k hk
  case Electra =>
    have hf : f ≠ .Phase0 := by intro hf; subst hf; cases hg
    unfold upgrade_to_electra at h
    simp only [run, runLocal_eq_ok] at h
    obtain ⟨e, _, x, _, y, _, h⟩ := h
    have hm : Modifies [.validators, .balances, .pending_balance_deposits,
        .exit_balance_to_consume, .consolidation_balance_to_consume]
        (electra_init_queues E) := by
      unfold electra_init_queues Electra.queue_entire_balance_and_reset_validator
      mods [queue_excess_mod]
    exact keep hf ((hm.ok h) .current_sync_committee (by decide))
      ((hm.ok h) .next_sync_committee (by decide))
  all_goals
    have hf : f ≠ .Phase0 := by intro hf; subst hf; cases hg
    first
      | unfold upgrade_to_bellatrix at h
      | unfold upgrade_to_capella at h
      | unfold upgrade_to_deneb at h
    simp only [run] at h
    obtain ⟨e, _, rfl⟩ := h
    exact keep hf rfl rfl

theorem reachable_sit {E : Env} {f : Fork} {s : State} (h : Reachable E f s) (hf : f ≠ .Phase0) :
    MembersKnown s := by
  induction h with
  | genesis h => exact genesis_sit hf h
  | call _ hm ih => exact ((entry_sit hm).final _).2 (ih hf)
  | upgrade _ hg h ih => exact upgrade_sit hg ih h

/-! ## From any state on -/

theorem onward_key {E : Env} {f g : Fork} {s s' : State} (h : Onwards E f s g s') :
    KeyStep s s' := by
  induction h with
  | start => exact keyPre.refl s
  | call _ hm ih => exact keyPre.trans ih ((entry_key hm).final _)
  | upgrade _ _ h ih => exact keyPre.trans ih (key_of_same (upgrade_key h))

end Verif
