import Verif.Spec.Lock
import Verif.Proofs.Duties
import Verif.Proofs.Leaving

/-! # The stake of a validator stays locked after its exit -/

namespace Verif

open Spec

section Held

variable {E : Env} {f : Fork}

/-- Every stake stays locked. -/
def Held (E : Env) (s s' : State) : Prop :=
  (∀ v ∈ s.validators, Locked E v) → ∀ v ∈ s'.validators, Locked E v

theorem heldPre : Preorder' (Held E) := ⟨fun _ => id, fun h h' x => h' (h x)⟩

theorem held_same {s s' : State} (h : s'.validators = s.validators) : Held E s s' := by
  unfold Held
  rw [h]
  exact id

theorem held_mod {α : Type} {W : List Field} {m : M α} (h : Modifies W m)
    (hW : Field.validators ∉ W) : Pres (Held E) m :=
  Pres.mono h fun _ _ h => held_same (h .validators hW)

theorem held_upd {g : State → State} (h : ∀ s, (g s).validators = s.validators) :
    Pres (Held E) (upd g) := Pres.upd fun s => held_same (h s)

theorem held_set {s : State} {i : Nat} {v w : Validator} (hv : s.validators[i]? = some v)
    (h : Locked E v → Locked E w) : Held E s { s with validators := s.validators.set i w } := by
  intro hs u hu
  rcases List.mem_or_eq_of_mem_set hu with hu | rfl
  · exact hs u hu
  · exact h (hs v (List.mem_of_getElem? hv))

theorem held_updValidator {i : Nat} {g : Validator → Validator}
    (h : ∀ v, (g v).exit_epoch = v.exit_epoch)
    (h' : ∀ v, v.withdrawable_epoch ≤ (g v).withdrawable_epoch) :
    Pres (Held E) (updValidator i g) := by
  apply Pres.updValidator heldPre
  intro s v hv
  refine held_set hv fun hl => ?_
  have h1 := h v
  have h2 := h' v
  unfold Locked at *
  omega

theorem locked_leaves {v : Validator} (h : Locked E v) (hx : v.exit_epoch = FAR_FUTURE_EPOCH)
    (e : Nat) : Locked E { v with exit_epoch := e } := by
  unfold Locked at *
  dsimp only
  omega

/-- Writing an exit epoch and then the withdrawable epoch. -/
theorem held_exit_write {i epoch : Nat} {s t : State} {v : Validator}
    (hv : s.validators[i]? = some v) (hex : v.exit_epoch = FAR_FUTURE_EPOCH)
    (ht : t.validators = s.validators) :
    wp (do
        updValidator i fun v => { v with exit_epoch := epoch }
        let w ← U64.checkedAdd epoch E.min_validator_withdrawability_delay
        updValidator i fun v => { v with withdrawable_epoch := w })
      (fun _ s' => Held E s s') (fun _ s' => Held E s s') t := by
  have hi := (List.getElem?_eq_some_iff.1 hv).1
  simp only [wps]
  refine ⟨fun v1 hv1 => ?_, fun _ => held_same ht⟩
  rw [ht, hv] at hv1; cases hv1
  have h1 : Held E s { t with validators := t.validators.set i { v with exit_epoch := epoch } } := by
    have h : Held E s { s with validators := s.validators.set i { v with exit_epoch := epoch } } :=
      held_set hv fun h => locked_leaves h hex epoch
    rw [ht]; exact h
  refine ⟨fun w hw => ⟨fun v2 hv2 => ?_, fun _ => h1⟩, fun _ _ => h1⟩
  have hw := checkedAdd_eq_ok.1 hw
  rw [ht, List.getElem?_set_self hi] at hv2; cases hv2
  simp only [List.set_set, ht]
  exact held_set (s := s) (w := { v with exit_epoch := epoch, withdrawable_epoch := w }) hv
    fun _ => .inl (by show epoch + _ ≤ w; omega)

theorem exit_held {i : Nat} : Pres (Held E) (f.initiate_validator_exit E i) := by
  intro s
  unfold Fork.initiate_validator_exit
  split
  · unfold Electra.initiate_validator_exit
    rw [wp_bind, wp_get, wp_bind, wp_liftM]
    refine ⟨fun v hv => ?_, fun _ _ => heldPre.refl s⟩
    rw [idx_eq_ok] at hv
    rw [wp_ite]
    refine ⟨fun h => heldPre.refl s, fun h => ?_⟩
    rw [wp_bind]
    refine wp_mono (exit_churn_mod (E := E) s) (fun epoch t ht => ?_) (fun e t ht => ?_)
    · exact held_exit_write hv (Decidable.not_not.1 h) (ht .validators (by decide))
    · exact held_same (ht .validators (by decide))
  · unfold initiate_validator_exit
    rw [wp_bind, wp_get, wp_bind, wp_liftM]
    refine ⟨fun v hv => ?_, fun _ _ => heldPre.refl s⟩
    rw [idx_eq_ok] at hv
    rw [wp_ite]
    refine ⟨fun h => heldPre.refl s, fun h => ?_⟩
    rw [wp_bind, wp_liftM]
    refine ⟨fun epoch _ => ?_, fun _ _ => heldPre.refl s⟩
    exact held_exit_write hv (Decidable.not_not.1 h) rfl

theorem electra_exit_held {i : Nat} : Pres (Held E) (Electra.initiate_validator_exit E i) :=
  exit_held (f := .Electra)

theorem slash_held {i : Nat} {w : Option Nat} : Pres (Held E) (slash_validator E f i w) := by
  unfold slash_validator
  walk heldPre [exit_held,
    held_updValidator,
    held_mod increase_mod (by decide), held_mod decrease_mod (by decide), held_upd]
  all_goals first | exact Nat.le_refl _ | exact Nat.le_max_left _ _

theorem slash_all_held {e : Nat} {l : List Nat} {b : Bool} :
    Pres (Held E) (slash_all E f e l b) := by
  induction l generalizing b with
  | nil => unfold slash_all; walk heldPre
  | cons x l ih => unfold slash_all; walk heldPre [slash_held, ih]

theorem proposer_slashing_held {op : ProposerSlashing} :
    Pres (Held E) (process_proposer_slashing E f op) := by
  unfold process_proposer_slashing; walk heldPre [slash_held]

theorem attester_slashing_held {op : AttesterSlashing} :
    Pres (Held E) (process_attester_slashing E f op) := by
  unfold process_attester_slashing; walk heldPre [slash_all_held]

theorem add_validator_held {k : PublicKey} {w : Bytes32} {n : Nat} :
    Pres (Held E) (add_validator_to_registry E f k w n) := by
  intro s
  unfold add_validator_to_registry
  rw [wp_bind, wp_liftM]
  refine ⟨fun v hv => ?_, fun _ _ => heldPre.refl s⟩
  have e : Locked E v := by
    unfold get_validator_from_deposit at hv
    cases f <;> simp only [run] at hv <;> obtain ⟨_, _, rfl⟩ := hv <;>
      exact .inr (Nat.le_refl _)
  have key : ∀ s' : State, s'.validators = s.validators ++ [v] → Held E s s' := by
    intro s' h hs u hu
    rw [h, List.mem_append, List.mem_singleton] at hu
    rcases hu with hu | rfl
    · exact hs u hu
    · exact e
  cases f <;> exact key _ rfl

theorem switch_held {i : Nat} : Pres (Held E) (Electra.switch_to_compounding_validator E i) := by
  unfold Electra.switch_to_compounding_validator
  walk heldPre [held_mod queue_excess_mod (by decide),
    held_updValidator]

theorem electra_apply_deposit_held {k : PublicKey} {w : Bytes32} {n : Nat}
    {sig : Signature} : Pres (Held E) (Electra.apply_deposit E k w n sig) := by
  unfold Electra.apply_deposit
  walk heldPre [switch_held, add_validator_held, held_upd]

theorem apply_deposit_held {k : PublicKey} {w : Bytes32} {n : Nat} {sig : Signature} :
    Pres (Held E) (apply_deposit E f k w n sig) := by
  unfold apply_deposit Phase0.apply_deposit
  walk heldPre [electra_apply_deposit_held, held_mod increase_mod (by decide), add_validator_held]

theorem deposit_held {d : Deposit} : Pres (Held E) (process_deposit E f d) := by
  unfold process_deposit; walk heldPre [apply_deposit_held, held_upd]

theorem voluntary_exit_held {op : SignedVoluntaryExit} :
    Pres (Held E) (process_voluntary_exit E f op) := by
  unfold process_voluntary_exit; walk heldPre [exit_held]

theorem bls_change_held {op : SignedBlsToExecutionChange} :
    Pres (Held E) (process_bls_to_execution_change E op) := by
  unfold process_bls_to_execution_change
  walk heldPre [held_updValidator]

theorem withdrawal_request_held {r : ExecutionLayerWithdrawalRequest} :
    Pres (Held E) (Electra.process_execution_layer_withdrawal_request E r) := by
  unfold Electra.process_execution_layer_withdrawal_request
  walk heldPre [electra_exit_held, held_mod exit_churn_mod (by decide), held_upd]

theorem deposit_receipt_held {r : DepositReceipt} :
    Pres (Held E) (Electra.process_deposit_receipt E r) := by
  unfold Electra.process_deposit_receipt
  walk heldPre [electra_apply_deposit_held, held_upd]

theorem consolidation_held (hE : SaneConfig E) {op : SignedConsolidation} :
    Pres (Held E) (Electra.process_consolidation E op) := by
  intro s
  unfold Electra.process_consolidation
  rw [wp_bind, wp_get, wp_bind, wp_liftM]
  refine ⟨fun v hv => ?_, fun _ _ => heldPre.refl s⟩
  obtain ⟨hvi, hex⟩ : s.validators[op.message.source_index]? = some v ∧
      v.exit_epoch = FAR_FUTURE_EPOCH := by
    simp only [Electra.check_consolidation, run] at hv
    obtain ⟨_, _, _, _, _, w, hw, _, _, _, _, _, _, h, _, _, _, _, _, _, rfl⟩ := hv
    exact ⟨hw, Decidable.not_not.1 (of_decide_eq_false h)⟩
  rw [wp_bind]
  refine wp_mono (consolidation_churn_mod (E := E) s) (fun epoch t ht => ?_)
    (fun e t ht => held_same (ht .validators (by decide)))
  have ht := ht .validators (by decide)
  change t.validators = s.validators at ht
  rw [wp_bind, wp_updValidator]
  refine ⟨fun v' hv' => ?_, fun _ => held_same ht⟩
  rw [ht, hvi] at hv'; cases hv'
  have h1 : Held E s { t with
      validators := t.validators.set op.message.source_index { v with exit_epoch := epoch } } := by
    have := held_set (s := s) (w := { v with exit_epoch := epoch }) hvi fun h =>
      locked_leaves (E := E) h hex epoch
    rw [ht]; exact this
  rw [wp_bind, wp_liftM]
  refine ⟨fun w hw => ?_, fun _ _ => h1⟩
  have := hE.withdrawability_delay.1
  rw [add_eq_ok, hex] at hw
  unfold FAR_FUTURE_EPOCH U64_BOUND at hw
  omega

theorem operations_held (hE : SaneConfig E) {b : BeaconBlockBody} :
    Pres (Held E) (process_operations E f b) := by
  unfold process_operations
  walk heldPre [proposer_slashing_held, attester_slashing_held,
    held_mod attestation_mod (by decide), deposit_held, voluntary_exit_held, bls_change_held,
    withdrawal_request_held, deposit_receipt_held, consolidation_held hE]

theorem block_held (hE : SaneConfig E) {b : BeaconBlock} :
    Pres (Held E) (process_block E f b) := by
  unfold process_block
  walk heldPre [held_mod header_mod (by decide), held_mod block_payload_mod (by decide),
    held_mod randao_mod (by decide), held_mod eth1_mod (by decide), operations_held hE,
    held_mod sync_aggregate_mod (by decide)]

theorem registry_held : Pres (Held E) (process_registry_updates E f) := by
  unfold process_registry_updates mark_eligible eject_if_low
  walk heldPre [exit_held, held_updValidator]

theorem pending_consolidations_held : Pres (Held E) (Electra.process_pending_consolidations E) := by
  have h : ∀ l a, Pres (Held E) (Electra.pending_consolidations_loop E l a) := by
    intro l
    induction l with
    | nil => intro a; unfold Electra.pending_consolidations_loop; walk heldPre
    | cons d l ih =>
      intro a
      unfold Electra.pending_consolidations_loop
      walk heldPre [ih, held_mod increase_mod (by decide), held_mod decrease_mod (by decide),
        switch_held]
  unfold Electra.process_pending_consolidations
  walk heldPre [h, held_upd]

theorem effective_held : Pres (Held E) (process_effective_balance_updates E f) := by
  unfold process_effective_balance_updates
  walk heldPre [held_updValidator]

theorem epoch_held : Pres (Held E) (process_epoch E f) := by
  have h1 : Pres (Held E) (process_epoch_first E f) := by
    unfold process_epoch_first
    walk heldPre [held_mod justification_mod (by decide), held_mod inactivity_mod (by decide),
      held_mod rewards_mod (by decide), registry_held, held_mod slashings_mod (by decide),
      held_mod eth1_reset_mod (by decide), held_mod pending_deposits_mod (by decide),
      pending_consolidations_held]
  unfold process_epoch
  walk heldPre [h1, effective_held, held_mod slashings_reset_mod (by decide),
    held_mod randao_reset_mod (by decide), held_mod historical_mod (by decide),
    held_mod record_updates_mod (by decide), held_mod flag_updates_mod (by decide),
    held_mod sync_committees_mod (by decide)]

theorem slots_held {t : Nat} : Pres (Held E) (process_slots E f t) :=
  slots_pres heldPre <| slot_step_pres heldPre (held_mod slot_mod (by decide))
    epoch_held fun _ => held_same rfl

theorem entry_held (hE : SaneConfig E) {m : M Unit} (h : EntryPoint E f m) :
    Pres (Held E) m := by
  cases h with
  | process_slots => exact slots_held
  | state_transition => exact (transition_pres heldPre slots_held (block_held hE)).2
  | state_transition_block_in_slot => exact (transition_pres heldPre slots_held (block_held hE)).1
  | process_slot => exact held_mod slot_mod (by decide)
  | process_epoch => exact epoch_held
  | process_block => exact block_held hE
  | process_block_header => exact held_mod header_mod (by decide)
  | process_randao => exact held_mod randao_mod (by decide)
  | process_eth1_data => exact held_mod eth1_mod (by decide)
  | process_operations => exact operations_held hE
  | process_execution_payload => exact held_mod payload_mod (by decide)
  | process_withdrawals => exact held_mod withdrawals_mod (by decide)
  | process_sync_aggregate => exact held_mod sync_aggregate_mod (by decide)
  | process_proposer_slashing => exact proposer_slashing_held
  | process_attester_slashing => exact attester_slashing_held
  | process_attestation => exact held_mod attestation_mod (by decide)
  | process_deposit => exact deposit_held
  | process_voluntary_exit => exact voluntary_exit_held
  | process_bls_to_execution_change => exact bls_change_held
  | process_execution_layer_withdrawal_request => exact withdrawal_request_held
  | process_deposit_receipt => exact deposit_receipt_held
  | process_consolidation => exact consolidation_held hE
  | initiate_validator_exit => exact exit_held
  | slash_validator => exact slash_held
  | increase_balance => exact held_mod increase_mod (by decide)
  | decrease_balance => exact held_mod decrease_mod (by decide)

theorem genesis_held {h : Bytes32} {t : Nat} {ds : List Deposit}
    {p : Option ExecutionPayloadHeader} {s : State}
    (hs : initialize_beacon_state_from_eth1 E f h t ds p = .ok s) :
    ∀ v ∈ s.validators, Locked E v := by
  have hd : ∀ l, Pres (Held E) (genesis_deposits E f l ds) := by
    clear hs
    induction ds with
    | nil => intro l; unfold genesis_deposits; walk heldPre
    | cons d ds ih => intro l; unfold genesis_deposits; walk heldPre [deposit_held, ih, held_upd]
  have hg : Pres (Held E) (genesis_fill E f ds) := by
    unfold genesis_fill genesis_pending_deposits genesis_activate genesis_sync_committees
    walk heldPre [hd, held_mod increase_mod (by decide), held_upd,
      held_updValidator]
  unfold initialize_beacon_state_from_eth1 genesis_candidate at hs
  simp only [run] at hs
  obtain ⟨_, ⟨gt, _, rfl⟩, hs⟩ := hs
  rw [runLocal_eq_ok] at hs
  exact (hg.ok hs) (by intro v hv; cases hv)

theorem upgrade_held {g : Fork} {s s' : State} (h : upgrade_to E g s = .ok s') : Held E s s' := by
  by_cases hg : g = .Electra
  · subst hg
    obtain ⟨h1, -, -, -⟩ := into_electra h
    intro hs v hv
    rw [h1.validators, List.mem_map] at hv
    obtain ⟨u, hu, rfl⟩ := hv
    have := hs u hu
    unfold resetValidator
    split <;> exact this
  · exact held_same (upgrade_registry hg h)

theorem reachable_held (hE : SaneConfig E) {s : State} (h : Reachable E f s) : AllLocked E s := by
  induction h with
  | genesis h => exact genesis_held h
  | call _ hm ih => exact (entry_held hE hm).final _ ih
  | upgrade _ _ h ih => exact upgrade_held h ih

theorem future_held (hE : SaneConfig E) {f' : Fork} {s s' : State} (h : Future E f s f' s')
    (hs : AllLocked E s) : AllLocked E s' := by
  induction h with
  | start => exact hs
  | call _ hm ih => exact (entry_held hE hm).final _ ih
  | upgrade _ _ h ih => exact upgrade_held h ih

/-- Whoever is active once is so in the eyes of every later state, and its stake is locked for the
delay after that. -/
theorem still_locked (hE : SaneConfig E) {f' : Fork} {s s' : State} (hs : AllLocked E s)
    (h : Future E f s f' s') {i a : Nat} {v : Validator} (hv : s.validators[i]? = some v)
    (ha : ActiveAt v a) (hnow : a ≤ epochOf E s.slot) (hfar : a < FAR_FUTURE_EPOCH) :
    ∃ w, s'.validators[i]? = some w ∧ w.public_key = v.public_key ∧ ActiveAt w a ∧
      a ≤ epochOf E s'.slot ∧ (a + E.min_validator_withdrawability_delay < w.withdrawable_epoch ∨
        FAR_FUTURE_EPOCH ≤ w.withdrawable_epoch) := by
  obtain ⟨h1, h2, -⟩ := (future_duty h).1
  obtain ⟨w, hw, hfix⟩ := h2 i v hv
  have hact := (hfix.active (e := a) (by unfold decided; omega) hfar).2 ha
  refine ⟨w, hw, hfix.key, hact, Nat.le_trans hnow (epochOf_mono E h1), ?_⟩
  rcases future_held hE h hs w (List.mem_of_getElem? hw) with h3 | h3
  · left
    have := hact.2
    omega
  · exact .inr h3

end Held

end Verif
