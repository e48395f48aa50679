import Verif.Proofs.Ancestry
import Verif.Proofs.Lock
import Verif.Spec.Duties

/-! # What marks an operation as done, in all futures -/

namespace Verif

open Spec

/-! ## Marks of validators -/

/-- What is known of a validator that was slashed, is leaving, or withdraws to an address -/
def Marked (s s' : State) : Prop :=
  ∀ (i : Nat) v, s.validators[i]? = some v → ∃ w, s'.validators[i]? = some w ∧
    w.public_key = v.public_key ∧ (v.slashed = true → w.slashed = true) ∧
    (v.exit_epoch ≠ FAR_FUTURE_EPOCH → w.exit_epoch = v.exit_epoch) ∧
    (v.withdrawal_credentials[0] ≠ 0 → w.withdrawal_credentials[0] ≠ 0)

theorem marked_refl (s : State) : Marked s s :=
  fun _ v h => ⟨v, h, rfl, id, fun _ => rfl, id⟩

theorem marked_trans {s t u : State} (h : Marked s t) (h' : Marked t u) : Marked s u := by
  intro i v hv
  obtain ⟨w, hw, a1, a2, a3, a4⟩ := h i v hv
  obtain ⟨x, hx, b1, b2, b3, b4⟩ := h' i w hw
  refine ⟨x, hx, b1.trans a1, fun k => b2 (a2 k), fun k => ?_, fun k => b4 (a4 k)⟩
  have := a3 k
  rw [b3 (by rw [this]; exact k), this]

theorem reg_marked {s s' : State} (h : Reg s s') : Marked s s' := by
  intro i v hv
  obtain ⟨w, hw, h1⟩ := h.1 i v hv
  exact ⟨w, hw, h1.key, h1.slashed, h1.exit, fun k => (h1.credentials k).1⟩

theorem upgrade_marked {E : Env} {g : Fork} {s s' : State} (h : upgrade_to E g s = .ok s') :
    Marked s s' := by
  by_cases hg : g = .Electra
  · subst hg
    obtain ⟨h1, -, -, -⟩ := into_electra h
    intro i v hv
    refine ⟨resetValidator v, by rw [h1.validators, List.getElem?_map, hv]; rfl, ?_⟩
    unfold resetValidator
    split <;> exact ⟨rfl, id, fun _ => rfl, id⟩
  · intro i v hv
    exact ⟨v, by rw [upgrade_registry hg h]; exact hv, rfl, id, fun _ => rfl, id⟩

/-! ## Marks of the chain -/

/-- The latest header and the deposit index do not go back. -/
def Ahead (s s' : State) : Prop :=
  s.latest_block_header.slot ≤ s'.latest_block_header.slot ∧
  s.eth1_deposit_index ≤ s'.eth1_deposit_index

theorem aheadPre : Preorder' Ahead :=
  ⟨fun _ => ⟨Nat.le_refl _, Nat.le_refl _⟩, fun h h' =>
    ⟨Nat.le_trans h.1 h'.1, Nat.le_trans h.2 h'.2⟩⟩

theorem ahead_mod {α : Type} {W : List Field} {m : M α} (h : Modifies W m)
    (hW : ∀ x ∈ [Field.latest_block_header, .eth1_deposit_index], x ∉ W) : Pres Ahead m :=
  Pres.mono h fun s s' h => by
    have h1 : s'.latest_block_header = s.latest_block_header := h _ (hW .latest_block_header (by decide))
    have h2 : s'.eth1_deposit_index = s.eth1_deposit_index := h _ (hW .eth1_deposit_index (by decide))
    exact ⟨by rw [h1], by rw [h2]⟩

theorem header_ahead {E : Env} {f : Fork} {b : BeaconBlock} :
    Pres Ahead (process_block_header E f b) := by
  have h1 : Pres (fun s s' => s.latest_block_header.slot ≤ s'.latest_block_header.slot)
      (process_block_header E f b) :=
    Pres.mono header_headerStep fun s s' h => by
      rcases h.2 with h | ⟨h1, h2, -⟩
      · rw [h]
      · omega
  intro s
  have a := h1 s
  have c := header_mod (E := E) (f := f) (b := b) s
  unfold wp at a c ⊢
  cases hp : process_block_header E f b s <;> rw [hp] at a c <;>
    exact ⟨a, Nat.le_of_eq (c .eth1_deposit_index (by decide)).symm⟩

theorem deposit_ahead {E : Env} {f : Fork} {d : Deposit} : Pres Ahead (process_deposit E f d) := by
  unfold process_deposit
  intro s
  have r0 := aheadPre.refl s
  simp only [wps, add_eq_ok]
  refine ⟨fun _ _ => ⟨?_, fun _ _ => r0⟩, fun _ _ => r0⟩
  rintro _ ⟨rfl, _⟩
  have h : Ahead s { s with eth1_deposit_index := s.eth1_deposit_index + 1 } :=
    ⟨Nat.le_refl _, Nat.le_succ _⟩
  exact wp_mono (ahead_mod apply_deposit_mod (by decide) _) (fun _ _ => aheadPre.trans h)
    fun _ _ => aheadPre.trans h

theorem operations_ahead {E : Env} {f : Fork} {b : BeaconBlockBody} :
    Pres Ahead (process_operations E f b) := by
  unfold process_operations
  walk aheadPre [ahead_mod proposer_slashing_mod (by decide),
    ahead_mod attester_slashing_mod (by decide), ahead_mod attestation_mod (by decide),
    deposit_ahead, ahead_mod voluntary_exit_mod (by decide), ahead_mod bls_change_mod (by decide),
    ahead_mod withdrawal_request_mod (by decide), ahead_mod deposit_receipt_mod (by decide),
    ahead_mod consolidation_mod (by decide)]

theorem block_ahead {E : Env} {f : Fork} {b : BeaconBlock} : Pres Ahead (process_block E f b) := by
  unfold process_block
  walk aheadPre [header_ahead, ahead_mod block_payload_mod (by decide),
    ahead_mod randao_mod (by decide), ahead_mod eth1_mod (by decide), operations_ahead,
    ahead_mod sync_aggregate_mod (by decide)]

theorem slot_ahead {E : Env} {f : Fork} : Pres Ahead (process_slot E f) := by
  unfold process_slot
  walk aheadPre
  all_goals
    apply Pres.upd
    intro s
    refine ⟨Nat.le_of_eq ?_, Nat.le_refl _⟩
    first
      | rfl
      | (dsimp only; split <;> rfl)

theorem slots_ahead {E : Env} {f : Fork} {t : Nat} : Pres Ahead (process_slots E f t) :=
  slots_pres aheadPre <| slot_step_pres aheadPre slot_ahead (ahead_mod epoch_mod (by decide))
    fun _ => ⟨Nat.le_refl _, Nat.le_refl _⟩

theorem entry_ahead {E : Env} {f : Fork} {m : M Unit} (h : EntryPoint E f m) : Pres Ahead m := by
  cases h with
  | process_slots => exact slots_ahead
  | state_transition => exact (transition_pres aheadPre slots_ahead block_ahead).2
  | state_transition_block_in_slot => exact (transition_pres aheadPre slots_ahead block_ahead).1
  | process_slot => exact slot_ahead
  | process_epoch => exact ahead_mod epoch_mod (by decide)
  | process_block => exact block_ahead
  | process_block_header => exact header_ahead
  | process_randao => exact ahead_mod randao_mod (by decide)
  | process_eth1_data => exact ahead_mod eth1_mod (by decide)
  | process_operations => exact operations_ahead
  | process_execution_payload => exact ahead_mod payload_mod (by decide)
  | process_withdrawals => exact ahead_mod withdrawals_mod (by decide)
  | process_sync_aggregate => exact ahead_mod sync_aggregate_mod (by decide)
  | process_proposer_slashing => exact ahead_mod proposer_slashing_mod (by decide)
  | process_attester_slashing => exact ahead_mod attester_slashing_mod (by decide)
  | process_attestation => exact ahead_mod attestation_mod (by decide)
  | process_deposit => exact deposit_ahead
  | process_voluntary_exit => exact ahead_mod voluntary_exit_mod (by decide)
  | process_bls_to_execution_change => exact ahead_mod bls_change_mod (by decide)
  | process_execution_layer_withdrawal_request => exact ahead_mod withdrawal_request_mod (by decide)
  | process_deposit_receipt => exact ahead_mod deposit_receipt_mod (by decide)
  | process_consolidation => exact ahead_mod consolidation_mod (by decide)
  | initiate_validator_exit => exact ahead_mod exit_mod (by decide)
  | slash_validator => exact ahead_mod slash_mod (by decide)
  | increase_balance => exact ahead_mod increase_mod (by decide)
  | decrease_balance => exact ahead_mod decrease_mod (by decide)

theorem upgrade_ahead {E : Env} {g : Fork} {s s' : State} (h : upgrade_to E g s = .ok s') :
    Ahead s s' := by
  refine ⟨Nat.le_of_eq (by rw [(upgrade_common h).2.1]), Nat.le_of_eq (Eq.symm ?_)⟩
  cases g with
  | Phase0 => cases h
  | Altair => exact (altair_carried h).1 .eth1_deposit_index (by decide)
  | Bellatrix => exact (into_bellatrix h).2.2 .eth1_deposit_index (by decide)
  | Capella => exact (into_capella h).2.2 .eth1_deposit_index (by decide)
  | Deneb => exact (into_deneb h).2.2 .eth1_deposit_index (by decide)
  | Electra => exact (into_electra h).2.2.1 .eth1_deposit_index (by decide)

theorem future_marks {E : Env} (hE : SaneConfig E) {f f' : Fork} {s s' : State}
    (h : Future E f s f' s') : Marked s s' ∧ Ahead s s' := by
  induction h with
  | start => exact ⟨marked_refl _, aheadPre.refl _⟩
  | call _ hm ih =>
    exact ⟨marked_trans ih.1 (reg_marked ((entry_reg hE hm).final _)),
      aheadPre.trans ih.2 ((entry_ahead hm).final _)⟩
  | upgrade _ _ h ih =>
    exact ⟨marked_trans ih.1 (upgrade_marked h), aheadPre.trans ih.2 (upgrade_ahead h)⟩

/-- A history, and then a future -/
theorem history_future {E : Env} {f g : Fork} {s t u : State} (h : History E f s t)
    (h' : Future E f t g u) : Future E f s g u := by
  induction h' with
  | start =>
    induction h with
    | start => exact .start
    | call _ hm ih => exact .call ih hm
  | call _ hm ih => exact .call ih hm
  | upgrade _ ho h ih => exact .upgrade ih ho h

end Verif
