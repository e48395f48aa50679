import Verif.Spec.Capacity
import Verif.Proofs.Pending
import Verif.Proofs.Rotation

/-! # The lists of the state stay within bounds -/

namespace Verif

open Spec

/-! ## Pending attestations of phase0 -/

/-- No more records than the blocks of the epoch so far had room for, and no more of both epochs
than those of two epochs. -/
def RecordsFit (E : Env) (A : Nat) (s : State) : Prop :=
  s.latest_block_header.slot ≤ s.slot ∧
  s.current_epoch_attestations.length ≤ A * (s.slot % E.slots_per_epoch +
    if s.latest_block_header.slot = s.slot then 1 else 0) ∧
  s.previous_epoch_attestations.length + s.current_epoch_attestations.length ≤
    A * E.slots_per_epoch + A * (s.slot % E.slots_per_epoch +
      if s.latest_block_header.slot = s.slot then 1 else 0)

/-- Fewer records, all else equal. -/
def FewerRecords (s s' : State) : Prop :=
  s'.latest_block_header.slot = s.latest_block_header.slot ∧ s'.slot = s.slot ∧
  s'.current_epoch_attestations.length ≤ s.current_epoch_attestations.length ∧
  s'.previous_epoch_attestations.length + s'.current_epoch_attestations.length ≤
    s.previous_epoch_attestations.length + s.current_epoch_attestations.length

theorem fewerRecordsPre : Preorder' FewerRecords :=
  ⟨fun _ => ⟨rfl, rfl, Nat.le_refl _, Nat.le_refl _⟩, fun h h' =>
    ⟨h'.1.trans h.1, h'.2.1.trans h.2.1, Nat.le_trans h'.2.2.1 h.2.2.1,
      Nat.le_trans h'.2.2.2 h.2.2.2⟩⟩

theorem fewerRecords_fit {E : Env} {A : Nat} {s s' : State} (h : FewerRecords s s')
    (hs : RecordsFit E A s) : RecordsFit E A s' := by
  unfold RecordsFit at *
  rw [h.1, h.2.1]
  exact ⟨hs.1, Nat.le_trans h.2.2.1 hs.2.1, Nat.le_trans h.2.2.2 hs.2.2⟩

theorem fewerRecords_mod {α : Type} {W : List Field} {m : M α} (h : Modifies W m)
    (hW : ∀ x ∈ [Field.latest_block_header, .slot, .current_epoch_attestations,
      .previous_epoch_attestations], x ∉ W) : Pres FewerRecords m :=
  Pres.mono h fun s s' h => by
    have h1 : s'.latest_block_header = s.latest_block_header :=
      h _ (hW .latest_block_header (by decide))
    have h2 : s'.slot = s.slot := h _ (hW .slot (by decide))
    have h3 : s'.current_epoch_attestations = s.current_epoch_attestations :=
      h _ (hW .current_epoch_attestations (by decide))
    have h4 : s'.previous_epoch_attestations = s.previous_epoch_attestations :=
      h _ (hW .previous_epoch_attestations (by decide))
    exact ⟨by rw [h1], h2, by rw [h3], by rw [h3, h4]⟩

theorem record_updates_fewer : Pres FewerRecords process_participation_record_updates := by
  unfold process_participation_record_updates
  apply Pres.upd
  intro s
  exact ⟨rfl, rfl, Nat.zero_le _, Nat.le_add_left _ _⟩

theorem epoch_fewerRecords {E : Env} {f : Fork} : Pres FewerRecords (process_epoch E f) := by
  unfold process_epoch process_epoch_first
  walk fewerRecordsPre [fewerRecords_mod justification_mod (by decide),
    fewerRecords_mod inactivity_mod (by decide),
    fewerRecords_mod rewards_mod (by decide), fewerRecords_mod registry_mod (by decide),
    fewerRecords_mod slashings_mod (by decide), fewerRecords_mod eth1_reset_mod (by decide),
    fewerRecords_mod pending_deposits_mod (by decide),
    fewerRecords_mod pending_consolidations_mod (by decide),
    fewerRecords_mod effective_mod (by decide), fewerRecords_mod slashings_reset_mod (by decide),
    fewerRecords_mod randao_reset_mod (by decide),
    fewerRecords_mod historical_mod (by decide), record_updates_fewer,
    fewerRecords_mod flag_updates_mod (by decide), fewerRecords_mod sync_committees_mod (by decide)]

theorem slot_fewerRecords {E : Env} {f : Fork} : Pres FewerRecords (process_slot E f) := by
  unfold process_slot
  walk fewerRecordsPre
  all_goals
    apply Pres.upd
    intro s
    refine ⟨?_, rfl, Nat.le_refl _, Nat.le_refl _⟩
    first
      | rfl
      | (dsimp only; split <;> rfl)

theorem slot_step_error_records {E : Env} {f : Fork} {s s' : State} {e : Err}
    (h : slot_step E f s = .error e s') : FewerRecords s s' := by
  have key : wp (slot_step E f) (fun _ _ => True) (fun _ s' => FewerRecords s s') s := by
    unfold slot_step process_epoch_if_due
    have h2 : Pres FewerRecords (do
        let s ← get
        let next ← s.slot +? 1
        let r ← next %? E.slots_per_epoch
        if r = 0 then process_epoch E f else pure () : M Unit) := by
      walk fewerRecordsPre [epoch_fewerRecords]
    rw [wp_bind]
    refine wp_mono (slot_fewerRecords s) (fun _ s₁ h1 => ?_) fun _ _ h => h
    rw [wp_bind]
    refine wp_mono (h2 s₁) (fun _ s₂ h2 => ?_) fun _ _ h => fewerRecordsPre.trans h1 h
    simp only [wps, implies_true, true_and]
    exact fun _ _ => fewerRecordsPre.trans h1 h2
  exact wp_of_error key h

theorem slot_step_records {E : Env} (hp : 0 < E.slots_per_epoch) {A : Nat} {s : State}
    (hs : RecordsFit E A s) : wp (slot_step E .Phase0) (fun _ s' => RecordsFit E A s')
      (fun _ s' => RecordsFit E A s') s := by
  rw [wp_iff]
  refine ⟨?_, fun e s' h => fewerRecords_fit (slot_step_error_records h) hs⟩
  rintro ⟨⟩ s' h
  obtain ⟨s₁, s₂, h1, h2, h3, h4, rfl⟩ := slot_step_eq_ok.1 h
  have f1 := slot_fewerRecords.ok h1
  have hlt : s.slot % E.slots_per_epoch < E.slots_per_epoch := Nat.mod_lt _ hp
  have hsucc : (s.slot + 1) % E.slots_per_epoch = 0 ∨
      (s.slot + 1) % E.slots_per_epoch = s.slot % E.slots_per_epoch + 1 := by
    rcases Nat.lt_or_ge (s.slot % E.slots_per_epoch + 1) E.slots_per_epoch with h | h
    · right
      rw [Nat.add_mod, Nat.mod_eq_of_lt (a := 1) (by omega), Nat.mod_eq_of_lt h]
    · left
      have : s.slot % E.slots_per_epoch + 1 = E.slots_per_epoch := Nat.le_antisymm hlt h
      rw [Nat.add_mod]
      by_cases h1 : E.slots_per_epoch = 1
      · rw [h1, Nat.mod_one]
      · rw [Nat.mod_eq_of_lt (a := 1) (by omega), this, Nat.mod_self]
  have f2 : FewerRecords s₁ s₂ := by
    rcases h4 with ⟨_, h4⟩ | ⟨_, rfl⟩
    · exact epoch_fewerRecords.ok h4
    · exact fewerRecordsPre.refl _
  have f3 := fewerRecordsPre.trans f1 f2
  obtain ⟨g1, g2, g3⟩ := hs
  have hh : s₂.latest_block_header.slot ≤ s.slot := by rw [f3.1]; exact g1
  have hmul : A * (s.slot % E.slots_per_epoch +
      if s.latest_block_header.slot = s.slot then 1 else 0) ≤
      A * (s.slot % E.slots_per_epoch + 1) :=
    Nat.mul_le_mul_left _ (by split <;> omega)
  refine ⟨by dsimp only; omega, ?_⟩
  dsimp only
  rw [if_neg (by omega), Nat.add_zero]
  rcases hsucc with hz | hz
  · rcases h4 with ⟨_, h5⟩ | ⟨h4, _⟩
    · obtain ⟨r1, r2⟩ := (epoch_rotates h5).1 rfl
      have hA : A * (s.slot % E.slots_per_epoch + 1) ≤ A * E.slots_per_epoch :=
        Nat.mul_le_mul_left _ hlt
      rw [r1, r2, List.length_nil, Nat.add_zero]
      refine ⟨Nat.zero_le _, ?_⟩
      have := f1.2.2.1
      omega
    · exact absurd hz h4
  · rw [hz]
    have a1 := f3.2.2.1
    have a2 := f3.2.2.2
    constructor <;> omega

/-- Room for `n` more records. -/
def RecordsRoom (E : Env) (A n : Nat) (s : State) : Prop :=
  s.latest_block_header.slot = s.slot ∧
  s.current_epoch_attestations.length + n ≤ A * (s.slot % E.slots_per_epoch + 1) ∧
  s.previous_epoch_attestations.length + s.current_epoch_attestations.length + n ≤
    A * E.slots_per_epoch + A * (s.slot % E.slots_per_epoch + 1)

theorem room_fit {E : Env} {A n : Nat} {s : State} (h : RecordsRoom E A n s) :
    RecordsFit E A s := by
  obtain ⟨h1, h2, h3⟩ := h
  refine ⟨Nat.le_of_eq h1, ?_⟩
  rw [if_pos h1]
  constructor <;> omega

theorem room_fewer {E : Env} {A n : Nat} {s s' : State} (h : RecordsRoom E A n s)
    (h' : FewerRecords s s') : RecordsRoom E A n s' := by
  obtain ⟨h1, h2, h3⟩ := h
  obtain ⟨g1, g2, g3, g4⟩ := h'
  refine ⟨by rw [g1, g2]; exact h1, ?_⟩
  rw [g2]
  constructor <;> omega

theorem attestation_room {E : Env} {A n : Nat} {a : Attestation} {s : State}
    (hs : RecordsRoom E A (n + 1) s) : wp (process_attestation E .Phase0 a)
      (fun _ s' => RecordsRoom E A n s') (fun _ s' => RecordsFit E A s') s := by
  have r0 := room_fit hs
  obtain ⟨h1, h2, h3⟩ := hs
  show wp (Phase0.process_attestation E a) _ _ s
  unfold Phase0.process_attestation
  simp only [wps]
  refine ⟨fun cur hcur => ⟨fun _ _ => ⟨fun idx _ => ⟨fun _ _ => ⟨fun delay hdelay => ⟨fun p _ => ?_,
    fun _ _ => r0⟩, fun _ _ => r0⟩, fun _ _ => r0⟩, fun _ _ => r0⟩, fun _ _ => r0⟩, fun _ _ => r0⟩
  refine ⟨fun _ => ⟨fun _ _ => ?_, fun _ _ => r0⟩, fun _ => ⟨fun _ _ => ?_, fun _ _ => r0⟩⟩ <;>
    refine ⟨h1, ?_⟩ <;>
    simp only [List.length_append, List.length_singleton] <;>
    constructor <;> omega

theorem operations_room {E : Env} {A : Nat} {b : BeaconBlockBody} {s : State}
    (hs : RecordsRoom E A b.attestations.length s) : wp (process_operations E .Phase0 b)
      (fun _ s' => RecordsFit E A s') (fun _ s' => RecordsFit E A s') s := by
  have keep : ∀ {m : M Unit} {n : Nat} {s : State}, Pres FewerRecords m → RecordsRoom E A n s →
      wp m (fun _ s' => RecordsRoom E A n s') (fun _ s' => RecordsFit E A s') s :=
    fun h hs => wp_mono (h _) (fun _ _ h => room_fewer hs h) fun _ _ h =>
      room_fit (room_fewer hs h)
  unfold process_operations
  rw [wp_bind]
  refine wp_mono (keep (m := rd fun s => check_deposit_count E .Phase0 s b)
    (by walk fewerRecordsPre) hs) (fun _ s₀ hs => ?_) fun _ _ h => h
  rw [wp_bind]
  refine wp_mono (keep (Pres.forEach fewerRecordsPre fun _ =>
    fewerRecords_mod proposer_slashing_mod (by decide)) hs) (fun _ s₁ hs => ?_) fun _ _ h => h
  rw [wp_bind]
  refine wp_mono (keep (Pres.forEach fewerRecordsPre fun _ =>
    fewerRecords_mod attester_slashing_mod (by decide)) hs) (fun _ s₂ hs => ?_) fun _ _ h => h
  rw [wp_bind]
  refine wp_forEach (fun l s => RecordsRoom E A l.length s) (fun x rest s h => attestation_room h)
    (fun s₃ hs => ?_) hs
  rw [wp_bind]
  refine wp_mono (keep (Pres.forEach fewerRecordsPre fun _ =>
    fewerRecords_mod deposit_mod (by decide)) hs) (fun _ s₄ hs => ?_) fun _ _ h => h
  rw [wp_bind]
  refine wp_mono (keep (Pres.forEach fewerRecordsPre fun _ =>
    fewerRecords_mod voluntary_exit_mod (by decide)) hs) (fun _ s₅ hs => ?_) fun _ _ h => h
  exact room_fit hs

theorem block_recordsFit {E : Env} {A : Nat} {b : BeaconBlock} {s : State}
    (hb : b.body.attestations.length ≤ A) (hs : RecordsFit E A s) :
    wp (process_block E .Phase0 b) (fun _ s' => RecordsFit E A s')
      (fun _ s' => RecordsFit E A s') s := by
  have h1 : wp (process_block_header E .Phase0 b)
      (fun _ s' => RecordsRoom E A b.body.attestations.length s')
      (fun _ s' => RecordsFit E A s') s := by
    unfold process_block_header
    simp only [wps, rejectIf_eq_ok, decide_eq_false_iff_not, not_not]
    refine ⟨fun _ hslot => ⟨fun _ hold => ⟨fun _ _ => ⟨fun _ _ => ⟨fun _ _ => ?_, fun _ _ => hs⟩,
      fun _ _ => hs⟩, fun _ _ => hs⟩, fun _ _ => hs⟩, fun _ _ => hs⟩
    have ha : RecordsRoom E A b.body.attestations.length { s with
        latest_block_header := {
          slot := b.slot
          proposer_index := b.proposer_index
          parent_root := b.parent_root
          state_root := zeroBytes 32
          body_root := E.body_root .Phase0 b.body } } := by
      obtain ⟨-, g2, g3⟩ := hs
      rw [if_neg (by omega), Nat.add_zero] at g2 g3
      refine ⟨hslot, ?_⟩
      dsimp only
      rw [Nat.mul_add, Nat.mul_one]
      constructor <;> omega
    exact ⟨fun _ _ => ⟨fun _ _ => ha, fun _ _ => room_fit ha⟩, fun _ _ => room_fit ha⟩
  have keep : ∀ {m : M Unit} {n : Nat} {s : State}, Pres FewerRecords m → RecordsRoom E A n s →
      wp m (fun _ s' => RecordsRoom E A n s') (fun _ s' => RecordsFit E A s') s :=
    fun h hs => wp_mono (h _) (fun _ _ h => room_fewer hs h) fun _ _ h =>
      room_fit (room_fewer hs h)
  unfold process_block
  rw [wp_bind]
  refine wp_mono h1 (fun _ s₁ a1 => ?_) fun _ _ h => h
  rw [wp_bind]
  refine wp_mono (keep (fewerRecords_mod block_payload_mod (by decide)) a1)
    (fun _ s₂ a2 => ?_) fun _ _ h => h
  rw [wp_bind]
  refine wp_mono (keep (fewerRecords_mod randao_mod (by decide)) a2)
    (fun _ s₃ a3 => ?_) fun _ _ h => h
  rw [wp_bind]
  refine wp_mono (keep (fewerRecords_mod eth1_mod (by decide)) a3)
    (fun _ s₄ a4 => ?_) fun _ _ h => h
  rw [wp_bind]
  exact wp_mono (operations_room a4) (fun _ _ h => h) fun _ _ h => h

theorem typedCall_inv {E : Env} {f : Fork} {A : Nat} {I : State → Prop}
    (h1 : ∀ s, I s → wp (slot_step E f) (fun _ s' => I s') (fun _ s' => I s') s)
    (h2 : ∀ s b, b.body.attestations.length ≤ A → I s →
      wp (process_block E f b) (fun _ s' => I s') (fun _ s' => I s') s)
    {m : M Unit} (hm : TypedCall E f A m) {s : State} (hs : I s) :
    wp m (fun _ s' => I s') (fun _ s' => I s') s := by
  have hin : ∀ b v s, b.message.body.attestations.length ≤ A → I s →
      wp (state_transition_block_in_slot E f b v) (fun _ s' => I s') (fun _ s' => I s') s := by
    intro b v s hb hs
    unfold state_transition_block_in_slot
    rw [wp_bind]
    have hv : wp (verify_block_signature_if E f v b) (fun _ s' => I s') (fun _ s' => I s') s := by
      unfold verify_block_signature_if
      cases v <;> simp only [wps]
      · exact ⟨fun _ _ => hs, fun _ _ => hs⟩
      · exact hs
    refine wp_mono hv (fun _ s₁ h => ?_) fun _ _ h => h
    rw [wp_bind]
    refine wp_mono (h2 _ _ hb h) (fun _ s₂ h => ?_) fun _ _ h => h
    simp only [wps]
    exact ⟨fun _ _ => h, fun _ _ => h⟩
  cases hm with
  | process_slots => exact slots_inv h1 hs
  | process_block _ hb => exact h2 _ _ hb hs
  | state_transition _ _ hb =>
    unfold state_transition
    rw [wp_bind]
    exact wp_mono (slots_inv h1 hs) (fun _ s₁ h => hin _ _ _ hb h) fun _ _ h => h
  | state_transition_block_in_slot _ _ hb => exact hin _ _ _ hb hs

theorem typed_fit {E : Env} (hp : 0 < E.slots_per_epoch) {A : Nat} {s : State}
    (h : TypedPhase0 E A s) : RecordsFit E A s := by
  induction h with
  | genesis h =>
    obtain ⟨h1, h2, -⟩ := genesis_common h
    obtain ⟨h3, h4⟩ := genesis_pending h
    refine ⟨by omega, ?_⟩
    rw [h3, h4]
    exact ⟨Nat.zero_le _, Nat.zero_le _⟩
  | call _ hm ih =>
    exact wp_final (typedCall_inv (fun _ => slot_step_records hp)
      (fun _ _ hb => block_recordsFit hb) hm ih)

/-! ## Pending partial withdrawals -/

/-- No more than there is room for, if there were no more before. -/
def KeepsRoom (E : Env) (s s' : State) : Prop :=
  s.pending_partial_withdrawals.length ≤ E.pending_partial_withdrawals_limit →
    s'.pending_partial_withdrawals.length ≤ E.pending_partial_withdrawals_limit

theorem keepsRoomPre {E : Env} : Preorder' (KeepsRoom E) :=
  ⟨fun _ h => h, fun h h' hs => h' (h hs)⟩

theorem keepsRoom_mod {E : Env} {α : Type} {W : List Field} {m : M α} (h : Modifies W m)
    (hW : Field.pending_partial_withdrawals ∉ W) : Pres (KeepsRoom E) m :=
  Pres.mono h fun s s' h hs => by
    have h1 : s'.pending_partial_withdrawals = s.pending_partial_withdrawals := h _ hW
    rw [h1]; exact hs

theorem request_keepsRoom {E : Env} {r : ExecutionLayerWithdrawalRequest} :
    Pres (KeepsRoom E) (Electra.process_execution_layer_withdrawal_request E r) := by
  intro s
  have k0 : KeepsRoom E s s := keepsRoomPre.refl s
  have hexit : ∀ i, Pres (KeepsRoom E) (Electra.initiate_validator_exit E i) := fun i =>
    keepsRoom_mod electra_exit_mod (by decide)
  unfold Electra.process_execution_layer_withdrawal_request
  simp only [wps]
  split
  · simp only [wps]
    exact ⟨fun _ => k0, fun _ => k0⟩
  · rename_i index _
    refine ⟨fun _ => k0, fun hfull => ?_⟩
    simp only [wps]
    refine ⟨fun v _ => ⟨fun _ => k0, fun _ => ⟨fun e _ => ⟨fun _ => k0, fun _ => ⟨fun _ => k0,
      fun _ => ⟨fun x _ => ⟨fun _ => k0, fun _ => ⟨fun pending _ => ⟨fun _ => ⟨fun _ =>
        hexit index s, fun _ => k0⟩, fun hpart => ⟨fun bal _ => ⟨fun res _ => ⟨fun _ =>
          ⟨fun a _ => ⟨fun b _ => ?_, fun _ _ => k0⟩, fun _ _ => k0⟩, fun _ => k0⟩,
          fun _ _ => k0⟩, fun _ _ => k0⟩⟩, fun _ _ => k0⟩⟩, fun _ _ => k0⟩⟩⟩, fun _ _ => k0⟩⟩,
      fun _ _ => k0⟩
    have hc : Pres (fun s s' : State => s'.pending_partial_withdrawals =
        s.pending_partial_withdrawals) (Electra.compute_exit_epoch_and_update_churn E
          (min b r.amount)) :=
      Pres.mono exit_churn_mod fun s s' h => h .pending_partial_withdrawals (by decide)
    refine wp_mono (hc s) (fun q s₁ h1 => ?_) fun _ s₁ h1 hs => by rw [h1]; exact hs
    refine ⟨fun w _ hs => ?_, fun _ _ hs => by rw [h1]; exact hs⟩
    dsimp only
    rw [h1, List.length_append, List.length_singleton]
    have hne : s.pending_partial_withdrawals.length ≠ E.pending_partial_withdrawals_limit := by
      intro h
      apply hfull
      rw [h]
      simpa using hpart
    omega

theorem withdrawals_keepRoom {E : Env} {f : Fork} {p : ExecutionPayload} :
    Pres (KeepsRoom E) (process_withdrawals E f p) := by
  unfold process_withdrawals
  walk keepsRoomPre [keepsRoom_mod decrease_mod (by decide)]
  all_goals
    apply Pres.upd
    intro s h
    first
      | exact h
      | (dsimp only; rw [List.length_drop]; omega)

theorem block_keepsRoom {E : Env} {f : Fork} {b : BeaconBlock} :
    Pres (KeepsRoom E) (process_block E f b) := by
  unfold process_block process_block_payload process_operations
  walk keepsRoomPre [keepsRoom_mod header_mod (by decide), withdrawals_keepRoom,
    keepsRoom_mod payload_mod (by decide), keepsRoom_mod randao_mod (by decide),
    keepsRoom_mod eth1_mod (by decide), keepsRoom_mod proposer_slashing_mod (by decide),
    keepsRoom_mod attester_slashing_mod (by decide), keepsRoom_mod attestation_mod (by decide),
    keepsRoom_mod deposit_mod (by decide), keepsRoom_mod voluntary_exit_mod (by decide),
    keepsRoom_mod bls_change_mod (by decide), request_keepsRoom,
    keepsRoom_mod deposit_receipt_mod (by decide), keepsRoom_mod consolidation_mod (by decide),
    keepsRoom_mod sync_aggregate_mod (by decide)]

theorem slots_keepRoom {E : Env} {f : Fork} {t : Nat} : Pres (KeepsRoom E) (process_slots E f t) :=
  keepsRoom_mod slots_mod (by decide)

theorem chainCall_keepsRoom {E : Env} {f : Fork} {m : M Unit} (h : ChainCall E f m) :
    Pres (KeepsRoom E) m := by
  cases h with
  | process_slots => exact slots_keepRoom
  | process_block => exact block_keepsRoom
  | state_transition => exact (transition_pres keepsRoomPre slots_keepRoom block_keepsRoom).2
  | state_transition_block_in_slot =>
    exact (transition_pres keepsRoomPre slots_keepRoom block_keepsRoom).1

theorem upgrade_queues {E : Env} {g : Fork} {s s' : State} (h : upgrade_to E g s = .ok s') :
    s'.pending_partial_withdrawals = [] ∧ s'.pending_consolidations = [] := by
  cases g <;> unfold upgrade_to at h <;> dsimp only at h
  case Phase0 => cases h
  case Altair =>
    unfold upgrade_to_altair at h
    simp only [run, runLocal_eq_ok] at h
    obtain ⟨e, _, post, hpost, c, _, rfl⟩ := h
    have hm := translate_mod.ok hpost
    exact ⟨hm .pending_partial_withdrawals (by decide), hm .pending_consolidations (by decide)⟩
  case Electra =>
    unfold upgrade_to_electra at h
    simp only [run, runLocal_eq_ok] at h
    obtain ⟨e, _, x, _, y, _, h⟩ := h
    have hm : Modifies [.validators, .balances, .pending_balance_deposits,
        .exit_balance_to_consume, .consolidation_balance_to_consume] (electra_init_queues E) := by
      unfold electra_init_queues
      mods [queue_entire_mod, queue_excess_mod]
    have hm := hm.ok h
    exact ⟨hm .pending_partial_withdrawals (by decide), hm .pending_consolidations (by decide)⟩
  all_goals
    first
      | unfold upgrade_to_bellatrix at h
      | unfold upgrade_to_capella at h
      | unfold upgrade_to_deneb at h
    simp only [run] at h
    obtain ⟨e, _, rfl⟩ := h
    exact ⟨rfl, rfl⟩

theorem genesis_queues {E : Env} {f : Fork} {h : Bytes32} {t : Nat} {ds : List Deposit}
    {p : Option ExecutionPayloadHeader} {s : State}
    (hs : initialize_beacon_state_from_eth1 E f h t ds p = .ok s) :
    s.pending_partial_withdrawals = [] ∧ s.pending_consolidations = [] := by
  unfold initialize_beacon_state_from_eth1 genesis_candidate at hs
  simp only [run] at hs
  obtain ⟨_, ⟨gt, _, rfl⟩, hs⟩ := hs
  rw [runLocal_eq_ok] at hs
  have hdep : ∀ (ds : List Deposit) (l : List DepositData),
      Modifies [.eth1_data, .eth1_deposit_index, .validators, .balances,
        .previous_epoch_participation, .current_epoch_participation, .inactivity_scores,
        .pending_balance_deposits] (genesis_deposits E f l ds) := by
    intro ds
    induction ds with
    | nil => intro l; unfold genesis_deposits; mods
    | cons d ds ih => intro l; unfold genesis_deposits; mods [deposit_mod, ih _]
  have hm : Modifies [.eth1_data, .eth1_deposit_index, .validators, .balances,
      .previous_epoch_participation, .current_epoch_participation, .inactivity_scores,
      .pending_balance_deposits, .genesis_validators_root, .current_sync_committee,
      .next_sync_committee] (genesis_fill E f ds) := by
    unfold genesis_fill genesis_pending_deposits genesis_activate genesis_sync_committees
    mods [hdep _ _, increase_mod]
  have hm := hm.ok hs
  exact ⟨hm .pending_partial_withdrawals (by decide), hm .pending_consolidations (by decide)⟩

theorem onChain_partial {E : Env} {f : Fork} {s : State} (h : OnChain E f s) :
    s.pending_partial_withdrawals.length ≤ E.pending_partial_withdrawals_limit := by
  induction h with
  | genesis h => rw [(genesis_queues h).1]; exact Nat.zero_le _
  | call _ hm ih => exact (chainCall_keepsRoom hm).final _ ih
  | upgrade _ _ h _ => rw [(upgrade_queues h).1]; exact Nat.zero_le _

/-! ## Pending consolidations -/

/-- No more than there is room for, if there were no more before. -/
def KeepsQueue (E : Env) (s s' : State) : Prop :=
  s.pending_consolidations.length ≤ E.pending_consolidations_limit →
    s'.pending_consolidations.length ≤ E.pending_consolidations_limit

theorem keepsQueuePre {E : Env} : Preorder' (KeepsQueue E) :=
  ⟨fun _ h => h, fun h h' hs => h' (h hs)⟩

theorem keepsQueue_mod {E : Env} {α : Type} {W : List Field} {m : M α} (h : Modifies W m)
    (hW : Field.pending_consolidations ∉ W) : Pres (KeepsQueue E) m :=
  Pres.mono h fun s s' h hs => by
    have h1 : s'.pending_consolidations = s.pending_consolidations := h _ hW
    rw [h1]; exact hs

theorem consolidation_keepsQueue {E : Env} {op : SignedConsolidation} :
    Pres (KeepsQueue E) (Electra.process_consolidation E op) := by
  intro s
  have k0 : KeepsQueue E s s := keepsQueuePre.refl s
  unfold Electra.process_consolidation
  simp only [wps]
  refine ⟨fun source hcheck => ?_, fun _ _ => k0⟩
  have hroom : s.pending_consolidations.length < E.pending_consolidations_limit := by
    unfold Electra.check_consolidation at hcheck
    simp only [run] at hcheck
    simpa using hcheck.1
  have hc : Pres (fun s s' : State => s'.pending_consolidations = s.pending_consolidations)
      (Electra.compute_consolidation_epoch_and_update_churn E source.effective_balance) :=
    Pres.mono consolidation_churn_mod fun s s' h => h .pending_consolidations (by decide)
  refine wp_mono (hc s) (fun q s₁ h1 => ?_) fun _ s₁ h1 hs => by rw [h1]; exact hs
  have k1 : KeepsQueue E s s₁ := fun hs => by rw [h1]; exact hs
  have k2 : s₁.pending_consolidations.length + 1 ≤ E.pending_consolidations_limit := by
    rw [h1]; exact hroom
  refine ⟨fun _ _ => ⟨fun _ _ => ⟨fun _ _ _ => ?_, fun _ => k1⟩, fun _ _ => k1⟩, fun _ => k1⟩
  dsimp only
  rw [List.length_append, List.length_singleton]
  exact k2

theorem pending_consolidations_keepQueue {E : Env} :
    Pres (KeepsQueue E) (Electra.process_pending_consolidations E) := by
  unfold Electra.process_pending_consolidations
  walk keepsQueuePre [keepsQueue_mod pending_consolidations_loop_mod (by decide)]
  all_goals
    apply Pres.upd
    intro s h
    dsimp only
    rw [List.length_drop]
    omega

theorem epoch_keepsQueue {E : Env} {f : Fork} : Pres (KeepsQueue E) (process_epoch E f) := by
  unfold process_epoch process_epoch_first
  walk keepsQueuePre [keepsQueue_mod justification_mod (by decide),
    keepsQueue_mod inactivity_mod (by decide),
    keepsQueue_mod rewards_mod (by decide), keepsQueue_mod registry_mod (by decide),
    keepsQueue_mod slashings_mod (by decide), keepsQueue_mod eth1_reset_mod (by decide),
    keepsQueue_mod pending_deposits_mod (by decide), pending_consolidations_keepQueue,
    keepsQueue_mod effective_mod (by decide), keepsQueue_mod slashings_reset_mod (by decide),
    keepsQueue_mod randao_reset_mod (by decide),
    keepsQueue_mod historical_mod (by decide), keepsQueue_mod record_updates_mod (by decide),
    keepsQueue_mod flag_updates_mod (by decide), keepsQueue_mod sync_committees_mod (by decide)]

theorem slots_keepQueue {E : Env} {f : Fork} {t : Nat} :
    Pres (KeepsQueue E) (process_slots E f t) :=
  slots_pres keepsQueuePre <| slot_step_pres keepsQueuePre (keepsQueue_mod slot_mod (by decide))
    epoch_keepsQueue fun _ h => h

theorem block_keepsQueue {E : Env} {f : Fork} {b : BeaconBlock} :
    Pres (KeepsQueue E) (process_block E f b) := by
  unfold process_block process_operations
  walk keepsQueuePre [keepsQueue_mod header_mod (by decide),
    keepsQueue_mod block_payload_mod (by decide), keepsQueue_mod randao_mod (by decide),
    keepsQueue_mod eth1_mod (by decide), keepsQueue_mod proposer_slashing_mod (by decide),
    keepsQueue_mod attester_slashing_mod (by decide), keepsQueue_mod attestation_mod (by decide),
    keepsQueue_mod deposit_mod (by decide), keepsQueue_mod voluntary_exit_mod (by decide),
    keepsQueue_mod bls_change_mod (by decide), keepsQueue_mod withdrawal_request_mod (by decide),
    keepsQueue_mod deposit_receipt_mod (by decide), consolidation_keepsQueue,
    keepsQueue_mod sync_aggregate_mod (by decide)]

theorem chainCall_keepsQueue {E : Env} {f : Fork} {m : M Unit} (h : ChainCall E f m) :
    Pres (KeepsQueue E) m := by
  cases h with
  | process_slots => exact slots_keepQueue
  | process_block => exact block_keepsQueue
  | state_transition => exact (transition_pres keepsQueuePre slots_keepQueue block_keepsQueue).2
  | state_transition_block_in_slot =>
    exact (transition_pres keepsQueuePre slots_keepQueue block_keepsQueue).1

theorem onChain_consolidations {E : Env} {f : Fork} {s : State} (h : OnChain E f s) :
    s.pending_consolidations.length ≤ E.pending_consolidations_limit := by
  induction h with
  | genesis h => rw [(genesis_queues h).2]; exact Nat.zero_le _
  | call _ hm ih => exact (chainCall_keepsQueue hm).final _ ih
  | upgrade _ _ h _ => rw [(upgrade_queues h).2]; exact Nat.zero_le _

end Verif
