import Verif.Proofs.History
import Verif.Proofs.Slots
import Verif.Proofs.EpochSteps
import Verif.Proofs.Operations

/-! # The randao mixes and the eth1 votes over time -/

namespace Verif

open Spec

theorem OnChain.reachable {E : Env} {f : Fork} {s : State} (h : OnChain E f s) :
    Reachable E f s := by
  induction h with
  | genesis h => exact .genesis h
  | upgrade _ hg h ih => exact .upgrade ih hg h
  | call _ hm ih =>
    cases hm with
    | process_slots => exact .call ih (.process_slots _)
    | process_block => exact .call ih (.process_block _)
    | state_transition => exact .call ih (.state_transition _ _)
    | state_transition_block_in_slot => exact .call ih (.state_transition_block_in_slot _ _)

/-! ## Mixes -/

/-- Time does not go back, and the mixes of past epochs stay as long as their place in the ring
buffer is not needed. Places are counted such that the mix of epoch `e` is found both at `e` and one
round later; the places before genesis are covered as well. -/
def Mix (E : Env) (s s' : State) : Prop :=
  s.slot ≤ s'.slot ∧ ∀ p, p < epochOf E s.slot + E.epochs_per_historical_vector →
    epochOf E s'.slot + 1 < p → mixAt E s' p = mixAt E s p

theorem mixAt_round {E : Env} {s : State} {e : Nat} :
    mixAt E s (e + E.epochs_per_historical_vector) = mixAt E s e := by
  unfold mixAt; rw [Nat.add_mod_right]

theorem epochOf_mono (E : Env) {a b : Nat} (h : a ≤ b) : epochOf E a ≤ epochOf E b :=
  Nat.div_le_div_right h

theorem mixPre (E : Env) : Preorder' (Mix E) := by
  refine ⟨fun s => ⟨Nat.le_refl _, fun _ _ _ => rfl⟩, ?_⟩
  intro a b c h h'
  refine ⟨Nat.le_trans h.1 h'.1, fun e he hw => ?_⟩
  have h1 := epochOf_mono E h.1
  have h2 := epochOf_mono E h'.1
  rw [h'.2 e (by omega) hw, h.2 e he (by omega)]

theorem mix_mod {α : Type} {E : Env} {W : List Field} {m : M α} (h : Modifies W m)
    (hW : ∀ x ∈ [Field.randao_mixes, .slot], x ∉ W) : Pres (Mix E) m :=
  Pres.mono h fun s s' h => by
    have h1 : s'.randao_mixes = s.randao_mixes := h _ (hW .randao_mixes (by decide))
    have h3 : s'.slot = s.slot := h _ (hW .slot (by decide))
    refine ⟨Nat.le_of_eq h3.symm, fun e _ _ => ?_⟩
    unfold mixAt; rw [h1]

theorem mix_set {E : Env} {s : State} {e₀ : Nat} {m : Bytes32} (h1 : epochOf E s.slot ≤ e₀)
    (h2 : e₀ ≤ epochOf E s.slot + 1) :
    Mix E s { s with
      randao_mixes := s.randao_mixes.set (e₀ % E.epochs_per_historical_vector) m } := by
  refine ⟨Nat.le_refl _, fun e he hw => ?_⟩
  unfold mixAt
  dsimp only at hw ⊢
  rw [List.getElem?_set_ne (mod_ne_of_window (by omega) (by omega)).symm]

theorem randao_mix {E : Env} {b : BeaconBlockBody} : Pres (Mix E) (process_randao E b) := by
  intro s
  unfold process_randao
  have hr := (mixPre E).refl s
  simp only [wps, current_epoch_eq_ok, mod_eq_ok, setIdx_eq_ok]
  refine ⟨?_, fun _ _ => hr⟩
  rintro _ ⟨rfl, _⟩
  refine ⟨fun _ _ => ⟨fun _ _ => ⟨fun _ _ => ⟨fun _ _ => ⟨fun _ _ => ⟨?_, fun _ _ => hr⟩,
    fun _ _ => hr⟩, fun _ _ => hr⟩, fun _ _ => hr⟩, fun _ _ => hr⟩, fun _ _ => hr⟩
  rintro _ ⟨rfl, _⟩
  refine ⟨?_, fun _ _ => hr⟩
  rintro _ ⟨_, rfl⟩
  exact mix_set (Nat.le_refl _) (Nat.le_succ _)

theorem randao_reset_mix {E : Env} : Pres (Mix E) (process_randao_mixes_reset E) := by
  intro s
  unfold process_randao_mixes_reset
  have hr := (mixPre E).refl s
  simp only [wps, current_epoch_eq_ok, mod_eq_ok, add_eq_ok, setIdx_eq_ok]
  refine ⟨?_, fun _ _ => hr⟩
  rintro _ ⟨rfl, _⟩
  refine ⟨?_, fun _ _ => hr⟩
  rintro _ ⟨rfl, _⟩
  refine ⟨?_, fun _ _ => hr⟩
  rintro _ ⟨rfl, _⟩
  refine ⟨fun _ _ => ⟨?_, fun _ _ => hr⟩, fun _ _ => hr⟩
  rintro _ ⟨_, rfl⟩
  exact mix_set (Nat.le_succ _) (Nat.le_refl _)

theorem block_mix {E : Env} {f : Fork} {b : BeaconBlock} : Pres (Mix E) (process_block E f b) := by
  unfold process_block
  have p := mixPre E
  walk p [mix_mod header_mod (by decide), mix_mod block_payload_mod (by decide),
    randao_mix, mix_mod eth1_mod (by decide), mix_mod operations_mod (by decide),
    mix_mod sync_aggregate_mod (by decide)]

theorem epoch_mix {E : Env} {f : Fork} : Pres (Mix E) (process_epoch E f) := by
  unfold process_epoch process_epoch_first
  have p := mixPre E
  walk p [mix_mod justification_mod (by decide), mix_mod inactivity_mod (by decide),
    mix_mod rewards_mod (by decide), mix_mod registry_mod (by decide),
    mix_mod slashings_mod (by decide), mix_mod eth1_reset_mod (by decide),
    mix_mod pending_deposits_mod (by decide), mix_mod pending_consolidations_mod (by decide),
    mix_mod effective_mod (by decide), mix_mod slashings_reset_mod (by decide), randao_reset_mix,
    mix_mod historical_mod (by decide), mix_mod record_updates_mod (by decide),
    mix_mod flag_updates_mod (by decide), mix_mod sync_committees_mod (by decide)]

/-- A relation that time respects is preserved by the increment of the slot. -/
theorem slot_incr_pres {r : State → State → Prop} (hr : Preorder' r)
    (h : ∀ s : State, r s { s with slot := s.slot + 1 }) :
    Pres r (do
      let s ← get
      let next ← s.slot +? 1
      upd fun s => { s with slot := next } : M Unit) := by
  intro s
  simp only [wps, add_eq_ok]
  refine ⟨?_, fun _ _ => hr.refl s⟩
  rintro _ ⟨rfl, _⟩
  exact h s

theorem slot_step_pres {E : Env} {f : Fork} {r : State → State → Prop} (hr : Preorder' r)
    (h1 : Pres r (process_slot E f)) (h2 : Pres r (process_epoch E f))
    (h3 : ∀ s : State, r s { s with slot := s.slot + 1 }) : Pres r (slot_step E f) := by
  unfold slot_step process_epoch_if_due
  refine Pres.bind hr h1 fun _ => Pres.bind hr ?_ fun _ => slot_incr_pres hr h3
  walk hr [h2]

theorem slots_pres {E : Env} {f : Fork} {t : Nat} {r : State → State → Prop} (hr : Preorder' r)
    (h : Pres r (slot_step E f)) : Pres r (process_slots E f t) := by
  have hl : ∀ n, Pres r (slots_loop E f t n) := by
    intro n
    induction n with
    | zero => unfold slots_loop; walk hr
    | succ n ih => unfold slots_loop; walk hr [h, ih]
  unfold process_slots
  walk hr [hl]

theorem transition_pres {E : Env} {f : Fork} {b : SignedBeaconBlock} {v : Validation}
    {r : State → State → Prop} (hr : Preorder' r) (h1 : Pres r (process_slots E f b.message.slot))
    (h2 : Pres r (process_block E f b.message)) :
    Pres r (state_transition_block_in_slot E f b v) ∧ Pres r (state_transition E f b v) := by
  have h3 : Pres r (state_transition_block_in_slot E f b v) := by
    unfold state_transition_block_in_slot verify_block_signature_if
    walk hr [h2]
  refine ⟨h3, ?_⟩
  unfold state_transition
  walk hr [h1, h3]

theorem slots_mix {E : Env} {f : Fork} {t : Nat} : Pres (Mix E) (process_slots E f t) :=
  slots_pres (mixPre E) <| slot_step_pres (mixPre E) (mix_mod slot_mod (by decide)) epoch_mix
    fun s => ⟨Nat.le_succ _, fun _ _ _ => rfl⟩

theorem entry_mix {E : Env} {f : Fork} {m : M Unit} (h : EntryPoint E f m) : Pres (Mix E) m := by
  cases h with
  | process_slots => exact slots_mix
  | state_transition => exact (transition_pres (mixPre E) slots_mix block_mix).2
  | state_transition_block_in_slot => exact (transition_pres (mixPre E) slots_mix block_mix).1
  | process_slot => exact mix_mod slot_mod (by decide)
  | process_epoch => exact epoch_mix
  | process_block => exact block_mix
  | process_block_header => exact mix_mod header_mod (by decide)
  | process_randao => exact randao_mix
  | process_eth1_data => exact mix_mod eth1_mod (by decide)
  | process_operations => exact mix_mod operations_mod (by decide)
  | process_execution_payload => exact mix_mod payload_mod (by decide)
  | process_withdrawals => exact mix_mod withdrawals_mod (by decide)
  | process_sync_aggregate => exact mix_mod sync_aggregate_mod (by decide)
  | process_proposer_slashing => exact mix_mod proposer_slashing_mod (by decide)
  | process_attester_slashing => exact mix_mod attester_slashing_mod (by decide)
  | process_attestation => exact mix_mod attestation_mod (by decide)
  | process_deposit => exact mix_mod deposit_mod (by decide)
  | process_voluntary_exit => exact mix_mod voluntary_exit_mod (by decide)
  | process_bls_to_execution_change => exact mix_mod bls_change_mod (by decide)
  | process_execution_layer_withdrawal_request => exact mix_mod withdrawal_request_mod (by decide)
  | process_deposit_receipt => exact mix_mod deposit_receipt_mod (by decide)
  | process_consolidation => exact mix_mod consolidation_mod (by decide)
  | initiate_validator_exit => exact mix_mod exit_mod (by decide)
  | slash_validator => exact mix_mod slash_mod (by decide)
  | increase_balance => exact mix_mod increase_mod (by decide)
  | decrease_balance => exact mix_mod decrease_mod (by decide)

theorem history_mix {E : Env} {f : Fork} {s s' : State} (h : History E f s s') : Mix E s s' :=
  history_pres (mixPre E) (fun _ => entry_mix) h

/-! ## Votes -/

/-- There are no more votes than slots with blocks in the voting period so far. -/
def VotesFit (E : Env) (s : State) : Prop :=
  s.latest_block_header.slot ≤ s.slot ∧
  s.eth1_data_votes.length ≤ s.slot % votingPeriodSlots E +
    if s.latest_block_header.slot = s.slot then 1 else 0

/-- Fewer votes, all else equal. -/
def FewerVotes (s s' : State) : Prop :=
  s'.latest_block_header.slot = s.latest_block_header.slot ∧ s'.slot = s.slot ∧
  s'.eth1_data_votes.length ≤ s.eth1_data_votes.length

theorem fewerPre : Preorder' FewerVotes :=
  ⟨fun _ => ⟨rfl, rfl, Nat.le_refl _⟩, fun h h' =>
    ⟨h'.1.trans h.1, h'.2.1.trans h.2.1, Nat.le_trans h'.2.2 h.2.2⟩⟩

theorem fewer_fit {E : Env} {s s' : State} (h : FewerVotes s s') (hs : VotesFit E s) :
    VotesFit E s' := by
  unfold VotesFit at *
  rw [h.1, h.2.1]
  exact ⟨hs.1, Nat.le_trans h.2.2 hs.2⟩

theorem fewer_mod {α : Type} {W : List Field} {m : M α} (h : Modifies W m)
    (hW : ∀ x ∈ [Field.latest_block_header, .slot, .eth1_data_votes], x ∉ W) :
    Pres FewerVotes m :=
  Pres.mono h fun s s' h => by
    have h1 : s'.latest_block_header = s.latest_block_header := h _ (hW .latest_block_header (by decide))
    have h2 : s'.slot = s.slot := h _ (hW .slot (by decide))
    have h3 : s'.eth1_data_votes = s.eth1_data_votes := h _ (hW .eth1_data_votes (by decide))
    exact ⟨by rw [h1], h2, by rw [h3]; exact Nat.le_refl _⟩

theorem eth1_reset_fewer {E : Env} : Pres FewerVotes (process_eth1_data_reset E) := by
  unfold process_eth1_data_reset
  walk fewerPre
  apply Pres.upd
  intro s
  exact ⟨rfl, rfl, Nat.zero_le _⟩

theorem epoch_fewer {E : Env} {f : Fork} : Pres FewerVotes (process_epoch E f) := by
  unfold process_epoch process_epoch_first
  walk fewerPre [fewer_mod justification_mod (by decide), fewer_mod inactivity_mod (by decide),
    fewer_mod rewards_mod (by decide), fewer_mod registry_mod (by decide),
    fewer_mod slashings_mod (by decide), eth1_reset_fewer,
    fewer_mod pending_deposits_mod (by decide), fewer_mod pending_consolidations_mod (by decide),
    fewer_mod effective_mod (by decide), fewer_mod slashings_reset_mod (by decide),
    fewer_mod randao_reset_mod (by decide),
    fewer_mod historical_mod (by decide), fewer_mod record_updates_mod (by decide),
    fewer_mod flag_updates_mod (by decide), fewer_mod sync_committees_mod (by decide)]

theorem slot_fewer {E : Env} {f : Fork} : Pres FewerVotes (process_slot E f) := by
  unfold process_slot
  walk fewerPre
  all_goals
    apply Pres.upd
    intro s
    refine ⟨?_, rfl, Nat.le_refl _⟩
    first
      | rfl
      | (dsimp only; split <;> rfl)

theorem process_eth1_data_reset_ok {E : Env} {s s' : State}
    (h : process_eth1_data_reset E s = .ok () s') :
    s'.eth1_data_votes =
      if (epochOf E s.slot + 1) % E.epochs_per_eth1_voting_period = 0 then []
      else s.eth1_data_votes := by
  simp only [process_eth1_data_reset, run, current_epoch_eq_ok] at h
  obtain ⟨_, ⟨rfl, h1⟩, _, ⟨rfl, h2⟩, _, ⟨rfl, h3⟩, (⟨h4, rfl⟩ | ⟨h4, -, rfl⟩)⟩ := h
  · rw [if_pos h4]
  · rw [if_neg h4]

theorem epoch_votes {E : Env} {f : Fork} {s s' : State} (h : process_epoch E f s = .ok () s') :
    s'.eth1_data_votes =
      if (epochOf E s.slot + 1) % E.epochs_per_eth1_voting_period = 0 then []
      else s.eth1_data_votes := by
  obtain ⟨e⟩ := epoch_steps h
  have h1 : s'.eth1_data_votes = e.s₆.eth1_data_votes := e.from6 .eth1_data_votes (by decide)
  have h2 : e.s₅.eth1_data_votes = s.eth1_data_votes := e.to5 .eth1_data_votes (by decide)
  have h3 : e.s₅.slot = s.slot := e.to5 .slot (by decide)
  rw [h1, process_eth1_data_reset_ok e.eth1, h2, h3]

theorem slot_step_error {E : Env} {f : Fork} {s s' : State} {e : Err}
    (h : slot_step E f s = .error e s') : FewerVotes s s' := by
  have key : wp (slot_step E f) (fun _ _ => True) (fun _ s' => FewerVotes s s') s := by
    unfold slot_step process_epoch_if_due
    have h2 : Pres FewerVotes (do
        let s ← get
        let next ← s.slot +? 1
        let r ← next %? E.slots_per_epoch
        if r = 0 then process_epoch E f else pure () : M Unit) := by
      walk fewerPre [epoch_fewer]
    rw [wp_bind]
    refine wp_mono (slot_fewer s) (fun _ s₁ h1 => ?_) fun _ _ h => h
    rw [wp_bind]
    refine wp_mono (h2 s₁) (fun _ s₂ h2 => ?_) fun _ _ h => fewerPre.trans h1 h
    simp only [wps, implies_true, true_and]
    exact fun _ _ => fewerPre.trans h1 h2
  exact wp_of_error key h

/-- The votes fit after every step of slot processing. -/
theorem slot_step_fit {E : Env} (hE : SaneConfig E) {f : Fork}
    (hP : 0 < E.epochs_per_eth1_voting_period) {s : State} (hs : VotesFit E s) :
    wp (slot_step E f) (fun _ s' => VotesFit E s') (fun _ s' => VotesFit E s') s := by
  rw [wp_iff]
  refine ⟨?_, fun e s' h => fewer_fit (slot_step_error h) hs⟩
  rintro ⟨⟩ s' h
  obtain ⟨s₁, s₂, h1, h2, h3, h4, rfl⟩ := slot_step_eq_ok.1 h
  have f1 := slot_fewer.ok h1
  have hp : 0 < E.slots_per_epoch := hE.slots_per_epoch.1
  have hPP : 0 < votingPeriodSlots E := Nat.mul_pos hP hp
  have hsucc : (s.slot + 1) % votingPeriodSlots E = 0 ∨
      (s.slot + 1) % votingPeriodSlots E = s.slot % votingPeriodSlots E + 1 := by
    rcases Nat.lt_or_ge (s.slot % votingPeriodSlots E + 1) (votingPeriodSlots E) with h | h
    · right
      rw [Nat.add_mod, Nat.mod_eq_of_lt (a := 1) (by omega), Nat.mod_eq_of_lt h]
    · left
      have : s.slot % votingPeriodSlots E + 1 = votingPeriodSlots E :=
        Nat.le_antisymm (Nat.mod_lt _ hPP) h
      rw [Nat.add_mod]
      by_cases h1 : votingPeriodSlots E = 1
      · rw [h1, Nat.mod_one]
      · rw [Nat.mod_eq_of_lt (a := 1) (by omega), this, Nat.mod_self]
  have f2 : FewerVotes s₁ s₂ := by
    rcases h4 with ⟨_, h4⟩ | ⟨_, rfl⟩
    · exact epoch_fewer.ok h4
    · exact fewerPre.refl _
  have f3 := fewerPre.trans f1 f2
  obtain ⟨g1, g2⟩ := hs
  have hh : s₂.latest_block_header.slot ≤ s.slot := by rw [f3.1]; exact g1
  refine ⟨by dsimp only; omega, ?_⟩
  dsimp only
  rw [if_neg (by omega), Nat.add_zero]
  have hlen : s₂.eth1_data_votes.length ≤ s.slot % votingPeriodSlots E + 1 := by
    have := f3.2.2
    split at g2 <;> omega
  rcases hsucc with hz | hz
  · -- the period ends: the epoch ends and the votes are cleared
    have hd : votingPeriodSlots E ∣ s.slot + 1 := Nat.dvd_of_mod_eq_zero hz
    have hde : E.slots_per_epoch ∣ s.slot + 1 := Nat.dvd_trans ⟨_, Nat.mul_comm _ _⟩ hd
    rcases h4 with ⟨h4, h5⟩ | ⟨h4, _⟩
    · have hv := epoch_votes h5
      have hslot : s₁.slot = s.slot := f1.2.1
      have he : epochOf E s.slot + 1 = (s.slot + 1) / E.slots_per_epoch := by
        have : (s.slot + 1) / E.slots_per_epoch = s.slot / E.slots_per_epoch +
            if E.slots_per_epoch ∣ s.slot + 1 then 1 else 0 := Nat.succ_div
        rw [this, if_pos hde]; rfl
      have hm : (epochOf E s.slot + 1) % E.epochs_per_eth1_voting_period = 0 := by
        rw [he]
        apply Nat.mod_eq_zero_of_dvd
        obtain ⟨c, hc⟩ := hd
        refine ⟨c, ?_⟩
        rw [hc, votingPeriodSlots, Nat.mul_comm E.epochs_per_eth1_voting_period, Nat.mul_assoc,
          Nat.mul_div_cancel_left _ hp]
      rw [hslot, if_pos hm] at hv
      rw [hv]; exact Nat.zero_le _
    · exact absurd (Nat.mod_eq_zero_of_dvd hde) h4
  · rw [hz]; exact hlen

/-- An invariant of single steps is an invariant of slot processing. -/
theorem slots_inv {E : Env} {f : Fork} {t : Nat} {I : State → Prop}
    (h : ∀ s, I s → wp (slot_step E f) (fun _ s' => I s') (fun _ s' => I s') s) {s : State}
    (hs : I s) : wp (process_slots E f t) (fun _ s' => I s') (fun _ s' => I s') s := by
  have hl : ∀ n s, I s → wp (slots_loop E f t n) (fun _ s' => I s') (fun _ s' => I s') s := by
    intro n
    induction n with
    | zero =>
      intro s hs
      unfold slots_loop
      simp only [wps]
      exact ⟨fun _ _ => hs, fun _ _ => hs⟩
    | succ n ih =>
      intro s hs
      unfold slots_loop
      simp only [wps]
      exact ⟨fun _ => wp_mono (h s hs) (fun _ s' h' => ih s' h') fun _ _ h => h, fun _ => hs⟩
  unfold process_slots
  simp only [wps]
  exact ⟨fun _ _ => hl _ _ hs, fun _ _ => hs⟩

theorem eth1_votes {E : Env} {b : BeaconBlockBody} {s : State} :
    wp (process_eth1_data E b)
      (fun _ s' => s'.latest_block_header = s.latest_block_header ∧ s'.slot = s.slot ∧
        s'.eth1_data_votes.length = s.eth1_data_votes.length + 1)
      (fun _ s' => s'.latest_block_header = s.latest_block_header ∧ s'.slot = s.slot ∧
        s'.eth1_data_votes.length = s.eth1_data_votes.length + 1) s := by
  unfold process_eth1_data
  simp only [wps, List.length_append, List.length_singleton, implies_true,
    and_self]

theorem block_fit {E : Env} {f : Fork} {b : BeaconBlock} {s : State} (hs : VotesFit E s) :
    wp (process_block E f b) (fun _ s' => VotesFit E s') (fun _ s' => VotesFit E s') s := by
  -- after the header there is room for a vote
  let A : State → Prop := fun s =>
    s.latest_block_header.slot = s.slot ∧ s.eth1_data_votes.length ≤ s.slot % votingPeriodSlots E
  have hA : ∀ {s}, A s → VotesFit E s := by
    intro s h
    refine ⟨Nat.le_of_eq h.1, ?_⟩
    have := h.2
    split <;> omega
  have hF : ∀ {s s'}, A s → FewerVotes s s' → A s' := by
    intro s s' h h'
    refine ⟨by rw [h'.1, h'.2.1]; exact h.1, ?_⟩
    rw [h'.2.1]
    exact Nat.le_trans h'.2.2 h.2
  have h1 : wp (process_block_header E f b) (fun _ s' => A s') (fun _ s' => VotesFit E s') s := by
    unfold process_block_header
    simp only [wps, rejectIf_eq_ok, decide_eq_false_iff_not, not_not]
    refine ⟨fun _ hslot => ⟨fun _ hold => ⟨fun _ _ => ⟨fun _ _ => ⟨fun _ _ => ?_, fun _ _ => hs⟩,
      fun _ _ => hs⟩, fun _ _ => hs⟩, fun _ _ => hs⟩, fun _ _ => hs⟩
    have ha : A { s with
        latest_block_header := {
          slot := b.slot
          proposer_index := b.proposer_index
          parent_root := b.parent_root
          state_root := zeroBytes 32
          body_root := E.body_root f b.body } } := by
      refine ⟨hslot, ?_⟩
      have := hs.2
      rw [if_neg (by omega)] at this
      exact this
    exact ⟨fun _ _ => ⟨fun _ _ => ha, fun _ _ => hA ha⟩, fun _ _ => hA ha⟩
  unfold process_block
  rw [wp_bind]
  refine wp_mono h1 (fun _ s₁ a1 => ?_) fun _ _ h => h
  rw [wp_bind]
  refine wp_mono (fewer_mod (block_payload_mod (E := E) (f := f) (b := b)) (by decide) s₁)
    (fun _ s₂ h2 => ?_) fun _ _ h => hA (hF a1 h)
  have a2 := hF a1 h2
  rw [wp_bind]
  refine wp_mono (fewer_mod (randao_mod (E := E) (b := b.body)) (by decide) s₂)
    (fun _ s₃ h3 => ?_) fun _ _ h => hA (hF a2 h)
  have a3 := hF a2 h3
  have h4 : ∀ s', s'.latest_block_header = s₃.latest_block_header ∧ s'.slot = s₃.slot ∧
      s'.eth1_data_votes.length = s₃.eth1_data_votes.length + 1 → VotesFit E s' := by
    intro s' h
    refine ⟨by rw [h.1, h.2.1]; exact Nat.le_of_eq a3.1, ?_⟩
    rw [h.1, h.2.1, if_pos a3.1, h.2.2]
    have := a3.2
    omega
  rw [wp_bind]
  refine wp_mono eth1_votes (fun _ s₄ h => ?_) fun _ s' h => h4 s' h
  have v4 := h4 s₄ h
  rw [wp_bind]
  refine wp_mono (fewer_mod (operations_mod (E := E) (f := f) (b := b.body)) (by decide) s₄)
    (fun _ s₅ h5 => ?_) fun _ _ h => fewer_fit h v4
  have v5 := fewer_fit h5 v4
  have hsync : Pres FewerVotes (process_sync_aggregate E b.body.sync_aggregate) :=
    fewer_mod sync_aggregate_mod (by decide)
  cases f <;> first
    | exact v5
    | exact wp_mono (hsync s₅) (fun _ _ h => fewer_fit h v5) fun _ _ h => fewer_fit h v5

/-- Invariants of slots and blocks are invariants of every call of a chain client. -/
theorem chainCall_inv {E : Env} {f : Fork} {I : State → Prop}
    (h1 : ∀ s, I s → wp (slot_step E f) (fun _ s' => I s') (fun _ s' => I s') s)
    (h2 : ∀ s b, I s → wp (process_block E f b) (fun _ s' => I s') (fun _ s' => I s') s)
    {m : M Unit} (hm : ChainCall E f m) {s : State} (hs : I s) :
    wp m (fun _ s' => I s') (fun _ s' => I s') s := by
  have hin : ∀ b v s, I s → wp (state_transition_block_in_slot E f b v) (fun _ s' => I s')
      (fun _ s' => I s') s := by
    intro b v s hs
    unfold state_transition_block_in_slot
    rw [wp_bind]
    have hv : wp (verify_block_signature_if E f v b) (fun _ s' => I s') (fun _ s' => I s') s := by
      unfold verify_block_signature_if
      cases v <;> simp only [wps]
      · exact ⟨fun _ _ => hs, fun _ _ => hs⟩
      · exact hs
    refine wp_mono hv (fun _ s₁ h => ?_) fun _ _ h => h
    rw [wp_bind]
    refine wp_mono (h2 _ _ h) (fun _ s₂ h => ?_) fun _ _ h => h
    simp only [wps]
    exact ⟨fun _ _ => h, fun _ _ => h⟩
  cases hm with
  | process_slots => exact slots_inv h1 hs
  | process_block => exact h2 _ _ hs
  | state_transition =>
    unfold state_transition
    rw [wp_bind]
    exact wp_mono (slots_inv h1 hs) (fun _ s₁ h => hin _ _ _ h) fun _ _ h => h
  | state_transition_block_in_slot => exact hin _ _ _ hs

theorem wp_final {α : Type} {m : M α} {I : State → Prop} {s : State}
    (h : wp m (fun _ s' => I s') (fun _ s' => I s') s) : I (finalState m s) := by
  unfold wp at h
  unfold finalState
  cases hm : m s <;> rw [hm] at h <;> exact h

/-! Fork upgrades keep the fields all forks have. -/

theorem upgrade_common {E : Env} {g : Fork} {s s' : State} (h : upgrade_to E g s = .ok s') :
    s'.slot = s.slot ∧ s'.latest_block_header = s.latest_block_header ∧
    s'.eth1_data_votes = s.eth1_data_votes ∧
    s'.justification_bits = s.justification_bits ∧
    s'.previous_justified_checkpoint = s.previous_justified_checkpoint ∧
    s'.current_justified_checkpoint = s.current_justified_checkpoint ∧
    s'.finalized_checkpoint = s.finalized_checkpoint := by
  cases g <;> unfold upgrade_to at h <;> dsimp only at h
  case Phase0 => cases h
  case Altair =>
    unfold upgrade_to_altair at h
    simp only [run, runLocal_eq_ok] at h
    obtain ⟨e, _, post, hpost, c, _, rfl⟩ := h
    have hm := translate_mod.ok hpost
    exact ⟨hm .slot (by decide), hm .latest_block_header (by decide),
      hm .eth1_data_votes (by decide), hm .justification_bits (by decide),
      hm .previous_justified_checkpoint (by decide), hm .current_justified_checkpoint (by decide),
      hm .finalized_checkpoint (by decide)⟩
  case Electra =>
    unfold upgrade_to_electra at h
    simp only [run, runLocal_eq_ok] at h
    obtain ⟨e, _, x, _, y, _, h⟩ := h
    have hm : Modifies [.validators, .balances, .pending_balance_deposits,
        .exit_balance_to_consume, .consolidation_balance_to_consume] (electra_init_queues E) := by
      unfold electra_init_queues
      mods [queue_entire_mod, queue_excess_mod]
    have hm := hm.ok h
    exact ⟨hm .slot (by decide), hm .latest_block_header (by decide),
      hm .eth1_data_votes (by decide), hm .justification_bits (by decide),
      hm .previous_justified_checkpoint (by decide), hm .current_justified_checkpoint (by decide),
      hm .finalized_checkpoint (by decide)⟩
  all_goals
    first
      | unfold upgrade_to_bellatrix at h
      | unfold upgrade_to_capella at h
      | unfold upgrade_to_deneb at h
    simp only [run] at h
    obtain ⟨e, _, rfl⟩ := h
    exact ⟨rfl, rfl, rfl, rfl, rfl, rfl, rfl⟩

/-- The fields a fresh genesis state has by construction. -/
theorem genesis_common {E : Env} {f : Fork} {h : Bytes32} {t : Nat} {ds : List Deposit}
    {p : Option ExecutionPayloadHeader} {s : State}
    (hs : initialize_beacon_state_from_eth1 E f h t ds p = .ok s) :
    s.slot = 0 ∧ s.latest_block_header.slot = 0 ∧ s.eth1_data_votes = [] ∧
    s.justification_bits = [false, false, false, false] ∧
    s.previous_justified_checkpoint.epoch = 0 ∧ s.current_justified_checkpoint.epoch = 0 ∧
    s.finalized_checkpoint.epoch = 0 ∧
    s.slashings = List.replicate E.epochs_per_slashings_vector 0 := by
  unfold initialize_beacon_state_from_eth1 genesis_candidate at hs
  simp only [run] at hs
  obtain ⟨_, ⟨gt, _, rfl⟩, hs⟩ := hs
  rw [runLocal_eq_ok] at hs
  have hdep : ∀ (ds : List Deposit) (l : List DepositData),
      Modifies [.eth1_data, .eth1_deposit_index, .validators, .balances,
        .previous_epoch_participation, .current_epoch_participation, .inactivity_scores,
        .pending_balance_deposits] (genesis_deposits E f l ds) := by
    intro ds
    induction ds with
    | nil => intro l; unfold genesis_deposits; mods
    | cons d ds ih => intro l; unfold genesis_deposits; mods [deposit_mod, ih _]
  have hm : Modifies [.eth1_data, .eth1_deposit_index, .validators, .balances,
      .previous_epoch_participation, .current_epoch_participation, .inactivity_scores,
      .pending_balance_deposits, .genesis_validators_root, .current_sync_committee,
      .next_sync_committee] (genesis_fill E f ds) := by
    unfold genesis_fill genesis_pending_deposits genesis_activate genesis_sync_committees
    mods [hdep _ _, increase_mod]
  have hm := hm.ok hs
  have e1 : s.slot = 0 := hm .slot (by decide)
  have e2 : s.latest_block_header = _ := hm .latest_block_header (by decide)
  have e3 : s.previous_justified_checkpoint = _ := hm .previous_justified_checkpoint (by decide)
  have e4 : s.current_justified_checkpoint = _ := hm .current_justified_checkpoint (by decide)
  have e5 : s.finalized_checkpoint = _ := hm .finalized_checkpoint (by decide)
  exact ⟨e1, by rw [e2]; rfl, hm .eth1_data_votes (by decide), hm .justification_bits (by decide),
    by rw [e3]; rfl, by rw [e4]; rfl, by rw [e5]; rfl, hm .slashings (by decide)⟩

theorem onChain_fit {E : Env} (hE : SaneConfig E) (hP : 0 < E.epochs_per_eth1_voting_period)
    {f : Fork} {s : State} (h : OnChain E f s) : VotesFit E s := by
  induction h with
  | genesis h =>
    obtain ⟨h1, h2, h3, _⟩ := genesis_common h
    refine ⟨by omega, ?_⟩
    rw [h3]; exact Nat.zero_le _
  | call _ hm ih => exact wp_final (chainCall_inv (fun _ => slot_step_fit hE hP)
      (fun _ _ => block_fit) hm ih)
  | upgrade _ _ h ih =>
    obtain ⟨h1, h2, h3, _⟩ := upgrade_common h
    unfold VotesFit
    rw [h1, h2, h3]
    exact ih

end Verif
