import Verif.Proofs.AdvanceElectraBlock
import Verif.Props.Advance
import Verif.Props.SafetyElectra

/-! # C96: electra's chain is never stuck -/

namespace Verif.Props

open Spec

variable {E : Env} {s : State}

/-- **C96** Epoch processing succeeds, but for the draw of a sync committee. -/
theorem C96_electra_epoch (hE : SaneConfig E) (hq : SaneQuotients E) (hx : SaneEpochs E)
    (hk : SaneClock E) (hz : SaneElectra E) (h : Wellformed E s) (hqs : Queues E s)
    (he : ElectraEpochReady E s) (hs : (s.slot + 1) % E.slots_per_epoch = 0) :
    (∃ s', process_epoch E .Electra s = .ok () s' ∧ Wellformed E s' ∧ Queues E s') ∨
      DrawSlot E (s.slot + 1) ∧
        ∃ e s', process_epoch E .Electra s = .error e s' ∧ (e = .diverged ∨ e = .bls) := by
  have h1 : s.slot % E.slots_per_epoch ≠ 0 := by
    have h2 := hk.epoch
    intro h0
    rw [Nat.add_mod, h0, Nat.zero_add, Nat.mod_mod, Nat.mod_eq_of_lt (by omega)] at hs
    cases hs
  rcases ((electra_epoch_calm hE hq hx hz h hqs he).sure
    (electra_epoch_firm hE hq hx hk hz h hqs he h1)).cases with
    ⟨s', h2, h3, -⟩ | ⟨e, s', h2, h3, h4, h5⟩
  · exact .inl ⟨s', h2, h3⟩
  · exact .inr ⟨draw_slot hs h4, e, s', h2, h5⟩

/-- **C96** The state can be advanced to any slot of its epoch and of the next, with the same
exception. -/
theorem C96_electra_slots (hE : SaneConfig E) (hq : SaneQuotients E) (hx : SaneEpochs E)
    (hk : SaneClock E) (hz : SaneElectra E) (h : Wellformed E s) (hqs : Queues E s)
    (he : ElectraEpochReady E s) {slot : Nat} (hlt : s.slot < slot) (hs : slot < 2 ^ 48)
    (hn : epochOf E slot ≤ epochOf E s.slot + 1) :
    (∃ s', process_slots E .Electra slot s = .ok () s' ∧ (Wellformed E s' ∧ Queues E s') ∧
      s'.slot = slot) ∨
      (∃ n, s.slot < n ∧ n ≤ slot ∧ DrawSlot E n) ∧
        ∃ e s', process_slots E .Electra slot s = .error e s' ∧ (e = .diverged ∨ e = .bls) := by
  rcases (next_epoch_sure hE hk (electra_driven hE hq hx hk hz) ⟨h, hqs⟩ he hlt hs hn).cases with
    h | ⟨e, s', h, -, h2, h3⟩
  · exact .inl h
  · exact .inr ⟨h2, e, s', h, h3⟩

/-- **C96** So it is certain if no committee is drawn on the way. -/
theorem C96_electra_slots_certain (hE : SaneConfig E) (hq : SaneQuotients E) (hx : SaneEpochs E)
    (hk : SaneClock E) (hz : SaneElectra E) (h : Wellformed E s) (hqs : Queues E s)
    (he : ElectraEpochReady E s) {slot : Nat} (hlt : s.slot < slot) (hs : slot < 2 ^ 48)
    (hn : epochOf E slot ≤ epochOf E s.slot + 1)
    (hd : ∀ n, s.slot < n → n ≤ slot → ¬ DrawSlot E n) :
    ∃ s', process_slots E .Electra slot s = .ok () s' ∧ (Wellformed E s' ∧ Queues E s') ∧
      s'.slot = slot := by
  rcases C96_electra_slots hE hq hx hk hz h hqs he hlt hs hn with h | ⟨⟨n, h2, h3, h4⟩, -⟩
  · exact h
  · exact absurd h4 (hd n h2 h3)

/-- **C96** A block without operations is accepted exactly when it fits the state. -/
theorem C96_electra_block (hE : SaneConfig E) (hq : SaneQuotients E) (hz : SaneElectra E)
    (hmax : 0 < E.max_deposits) (hV : E.min_seed_lookahead + 2 < E.epochs_per_historical_vector)
    (h : Wellformed E s) (hqs : Queues E s) (b : BeaconBlock) (hb : ElectraBlockReady E s b.body)
    (hn : NoOperations b.body) (hn' : NoRequests b.body) :
    (∃ s', process_block E .Electra b s = .ok () s') ↔ ElectraAcceptable E s b := by
  constructor
  · rintro ⟨s', hok⟩
    refine ⟨(C86_header hmax hok).1, (C86_reveal hE hmax hok).1,
      ((C86_payload hE hmax hok).1 trivial).1, ?_, ?_, C86_sync hmax (by decide) hok⟩
    · obtain ⟨a0, a1, a2, a3, a4, a5, a6, hp⟩ := phases hmax hok
      obtain ⟨t1, t2, t3, t4, h1, h2, h3, h4, h5⟩ := opening_states hp.opening
      obtain ⟨-, rfl⟩ := process_block_header_eq_ok.1 h1
      simp only [show Fork.withdraws .Electra = true from rfl, if_true] at h2
      have hs := hb.sweep
      have hpay := electraPays_header (h := s.latest_block_header) (electra_withdrawals_ok
        (s := { s with latest_block_header := headerOf E .Electra b })
        hE hz (hqs.congr rfl rfl rfl rfl) ⟨hs.1, hs.2, hs.3, hs.4, hs.5, hs.6, hs.7⟩ h2)
      exact hpay
    · obtain ⟨-, -, hc⟩ := C86_deposits hE hmax hok
      have hv := (C86_vote hmax hok).2
      have : eth1After E s b.body = s'.eth1_data := hv.symm
      rw [this]
      exact hc
  · intro ha
    obtain ⟨s', h1, -⟩ := electra_plain_block hE hq hz hmax hV h hqs hb hn hn' ha
    exact ⟨s', h1⟩

/-- **C96** In every state somebody can propose in, there is a block that is accepted, with all
checks: the proposer signs the epoch and the block, and the engine builds the payload. -/
theorem C96_electra_block_exists (hE : SaneConfig E) (hq : SaneQuotients E) (hz : SaneElectra E)
    (hmax : 0 < E.max_deposits) (hV : E.min_seed_lookahead + 2 < E.epochs_per_historical_vector)
    (h : Wellformed E s) (hqs : Queues E s) (he : ElectraBuilds E) {p : Nat}
    (hp : ElectraCanPropose E s p)
    (hb : ElectraBlockReady E s (quietBody E s (zeroBytes 96) defaultPayload)) :
    ∃ b : SignedBeaconBlock, b.message.slot = s.slot ∧ b.message.proposer_index = p ∧
      NoOperations b.message.body ∧ NoRequests b.message.body ∧
      ∃ s', state_transition_block_in_slot E .Electra b .Enabled s = .ok () s' ∧
        Wellformed E s' ∧ Queues E s' := by
  obtain ⟨hfresh, hel, ⟨v, hv, hsl, hsign⟩, hdep⟩ := hp
  have hpos := hE.slots_per_epoch
  obtain ⟨mix, hmix⟩ := mixAt_exists (e := epochOf E s.slot) hE h
  obtain ⟨reveal, hrev⟩ := hsign (E.signing_data_root (E.u64_root (epochOf E s.slot))
    (domainAt E s .Randao (epochOf E s.slot)))
  obtain ⟨ws, -, -, hws, -⟩ := electra_expected hE hz hqs hb.sweep
  obtain ⟨pl, k1, k2, k3, k4, k5, k6, k7⟩ := he s.latest_execution_payload_header.block_hash mix
    (s.genesis_time + s.slot * E.seconds_per_slot) ws (E.header_root s.latest_block_header)
  let body := quietBody E s reveal pl
  let blk : Root → BeaconBlock := fun r =>
    ⟨s.slot, p, E.header_root s.latest_block_header, r, body⟩
  have hready : ElectraBlockReady E s body := by
    have h5 := hb.registry
    refine ⟨hb.1, hb.2, hb.3, hb.4, ?_, hb.6, hb.7, hb.8, hb.9, hb.10, hb.11, ?_, hb.13, hb.14⟩
    · show s.validators.length + 0 + pl.deposit_receipts.length ≤ 2 ^ 40
      rw [k6]
      simp only [List.length_nil]
      omega
    · show pl.withdrawal_requests.length ≤ 2 ^ 10
      rw [k5]
      decide
  have hno : NoOperations body := ⟨rfl, rfl, rfl, rfl, rfl, rfl⟩
  have hno' : NoRequests body := ⟨k5, k6, rfl⟩
  have hacc : ElectraAcceptable E s (blk (zeroBytes 32)) := by
    refine ⟨⟨rfl, hfresh, hel, rfl, v, hv, hsl⟩, ⟨p, v, hel, hv, hrev⟩, ?_, ?_, ?_, ?_⟩
    · refine ⟨fun _ => k1, ?_, k3, hb.clock, fun _ => Nat.zero_le _, k7 _ _ rfl rfl rfl⟩
      show mixAt E s (epochOf E s.slot) = some pl.prev_randao
      rw [k2]; exact hmix
    · show ElectraPays E s pl.withdrawals
      rw [k4]; exact hws
    · show min (eth1After E s body).deposit_count _ ≤ s.eth1_deposit_index
      unfold eth1After
      rw [show body.eth1_data = s.eth1_data from rfl, ite_self]
      exact hdep
    · have hh := hE.slots_per_historical_root
      have hl := h.shaped.block_roots
      have hm := Nat.mod_lt (s.slot - 1) (show 0 < E.slots_per_historical_root by omega)
      have hslot := h.slot
      exact ⟨_, block_root_at_slot_eq_ok.2 ⟨by omega, by omega, by unfold U64_BOUND; omega,
        by omega, List.getElem?_eq_getElem (by rw [hl]; exact hm)⟩,
        .inl ⟨signers_none _ _, rfl⟩⟩
  obtain ⟨s', hok, hwf, -⟩ := electra_plain_block hE hq hz hmax hV h hqs hready hno hno' hacc
  obtain ⟨sig, hsig⟩ := hsign (E.signing_data_root (E.block_root .Electra (blk (E.state_root .Electra s')))
    (domainAt E s .BeaconProposer (epochOf E s.slot)))
  refine ⟨⟨blk (E.state_root .Electra s'), sig⟩, rfl, rfl, hno, hno', s', ?_, hwf⟩
  exact (block_in_slot_enabled (Nat.ne_of_gt hpos.1)).2 ⟨⟨v, hv, hsig⟩, hok, rfl⟩

/-- **C96** The chain goes on: from any state a block can be put into any slot of this epoch and of
the next, if somebody can propose there. -/
theorem C96_electra_goes_on (hE : SaneConfig E) (hq : SaneQuotients E) (hx : SaneEpochs E)
    (hk : SaneClock E) (hz : SaneElectra E) (hmax : 0 < E.max_deposits)
    (hV : E.min_seed_lookahead + 2 < E.epochs_per_historical_vector)
    (h : Wellformed E s) (hqs : Queues E s) (hr : ElectraEpochReady E s)
    {slot : Nat} (hlt : s.slot < slot) (hs : slot < 2 ^ 48)
    (hn : epochOf E slot ≤ epochOf E s.slot + 1)
    (hd : ∀ n, s.slot < n → n ≤ slot → ¬ DrawSlot E n) (he : ElectraBuilds E)
    (hp : ∀ t, process_slots E .Electra slot s = .ok () t →
      (∃ p, ElectraCanPropose E t p) ∧
        ElectraBlockReady E t (quietBody E t (zeroBytes 96) defaultPayload)) :
    ∃ b : SignedBeaconBlock, b.message.slot = slot ∧
      ∃ s', state_transition E .Electra b .Enabled s = .ok () s' ∧ Wellformed E s' ∧
        Queues E s' := by
  obtain ⟨t, ht, hwt, hts⟩ := C96_electra_slots_certain hE hq hx hk hz h hqs hr hlt hs hn hd
  obtain ⟨⟨p, hp⟩, hb⟩ := hp t ht
  obtain ⟨b, h1, -, -, -, s', h2, h3⟩ :=
    C96_electra_block_exists hE hq hz hmax hV hwt.1 hwt.2 he hp hb
  exact ⟨b, h1.trans hts, s', transition_eq_ok.2 ⟨t, by rw [h1, hts]; exact ht, h2⟩, h3⟩

/-! ## Examples -/

example := C96_electra_epoch toy_sane toy_quotients toy_epochs toy_clock toy_electra
  queuedEpoch_wellformed queuedEpoch_queues queuedEpoch_ready (by decide)

/-- One epoch earlier, when no committee is drawn. -/
def earlierEpoch : State := { queuedEpoch with
  slot := 503
  finalized_checkpoint := { queuedEpoch.finalized_checkpoint with epoch := 60 } }

theorem earlierEpoch_wellformed : Wellformed Toy.env earlierEpoch := by
  refine ⟨by constructor <;> decide +kernel, ?_, ?_, ?_, ?_, ?_⟩ <;> decide +kernel

theorem earlierEpoch_queues : Queues Toy.env earlierEpoch := queues_of (by decide +kernel)

theorem earlierEpoch_ready : ElectraEpochReady Toy.env earlierEpoch := by
  refine ⟨?_, ?_, ?_, ?_, ?_, ?_, ?_, ?_, ?_, ?_, ?_, ?_, ?_⟩
  case refine_8 => unfold Parallel; decide +kernel
  case refine_10 => exact ⟨Toy.validator 0, by decide +kernel, by decide +kernel⟩
  all_goals decide +kernel

/-- There is something in every queue. -/
example : earlierEpoch.pending_balance_deposits.length = 2 ∧
    earlierEpoch.pending_consolidations.length = 1 ∧
    (earlierEpoch.slot + 1) % Toy.env.slots_per_epoch = 0 := by decide +kernel

example : ∃ s', process_slots Toy.env .Electra 504 earlierEpoch = .ok () s' ∧
    (Wellformed Toy.env s' ∧ Queues Toy.env s') ∧ s'.slot = 504 :=
  C96_electra_slots_certain toy_sane toy_quotients toy_epochs toy_clock toy_electra
    earlierEpoch_wellformed earlierEpoch_queues earlierEpoch_ready (by decide) (by decide)
    (by decide) fun n h1 h2 => by
      have : n = 504 := by have : earlierEpoch.slot = 503 := rfl; omega
      subst this; unfold DrawSlot; decide

theorem toy_electra_builds : ElectraBuilds Toy.env := by
  intro parent mix time ws root
  refine ⟨{ defaultPayload with
    parent_hash := parent, prev_randao := mix, timestamp := time, withdrawals := ws },
    rfl, rfl, rfl, rfl, rfl, rfl, fun s body _ h _ => ?_⟩
  simp only [payload_request, h]
  rfl

/-- In epoch 65, with something in every queue and nothing in the block. -/
theorem queued_quiet : ElectraBlockReady Toy.env queuedState
    (quietBody Toy.env queuedState (zeroBytes 96) defaultPayload) := by
  refine ⟨?_, ?_, ?_, ?_, ?_, ?_, ?_, ?_, ?_, ?_, ?_, ?_, ?_, ?_⟩
  case refine_8 => unfold Parallel; decide +kernel
  case refine_9 => unfold ClockFits; decide +kernel
  case refine_10 => constructor <;> decide +kernel
  all_goals decide +kernel

theorem queued_proposer : ∃ p, ElectraCanPropose Toy.env queuedState p := by
  have key : (match get_beacon_proposer_index Toy.env queuedState with
      | .ok p => match queuedState.validators[p]? with
        | some v => !v.slashed
        | none => false
      | .error _ => false) = true := by decide +kernel
  split at key
  · rename_i p hp
    split at key
    · rename_i v hv
      exact ⟨p, by decide +kernel, hp, ⟨v, hv, by simpa using key, toy_signs _⟩, by decide +kernel⟩
    · cases key
  · cases key

/-- The block pays the request that is due. -/
example : ∃ b : SignedBeaconBlock, b.message.slot = queuedState.slot ∧
    NoOperations b.message.body ∧
    ∃ s', state_transition_block_in_slot Toy.env .Electra b .Enabled queuedState = .ok () s' := by
  obtain ⟨p, hp⟩ := queued_proposer
  obtain ⟨b, h1, -, h2, -, s', h3, -⟩ := C96_electra_block_exists toy_sane toy_quotients toy_electra
    (by decide) (by decide) queued_wellformed queued_queues toy_electra_builds hp queued_quiet
  exact ⟨b, h1, h2, s', h3⟩

example : (nextRequests Toy.env queuedState).length = 1 := by decide +kernel

end Verif.Props
