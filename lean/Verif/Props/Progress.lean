import Verif.Proofs.SafetyTransition
import Verif.Props.Rewards
import Verif.Props.Safety

/-!
# C66: advancing the chain does not panic

"Epoch processing, the advance to a later slot and the whole state transition return Ok or Err and never
panic; the state they leave is well-formed again." For every fork before Electra. What is assumed of
the state is in `Verif/Spec/Safety.lean`; of the block nothing is assumed beyond what the limits of its
type and of the supply imply.

The claim is false when nobody is active in the next epoch: `C66_nobody_panics`.
-/

namespace Verif.Props

open Spec

variable {E : Env} {s : State} {f : Fork}

/-- Epoch processing never panics. -/
theorem C66_epoch (hE : SaneConfig E) (hq : SaneQuotients E) (hx : SaneEpochs E)
    (hf : f ≠ .Electra) (h : Wellformed E s) (he : EpochReady E f s) :
    NeverPanics (process_epoch E f) s :=
  (epoch_calm hE hq hx hf h he).neverPanics

/-- And the state it leaves is well-formed again. -/
theorem C66_epoch_wellformed (hE : SaneConfig E) (hq : SaneQuotients E) (hx : SaneEpochs E)
    (hf : f ≠ .Electra) (h : Wellformed E s) (he : EpochReady E f s) {s' : State}
    (hok : process_epoch E f s = .ok () s') : Wellformed E s' :=
  ((epoch_calm hE hq hx hf h he).ok hok).1

/-- The advance over any number of slots and epochs never panics, if the states at the ends of the
epochs on the way are ready for epoch processing. -/
theorem C66_slots (hE : SaneConfig E) (hq : SaneQuotients E) (hx : SaneEpochs E)
    (hf : f ≠ .Electra) (h : Wellformed E s) {slot : Nat} (hs : slot < 2 ^ 48)
    (he : ∀ t, (t = s ∨ ∃ k < slot, process_slots E f k s = .ok () t) →
      (t.slot + 1) % E.slots_per_epoch = 0 → EpochReady E f t) :
    NeverPanics (process_slots E f slot) s :=
  (slots_calm hE (steady hE hq hx hf) h hs he).neverPanics

/-- In particular to any slot of this epoch or of the next, if the state is ready now. -/
theorem C66_next_epoch (hE : SaneConfig E) (hq : SaneQuotients E) (hx : SaneEpochs E)
    (hf : f ≠ .Electra) (h : Wellformed E s) (he : EpochReady E f s) {slot : Nat}
    (hs : slot < 2 ^ 48) (hn : epochOf E slot ≤ epochOf E s.slot + 1) :
    NeverPanics (process_slots E f slot) s :=
  (next_epoch_calm hE (steady hE hq hx hf) h he hs hn).neverPanics

/-- Slots alone never panic: within an epoch nothing is needed but a well-formed state. -/
theorem C66_within_epoch (hE : SaneConfig E) (hq : SaneQuotients E) (hx : SaneEpochs E)
    (hf : f ≠ .Electra) (h : Wellformed E s) {slot : Nat}
    (hs : slot < 2 ^ 48) (hn : epochOf E slot = epochOf E s.slot) :
    NeverPanics (process_slots E f slot) s := by
  have hpos := hE.slots_per_epoch
  by_cases hlt : s.slot < slot
  · refine C66_slots hE hq hx hf h hs fun t ht h0 => ?_
    exfalso
    have key : s.slot ≤ t.slot ∧ t.slot < slot := by
      rcases ht with rfl | ⟨k, hk, ht⟩
      · exact ⟨Nat.le_refl _, hlt⟩
      · have := process_slots_slot ht; omega
    have a1 : (t.slot + 1) / E.slots_per_epoch ≤ slot / E.slots_per_epoch :=
      Nat.div_le_div_right (by omega)
    have a2 : s.slot / E.slots_per_epoch ≤ t.slot / E.slots_per_epoch :=
      Nat.div_le_div_right (by omega)
    have a3 : t.slot / E.slots_per_epoch + 1 = (t.slot + 1) / E.slots_per_epoch := by
      rw [Nat.succ_div, if_pos (Nat.dvd_of_mod_eq_zero h0)]
    unfold epochOf at hn
    omega
  · intro k s' hk
    rw [process_slots_eq, if_neg hlt] at hk
    cases hk

/-- The state transition for a block in this epoch or the next never panics, whatever the block and its
signature. -/
theorem C66_transition (hE : SaneConfig E) (hq : SaneQuotients E) (hx : SaneEpochs E)
    (hf : f ≠ .Electra) (h : Wellformed E s) (he : EpochReady E f s) (b : SignedBeaconBlock)
    (v : Validation) (hs : b.message.slot < 2 ^ 48)
    (hn : epochOf E b.message.slot ≤ epochOf E s.slot + 1)
    (hb : ∀ t, process_slots E f b.message.slot s = .ok () t → BlockReady E f t b.message.body) :
    NeverPanics (state_transition E f b v) s :=
  (transition_calm hE (next_epoch_calm hE (steady hE hq hx hf) h he hs hn) fun t ht wt =>
    block_calm hE hq hf wt (hb t ht)).neverPanics

/-- The same over any number of epochs. -/
theorem C66_transition_far (hE : SaneConfig E) (hq : SaneQuotients E) (hx : SaneEpochs E)
    (hf : f ≠ .Electra) (h : Wellformed E s) (b : SignedBeaconBlock) (v : Validation)
    (hs : b.message.slot < 2 ^ 48)
    (he : ∀ t, (t = s ∨ ∃ k < b.message.slot, process_slots E f k s = .ok () t) →
      (t.slot + 1) % E.slots_per_epoch = 0 → EpochReady E f t)
    (hb : ∀ t, process_slots E f b.message.slot s = .ok () t → BlockReady E f t b.message.body) :
    NeverPanics (state_transition E f b v) s :=
  (transition_calm hE (slots_calm hE (steady hE hq hx hf) h hs he) fun t ht wt =>
    block_calm hE hq hf wt (hb t ht)).neverPanics

/-- A well-formed state goes to a well-formed state. -/
theorem C66_transition_wellformed (hE : SaneConfig E) (hq : SaneQuotients E) (hx : SaneEpochs E)
    (hf : f ≠ .Electra) (h : Wellformed E s) (b : SignedBeaconBlock) (v : Validation)
    (hs : b.message.slot < 2 ^ 48)
    (he : ∀ t, (t = s ∨ ∃ k < b.message.slot, process_slots E f k s = .ok () t) →
      (t.slot + 1) % E.slots_per_epoch = 0 → EpochReady E f t)
    (hb : ∀ t, process_slots E f b.message.slot s = .ok () t → BlockReady E f t b.message.body)
    {s' : State} (hok : state_transition E f b v s = .ok () s') : Wellformed E s' :=
  (transition_calm hE (slots_calm hE (steady hE hq hx hf) h hs he) fun t ht wt =>
    block_calm hE hq hf wt (hb t ht)).ok hok

/-! ## Nobody active in the next epoch -/

/-- Everyone leaves with epoch 8, when a new sync committee is due. -/
def deserted : State := { Toy.state 8 63 with
  validators := (Toy.state 8 63).validators.map fun v => { v with exit_epoch := 8 } }

/-- The negation without that condition: a well-formed state, to whose last slot nothing is objected,
makes the choice of the sync committee divide by zero. -/
theorem C66_nobody_panics :
    Wellformed Toy.env deserted ∧ effectiveSum deserted ≤ 2 ^ 56 ∧
      Toy.errorOf (process_slots Toy.env .Altair 64) deserted = some (.panic .divByZero) := by
  refine ⟨⟨by constructor <;> decide +kernel, ?_, ?_, ?_, ?_, ?_⟩, ?_, ?_⟩ <;> decide +kernel

/-! ## The hypotheses hold of concrete states -/

theorem toy_epochs : SaneEpochs Toy.env := by constructor <;> decide +kernel

theorem diligent_wellformed : Wellformed Toy.env diligent := by
  refine ⟨by constructor <;> decide +kernel, ?_, ?_, ?_, ?_, ?_⟩ <;> decide +kernel

/-- In phase0, with attestations of every validator recorded. -/
theorem diligent_ready : EpochReady Toy.env .Phase0 diligent := by
  refine ⟨?_, ?_, ?_, ?_, ?_, ?_, ?_, ?_, ?_, ?_, ?_⟩
  case refine_7 => unfold Parallel; decide +kernel
  case refine_10 =>
    have key : ∀ a ∈ diligent.previous_epoch_attestations ++ diligent.current_epoch_attestations,
        a.data.slot < 2 ^ 48 ∧
        a.data.index < committeeCount Toy.env diligent (epochOf Toy.env a.data.slot) ∧
        a.proposer_index < diligent.validators.length ∧ 0 < a.inclusion_delay := by
      decide +kernel
    exact fun _ a ha => ⟨(key a ha).1, (key a ha).2.1, (key a ha).2.2.1, (key a ha).2.2.2⟩
  all_goals decide +kernel

example : NeverPanics (process_slots Toy.env .Phase0 24) diligent :=
  C66_next_epoch toy_sane toy_quotients toy_epochs (by decide) diligent_wellformed diligent_ready
    (by decide) (by decide)

/-- The last slot of an epoch, with a validator to slash for, one to eject and one to activate. -/
def busyEpoch : State :=
  let s := Toy.state 20 511
  { s with
    slashings := s.slashings.set 3 64000000000
    validators := ((s.validators.set 1 { Toy.validator 1 with
        slashed := true, exit_epoch := 70, withdrawable_epoch := 95 }).set 2
      { Toy.validator 2 with effective_balance := 16000000000 }).set 3
      { Toy.validator 3 with
        activation_eligibility_epoch := 61, activation_epoch := FAR_FUTURE_EPOCH }
    balances := (s.balances.set 1 31000000000).set 2 15000000000
    previous_epoch_participation := (List.range 20).map fun i => if i < 15 then 7 else 0
    finalized_checkpoint := Toy.checkpoint 62
    previous_justified_checkpoint := Toy.checkpoint 62
    current_justified_checkpoint := Toy.checkpoint 62 }

theorem busyEpoch_wellformed : Wellformed Toy.env busyEpoch := by
  refine ⟨by constructor <;> decide +kernel, ?_, ?_, ?_, ?_, ?_⟩ <;> decide +kernel

theorem busyEpoch_ready : EpochReady Toy.env .Deneb busyEpoch := by
  refine ⟨?_, ?_, ?_, ?_, ?_, ?_, ?_, ?_, ?_, ?_, ?_⟩
  case refine_7 => unfold Parallel; decide +kernel
  case refine_9 => exact fun _ => ⟨Toy.validator 0, by decide +kernel, by decide +kernel⟩
  case refine_10 => exact fun h => absurd h (by decide)
  all_goals decide +kernel

example : NeverPanics (process_slots Toy.env .Deneb 512) busyEpoch :=
  C66_next_epoch toy_sane toy_quotients toy_epochs (by decide) busyEpoch_wellformed busyEpoch_ready
    (by decide) (by decide)

example : Toy.succeeds (process_slots Toy.env .Deneb 512) busyEpoch = true := by decide +kernel

/-- The end of epoch 1, and the state after the advance. -/
def lastSlot : State := Toy.state 8 15

def nextEpoch : State := finalState (process_slots Toy.env .Deneb 16) lastSlot

theorem lastSlot_wellformed : Wellformed Toy.env lastSlot := by
  refine ⟨by constructor <;> decide +kernel, ?_, ?_, ?_, ?_, ?_⟩ <;> decide +kernel

theorem lastSlot_ready : EpochReady Toy.env .Deneb lastSlot := by
  refine ⟨?_, ?_, ?_, ?_, ?_, ?_, ?_, ?_, ?_, ?_, ?_⟩
  case refine_7 => unfold Parallel; decide +kernel
  case refine_9 => exact fun _ => ⟨Toy.validator 0, by decide +kernel, by decide +kernel⟩
  case refine_10 => exact fun h => absurd h (by decide)
  all_goals decide +kernel

theorem nextEpoch_ready : BlockReady Toy.env .Deneb nextEpoch (Toy.body lastSlot) := by
  refine ⟨?_, ?_, ?_, ?_, ?_, ?_, ?_, ?_, ?_, ?_, ?_, ?_, ?_⟩
  case refine_10 => unfold Parallel; decide +kernel
  case refine_11 => intro _; unfold ClockFits; decide +kernel
  case refine_12 =>
    exact fun _ => ⟨by decide +kernel, by decide +kernel, by decide +kernel, by decide +kernel,
      by decide +kernel, by decide +kernel, by decide +kernel⟩
  all_goals decide +kernel

example (v : Validation) (b : SignedBeaconBlock) (hs : b.message.slot = 16)
    (hb : b.message.body = Toy.body lastSlot) :
    NeverPanics (state_transition Toy.env .Deneb b v) lastSlot := by
  refine C66_transition toy_sane toy_quotients toy_epochs (by decide) lastSlot_wellformed
    lastSlot_ready _ _ (by omega) (by rw [hs]; decide) fun t ht => ?_
  rw [hs] at ht
  have : t = nextEpoch := by unfold nextEpoch finalState; rw [ht]
  rw [this, hb]
  exact nextEpoch_ready

end Verif.Props
