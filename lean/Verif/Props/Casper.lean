import Verif.Proofs.Casper
import Verif.Props.Shuffling
import Verif.Examples.Blocks

/-! # C19: justification and finalization -/

namespace Verif.Props

open Spec

/-- **C19** The end of an epoch justifies the current or the previous epoch exactly if two thirds of
the active balance voted for it, shifts the checkpoints and bits, and finalizes by the four rules;
at the end of the first two epochs nothing happens. -/
theorem C19_rules (E : Env) (f : Fork) (s s' : State) (hlen : s.justification_bits.length = 4)
    (h : process_justification_and_finalization E f s = .ok () s') :
    epochOf E s.slot ≤ 1 ∧ s' = s ∨
    1 < epochOf E s.slot ∧ ∃ jp jc, Weighed E s s' jp jc ∧
      (jp = true ↔ Supermajority E f s (epochOf E s.slot - 1)) ∧
      (jc = true ↔ Supermajority E f s (epochOf E s.slot)) :=
  justification_ok hlen h

/-- **C19** In every run of the chain, through invalid blocks, skipped slots and fork upgrades, the
checkpoints stay in order and belong to justified epochs. -/
theorem C19_order (E : Env) (f₀ f : Fork) (s₀ s : State) (J₀ J : Nat → Prop)
    (ho : Ordered E s₀ J₀) (h : CasperRun E f₀ s₀ J₀ f s J) :
    Ordered E s J :=
  (casperRun_ordered ho h).1

/-- **C19** The justified and finalized epochs never move backwards. -/
theorem C19_monotone (E : Env) (f₀ f : Fork) (s₀ s : State) (J₀ J : Nat → Prop)
    (ho : Ordered E s₀ J₀) (h : CasperRun E f₀ s₀ J₀ f s J) :
    s₀.current_justified_checkpoint.epoch ≤ s.current_justified_checkpoint.epoch ∧
    s₀.previous_justified_checkpoint.epoch ≤ s.previous_justified_checkpoint.epoch ∧
    s₀.finalized_checkpoint.epoch ≤ s.finalized_checkpoint.epoch :=
  (casperRun_ordered ho h).2.2

/-- **C19** Runs can begin at genesis: there only epoch 0 counts as justified. -/
theorem C19_genesis (E : Env) (f : Fork) (h : Bytes32) (t : Nat) (ds : List Deposit)
    (p : Option ExecutionPayloadHeader) (s : State)
    (hs : initialize_beacon_state_from_eth1 E f h t ds p = .ok s) :
    Ordered E s fun e => e = 0 :=
  genesis_ordered hs

/-- **C19** A checkpoint becomes justified only at the end of its epoch or of the epoch after, by a
supermajority, and it has the block root of the epoch. -/
theorem C19_justified (E : Env) (f₀ f : Fork) (s₀ s s' : State) (J₀ J : Nat → Prop)
    (ho : Ordered E s₀ J₀) (h : CasperRun E f₀ s₀ J₀ f s J)
    (hs : process_slots E f (s.slot + 1) s = .ok () s')
    (hne : s'.current_justified_checkpoint ≠ s.current_justified_checkpoint) :
    (s.slot + 1) % E.slots_per_epoch = 0 ∧
    (s'.current_justified_checkpoint.epoch = epochOf E s.slot ∨
      s'.current_justified_checkpoint.epoch + 1 = epochOf E s.slot) ∧
    Supermajority E f (finalState (process_slot E f) s) s'.current_justified_checkpoint.epoch ∧
    get_block_root E (finalState (process_slot E f) s) s'.current_justified_checkpoint.epoch =
      .ok s'.current_justified_checkpoint.root :=
  (slot_step_casper (casperRun_ordered ho h).1 (process_slots_one hs)).2.2.resolve_left hne

/-- **C19** A checkpoint is finalized only if it was justified before, at most three epochs ago, and
all epochs from there to this one, and in any case the epoch after it, are justified, too. -/
theorem C19_finalized (E : Env) (f₀ f : Fork) (s₀ s s' : State) (J₀ J J' : Nat → Prop)
    (ho : Ordered E s₀ J₀) (h : CasperRun E f₀ s₀ J₀ f s J)
    (hs : process_slots E f (s.slot + 1) s = .ok () s')
    (hJ' : ∀ e, J' e ↔ J e ∨ (s.slot + 1) % E.slots_per_epoch = 0 ∧ 1 < epochOf E s.slot ∧
      (e = epochOf E s.slot ∨ e + 1 = epochOf E s.slot) ∧
      Supermajority E f (finalState (process_slot E f) s) e)
    (hne : s'.finalized_checkpoint ≠ s.finalized_checkpoint) :
    (s'.finalized_checkpoint = s.previous_justified_checkpoint ∨
      s'.finalized_checkpoint = s.current_justified_checkpoint) ∧
    s'.finalized_checkpoint.epoch < epochOf E s.slot ∧
    epochOf E s.slot ≤ s'.finalized_checkpoint.epoch + 3 ∧
    J' (s'.finalized_checkpoint.epoch + 1) ∧
    ∀ e, s'.finalized_checkpoint.epoch ≤ e → e < epochOf E s.slot → J' e := by
  obtain ⟨h1, h2, h3, h4, h5⟩ := (slot_step_casper (casperRun_ordered ho h).1
    (process_slots_one hs)).2.1.finalized_eq.resolve_left hne
  exact ⟨h1, h2, h3, (hJ' _).2 h4, fun e he he' => (hJ' e).2 (h5 e he he')⟩

/-- The last slot of epoch 2: epoch 1 is justified, and all eight validators have voted for the
checkpoints of epochs 1 and 2. -/
def voted : State := { Toy.state 8 23 with
  justification_bits := [true, false, false, false]
  previous_justified_checkpoint := ⟨0, zeroBytes 32⟩
  current_justified_checkpoint := ⟨1, Toy.root 9⟩
  finalized_checkpoint := ⟨0, zeroBytes 32⟩
  previous_epoch_participation := List.replicate 8 7
  current_epoch_participation := List.replicate 8 2 }

theorem voted_ordered : Ordered Toy.env voted fun e => e ≤ 1 := by
  refine ⟨by decide, by decide, Or.inl (by decide), rfl, ?_, by decide, by decide, by decide⟩
  intro j hj
  match j with
  | 0 => exact ⟨by decide, 1, by decide, by decide⟩
  | 1 | 2 | 3 => exact absurd hj (by decide)
  | k + 4 => simp [voted] at hj

/-- The next slot justifies epoch 2 and finalizes epoch 1; with four voters nothing is justified,
and without votes for epoch 2 epoch 1 is justified again. -/
example :
    let s' := finalState (process_slots Toy.env .Altair 24) voted
    let few := { voted with current_epoch_participation := [2, 2, 2, 2, 0, 0, 0, 0] }
    Toy.succeeds (process_slots Toy.env .Altair 24) voted = true ∧
    s'.current_justified_checkpoint.epoch = 2 ∧ s'.previous_justified_checkpoint = ⟨1, Toy.root 9⟩ ∧
    s'.finalized_checkpoint = ⟨1, Toy.root 9⟩ ∧
    s'.justification_bits = [true, true, false, false] ∧
    (finalState (process_slots Toy.env .Altair 24) few).current_justified_checkpoint.epoch = 1 ∧
    (finalState (process_slots Toy.env .Altair 24) few).finalized_checkpoint.epoch = 0 := by
  decide +kernel

/-- So `C19_finalized` applies to this run of one slot. -/
example : ∃ s', process_slots Toy.env .Altair 24 voted = .ok () s' ∧
    s'.finalized_checkpoint ≠ voted.finalized_checkpoint ∧
    CasperRun Toy.env .Altair voted (· ≤ 1) .Altair voted (· ≤ 1) := by
  refine ⟨_, Toy.ok_of_succeeds (by decide +kernel), ?_, .start⟩
  decide +kernel

end Verif.Props
