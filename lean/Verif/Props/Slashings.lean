import Verif.Proofs.Slashings
import Verif.Props.Slashing
import Verif.Examples.Blocks

/-! # C23: the slashings vector -/

namespace Verif.Props

open Spec

/-- **C23** A successful block adds the effective balance of the validators it slashes to the
entry of the current epoch, and leaves every other entry alone. -/
theorem C23_block_adds_to_current_epoch (E : Env) (f : Fork) (b : BeaconBlock) (s s' : State)
    (h : process_block E f b s = .ok () s') :
    slashedTotal s ≤ slashedTotal s' ∧
    (∀ x, slashingsAt E s (epochOf E s.slot) = some x →
      slashingsAt E s' (epochOf E s.slot) = some (x + (slashedTotal s' - slashedTotal s))) ∧
    ∀ j, j ≠ epochOf E s.slot % E.epochs_per_slashings_vector →
      s'.slashings[j]? = s.slashings[j]? := by
  have := block_tally.ok h
  exact ⟨this.le, this.current, this.others⟩

/-- **C23** The reset clears exactly the entry of the next epoch. -/
theorem C23_reset (E : Env) (s s' : State) (h : process_slashings_reset E s = .ok () s') :
    slashingsAt E s' (epochOf E s.slot + 1) = some 0 ∧
    (∀ j, j ≠ (epochOf E s.slot + 1) % E.epochs_per_slashings_vector →
      s'.slashings[j]? = s.slashings[j]?) ∧
    s' = { s with slashings := s'.slashings } := by
  obtain ⟨_, _, _, h4, rfl⟩ := process_slashings_reset_eq_ok.1 h
  refine ⟨?_, fun j hj => ?_, rfl⟩
  · exact List.getElem?_set_self h4
  · exact List.getElem?_set_ne (Ne.symm hj)

/-- **C23** Epoch processing as a whole does just that to the vector. -/
theorem C23_epoch_resets_next_entry (E : Env) (f : Fork) (s s' : State)
    (h : process_epoch E f s = .ok () s') :
    slashingsAt E s' (epochOf E s.slot + 1) = some 0 ∧
    ∀ j, j ≠ (epochOf E s.slot + 1) % E.epochs_per_slashings_vector →
      s'.slashings[j]? = s.slashings[j]? := by
  obtain ⟨h4, h5⟩ := epoch_slashings h
  rw [slashingsAt, h5]
  refine ⟨List.getElem?_set_self h4, fun j hj => ?_⟩
  exact List.getElem?_set_ne (Ne.symm hj)

/-- **C23** After any run of the chain, the entry of each of the last
`EPOCHS_PER_SLASHINGS_VECTOR` epochs is what blocks slashed in that epoch (plus, for the epochs
up to the start of the run, what was there already). -/
theorem C23_window (E : Env) (hE : SaneConfig E) (f : Fork) (s₀ s : State) (h₀ : Shaped E s₀)
    (tally : Nat → Nat) (h : SlashingRun E f s₀ s tally) (e : Nat) (he : e ≤ epochOf E s.slot)
    (hw : epochOf E s.slot < e + E.epochs_per_slashings_vector) :
    slashingsAt E s e = some (tally e +
      if e ≤ epochOf E s₀.slot then (slashingsAt E s₀ e).getD 0 else 0) :=
  (slashingRun_inv hE.epochs_per_slashings_vector.1 h₀.slashings h).window e he hw

/-- **C23** From a state without slashings, the sum of the vector is what blocks slashed in the
last `EPOCHS_PER_SLASHINGS_VECTOR` epochs. -/
theorem C23_sum (E : Env) (hE : SaneConfig E) (f : Fork) (s₀ s : State)
    (h₀ : s₀.slashings = List.replicate E.epochs_per_slashings_vector 0)
    (tally : Nat → Nat) (h : SlashingRun E f s₀ s tally) :
    s.slashings.sum = windowSum tally (epochOf E s.slot) E.epochs_per_slashings_vector :=
  slashingRun_sum hE.epochs_per_slashings_vector.1 h₀ h

/-- A block that slashes validator 3. -/
def slashingBlock (s : State) : BeaconBlock :=
  Toy.block s { Toy.body s with proposer_slashings := [equivocation] }

example :
    let s := Toy.state 8 20
    let s' := finalState (process_block Toy.env .Deneb (slashingBlock s)) s
    Toy.succeeds (process_block Toy.env .Deneb (slashingBlock s)) s = true ∧
    slashedTotal s = 0 ∧ slashedTotal s' = 32000000000 ∧
    slashingsAt Toy.env s' 2 = some 32000000000 ∧
    (s'.slashings.sum = 32000000000) := by
  decide +kernel

/-- A run with that block: the vector still holds the amount in the next epoch. -/
example : ∃ s tally, SlashingRun Toy.env .Deneb (Toy.state 8 23) s tally ∧ s.slot = 24 ∧
    tally 2 = 32000000000 ∧ s.slashings.sum = 32000000000 := by
  have hb : Toy.succeeds (process_block Toy.env .Deneb (slashingBlock (Toy.state 8 23)))
      (Toy.state 8 23) = true := by decide +kernel
  have h1 : Toy.succeeds (process_slots Toy.env .Deneb
      ((finalState (process_block Toy.env .Deneb (slashingBlock (Toy.state 8 23)))
        (Toy.state 8 23)).slot + 1))
      (finalState (process_block Toy.env .Deneb (slashingBlock (Toy.state 8 23)))
        (Toy.state 8 23)) = true := by decide +kernel
  refine ⟨_, _, (SlashingRun.start.block (Toy.ok_of_succeeds hb)).slot (Toy.ok_of_succeeds h1), ?_⟩
  decide +kernel

end Verif.Props
