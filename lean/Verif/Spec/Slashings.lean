import Verif.Spec.Config
import Verif.Model.Transition

/-! # Specification: the slashings vector -/

namespace Verif.Spec

/-- The total effective balance of the slashed validators. -/
def slashedTotal (s : State) : Nat :=
  (s.validators.map fun v => if v.slashed then v.effective_balance else 0).sum

/-- The place of an epoch in the slashings vector. -/
def slashingsAt (E : Env) (s : State) (epoch : Nat) : Option Nat :=
  s.slashings[epoch % E.epochs_per_slashings_vector]?

/-- A run of the chain: slots are processed one after the other, and blocks in between;
`tally e` is the effective balance of the validators that blocks slashed in epoch `e`. -/
inductive SlashingRun (E : Env) (f : Fork) (s₀ : State) : State → (Nat → Nat) → Prop
  | start : SlashingRun E f s₀ s₀ fun _ => 0
  | slot {s s' : State} {tally : Nat → Nat} : SlashingRun E f s₀ s tally →
      process_slots E f (s.slot + 1) s = .ok () s' → SlashingRun E f s₀ s' tally
  | block {s s' : State} {tally : Nat → Nat} {b : BeaconBlock} : SlashingRun E f s₀ s tally →
      process_block E f b s = .ok () s' →
      SlashingRun E f s₀ s' fun e =>
        if e = epochOf E s.slot then tally e + (slashedTotal s' - slashedTotal s) else tally e

/-- The sum of a tally over the last `n` epochs up to epoch `cur`. -/
def windowSum (tally : Nat → Nat) (cur : Nat) : Nat → Nat
  | 0 => 0
  | n + 1 => windowSum tally cur n + if n ≤ cur then tally (cur - n) else 0

end Verif.Spec
