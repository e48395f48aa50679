import Verif.Proofs.Activation
import Verif.Props.Shuffling
import Verif.Examples.Blocks

/-! # C21: registry updates -/

namespace Verif.Props

open Spec

/-- **C21** The registry updates at the end of an epoch put exactly the validators with enough stake
on the queue, eject exactly the active validators at or below the ejection balance that are not
leaving, and activate a list `A` of validators that wait in the queue, at most as many as the limit
says, where nobody who has to wait on is before anybody activated, and if anybody has to then `A` is
as long as allowed; in electra nobody has to. Only the registry and electra's exit churn change. -/
theorem C21_queue (E : Env) (f : Fork) (s s' : State)
    (hfin : s.finalized_checkpoint.epoch ≤ epochOf E s.slot)
    (h : process_registry_updates E f s = .ok () s') :
    ∃ A, (∃ vs a b, s' = { s with
          validators := vs, exit_balance_to_consume := a, earliest_exit_epoch := b } ∧
        vs.length = s.validators.length ∧
        (f ≠ .Electra → a = s.exit_balance_to_consume ∧ b = s.earliest_exit_epoch)) ∧
      (∀ (i : Nat) v, s.validators[i]? = some v →
        ∃ w, s'.validators[i]? = some w ∧ QueueStep E f s A i v w) ∧
      A.Nodup ∧ (∀ i ∈ A, WaitsInQueue s i) ∧
      (f ≠ .Electra → A.length ≤ activationLimit E f s) ∧
      (∀ j, WaitsInQueue s j → j ∉ A → f ≠ .Electra ∧ A.length = activationLimit E f s ∧
        ∀ i ∈ A, Before s i j) :=
  registry_updates_ok hfin h

/-- Validators 8 to 13 wait: 11 joined first, 13 is not finalized; 14 joins now; 3 has lost its stake
and 4 has, too, but is leaving. -/
def crowded : State :=
  let wait := fun n e => { Toy.validator n with
    activation_epoch := FAR_FUTURE_EPOCH, activation_eligibility_epoch := e }
  let low := fun n => { Toy.validator n with effective_balance := 16000000000 }
  { Toy.state 8 (8 * 9 + 7) with
    finalized_checkpoint := ⟨7, zeroBytes 32⟩
    validators := (List.range 3).map Toy.validator ++
      [low 3, { low 4 with exit_epoch := 20, withdrawable_epoch := 30 }] ++
      (List.range 3).map Toy.validator ++
      [wait 8 5, wait 9 5, wait 10 7, wait 11 3, wait 12 5, wait 13 8, wait 14 FAR_FUTURE_EPOCH]
    balances := List.replicate 15 32000000000 }

/-- The limit of this state is 2 (the minimal preset): 11 and 8 are activated. In electra all but 13
and 14 are. -/
example :
    let r := fun f => (finalState (process_registry_updates Toy.env f) crowded).validators.map
      fun v => (v.activation_eligibility_epoch, v.activation_epoch, v.exit_epoch)
    let far := FAR_FUTURE_EPOCH
    Toy.succeeds (process_registry_updates Toy.env .Capella) crowded = true ∧
    activationLimit Toy.env .Capella crowded = 2 ∧
    r .Capella = [(0, 0, far), (0, 0, far), (0, 0, far), (0, 0, 20), (0, 0, 20), (0, 0, far),
      (0, 0, far), (0, 0, far), (5, 14, far), (5, far, far), (7, far, far), (3, 14, far),
      (5, far, far), (8, far, far), (10, far, far)] ∧
    Toy.succeeds (process_registry_updates Toy.env .Electra) crowded = true ∧
    (r .Electra).map (·.2.1) = [0, 0, 0, 0, 0, 0, 0, 0, 14, 14, 14, 14, 14, far, far] := by
  decide +kernel

end Verif.Props
