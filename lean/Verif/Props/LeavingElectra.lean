import Verif.Proofs.Rationed
import Verif.Props.Queues
import Verif.Props.Leaving

/-! # C94: leaving in electra -/

namespace Verif.Props

open Spec

variable {E : Env} {s s' t u : State}

/-- **C94** In electra, where exits are rationed by balance, nobody waits longer than those before them
and they themselves take: in any run in which the queue served the balances of `l` and then `balance`,
the epoch given to the latter is not further from where the queue stood in the beginning, or from the
next free epoch, than all this takes at the smallest churn of the configuration. -/
theorem C94_electra_wait {l : List (Nat × Nat)} {balance epoch : Nat}
    (h : Rationed E (nextFreeEpoch E t) s l t)
    (hc : Electra.compute_exit_epoch_and_update_churn E balance t = .ok epoch u) :
    NoLonger (slowestCredit E) ((l.map (·.1)).sum + balance)
      (max s.earliest_exit_epoch (nextFreeEpoch E t)) epoch := by
  obtain ⟨g1, -, -⟩ := C50_assigned E _ _ _ _ hc
  have := queued_used (Nat.le_max_right _ _) (rationed_used h) g1
  unfold NoLonger
  by_cases hM : epoch ≤ max s.earliest_exit_epoch (nextFreeEpoch E t)
  · exact .inl hM
  · exact .inr (this (by omega)).1

/-- **C94** An accepted voluntary exit gives the validator an epoch at which it leaves, no further from
where the queue stands than its balance takes at the smallest churn, and an epoch from which it can
withdraw. -/
theorem C94_electra_exit (hE : SaneConfig E) (hslot : s.slot < 2 ^ 64) (op : SignedVoluntaryExit)
    (h : process_voluntary_exit E .Electra op s = .ok () s') :
    ∃ v w, s.validators[op.message.validator_index]? = some v ∧
      s'.validators[op.message.validator_index]? = some w ∧
      nextFreeEpoch E s ≤ w.exit_epoch ∧ s.earliest_exit_epoch ≤ w.exit_epoch ∧
      NoLonger (slowestCredit E) v.effective_balance
        (max s.earliest_exit_epoch (nextFreeEpoch E s)) w.exit_epoch ∧
      w.withdrawable_epoch = w.exit_epoch + E.min_validator_withdrawability_delay ∧
      s'.earliest_exit_epoch = w.exit_epoch := by
  obtain ⟨⟨v, ha⟩, h⟩ := (C27_voluntary_exit_iff E hE .Electra op s s' hslot).1 h
  have hi := C50_initiated E s s' _ v ha.exists_validator h
  rw [if_pos ha.not_exiting] at hi
  obtain ⟨epoch, left, hq, rfl⟩ := hi
  have hlen := (List.getElem?_eq_some_iff.1 ha.exists_validator).1
  refine ⟨v, _, ha.exists_validator, List.getElem?_set_self hlen, ?_, ?_, ?_, rfl, rfl⟩
  · have := hq.not_before
    unfold queueStart at this
    split at this <;> dsimp only at this ⊢ <;> omega
  · have := hq.not_before
    unfold queueStart at this
    split at this <;> dsimp only at this ⊢ <;> omega
  · have := queued_used (M := max s.earliest_exit_epoch (nextFreeEpoch E s)) (out := 0)
      (Nat.le_max_right _ _) (fun hM => absurd hM (by omega)) hq
    unfold NoLonger
    dsimp only
    by_cases hM : epoch ≤ max s.earliest_exit_epoch (nextFreeEpoch E s)
    · exact .inl hM
    · exact .inr (by simpa using (this (by omega)).1)

/-! ## Examples -/

/-- A run with two exits and a slot between them. At the smallest churn of 64 ether per epoch a third
exit, of 200 ether, has to leave by epoch 10, as it does. -/
example : ∃ t, Rationed Toy.env (nextFreeEpoch Toy.env t) (Toy.state 4 8)
      [(32000000000, 6), (64000000000, 7)] t ∧
    runValue (Electra.compute_exit_epoch_and_update_churn Toy.env 200000000000) t = some 10 ∧
    slowestCredit Toy.env = 64000000000 ∧
    max (Toy.state 4 8).earliest_exit_epoch (nextFreeEpoch Toy.env t) = 6 ∧
    NoLonger (slowestCredit Toy.env) 296000000000 6 10 := by
  have h1 : (Electra.compute_exit_epoch_and_update_churn Toy.env 32000000000 (Toy.state 4 8)) =
      .ok 6 { Toy.state 4 8 with
        earliest_exit_epoch := 6
        exit_balance_to_consume := 32000000000 } := by decide +kernel
  refine ⟨_, .exit (l := [(32000000000, 6)])
    (t := { Toy.state 4 9 with
        earliest_exit_epoch := 6
        exit_balance_to_consume := 32000000000 })
    (u := { Toy.state 4 9 with
        earliest_exit_epoch := 7
        exit_balance_to_consume := 32000000000 })
    (.other (.exit (l := []) .start (by decide +kernel) h1) rfl rfl) (by decide +kernel) ?_,
    ?_, ?_, ?_, ?_⟩
  · decide +kernel
  · decide +kernel
  · decide +kernel
  · decide +kernel
  · exact .inr (by decide +kernel)

/-- The voluntary exit of C27 is accepted in electra, and the validator leaves in the next free
epoch. -/
example : process_voluntary_exit Toy.env .Electra exitOp (Toy.state 8 600) =
      .ok () (finalState (process_voluntary_exit Toy.env .Electra exitOp) (Toy.state 8 600)) ∧
    nextFreeEpoch Toy.env (Toy.state 8 600) = 80 ∧
    ((finalState (process_voluntary_exit Toy.env .Electra exitOp) (Toy.state 8 600)).validators.map
      (·.exit_epoch)).count 80 = 1 :=
  ⟨Toy.ok_of_succeeds (by decide +kernel), by decide +kernel, by decide +kernel⟩

end Verif.Props
