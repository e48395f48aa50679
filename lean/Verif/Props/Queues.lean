import Verif.Proofs.QueueHistory
import Verif.Props.Shuffling
import Verif.Examples.Toy

/-! # C50, C51, C52: the balance-weighted queues of electra -/

namespace Verif.Props

open Spec

/-! ## C50 -/

/-- **C50** An exit gets the first epoch such that the balance still free in the queue, with the
churn of every further epoch, covers it. What remains free is accounted for exactly, and nothing
else changes. -/
theorem C50_assigned (E : Env) (s s' : State) (balance epoch : Nat)
    (h : Electra.compute_exit_epoch_and_update_churn E balance s = .ok epoch s') :
    QueuedExit E s (queueStart E s s.earliest_exit_epoch s.exit_balance_to_consume) balance epoch
      s'.exit_balance_to_consume ∧
    nextFreeEpoch E s ≤ epoch ∧
    s' = { s with
      earliest_exit_epoch := epoch
      exit_balance_to_consume := s'.exit_balance_to_consume } := by
  obtain ⟨h1, h2⟩ := exit_epoch_eq_ok h
  refine ⟨h1, ?_, h2⟩
  have := h1.not_before
  unfold queueStart at this
  split at this <;> dsimp only at this <;> omega

/-- **C50** No exit gets an earlier epoch than one before it. -/
theorem C50_never_earlier (E : Env) (C : Nat) (s s' : State) (l : List (Nat × Nat))
    (h : Served E C s l s') :
    (l.map (·.2)).Pairwise (· ≤ ·) ∧ ∀ p ∈ l, s.earliest_exit_epoch ≤ p.2 :=
  ⟨(served_inv h).2.2.1, fun p hp => ((served_inv h).2.1 p hp).1⟩

/-- **C50** Whatever happens in between, the balance given exit epochs up to `x` never exceeds what
was free at the start and the churn of the epochs up to `x`. The churn is never more than the
configured maximum. -/
theorem C50_bounded (E : Env) (s s' : State) (l : List (Nat × Nat))
    (h : Served E E.max_per_epoch_activation_exit_churn_limit s l s') (x : Nat)
    (hx : s.earliest_exit_epoch ≤ x) :
    ((l.filter (·.2 ≤ x)).map (·.1)).sum ≤ s.exit_balance_to_consume +
      E.max_per_epoch_activation_exit_churn_limit * (x - s.earliest_exit_epoch) :=
  (served_inv h).2.2.2.2 x hx

/-- **C50** The same with any other bound on the churn at the calls. -/
theorem C50_bounded_by_churn (E : Env) (C : Nat) (s s' : State) (l : List (Nat × Nat))
    (h : Served E C s l s') (x : Nat) (hx : s.earliest_exit_epoch ≤ x) :
    ((l.filter (·.2 ≤ x)).map (·.1)).sum ≤ s.exit_balance_to_consume +
      C * (x - s.earliest_exit_epoch) :=
  (served_inv h).2.2.2.2 x hx

/-- **C50** The bound needed for `C50_bounded` holds in every state. -/
theorem C50_churn_max (E : Env) (s : State) :
    exitChurn E s ≤ E.max_per_epoch_activation_exit_churn_limit := Nat.min_le_left _ _

/-- **C50** No sequence of calls, successful or not, moves a queue back. -/
theorem C50_never_back (E : Env) (f : Fork) (s s' : State) (h : History E f s s') :
    s.earliest_exit_epoch ≤ s'.earliest_exit_epoch ∧
    s.earliest_consolidation_epoch ≤ s'.earliest_consolidation_epoch :=
  history_onward h

/-- **C50** Consolidations go through a queue of their own by the same rule. -/
theorem C50_consolidations (E : Env) (s s' : State) (balance epoch : Nat)
    (h : Electra.compute_consolidation_epoch_and_update_churn E balance s = .ok epoch s') :
    QueuedExit E s (queueStart E s s.earliest_consolidation_epoch
      s.consolidation_balance_to_consume) balance epoch s'.consolidation_balance_to_consume ∧
    s' = { s with
      earliest_consolidation_epoch := epoch
      consolidation_balance_to_consume := s'.consolidation_balance_to_consume } :=
  consolidation_epoch_eq_ok h

/-- **C50** Whoever initiates an exit gets that epoch for the effective balance, and can withdraw the
configured delay later. For a validator that is already exiting nothing happens. -/
theorem C50_initiated (E : Env) (s s' : State) (i : Nat) (v : Validator)
    (hv : s.validators[i]? = some v) (h : Electra.initiate_validator_exit E i s = .ok () s') :
    if v.exit_epoch = FAR_FUTURE_EPOCH then
      ∃ epoch left, QueuedExit E s
          (queueStart E s s.earliest_exit_epoch s.exit_balance_to_consume)
          v.effective_balance epoch left ∧
        s' = { s with
          validators := s.validators.set i { v with
            exit_epoch := epoch
            withdrawable_epoch := epoch + E.min_validator_withdrawability_delay }
          earliest_exit_epoch := epoch
          exit_balance_to_consume := left }
    else s' = s := by
  simp only [Electra.initiate_validator_exit, run] at h
  obtain ⟨v', hv', h⟩ := h
  cases hv.symm.trans hv'
  rcases h with ⟨h1, -, rfl⟩ | ⟨h1, epoch, t, ht, v1, hv1, w, hw, v2, hv2, rfl⟩
  · rw [if_neg h1]
  · rw [if_pos (by simpa using h1)]
    obtain ⟨hq, hst⟩ := exit_epoch_eq_ok ht
    have htv : t.validators = s.validators := by rw [hst]
    have hlt := (List.getElem?_eq_some_iff.mp hv).1
    rw [htv] at hv1 hv2
    cases hv.symm.trans hv1
    rw [List.getElem?_set_self hlt] at hv2
    cases hv2
    obtain ⟨rfl, -⟩ := hw
    refine ⟨epoch, _, hq, ?_⟩
    rw [hst]
    simp

/-- Two exits of 32 ether fill the 64 ether of the minimal churn in epoch 6; a third one moves on. -/
def queueRun (bs : List Nat) : M (List Nat) :=
  bs.mapM (Electra.compute_exit_epoch_and_update_churn Toy.env)

def runValue {α : Type} (m : M α) (s : State) : Option α :=
  match m s with
  | .ok a _ => some a
  | .error _ _ => none

example : runValue (queueRun [32000000000, 32000000000, 1, 200000000000]) (Toy.state 4 8) =
    some [6, 6, 7, 10] := by decide +kernel

/-- The hypotheses of the theorems about runs are met by two exits with a slot between them. -/
example : ∃ s', Served Toy.env Toy.env.max_per_epoch_activation_exit_churn_limit (Toy.state 4 8)
    [(32000000000, 6), (64000000000, 7)] s' := by
  have h1 : (Electra.compute_exit_epoch_and_update_churn Toy.env 32000000000 (Toy.state 4 8)) =
      .ok 6 { Toy.state 4 8 with
        earliest_exit_epoch := 6
        exit_balance_to_consume := 32000000000 } := by decide +kernel
  refine ⟨_, .exit (l := [(32000000000, 6)])
    (t := { Toy.state 4 9 with
        earliest_exit_epoch := 6
        exit_balance_to_consume := 32000000000 })
    (u := { Toy.state 4 9 with
        earliest_exit_epoch := 7
        exit_balance_to_consume := 32000000000 })
    (.other (.exit (l := []) .start (C50_churn_max _ _) h1) rfl rfl) (C50_churn_max _ _) ?_⟩
  decide +kernel

/-! ## C51 -/

/-- **C51** The deposits credited are the first ones of the queue, as many as the balance that may be
activated covers. Each account receives exactly its deposits, the rest of the queue stays as it is,
and nothing else changes. -/
theorem C51_credited (E : Env) (s s' : State)
    (h : Electra.process_pending_balance_deposits E s = .ok () s') :
    ∃ k, DepositsCredited E s k s' := by
  obtain ⟨k, h, -⟩ := pending_deposits_ok h
  exact ⟨k, h⟩

/-- **C51** Value moves from the queue to the balances; none is created or lost. -/
theorem C51_conserved (E : Env) (s s' : State)
    (h : Electra.process_pending_balance_deposits E s = .ok () s') :
    s'.balances.sum + depositSum s'.pending_balance_deposits =
      s.balances.sum + depositSum s.pending_balance_deposits := by
  obtain ⟨k, h, h'⟩ := pending_deposits_ok h
  have : depositSum s.pending_balance_deposits =
      depositSum (s.pending_balance_deposits.take k) +
        depositSum (s.pending_balance_deposits.drop k) := by
    unfold depositSum
    rw [← List.sum_append, ← List.map_append, List.take_append_drop]
  rw [h', h.queue, this]
  omega

def depositState : State := { Toy.state 4 8 with
  pending_balance_deposits := [⟨1, 30000000000⟩, ⟨2, 20000000000⟩, ⟨1, 10000000000⟩,
    ⟨3, 5000000000⟩] }

/-- Three of four deposits fit the 64 ether of the churn. -/
example : Toy.succeeds (Electra.process_pending_balance_deposits Toy.env) depositState = true ∧
    (finalState (Electra.process_pending_balance_deposits Toy.env) depositState).balances =
      [32000000000, 72000000000, 52000000000, 32000000000] ∧
    (finalState (Electra.process_pending_balance_deposits Toy.env)
      depositState).deposit_balance_to_consume = 4000000000 := by decide +kernel

/-! ## C52 -/

/-- **C52** Consolidations are processed in order from the front of the queue, and leave it. Those of
slashed sources move nothing; all others come from withdrawable, unslashed sources, and the first one
left is neither. -/
theorem C52_processed (E : Env) (hE : SaneConfig E) (s s' : State)
    (hlen : s.balances.length = s.validators.length)
    (h : Electra.process_pending_consolidations E s = .ok () s') :
    ∃ k, k ≤ s.pending_consolidations.length ∧
      ConsolidatedAll E s (s.pending_consolidations.take k)
        { s' with pending_consolidations := s.pending_consolidations } ∧
      s'.pending_consolidations = s.pending_consolidations.drop k ∧
      ∀ c, s'.pending_consolidations.head? = some c → ¬ Void s' c ∧ ¬ Ripe E s' c := by
  obtain ⟨k, h1, h2, h3, h4, -⟩ := pending_consolidations_ok hE hlen h
  exact ⟨k, h1, h2, h3, h4⟩

/-- **C52** They create and destroy no value; the excess of a target that becomes compounding is
queued as a deposit. -/
theorem C52_conserved (E : Env) (hE : SaneConfig E) (s s' : State)
    (hlen : s.balances.length = s.validators.length)
    (h : Electra.process_pending_consolidations E s = .ok () s') :
    s'.balances.sum + depositSum s'.pending_balance_deposits =
      s.balances.sum + depositSum s.pending_balance_deposits := by
  obtain ⟨k, -, -, -, -, h⟩ := pending_consolidations_ok hE hlen h
  exact h

/-- Withdrawal credentials with the prefix `x`. -/
def creds (x : UInt8) : Bytes32 := (zeroBytes 32).set 0 x

/-- A slashed source, then one that can withdraw, then one that cannot yet. -/
def consolidationState : State := { Toy.state 6 80 with
  validators := [
    { Toy.validator 0 with slashed := true },
    { Toy.validator 1 with exit_epoch := 5, withdrawable_epoch := 9 },
    { Toy.validator 2 with exit_epoch := 9, withdrawable_epoch := 12 },
    { Toy.validator 3 with withdrawal_credentials := creds 1 },
    Toy.validator 4, Toy.validator 5]
  balances := [31000000000, 31500000000, 32000000000, 33000000000, 32000000000, 32000000000]
  pending_consolidations := [⟨0, 3⟩, ⟨1, 3⟩, ⟨2, 3⟩] }

example : consolidationState.balances.length = consolidationState.validators.length ∧
    Toy.succeeds (Electra.process_pending_consolidations Toy.env) consolidationState = true ∧
    (finalState (Electra.process_pending_consolidations Toy.env) consolidationState).balances =
      [31000000000, 0, 32000000000, 63500000000, 32000000000, 32000000000] ∧
    (finalState (Electra.process_pending_consolidations Toy.env)
      consolidationState).pending_balance_deposits = [⟨3, 1000000000⟩] ∧
    (finalState (Electra.process_pending_consolidations Toy.env)
      consolidationState).pending_consolidations = [⟨2, 3⟩] := by decide +kernel

end Verif.Props
