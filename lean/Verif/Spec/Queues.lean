import Verif.Spec.Churn
import Verif.Spec.Activation
import Verif.Spec.Epoch
import Verif.Model.Epoch

/-! # Specification: the balance-weighted queues of electra -/

namespace Verif.Spec

/-! ## Exits -/

/-- Where an exit queue continues in `s`, given the last epoch it has reached and the balance still
free in that epoch: there, or in the first epoch that can be assigned now, with all of its churn. -/
def queueStart (E : Env) (s : State) (epoch free : Nat) : Nat × Nat :=
  if epoch < nextFreeEpoch E s then (nextFreeEpoch E s, exitChurn E s) else (epoch, free)

/-- `balance` leaves through the queue in `epoch`, after which `left` is free in that epoch:
`epoch` is the first one such that what is free from the start of the queue to its end, with the
churn for every further epoch, suffices. -/
structure QueuedExit (E : Env) (s : State) (start : Nat × Nat) (balance epoch left : Nat) :
    Prop where
  not_before : start.1 ≤ epoch
  accounted : left + balance = start.2 + (epoch - start.1) * exitChurn E s
  first : ∀ e, start.1 ≤ e → balance ≤ start.2 + (e - start.1) * exitChurn E s → epoch ≤ e

/-- A run in which the exit queue served the balances in the list, giving each the epoch beside it.
Between these calls the state may change in any way that leaves the queue alone. At each call the
churn is at most `C`. -/
inductive Served (E : Env) (C : Nat) (s : State) : List (Nat × Nat) → State → Prop
  | start : Served E C s [] s
  | other {l : List (Nat × Nat)} {t u : State} : Served E C s l t →
      u.earliest_exit_epoch = t.earliest_exit_epoch →
      u.exit_balance_to_consume = t.exit_balance_to_consume → Served E C s l u
  | exit {l : List (Nat × Nat)} {t u : State} {balance epoch : Nat} : Served E C s l t →
      exitChurn E t ≤ C →
      Electra.compute_exit_epoch_and_update_churn E balance t = .ok epoch u →
      Served E C s (l ++ [(balance, epoch)]) u

/-! ## Pending deposits -/

/-- What the deposits bring to validator `i`. -/
def depositedTo (ds : List PendingBalanceDeposit) (i : Nat) : Nat :=
  ((ds.filter (·.index = i)).map (·.amount)).sum

/-- The sum of the deposits. -/
def depositSum (ds : List PendingBalanceDeposit) : Nat := (ds.map (·.amount)).sum

/-- The first `k` deposits of the queue have been credited. -/
structure DepositsCredited (E : Env) (s : State) (k : Nat) (s' : State) : Prop where
  prefix_ : k ≤ s.pending_balance_deposits.length
  within : depositSum (s.pending_balance_deposits.take k) ≤
    s.deposit_balance_to_consume + exitChurn E s
  maximal : k < s.pending_balance_deposits.length →
    s.deposit_balance_to_consume + exitChurn E s <
      depositSum (s.pending_balance_deposits.take (k + 1))
  balances : ∀ i : Nat, s'.balances[i]? = s.balances[i]?.map
    (· + depositedTo (s.pending_balance_deposits.take k) i)
  queue : s'.pending_balance_deposits = s.pending_balance_deposits.drop k
  carried : s'.deposit_balance_to_consume =
    if k = s.pending_balance_deposits.length then 0
    else s.deposit_balance_to_consume + exitChurn E s -
      depositSum (s.pending_balance_deposits.take k)
  rest : s' = { s with
    balances := s'.balances
    pending_balance_deposits := s'.pending_balance_deposits
    deposit_balance_to_consume := s'.deposit_balance_to_consume }

/-! ## Pending consolidations -/

/-- The source of the consolidation has been slashed, so that nothing moves. -/
def Void (s : State) (c : PendingConsolidation) : Prop :=
  ∃ v, s.validators[c.source_index]? = some v ∧ v.slashed = true

/-- The source of the consolidation is not slashed and can withdraw. -/
def Ripe (E : Env) (s : State) (c : PendingConsolidation) : Prop :=
  ∃ v, s.validators[c.source_index]? = some v ∧ v.slashed = false ∧
    v.withdrawable_epoch ≤ epochOf E s.slot

/-- The validator after its credentials have been made compounding, if they name an execution
address. -/
def compounded (v : Validator) : Validator :=
  if v.withdrawal_credentials[0] = 0x01 then
    { v with withdrawal_credentials := v.withdrawal_credentials.set 0 0x02 }
  else v

/-- What then goes to the queue of deposits. -/
def excessOf (E : Env) (v : Validator) (b : Nat) : Nat :=
  if v.withdrawal_credentials[0] = 0x01 then b - E.min_activation_balance else 0

/-- One consolidation: the target becomes compounding and what it has above the minimum is queued as
a deposit; then the active balance of the source moves to the target. Nothing else changes. -/
structure Consolidated (E : Env) (s : State) (c : PendingConsolidation) (excess moved : Nat)
    (t : State) : Prop where
  ripe : Ripe E s c
  target : ∃ v b, s.validators[c.target_index]? = some v ∧ s.balances[c.target_index]? = some b ∧
    excess = excessOf E v b ∧ t.validators = s.validators.set c.target_index (compounded v)
  amount : ∃ w b, t.validators[c.source_index]? = some w ∧ s.balances[c.source_index]? = some b ∧
    moved = min (b - if c.source_index = c.target_index then excess else 0)
      (effectiveLimit E .Electra w)
  balances : ∀ (i : Nat), t.balances[i]? = s.balances[i]?.map fun b =>
    (b - (if i = c.target_index then excess else 0) - (if i = c.source_index then moved else 0)) +
      (if i = c.target_index then moved else 0)
  deposits : t.pending_balance_deposits = s.pending_balance_deposits ++
    if excess = 0 then [] else [⟨c.target_index, excess⟩]
  rest : t = { s with
    validators := t.validators
    balances := t.balances
    pending_balance_deposits := t.pending_balance_deposits }

/-- The consolidations of the list, one after the other; those of slashed sources do nothing. -/
inductive ConsolidatedAll (E : Env) : State → List PendingConsolidation → State → Prop
  | done {s : State} : ConsolidatedAll E s [] s
  | void {s t : State} {c : PendingConsolidation} {l : List PendingConsolidation} :
      Void s c → ConsolidatedAll E s l t → ConsolidatedAll E s (c :: l) t
  | step {s t u : State} {c : PendingConsolidation} {l : List PendingConsolidation}
      {excess moved : Nat} : Consolidated E s c excess moved t → ConsolidatedAll E t l u →
      ConsolidatedAll E s (c :: l) u

end Verif.Spec
