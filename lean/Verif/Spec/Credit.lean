import Verif.Spec.Queues
import Verif.Spec.Turn
import Verif.Spec.Parts

/-! # Specification: waiting for a deposit to be credited, in electra -/

namespace Verif.Spec

/-- What the end of an epoch credits at least, if so much is queued: the smallest churn that the
configuration allows, in whole increments. -/
def slowestCredit (E : Env) : Nat :=
  min E.max_per_epoch_activation_exit_churn_limit (E.min_per_epoch_churn_limit_electra -
    E.min_per_epoch_churn_limit_electra % E.effective_balance_increment)

/-- The slot from `t` to `u` ends an epoch, and between the processing of slashings, which leaves the
state `a`, and that of consolidations, which starts from `b`, the first `k` deposits of the queue are
credited. -/
def CreditedAt (E : Env) (t u : State) (k : Nat) : Prop :=
  ∃ t₀ a b u₀, process_slot E .Electra t = .ok () t₀ ∧
    Runs ((epochParts E .Electra).take 6) t₀ a ∧ DepositsCredited E a k b ∧
    Runs ((epochParts E .Electra).drop 7) b u₀ ∧ u = { u₀ with slot := t.slot + 1 }

/-- From `s` the chain has come to the given state, and `n` deposits have been credited on the way:
those of each end of an epoch, and none by blocks and other slots. -/
inductive Credits (E : Env) (s : State) : State → Nat → Prop
  | start : Credits E s s 0
  | slot {t u : State} {n : Nat} : Credits E s t n →
      process_slots E .Electra (t.slot + 1) t = .ok () u → epochOf E u.slot = epochOf E t.slot →
      Credits E s u n
  | epoch {t u : State} {n k : Nat} : Credits E s t n →
      process_slots E .Electra (t.slot + 1) t = .ok () u → epochOf E u.slot = epochOf E t.slot + 1 →
      CreditedAt E t u k → Credits E s u (n + k)
  | block {t u : State} {n : Nat} {b : BeaconBlock} : Credits E s t n →
      process_block E .Electra b t = .ok () u → Credits E s u n

/-- Of the deposits queued in `s` the first `n` are no longer in the queue; the others are at its
front, in their order. -/
def InLine (s t : State) (n : Nat) : Prop :=
  s.pending_balance_deposits.drop n <+: t.pending_balance_deposits

end Verif.Spec
