import Verif.Spec.Epoch
import Verif.Spec.Churn
import Verif.Model.Transition

/-! # Specification: withdrawals -/

namespace Verif.Spec

/-- The validator has named an execution address to withdraw to. -/
def Withdraws (f : Fork) (v : Validator) : Prop :=
  v.withdrawal_credentials[0] = 0x01 ∨ f = .Electra ∧ Compounding v

instance (f : Fork) (v : Validator) : Decidable (Withdraws f v) :=
  inferInstanceAs (Decidable (_ ∨ _))

/-- What the sweep owes to a validator with balance `b`: everything once it is withdrawable, and
otherwise what exceeds the limit of its effective balance, provided that is at the limit. -/
def owed (E : Env) (f : Fork) (epoch : Nat) (v : Validator) (b : Nat) : Nat :=
  if Withdraws f v ∧ v.withdrawable_epoch ≤ epoch then b
  else if Withdraws f v ∧ v.effective_balance = effectiveLimit E f v then b - effectiveLimit E f v
  else 0

/-- What is owed to validator `i`. -/
def owedTo (E : Env) (f : Fork) (s : State) (i : Nat) : Nat :=
  match s.validators[i]?, s.balances[i]? with
  | some v, some b => owed E f (epochOf E s.slot) v b
  | _, _ => 0

/-- The validators the sweep looks at: so many from the cursor on, wrapping around. -/
def sweepOrder (E : Env) (s : State) : List Nat :=
  (List.range (min s.validators.length E.max_validators_per_withdrawals_sweep)).map fun k =>
    (s.next_withdrawal_validator_index + k) % s.validators.length

/-- Those among them to which something is owed. -/
def creditors (E : Env) (f : Fork) (s : State) : List Nat :=
  (sweepOrder E s).filter fun i => 0 < owedTo E f s i

/-- `ws` pays the validators `payees` what they are owed, in that order, to their addresses, with
consecutive indices from `first` on. -/
structure Pays (E : Env) (f : Fork) (s : State) (payees : List Nat) (first : Nat)
    (ws : List Withdrawal) : Prop where
  payees : ws.map (·.validator_index) = payees
  indices : ws.map (·.index) = List.range' first ws.length
  exact : ∀ w ∈ ws, w.amount = owedTo E f s w.validator_index ∧
    ∃ v, s.validators[w.validator_index]? = some v ∧
      w.address.toList = v.withdrawal_credentials.toList.drop 12

/-- What `ws` takes from validator `i`. -/
def paidTo (ws : List Withdrawal) (i : Nat) : Nat :=
  ((ws.filter (·.validator_index = i)).map (·.amount)).sum

/-- The position after the sweep: behind the last payee if the list is full, and otherwise as many
positions further as one sweep looks at. -/
def nextCursor (E : Env) (s : State) (ws : List Withdrawal) : Nat :=
  match ws.getLast? with
  | some w => if ws.length = E.max_withdrawals_per_payload
      then (w.validator_index + 1) % s.validators.length
      else (s.next_withdrawal_validator_index + E.max_validators_per_withdrawals_sweep) %
        s.validators.length
  | none => (s.next_withdrawal_validator_index + E.max_validators_per_withdrawals_sweep) %
      s.validators.length

/-- `s'` is `s` after paying `ws`: every balance is lower by what was taken from it, the counters
have advanced and nothing else has changed. -/
structure Debited (E : Env) (s : State) (ws : List Withdrawal) (s' : State) : Prop where
  balances : ∀ i : Nat, s'.balances[i]? = s.balances[i]?.map (· - paidTo ws i)
  index : s'.next_withdrawal_index = s.next_withdrawal_index + ws.length
  cursor : s'.next_withdrawal_validator_index = nextCursor E s ws
  rest : s' = { s with
    balances := s'.balances
    next_withdrawal_index := s'.next_withdrawal_index
    next_withdrawal_validator_index := s'.next_withdrawal_validator_index }

/-- The counters of the sweep are in range. -/
structure SweepReady (E : Env) (s : State) : Prop where
  payload : 0 < E.max_withdrawals_per_payload
  sweep : 0 < E.max_validators_per_withdrawals_sweep
  cursor : s.next_withdrawal_validator_index < s.validators.length
  registry : s.validators.length ≤ 2 ^ 40
  balances : s.balances.length = s.validators.length
  index : s.next_withdrawal_index + E.max_withdrawals_per_payload < 2 ^ 64
  width : E.max_validators_per_withdrawals_sweep ≤ 2 ^ 40

/-- Validator `i` is among the payees of the block. -/
def PaidBy (b : BeaconBlock) (i : Nat) : Prop :=
  i ∈ b.body.execution_payload.withdrawals.map (·.validator_index)

instance (b : BeaconBlock) (i : Nat) : Decidable (PaidBy b i) :=
  inferInstanceAs (Decidable (_ ∈ _))

/-- From `s` on, `n` blocks have been processed, each of which found that validator `i` is owed
something and did not pay it. -/
inductive LeftUnpaid (E : Env) (f : Fork) (i : Nat) (s : State) : Nat → State → Prop
  | start : LeftUnpaid E f i s 0 s
  | slots {n slot : Nat} {t u : State} : LeftUnpaid E f i s n t →
      process_slots E f slot t = .ok () u → LeftUnpaid E f i s n u
  | block {n : Nat} {b : BeaconBlock} {t u : State} : LeftUnpaid E f i s n t →
      process_block E f b t = .ok () u → 0 < owedTo E f t i → ¬ PaidBy b i →
      LeftUnpaid E f i s (n + 1) u

/-! ## Electra: requested partial withdrawals -/

/-- The request can be acted upon: the validator is not leaving, and both its effective balance and
its balance exceed the minimum for activation. -/
def honoured (E : Env) (s : State) (r : PendingPartialWithdrawal) : Bool :=
  match s.validators[r.index]?, s.balances[r.index]? with
  | some v, some b => decide (v.exit_epoch = FAR_FUTURE_EPOCH ∧
      E.min_activation_balance < v.effective_balance ∧ E.min_activation_balance < b)
  | _, _ => false

/-- What is paid on it: no more than requested, and no more than the excess. -/
def requestAmount (E : Env) (s : State) (r : PendingPartialWithdrawal) : Nat :=
  min (s.balances.getD r.index 0 - E.min_activation_balance) r.amount

/-- The requests paid next: the first ones at the head of the queue that are due and can be acted
upon. -/
def nextRequests (E : Env) (s : State) : List PendingPartialWithdrawal :=
  ((s.pending_partial_withdrawals.takeWhile
    (·.withdrawable_epoch ≤ epochOf E s.slot)).filter (honoured E s)).take
      E.max_pending_partials_per_withdrawals_sweep

/-- `ws` pays the requests `rs` in order, the right amounts to the addresses of the validators that
made the requests, with consecutive indices. Which validators are debited is left open. -/
structure PaysRequests (E : Env) (s : State) (rs : List PendingPartialWithdrawal) (first : Nat)
    (ws : List Withdrawal) : Prop where
  amounts : ws.map (·.amount) = rs.map (requestAmount E s)
  indices : ws.map (·.index) = List.range' first ws.length
  addresses : ∀ (k : Nat) r w, rs[k]? = some r → ws[k]? = some w →
    ∃ v, s.validators[r.index]? = some v ∧
      w.address.toList = v.withdrawal_credentials.toList.drop 12

end Verif.Spec
