import Verif.Spec.Activation
import Verif.Spec.Casper
import Verif.Spec.History
import Verif.Spec.Registry
import Verif.Spec.Epoch

/-! # Specification: waiting for activation, over a stretch of the chain -/

namespace Verif.Spec

/-- A stretch of a chain in the fork `f`, from `s` over slots and accepted blocks. -/
inductive Follows (E : Env) (f : Fork) (s : State) : State → Prop
  | start : Follows E f s s
  | slot {t u : State} : Follows E f s t → process_slots E f (t.slot + 1) t = .ok () u →
      Follows E f s u
  | block {t u : State} {b : BeaconBlock} : Follows E f s t → process_block E f b t = .ok () u →
      Follows E f s u

/-- The states of a client that follows a chain from genesis, slot by slot and block by block, through
the upgrades. -/
inductive Followed (E : Env) : Fork → State → Prop
  | genesis {f : Fork} {h : Bytes32} {t : Nat} {ds : List Deposit}
      {p : Option ExecutionPayloadHeader} {s : State} :
      initialize_beacon_state_from_eth1 E f h t ds p = .ok s → Followed E f s
  | slot {f : Fork} {s s' : State} : Followed E f s →
      process_slots E f (s.slot + 1) s = .ok () s' → Followed E f s'
  | block {f : Fork} {s s' : State} {b : BeaconBlock} : Followed E f s →
      process_block E f b s = .ok () s' → Followed E f s'
  | upgrade {f g : Fork} {s s' : State} : Followed E f s → g.ord = f.ord + 1 →
      upgrade_to E g s = .ok s' → Followed E g s'

/-- The assumptions below: of the configuration, and of the state that its checkpoints are in order
and that each validator has a balance. -/
structure Orderly (E : Env) (f : Fork) (s : State) : Prop where
  config : SaneConfig E
  balances : SaneBalances E
  increment : E.effective_balance_increment < 2 ^ 64
  parallel : Parallel f s
  ordered : Ordered E s fun _ => True

instance (s : State) (i : Nat) : Decidable (WaitsInQueue s i) :=
  decidable_of_iff ((match s.validators[i]? with
    | some v => decide (v.activation_eligibility_epoch ≤ s.finalized_checkpoint.epoch ∧
        v.activation_epoch = FAR_FUTURE_EPOCH)
    | none => false) = true) (by unfold WaitsInQueue; cases s.validators[i]? <;> simp)

instance (s : State) (i j : Nat) : Decidable (Before s i j) :=
  decidable_of_iff ((match s.validators[i]?, s.validators[j]? with
    | some v, some w =>
      decide (v.activation_eligibility_epoch < w.activation_eligibility_epoch ∨
        v.activation_eligibility_epoch = w.activation_eligibility_epoch ∧ i < j)
    | _, _ => false) = true) (by
      unfold Before; cases s.validators[i]? <;> cases s.validators[j]? <;> simp)

/-- Those who wait before `i`. -/
def ahead (s : State) (i : Nat) : List Nat :=
  (List.range s.validators.length).filter fun j => WaitsInQueue s j ∧ Before s j i

/-- The number of validators that the end of an epoch activates at least, if so many wait. -/
def slowest (E : Env) (f : Fork) : Nat :=
  if f = .Deneb then min E.max_per_epoch_activation_churn_limit E.min_per_epoch_churn_limit
  else E.min_per_epoch_churn_limit

/-- The number of epochs that end, at most, before the one at the end of which it is the turn of `i`:
none from electra on, where all who wait are activated at once. -/
def turn (E : Env) (f : Fork) (s : State) (i : Nat) : Nat :=
  if f = .Electra then 0 else (ahead s i).length / slowest E f

end Verif.Spec
