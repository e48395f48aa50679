import Verif.Spec.Rewards
import Verif.Spec.Queues
import Verif.Spec.Slashings
import Verif.Spec.Operations

/-! # Specification: what the end of an epoch does, from the state before to the state after -/

namespace Verif.Spec

/-- The assumptions below: of the configuration, and of the state that there are four justification
bits, that no checkpoint is in the future, and that each validator has a balance. -/
structure Proper (E : Env) (s : State) : Prop where
  config : SaneConfig E
  balances : SaneBalances E
  increment : E.effective_balance_increment < 2 ^ 64
  bits : s.justification_bits.length = 4
  previous : s.previous_justified_checkpoint.epoch ≤ epochOf E s.slot
  current : s.current_justified_checkpoint.epoch ≤ epochOf E s.slot
  finalized : s.finalized_checkpoint.epoch ≤ epochOf E s.slot
  accounts : s.balances.length = s.validators.length

/-- The state `s` with what `s'` says about justification and finality. -/
def judged (s s' : State) : State := { s with
  justification_bits := s'.justification_bits
  previous_justified_checkpoint := s'.previous_justified_checkpoint
  current_justified_checkpoint := s'.current_justified_checkpoint
  finalized_checkpoint := s'.finalized_checkpoint }

/-- And with the inactivity scores of `s'`. -/
def scored (s s' : State) : State := { judged s s' with inactivity_scores := s'.inactivity_scores }

/-- Validator `i`, with the balance `b`, has the balance `r` after its rewards and penalties for
attesting. There are none at the end of the genesis epoch. -/
def Rewarded (E : Env) (f : Fork) (s : State) (i b r : Nat) : Prop :=
  if epochOf E s.slot = 0 then r = b
  else if f = .Phase0 then
    ∃ first, (∀ j, Did E s .source j → IncludedFirst E s j (first j)) ∧
      r = b + allRewards E s first i - allPenalties E s i
  else r = settled E f s i b

/-- Then it loses the penalty for its slashing, if that is due, where `w` is its entry. -/
def punished (E : Env) (f : Fork) (s : State) (w : Validator) (r : Nat) : Nat :=
  if PenaltyDue E s w then r - correlationPenalty E f s w else r

/-- `t` is the state `s` with the checkpoints and scores of `s'`, the changes `A` of the registry and
with the rewards and penalties booked. -/
structure Booked (E : Env) (f : Fork) (s s' : State) (A : List Nat) (t : State) : Prop where
  rest : t = { scored s s' with
    validators := t.validators
    balances := t.balances
    exit_balance_to_consume := t.exit_balance_to_consume
    earliest_exit_epoch := t.earliest_exit_epoch
    eth1_data_votes := s'.eth1_data_votes }
  validators : t.validators.length = s.validators.length
  entries : ∀ (i : Nat) v, s.validators[i]? = some v →
    ∃ w, t.validators[i]? = some w ∧ QueueStep E f (judged s s') A i v w
  accounts : t.balances.length = s.balances.length
  balances : ∀ (i : Nat) w b, t.validators[i]? = some w → s.balances[i]? = some b →
    ∃ r, Rewarded E f (scored s s') i b r ∧ t.balances[i]? = some (punished E f s w r)

/-- `A` are the validators activated, where the state `j` says who waits and what is final: not more
than the limit, first come first served, and nobody waits on without need. -/
structure Activated (E : Env) (f : Fork) (j : State) (A : List Nat) : Prop where
  once : A.Nodup
  waiting : ∀ i ∈ A, WaitsInQueue j i
  limit : f ≠ .Electra → A.length ≤ activationLimit E f j
  order : ∀ i, WaitsInQueue j i → i ∉ A →
    f ≠ .Electra ∧ A.length = activationLimit E f j ∧ ∀ a ∈ A, Before j a i

/-- Then, in electra, the first deposits of the queue are credited, as many as the churn allows, and
the first consolidations of the queue made, up to the first that is not ripe. -/
def Cleared (E : Env) (t u : State) : Prop :=
  ∃ k d m, DepositsCredited E t k d ∧ m ≤ d.pending_consolidations.length ∧
    ConsolidatedAll E d (d.pending_consolidations.take m)
      { u with pending_consolidations := d.pending_consolidations } ∧
    u.pending_consolidations = d.pending_consolidations.drop m ∧
    ∀ c, u.pending_consolidations.head? = some c → ¬ Void u c ∧ ¬ Ripe E u c

/-- Then the effective balances follow the balances. -/
def Reweighed (E : Env) (f : Fork) (u s' : State) : Prop :=
  s'.validators.length = u.validators.length ∧
  ∀ (i : Nat) w, u.validators[i]? = some w → ∃ b e, u.balances[i]? = some b ∧
    s'.validators[i]? = some { w with effective_balance := e } ∧ EffectiveStep E f w b e

/-- What is then reset: the entry of the next epoch in the slashings is cleared. -/
def SlashingsReset (E : Env) (s s' : State) : Prop :=
  slashingsAt E s' (epochOf E s.slot + 1) = some 0 ∧
  ∀ j, j ≠ (epochOf E s.slot + 1) % E.epochs_per_slashings_vector →
    s'.slashings[j]? = s.slashings[j]?

/-- The mix of the next epoch starts as that of the current one; those of other epochs stay. -/
def MixCarried (E : Env) (s s' : State) : Prop :=
  mixAt E s' (epochOf E s.slot + 1) = mixAt E s (epochOf E s.slot) ∧
  ∀ e, e ≤ epochOf E s.slot → epochOf E s.slot + 1 < e + E.epochs_per_historical_vector →
    mixAt E s' e = mixAt E s e

end Verif.Spec
