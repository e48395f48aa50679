import Verif.Spec.Ends
import Verif.Spec.Ledger

/-! # Specification: the supply of money, over epochs -/

namespace Verif.Spec

/-- All the money in a state: the balances of the validators and the deposits that are queued. -/
def supply (s : State) : Nat :=
  s.balances.sum + depositSum s.pending_balance_deposits

/-- The base rewards of the whole active balance. -/
def totalBase (E : Env) (s : State) : Nat :=
  E.effective_balance_increment * E.base_reward_factor / Nat.sqrt (activeBalance E s) *
    (activeBalance E s / E.effective_balance_increment)

/-- The sum of the amounts `b`, one for each of `n` validators. -/
def together (b : Nat → Nat) (n : Nat) : Nat := ((List.range n).map b).sum

/-- The amounts `b` bound the base rewards in the state `s`: of each validator that is active or was
so in the previous epoch, and, together, of the whole active balance. There are at most `n`
validators. -/
structure Rated (E : Env) (b : Nat → Nat) (n : Nat) (s : State) : Prop where
  registry : s.validators.length ≤ n
  each : ∀ (i : Nat) v, s.validators[i]? = some v →
    ActiveAt v (previousEpoch E s) ∨ ActiveAt v (epochOf E s.slot) → baseReward E s i ≤ b i
  all : totalBase E s ≤ together b n

/-- Those who voted in the previous epoch have no more than the active balance now. -/
def Turnout (E : Env) (s : State) : Prop := ∀ j < 3, flagBalance E s j ≤ activeBalance E s

instance (E : Env) (s : State) : Decidable (Turnout E s) :=
  inferInstanceAs (Decidable (∀ j < 3, _))

/-- What a block brings from elsewhere: the deposits, and the rewards for reporting those it
slashes (who are charged more than that, as far as they can pay). -/
def brought (E : Env) (f : Fork) (s : State) (b : BeaconBlock) : Nat :=
  ((depositsOf f b.body).map (·.amount)).sum +
    ((offenders E s b.body).map fun i => effectiveBalance s i / whistleblowerQuotient E f).sum

/-- A stretch of a chain in the fork `f`, from `s` over slots and accepted blocks, which together
bring `d` from elsewhere. In each state base rewards are within `b`, and at the end of each epoch
those who voted have no more than the active balance. -/
inductive Stretch (E : Env) (f : Fork) (b : Nat → Nat) (n : Nat) (s : State) : Nat → State → Prop
  | start : Stretch E f b n s 0 s
  | slot {d : Nat} {t u : State} : Stretch E f b n s d t → Rated E b n t →
      ((t.slot + 1) % E.slots_per_epoch = 0 → Turnout E t) →
      process_slots E f (t.slot + 1) t = .ok () u → Stretch E f b n s d u
  | block {d : Nat} {t u : State} {blk : BeaconBlock} : Stretch E f b n s d t → Rated E b n t →
      blk.body.sync_aggregate.sync_committee_bits.length ≤ E.sync_committee_size →
      process_block E f blk t = .ok () u → Stretch E f b n s (d + brought E f t blk) u

end Verif.Spec
