import Verif.Spec.Ends
import Verif.Spec.Guilt
import Verif.Spec.Ledger
import Verif.Spec.Liveness

/-! # Specification: a validator that does its duty -/

namespace Verif.Spec

/-- What belongs to validator `i`: its balance and, in electra, its deposits in the queue. -/
def wealth (f : Fork) (s : State) (i : Nat) : Nat :=
  s.balances.getD i 0 + if f = .Electra then depositedTo s.pending_balance_deposits i else 0

/-- What the block pays out to validator `i`, to the address for its withdrawals. -/
def paidOut (f : Fork) (b : BeaconBlock) (i : Nat) : Nat :=
  if Fork.withdraws f then
    ((b.body.execution_payload.withdrawals.filter (·.validator_index = i)).map (·.amount)).sum
  else 0

/-- Validator `i`, if it was active in the previous epoch, has the flags for a timely vote with the
right source and for one with the right target in it. -/
def HasAttested (E : Env) (s : State) (i : Nat) : Prop :=
  ∀ v, s.validators[i]? = some v → ActiveAt v (previousEpoch E s) →
    ∃ flags, s.previous_epoch_participation[i]? = some flags ∧ FlagSet flags 0 ∧ FlagSet flags 1

/-- The same in phase0, where the votes themselves are kept: one of them has the right head as well, and
if finality, now at `fin`, is overdue, the first to be included was so in the very next slot. -/
def HasVoted (E : Env) (s : State) (fin : Checkpoint) (i : Nat) : Prop :=
  ∀ v, s.validators[i]? = some v → ActiveAt v (previousEpoch E s) →
    (∃ a ∈ s.previous_epoch_attestations, Attested E s a i ∧ Fulfils E s .head a) ∧
    (Leaking E { s with finalized_checkpoint := fin } →
      ∃ a, IncludedFirst E s i a ∧ a.inclusion_delay = 1)

/-- Validator `i` has done its duty of the previous epoch when the epoch of `s`, a state at the end of a
slot, ends and finality is at `fin`. -/
def DidDuty (E : Env) (f : Fork) (s : State) (fin : Checkpoint) (i : Nat) : Prop :=
  if f = .Phase0 then HasVoted E s fin i else HasAttested E s i

/-- The block carries a vote of validator `i` for epoch `e` with the right target, soon enough after the
slot voted in for the source to count. -/
def CarriesTimelyVote (E : Env) (f : Fork) (s : State) (b : BeaconBlock) (i e : Nat) : Prop :=
  ∃ a ∈ b.body.attestations, a.data.target.epoch = e ∧
    get_block_root E s e = .ok a.data.target.root ∧
    (s.slot - a.data.slot) * (s.slot - a.data.slot) ≤ E.slots_per_epoch ∧
    ∃ l, AttestedBy E f s a l ∧ i ∈ l

/-- Wherever validator `i` sits on the sync committee, the block has its signature. -/
def Synced (s : State) (b : BeaconBlock) (i : Nat) : Prop :=
  ∀ (n : Nat) key, s.current_sync_committee.public_keys[n]? = some key → HasKey s i key →
    b.body.sync_aggregate.sync_committee_bits[n]? ≠ some false

/-- No consolidation that moves the balance of validator `i` to another one is pending. -/
def Stays (s : State) (i : Nat) : Prop := ∀ c ∈ s.pending_consolidations, c.source_index ≠ i

/-- A stretch of a chain from the state `s` of fork `f`, during which validator `i` does its duty: it
has attested when an epoch ends, and signs when it sits on the sync committee. `x` is what the blocks
pay out to it on the way. -/
inductive Dutiful (E : Env) (i : Nat) (f : Fork) (s : State) : Fork → State → Nat → Prop
  | start : Dutiful E i f s f s 0
  | slot {g : Fork} {t u : State} {x : Nat} : Dutiful E i f s g t x →
      process_slots E g (t.slot + 1) t = .ok () u →
      (0 < epochOf E t.slot → epochOf E t.slot < epochOf E u.slot →
        ∀ e, process_slot E g t = .ok () e → DidDuty E g e u.finalized_checkpoint i) →
      (g = .Electra → Stays t i) → Dutiful E i f s g u x
  | block {g : Fork} {t u : State} {x : Nat} {b : BeaconBlock} : Dutiful E i f s g t x →
      process_block E g b t = .ok () u → (g ≠ .Phase0 → Synced t b i) →
      Dutiful E i f s g u (x + paidOut g b i)
  | upgrade {g k : Fork} {t u : State} {x : Nat} : Dutiful E i f s g t x → k.ord = g.ord + 1 →
      upgrade_to E k t = .ok u → Dutiful E i f s k u x

end Verif.Spec
