import Verif.Spec.Slashable
import Verif.Spec.Flags
import Verif.Spec.Balances
import Verif.Model.Block
import Mathlib.Data.Nat.Sqrt

/-! # Specification: attestations -/

namespace Verif.Spec

/-- The vote is for the current or previous epoch, has the justified checkpoint of its
target epoch as source, and is included in time (without upper limit from deneb on). -/
structure TimelyVote (E : Env) (f : Fork) (s : State) (d : AttestationData) : Prop where
  target : d.target.epoch = epochOf E s.slot ∨ d.target.epoch = epochOf E s.slot - 1
  slot : epochOf E d.slot = d.target.epoch
  delay : d.slot + E.min_attestation_inclusion_delay ≤ s.slot
  window : f ≠ .Deneb → f ≠ .Electra → s.slot ≤ d.slot + E.slots_per_epoch
  source : d.source = if d.target.epoch = epochOf E s.slot then s.current_justified_checkpoint
    else s.previous_justified_checkpoint

/-- `l` lists, in ascending order, the committee members whose bit is set. -/
def Voters (committee : List Nat) (bits : List Bool) (l : List Nat) : Prop :=
  l.Pairwise (· < ·) ∧ ∀ v, v ∈ l ↔ ∃ k : Nat, committee[k]? = some v ∧ bits[k]? = some true

/-- The attestation is signed by the members `l` of an existing committee. -/
structure CommitteeVote (E : Env) (s : State) (a : Attestation) (l : List Nat) : Prop where
  index : ∃ n, get_committee_count_per_slot E s a.data.target.epoch = .ok n ∧ a.data.index < n
  members : ∃ committee, get_beacon_committee E s a.data.slot a.data.index = .ok committee ∧
    a.aggregation_bits.length = committee.length ∧ Voters committee a.aggregation_bits l
  signed : ValidIndexed E s ⟨l, a.data, a.signature⟩

/-- The record phase0 keeps of an attestation. -/
def pendingOf (s : State) (a : Attestation) (proposer : Nat) : PendingAttestation where
  aggregation_bits := a.aggregation_bits
  data := a.data
  inclusion_delay := s.slot - a.data.slot
  proposer_index := proposer

/-! ## Altair and later -/

/-- The flags `fl` an attestation included after `delay` slots earns its voters: 0 source,
1 target, 2 head. -/
structure EarnsFlags (E : Env) (f : Fork) (s : State) (d : AttestationData) (delay : Nat)
    (fl : List Nat) : Prop where
  source : 0 ∈ fl ↔ delay * delay ≤ E.slots_per_epoch
  target : 1 ∈ fl ↔ get_block_root E s d.target.epoch = .ok d.target.root ∧
    (f = .Deneb ∨ f = .Electra ∨ delay ≤ E.slots_per_epoch)
  head : 2 ∈ fl ↔ get_block_root E s d.target.epoch = .ok d.target.root ∧
    get_block_root_at_slot E s d.slot = .ok d.beacon_block_root ∧
    delay = E.min_attestation_inclusion_delay
  only : ∀ j ∈ fl, j < 3

/-- The flags an attestation included now earns. -/
abbrev EarnedFlags (E : Env) (f : Fork) (s : State) (d : AttestationData) (fl : List Nat) : Prop :=
  EarnsFlags E f s d (s.slot - d.slot) fl

/-- The weight of a flag in rewards. -/
def flagWeight (j : Nat) : Nat := if j = 0 then 14 else if j = 1 then 26 else if j = 2 then 14 else 0

/-- The weights of the flags of `fl` that `x` lacks. -/
def missingWeight (fl : List Nat) (x : UInt8) : Nat :=
  (([0, 1, 2].filter fun j => decide (j ∈ fl) && !decide (FlagSet x j)).map flagWeight).sum

/-- The base reward of a validator: per increment of its effective balance, inversely
proportional to the square root of the total active balance. -/
def baseReward (E : Env) (s : State) (v : Nat) : Nat :=
  effectiveBalance s v / E.effective_balance_increment *
    (E.effective_balance_increment * E.base_reward_factor /
      Nat.sqrt (max (totalEffective s (activeIndices s (epochOf E s.slot)))
        E.effective_balance_increment))

/-- The flags of the epoch an attestation is for. -/
def flagsFor (E : Env) (s : State) (d : AttestationData) : List UInt8 :=
  if d.target.epoch = epochOf E s.slot then s.current_epoch_participation
  else s.previous_epoch_participation

/-- What the proposer earns for an attestation: an eighth of what the voters earn by
the flags they did not have before. -/
def inclusionReward (E : Env) (s : State) (d : AttestationData) (l fl : List Nat) : Nat :=
  (l.map fun v => baseReward E s v * missingWeight fl ((flagsFor E s d).getD v 0)).sum /
    ((64 - 8) * 64 / 8)

/-- `new` is `old` with the flags `fl` added for the validators in `l`. -/
def FlagsAdded (l fl : List Nat) (old new : List UInt8) : Prop :=
  new.length = old.length ∧
  ∀ v x y, old[v]? = some x → new[v]? = some y →
    ∀ j < 8, FlagSet y j ↔ FlagSet x j ∨ (v ∈ l ∧ j ∈ fl)

/-- The state with the participation flags of the epoch of `d` replaced. -/
def withFlags (E : Env) (s : State) (d : AttestationData) (p : List UInt8) : State :=
  if d.target.epoch = epochOf E s.slot then { s with current_epoch_participation := p }
  else { s with previous_epoch_participation := p }

/-! ## Electra: aggregates over several committees -/

/-- `cs` are the committees an electra attestation is for: those whose bit is set, in
ascending order. -/
def AttestingCommittees (E : Env) (s : State) (a : Attestation) (cs : List (List Nat)) : Prop :=
  ∃ is : List Nat, is.Pairwise (· < ·) ∧ (∀ i, i ∈ is ↔ a.committee_bits[i]? = some true) ∧
    cs.map Except.ok = is.map fun i => get_beacon_committee E s a.data.slot i

/-- `l` are the validators whose bit is set in the concatenation of the committees. -/
def AggregateVoters (E : Env) (s : State) (a : Attestation) (l : List Nat) : Prop :=
  ∃ cs, AttestingCommittees E s a cs ∧
    ∀ v, v ∈ l ↔ ∃ k : Nat, cs.flatten[k]? = some v ∧ a.aggregation_bits[k]? = some true

end Verif.Spec
