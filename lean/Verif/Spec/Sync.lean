import Verif.Spec.Casper
import Verif.Spec.Committee
import Verif.Spec.Domain

/-! # Specification: sync committees -/

namespace Verif.Spec

/-- The keys of the members whose bit is set. -/
def signers : List PublicKey → List Bool → List PublicKey
  | k :: ks, b :: bs => if b then k :: signers ks bs else signers ks bs
  | _, _ => []

/-- The aggregate signs the block root of the slot before, with the keys of exactly the members whose
bit is set; if there are none the signature may be the point at infinity. -/
def SyncSigned (E : Env) (s : State) (a : SyncAggregate) : Prop :=
  ∃ root, get_block_root_at_slot E s (s.slot - 1) = .ok root ∧
    (signers s.current_sync_committee.public_keys a.sync_committee_bits = [] ∧
        a.sync_committee_signature = (zeroBytes 96).set 0 0xc0 ∨
      E.fast_aggregate_verify (signers s.current_sync_committee.public_keys a.sync_committee_bits)
        (E.signing_data_root (E.root_root root)
          (domainAt E s .SyncCommittee (epochOf E (s.slot - 1)))) a.sync_committee_signature = true)

/-- `seats` lists the validators with the keys of the committee (the last one with the key). -/
def Seats (s : State) (seats : List Nat) : Prop :=
  seats.length = s.current_sync_committee.public_keys.length ∧
  ∀ (k : Nat) key i, s.current_sync_committee.public_keys[k]? = some key → seats[k]? = some i →
    ∃ v, s.validators[i]? = some v ∧ v.public_key = key ∧
      ∀ (j : Nat) w, i < j → s.validators[j]? = some w → w.public_key ≠ key

/-- A participant's reward: 2/64 of the base rewards of all validators, per slot and member. -/
def syncReward (E : Env) (s : State) : Nat :=
  E.effective_balance_increment * E.base_reward_factor / Nat.sqrt (activeBalance E s) *
    (activeBalance E s / E.effective_balance_increment) * 2 / 64 / E.slots_per_epoch /
    E.sync_committee_size

/-- The proposer's reward per participant. -/
def syncProposerReward (E : Env) (s : State) : Nat := syncReward E s * 8 / (64 - 8)

/-- What becomes of balance `b` of validator `j` if `r` is paid to each participant and charged to
each absent member, seat after seat, and `q` is paid to the proposer `p` for each participant. -/
def settle (r q p j : Nat) : List (Nat × Bool) → Nat → Nat
  | [], b => b
  | (i, true) :: l, b =>
    settle r q p j l (b + (if i = j then r else 0) + (if p = j then q else 0))
  | (i, false) :: l, b => settle r q p j l (b - if i = j then r else 0)

/-- How many of the seats of `j` took part, or did not. -/
def seatsOf (j : Nat) (present : Bool) (l : List (Nat × Bool)) : Nat :=
  l.countP fun x => x.1 == j && x.2 == present

/-- How many members took part. -/
def turnout (l : List (Nat × Bool)) : Nat := l.countP (·.2)

/-! ## Selection -/

/-- The seed for the committee drawn now. -/
def syncSeed (E : Env) (s : State) : Bytes32 := seedAt E s (epochOf E s.slot + 1) .SyncCommittee

/-- The candidate of a round among those active in the next epoch. -/
def syncCandidate (E : Env) (s : State) (round : Nat) : Nat :=
  candidate E (activeIndices s (epochOf E s.slot + 1)) (syncSeed E s) round

/-- The members drawn in the first `n` rounds: candidates are accepted with probability proportional
to their effective balance. -/
def drawn (E : Env) (s : State) (n : Nat) : List Nat :=
  ((List.range n).filter fun k => decide (E.max_effective_balance * randomByte E (syncSeed E s) k ≤
    effectiveBalance s (syncCandidate E s k) * 255)).map (syncCandidate E s)

/-- The committee drawn from a state: as many rounds as it takes. -/
def Drawn (E : Env) (s : State) (members : List Nat) : Prop :=
  ∃ n, members = drawn E s n ∧ members.length = E.sync_committee_size ∧
    ∀ m < n, (drawn E s m).length < E.sync_committee_size

/-- The first slot of a sync committee period. -/
def PeriodStart (E : Env) (slot : Nat) : Prop :=
  slot % E.slots_per_epoch = 0 ∧ epochOf E slot % E.epochs_per_sync_committee_period = 0

instance (E : Env) (slot : Nat) : Decidable (PeriodStart E slot) :=
  inferInstanceAs (Decidable (_ ∧ _))

end Verif.Spec
