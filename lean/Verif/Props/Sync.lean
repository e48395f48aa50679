import Verif.Proofs.Sync
import Verif.Props.Shuffling
import Verif.Examples.Blocks

/-! # C32, C33: sync committees -/

namespace Verif.Props

open Spec

/-! ## C32 -/

/-- **C32** A sync aggregate is accepted only with a valid signature of exactly the participants over
the block root of the previous slot. Then nothing but balances changes, and they change as if going
through the seats of the committee in order, paying the fixed reward to the validator of each seat
whose bit is set and the proposer's share to the proposer, and charging the same reward to the
validator of each other seat (as far as its balance goes). -/
theorem C32_sync_aggregate (E : Env) (s s' : State) (a : SyncAggregate)
    (h : process_sync_aggregate E a s = .ok () s') :
    SyncSigned E s a ∧ ∃ seats p bs, Seats s seats ∧
      (signers s.current_sync_committee.public_keys a.sync_committee_bits ≠ [] →
        get_beacon_proposer_index E s = .ok p) ∧
      s' = { s with balances := bs } ∧ bs.length = s.balances.length ∧
      ∀ j : Nat, bs[j]? = s.balances[j]?.map (settle (syncReward E s) (syncProposerReward E s) p j
        (seats.zip a.sync_committee_bits)) :=
  sync_aggregate_ok h

/-- **C32** So, unless it runs out, the balance of a validator grows by the reward for each seat of
it that took part, and for the proposer by its share for each participant, and falls by the reward
for each seat of it that did not. -/
theorem C32_amounts (r q p j b : Nat) (l : List (Nat × Bool)) (h : seatsOf j false l * r ≤ b) :
    settle r q p j l b =
      b + seatsOf j true l * r + (if p = j then turnout l * q else 0) - seatsOf j false l * r :=
  settle_exact h

/-- A committee in which validator 1 has two seats. -/
def syncing : State := { Toy.state 8 9 with
  current_sync_committee := ⟨[Toy.pk 0, Toy.pk 1, Toy.pk 2, Toy.pk 1], Toy.pk 0⟩ }

def attendance : SyncAggregate := ⟨[true, true, false, false], Toy.goodSig⟩

/-- Both seats of 1 cancel out, 0 is paid, 2 pays, and 3 proposes. -/
example :
    Toy.succeeds (process_sync_aggregate Toy.env attendance) syncing = true ∧
    get_beacon_proposer_index Toy.env syncing = .ok 3 ∧
    syncReward Toy.env syncing = 3952 ∧ syncProposerReward Toy.env syncing = 564 ∧
    (finalState (process_sync_aggregate Toy.env attendance) syncing).balances =
      [32000003952, 32000000000, 31999996048, 32000001128, 32000000000,
        32000000000, 32000000000, 32000000000] ∧
    Toy.errorOf (process_sync_aggregate Toy.env { attendance with
      sync_committee_signature := Toy.badSig }) syncing = some .syncAggregateInvalidSignature := by
  decide +kernel

/-! ## C33 -/

/-- **C33** The committee drawn from a state consists of the keys of the first accepted candidates,
as many as a committee has members, in shuffled order; all of them are active in the next epoch; and
the aggregate key is that of these keys. -/
theorem C33_drawn (E : Env) (hE : SaneConfig E) (s : State) (hs : Shaped E s)
    (hslot : s.slot < 2 ^ 62) (c : SyncCommittee) (h : get_next_sync_committee E s = .ok c) :
    ∃ members, Drawn E s members ∧
      members.map (fun i => (s.validators[i]?).map (·.public_key)) = c.public_keys.map some ∧
      (∀ i ∈ members, ∃ v, s.validators[i]? = some v ∧ ActiveAt v (epochOf E s.slot + 1)) ∧
      c.public_keys ≠ [] ∧ E.aggregate_public_keys c.public_keys = some c.aggregate_public_key :=
  next_sync_committee_ok hE hs hslot h

/-- **C33** When slot processing enters the first slot of a period the next committee becomes the
current one and a new one is drawn at the end of the epoch; in every other slot both stay. -/
theorem C33_rotation (E : Env) (f : Fork) (hf : f ≠ .Phase0) (s s' : State)
    (h : process_slots E f (s.slot + 1) s = .ok () s') :
    (¬ PeriodStart E (s.slot + 1) ∧ s'.current_sync_committee = s.current_sync_committee ∧
      s'.next_sync_committee = s.next_sync_committee) ∨
    (PeriodStart E (s.slot + 1) ∧ s'.current_sync_committee = s.next_sync_committee ∧
      get_next_sync_committee E { s' with slot := s.slot } = .ok s'.next_sync_committee) :=
  slot_step_sync hf (process_slots_one h)

/-- **C33** Hence over any number of slots the committees stay until a period starts. -/
theorem C33_constant (E : Env) (f : Fork) (hf : f ≠ .Phase0) (s s' : State) (t : Nat)
    (h : process_slots E f t s = .ok () s')
    (hp : ∀ k, s.slot < k → k ≤ t → ¬ PeriodStart E k) :
    s'.current_sync_committee = s.current_sync_committee ∧
      s'.next_sync_committee = s.next_sync_committee :=
  slots_sync hf h hp

/-- Slot 64 starts a period in the minimal preset, slot 56 does not. -/
def beforePeriod : State := { Toy.state 8 63 with
  next_sync_committee := ⟨[Toy.pk 5], Toy.pk 5⟩
  finalized_checkpoint := ⟨5, zeroBytes 32⟩ }

example :
    let s' := finalState (process_slots Toy.env .Deneb 64) beforePeriod
    let s'' := finalState (process_slots Toy.env .Deneb 56) { beforePeriod with slot := 55 }
    Toy.succeeds (process_slots Toy.env .Deneb 64) beforePeriod = true ∧
    PeriodStart Toy.env 64 ∧ s'.current_sync_committee.public_keys = [Toy.pk 5] ∧
    s'.next_sync_committee.public_keys.length = 32 ∧
    Toy.succeeds (process_slots Toy.env .Deneb 56) { beforePeriod with slot := 55 } = true ∧
    ¬ PeriodStart Toy.env 56 ∧ s''.next_sync_committee.public_keys = [Toy.pk 5] := by
  decide +kernel

/-- `C33_drawn` applies. -/
example : SaneConfig Toy.env ∧ Shaped Toy.env beforePeriod ∧
    (get_next_sync_committee Toy.env beforePeriod).isOk = true := by
  refine ⟨toy_sane, by constructor <;> decide, ?_⟩
  decide +kernel

end Verif.Props
