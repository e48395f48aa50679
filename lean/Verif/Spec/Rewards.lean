import Verif.Spec.Epoch
import Verif.Spec.Attestations

/-! # Specification: rewards and penalties for attesting -/

namespace Verif.Spec

/-- Validator `i` exists and its duties of the previous epoch count. -/
def Counts (E : Env) (s : State) (i : Nat) : Prop :=
  ∃ v, s.validators[i]? = some v ∧ Eligible E s v

instance (E : Env) (s : State) (i : Nat) : Decidable (Counts E s i) :=
  decidable_of_iff ((match s.validators[i]? with
    | some v => decide (Eligible E s v)
    | none => false) = true) (by unfold Counts; cases s.validators[i]? <;> simp)

/-! ## From altair on -/

/-- Validator `i` is not slashed, was active in the previous epoch and has flag `j` for it. -/
def HasFlag (E : Env) (s : State) (j i : Nat) : Prop :=
  ∃ v, s.validators[i]? = some v ∧ v.slashed = false ∧ ActiveAt v (previousEpoch E s) ∧
    ∃ flags, s.previous_epoch_participation[i]? = some flags ∧ FlagSet flags j

instance (E : Env) (s : State) (j i : Nat) : Decidable (HasFlag E s j i) :=
  decidable_of_iff ((match s.validators[i]?, s.previous_epoch_participation[i]? with
    | some v, some flags =>
      decide (v.slashed = false ∧ ActiveAt v (previousEpoch E s) ∧ FlagSet flags j)
    | _, _ => false) = true) (by
      unfold HasFlag
      cases s.validators[i]? <;> cases s.previous_epoch_participation[i]? <;> simp)

/-- The effective balance of the validators with flag `j`, at least one increment. -/
def flagBalance (E : Env) (s : State) (j : Nat) : Nat :=
  max (totalEffective s ((List.range s.validators.length).filter fun i => HasFlag E s j i))
    E.effective_balance_increment

/-- The reward for flag `j`: the weighted base reward times the share of the active balance
that has the flag, counted in increments; nothing while finality is overdue. -/
def flagReward (E : Env) (s : State) (j i : Nat) : Nat :=
  if Counts E s i ∧ HasFlag E s j i ∧ ¬ Leaking E s then
    baseReward E s i * flagWeight j * (flagBalance E s j / E.effective_balance_increment) /
      (activeBalance E s / E.effective_balance_increment * 64)
  else 0

/-- The penalty for missing flag `j`: the weighted base reward; nothing for the head. -/
def flagPenalty (E : Env) (s : State) (j i : Nat) : Nat :=
  if Counts E s i ∧ ¬ HasFlag E s j i ∧ j ≠ 2 then baseReward E s i * flagWeight j / 64 else 0

/-- The inactivity quotient in force in a fork. -/
def inactivityQuotient (E : Env) : Fork → Nat
  | .Phase0 => E.inactivity_penalty_quotient
  | .Altair => E.inactivity_penalty_quotient_altair
  | .Bellatrix | .Capella | .Deneb | .Electra => E.inactivity_penalty_quotient_bellatrix

/-- The penalty for a missed target, proportional to the inactivity score. -/
def scorePenalty (E : Env) (f : Fork) (s : State) (i : Nat) : Nat :=
  if Counts E s i ∧ ¬ HasFlag E s 1 i then
    effectiveBalance s i * s.inactivity_scores.getD i 0 /
      (E.inactivity_score_bias * inactivityQuotient E f)
  else 0

/-- The balance `b` of validator `i` after rewards and penalties: flag by flag, each penalty at most
all there is. -/
def settled (E : Env) (f : Fork) (s : State) (i b : Nat) : Nat :=
  b + flagReward E s 0 i - flagPenalty E s 0 i + flagReward E s 1 i - flagPenalty E s 1 i +
    flagReward E s 2 i - flagPenalty E s 2 i - scorePenalty E f s i

/-! ## Phase0 -/

/-- A quarter of the reward a validator can earn in an epoch. -/
def quarterReward (E : Env) (s : State) (i : Nat) : Nat :=
  effectiveBalance s i * E.base_reward_factor / Nat.sqrt (activeBalance E s) / 4

/-- The part of it that is for the proposer who includes the attestation. -/
def proposerPart (E : Env) (s : State) (i : Nat) : Nat :=
  quarterReward E s i / E.proposer_reward_quotient

/-- What an attestation can get right. -/
inductive Duty
  | source | target | head
  deriving DecidableEq

/-- The attestation, one of the previous epoch, fulfils the duty: it is included at all, it names the
right target, and also the right head. -/
def Fulfils (E : Env) (s : State) (d : Duty) (a : PendingAttestation) : Prop :=
  match d with
  | .source => True
  | .target => get_block_root E s (previousEpoch E s) = .ok a.data.target.root
  | .head => get_block_root E s (previousEpoch E s) = .ok a.data.target.root ∧
      get_block_root_at_slot E s a.data.slot = .ok a.data.beacon_block_root

/-- A recorded attestation that belongs to `epoch`: it votes in a slot of the epoch for the epoch, and
it was included within the window. -/
structure BelongsTo (E : Env) (epoch : Nat) (a : PendingAttestation) : Prop where
  target : a.data.target.epoch = epoch
  slot : epochOf E a.data.slot = epoch
  early : E.min_attestation_inclusion_delay ≤ a.inclusion_delay
  late : a.inclusion_delay ≤ E.slots_per_epoch

/-- The unslashed validator `i` took part in an attestation of the previous epoch that fulfils the
duty. -/
def Did (E : Env) (s : State) (d : Duty) (i : Nat) : Prop :=
  (∃ v, s.validators[i]? = some v ∧ v.slashed = false) ∧
    ∃ a ∈ s.previous_epoch_attestations, Fulfils E s d a ∧ Attested E s a i

/-- `a` is, among the attestations `i` took part in, the one included with the smallest delay, the
first in the state among several. -/
def IncludedFirst (E : Env) (s : State) (i : Nat) (a : PendingAttestation) : Prop :=
  ∃ k : Nat, s.previous_epoch_attestations[k]? = some a ∧ Attested E s a i ∧
    ∀ (k' : Nat) a', s.previous_epoch_attestations[k']? = some a' → Attested E s a' i →
      a.inclusion_delay < a'.inclusion_delay ∨
        a.inclusion_delay = a'.inclusion_delay ∧ k ≤ k'

open Classical in
/-- The validators that did a duty. -/
noncomputable def doers (E : Env) (s : State) (d : Duty) : List Nat :=
  (List.range s.validators.length).filter fun i => Did E s d i

/-- Their effective balance, at least one increment. -/
noncomputable def dutyBalance (E : Env) (s : State) (d : Duty) : Nat :=
  max (totalEffective s (doers E s d)) E.effective_balance_increment

open Classical in
/-- The reward for a duty: in proportion to the balance that did it; all of the quarter
while finality is overdue (when it is taken away again by `overduePenalty`). -/
noncomputable def dutyReward (E : Env) (s : State) (d : Duty) (i : Nat) : Nat :=
  if Counts E s i ∧ Did E s d i then
    if Leaking E s then quarterReward E s i
    else quarterReward E s i * (dutyBalance E s d / E.effective_balance_increment) /
      (activeBalance E s / E.effective_balance_increment)
  else 0

open Classical in
/-- The penalty for a missed duty. -/
noncomputable def dutyPenalty (E : Env) (s : State) (d : Duty) (i : Nat) : Nat :=
  if Counts E s i ∧ ¬ Did E s d i then quarterReward E s i else 0

open Classical in
/-- The reward for being included early: what is left of a quarter for the attester, divided by the
delay. `first` names the attestation by which each validator was included first. -/
noncomputable def delayReward (E : Env) (s : State) (first : Nat → PendingAttestation) (i : Nat) :
    Nat :=
  if Did E s .source i then
    (quarterReward E s i - proposerPart E s i) / (first i).inclusion_delay
  else 0

/-- What `i` earns as the proposer who included others first. -/
noncomputable def includerReward (E : Env) (s : State) (first : Nat → PendingAttestation)
    (i : Nat) : Nat :=
  (((doers E s .source).filter fun j => (first j).proposer_index = i).map (proposerPart E s)).sum

open Classical in
/-- The penalty while finality is overdue: all that can be earned by attesting, and more without the
right target, in proportion to the delay. -/
noncomputable def overduePenalty (E : Env) (s : State) (i : Nat) : Nat :=
  if Leaking E s ∧ Counts E s i then
    4 * quarterReward E s i - proposerPart E s i +
      if Did E s .target i then 0
      else effectiveBalance s i * (previousEpoch E s - s.finalized_checkpoint.epoch) /
        E.inactivity_penalty_quotient
  else 0

/-- All rewards of validator `i` in an epoch. -/
noncomputable def allRewards (E : Env) (s : State) (first : Nat → PendingAttestation) (i : Nat) :
    Nat :=
  dutyReward E s .source i + dutyReward E s .target i + dutyReward E s .head i +
    (delayReward E s first i + includerReward E s first i)

/-- All penalties. -/
noncomputable def allPenalties (E : Env) (s : State) (i : Nat) : Nat :=
  dutyPenalty E s .source i + dutyPenalty E s .target i + dutyPenalty E s .head i +
    overduePenalty E s i

end Verif.Spec
