import Verif.Spec.Config
import Verif.Spec.Balances
import Verif.Spec.Flags
import Verif.Model.Upgrade

/-! # Specification: justification and finalization -/

namespace Verif.Spec

/-- The total active balance of the current epoch, at least one increment. -/
def activeBalance (E : Env) (s : State) : Nat :=
  max (totalEffective s (activeIndices s (epochOf E s.slot))) E.effective_balance_increment

/-- In phase0, a validator has attested in `a` if its bit is set. -/
def Attested (E : Env) (s : State) (a : PendingAttestation) (i : Nat) : Prop :=
  ∃ committee, get_beacon_committee E s a.data.slot a.data.index = .ok committee ∧
    ∃ k : Nat, committee[k]? = some i ∧ a.aggregation_bits[k]? = some true

/-- The unslashed validator `i` voted for the checkpoint of `epoch` (the current or the previous
epoch): in phase0 by an attestation with that target, later by its target flag. -/
def VotedTarget (E : Env) (f : Fork) (s : State) (epoch i : Nat) : Prop :=
  ∃ v, s.validators[i]? = some v ∧ v.slashed = false ∧
    if f = .Phase0 then
      ∃ a ∈ (if epoch = epochOf E s.slot then s.current_epoch_attestations
          else s.previous_epoch_attestations),
        get_block_root E s epoch = .ok a.data.target.root ∧ Attested E s a i
    else
      ActiveAt v epoch ∧ ∃ flags,
        (if epoch = epochOf E s.slot then s.current_epoch_participation
          else s.previous_epoch_participation)[i]? = some flags ∧ FlagSet flags 1

/-- `b` is the effective balance of those voters, at least one increment. -/
def TargetBalance (E : Env) (f : Fork) (s : State) (epoch b : Nat) : Prop :=
  ∃ voters : List Nat, voters.Nodup ∧ (∀ i, i ∈ voters ↔ VotedTarget E f s epoch i) ∧
    b = max (totalEffective s voters) E.effective_balance_increment

/-- Two thirds of the active balance voted for the checkpoint of `epoch`. -/
def Supermajority (E : Env) (f : Fork) (s : State) (epoch : Nat) : Prop :=
  ∃ b, TargetBalance E f s epoch b ∧ 2 * activeBalance E s ≤ 3 * b

/-- What is to be finalized at the end of epoch `cur`, given the justified checkpoints before and
the justification bits after (bit `j` for epoch `cur - j`). -/
def finalizedBy (bits : List Bool) (previous current finalized : Checkpoint) (cur : Nat) :
    Checkpoint :=
  let justified := fun j => bits.getD j false
  if justified 0 && justified 1 && current.epoch + 1 == cur then current
  else if justified 0 && justified 1 && justified 2 && current.epoch + 2 == cur then current
  else if justified 1 && justified 2 && previous.epoch + 2 == cur then previous
  else if justified 1 && justified 2 && justified 3 && previous.epoch + 3 == cur then previous
  else finalized

/-- What the end of an epoch does to the checkpoints: `jp` and `jc` say whether the previous and the
current epoch are justified now. -/
structure Weighed (E : Env) (s s' : State) (jp jc : Bool) : Prop where
  previous : s'.previous_justified_checkpoint = s.current_justified_checkpoint
  bits : s'.justification_bits =
    [jc, jp || s.justification_bits.getD 0 false, s.justification_bits.getD 1 false,
      s.justification_bits.getD 2 false]
  both : jc = true → get_block_root E s (epochOf E s.slot) =
      .ok s'.current_justified_checkpoint.root ∧
    s'.current_justified_checkpoint.epoch = epochOf E s.slot
  one : jc = false → jp = true → get_block_root E s (epochOf E s.slot - 1) =
      .ok s'.current_justified_checkpoint.root ∧
    s'.current_justified_checkpoint.epoch = epochOf E s.slot - 1
  none : jc = false → jp = false →
    s'.current_justified_checkpoint = s.current_justified_checkpoint
  finalized : s'.finalized_checkpoint = finalizedBy s'.justification_bits
    s.previous_justified_checkpoint s.current_justified_checkpoint s.finalized_checkpoint
    (epochOf E s.slot)

/-- A run of the chain from `s₀`, in which the epochs `J₀` count as justified already: blocks,
valid or not, slots, and fork upgrades. `J` collects the epochs for which there was a
supermajority at their end or at the end of the epoch after. -/
inductive CasperRun (E : Env) (f₀ : Fork) (s₀ : State) (J₀ : Nat → Prop) :
    Fork → State → (Nat → Prop) → Prop
  | start : CasperRun E f₀ s₀ J₀ f₀ s₀ J₀
  | block {f : Fork} {s : State} {J : Nat → Prop} (b : BeaconBlock) :
      CasperRun E f₀ s₀ J₀ f s J →
      CasperRun E f₀ s₀ J₀ f (finalState (process_block E f b) s) J
  | slot {f : Fork} {s s' : State} {J : Nat → Prop} : CasperRun E f₀ s₀ J₀ f s J →
      process_slots E f (s.slot + 1) s = .ok () s' →
      CasperRun E f₀ s₀ J₀ f s' fun e => J e ∨
        ((s.slot + 1) % E.slots_per_epoch = 0 ∧ 1 < epochOf E s.slot ∧
          (e = epochOf E s.slot ∨ e + 1 = epochOf E s.slot) ∧
          Supermajority E f (finalState (process_slot E f) s) e)
  | upgrade {f g : Fork} {s s' : State} {J : Nat → Prop} : CasperRun E f₀ s₀ J₀ f s J →
      upgrade_to E g s = .ok s' → CasperRun E f₀ s₀ J₀ g s' J

/-- The checkpoints of a state at epoch `cur` are in order, and agree with the epochs `J`
justified so far. -/
structure Ordered (E : Env) (s : State) (J : Nat → Prop) : Prop where
  finalized_le : s.finalized_checkpoint.epoch ≤ s.previous_justified_checkpoint.epoch
  previous_le : s.previous_justified_checkpoint.epoch ≤ s.current_justified_checkpoint.epoch
  /-- an epoch is not justified before its end -/
  current_lt : s.current_justified_checkpoint.epoch < epochOf E s.slot ∨
    s.current_justified_checkpoint.epoch = 0
  bits_length : s.justification_bits.length = 4
  bits : ∀ j : Nat, s.justification_bits[j]? = some true →
    1 < epochOf E s.slot ∧ ∃ e, e + j + 1 = epochOf E s.slot ∧ J e
  finalized : J s.finalized_checkpoint.epoch
  previous : J s.previous_justified_checkpoint.epoch
  current : J s.current_justified_checkpoint.epoch

end Verif.Spec
