import Verif.Model.Context
import Verif.Spec.Domain
import Verif.Spec.Upgrade

/-! # Specification: fork schedules and applying blocks across forks -/

namespace Verif.Spec

/-- The forks in order. -/
def allForks : List Fork := [.Phase0, .Altair, .Bellatrix, .Capella, .Deneb, .Electra]

/-- `f` is older than `g`. -/
def Older (f g : Fork) : Prop := allForks.idxOf f < allForks.idxOf g

instance (f g : Fork) : Decidable (Older f g) := inferInstanceAs (Decidable (_ < _))

/-- The epoch from which a fork is in force. -/
def scheduled (C : Context) : Fork → Nat
  | .Phase0 => 0
  | .Altair => C.altair_fork_epoch
  | .Bellatrix => C.bellatrix_fork_epoch
  | .Capella => C.capella_fork_epoch
  | .Deneb => C.deneb_fork_epoch
  | .Electra => C.electra_fork_epoch

/-- The fork after `f`. -/
def nextFork : Fork → Option Fork
  | .Phase0 => some .Altair
  | .Altair => some .Bellatrix
  | .Bellatrix => some .Capella
  | .Capella => some .Deneb
  | .Deneb => some .Electra
  | .Electra => none

/-- `Crosses E f s g s'`: a state `s` of fork `f` is advanced through the boundaries of the forks
after `f` up to `g`, one after the other. At each boundary the slots up to the first slot of the
scheduled epoch are processed by the rules of the old fork and then the state is upgraded. -/
inductive Crosses (E : Env) : Fork → State → Fork → State → Prop
  | stay (f : Fork) (s : State) : Crosses E f s f s
  | step {f g h : Fork} {s s₁ s₂ s' : State} :
      nextFork f = some g →
      process_slots E f (scheduled E.toContext g * E.slots_per_epoch) s = .ok () s₁ →
      upgrade_to E g s₁ = .ok s₂ →
      Crosses E g s₂ h s' →
      Crosses E f s h s'

/-- The proposer named by the block has signed it, for the epoch of the state. -/
def SignedByProposer (E : Env) (f : Fork) (s : State) (b : SignedBeaconBlock) : Prop :=
  ∃ v, s.validators[b.message.proposer_index]? = some v ∧
    E.verify_signature v.public_key
      (E.signing_data_root (E.block_root f b.message)
        (domainAt E s .BeaconProposer (epochOf E s.slot))) b.signature = true

end Verif.Spec
