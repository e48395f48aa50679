import Verif.Spec.Slashable
import Verif.Spec.Config

/-! # Specification: the stake that answers for a vote -/

namespace Verif.Spec

/-- The stake of `v` is locked for the withdrawability delay after its exit, or for ever. -/
def Locked (E : Env) (v : Validator) : Prop :=
  v.exit_epoch + E.min_validator_withdrawability_delay ≤ v.withdrawable_epoch ∨
    FAR_FUTURE_EPOCH ≤ v.withdrawable_epoch

/-- All stakes in the state are. -/
def AllLocked (E : Env) (s : State) : Prop := ∀ v ∈ s.validators, Locked E v

end Verif.Spec
