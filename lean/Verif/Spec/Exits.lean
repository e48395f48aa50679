import Verif.Spec.Config

/-! # Specification: the exit queue -/

namespace Verif.Spec

/-- How many validators leave in epoch `e`. -/
def exitsIn (s : State) (e : Nat) : Nat := s.validators.countP fun v => v.exit_epoch == e

/-- How many validators may leave per epoch: a fraction of the active validators of
the current epoch, with a floor. -/
def churnLimit (E : Env) (s : State) : Nat :=
  max E.min_per_epoch_churn_limit
    ((activeIndices s (epochOf E s.slot)).length / E.churn_limit_quotient)

/-- The effect of putting validator `i` on the exit queue with exit epoch `e`. -/
def ExitsAt (E : Env) (s s' : State) (i e : Nat) : Prop :=
  ∃ v, s.validators[i]? = some v ∧
    s' = { s with
      validators := s.validators.set i
        { v with
          exit_epoch := e
          withdrawable_epoch := e + E.min_validator_withdrawability_delay } }

end Verif.Spec
