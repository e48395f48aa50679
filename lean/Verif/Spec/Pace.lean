import Verif.Spec.Turn

/-! # Specification: the pace at which the set of active validators changes -/

namespace Verif.Spec

/-- How many validators become active in epoch `e`. -/
def joinsIn (s : State) (e : Nat) : Nat := s.validators.countP fun v => v.activation_epoch == e

/-- How many of `n` registered validators may come or go per epoch: a fraction of all, with a floor. -/
def pace (E : Env) (n : Nat) : Nat := max E.min_per_epoch_churn_limit (n / E.churn_limit_quotient)

/-- Those active in epoch `b` that are not in epoch `a`. -/
def activeOnlyIn (s : State) (b a : Nat) : List Nat :=
  (activeIndices s b).filter fun i => i ∉ activeIndices s a

/-- So far no more have joined in any epoch than may, genesis apart, and nobody is given an epoch of
activation further ahead than the next free one. -/
structure JoinedSlowly (E : Env) (s : State) : Prop where
  limit : ∀ e, 0 < e → e ≠ FAR_FUTURE_EPOCH → joinsIn s e ≤ pace E s.validators.length
  ahead : ∀ v ∈ s.validators, v.activation_epoch = FAR_FUTURE_EPOCH ∨
    v.activation_epoch < nextFreeEpoch E s

end Verif.Spec
