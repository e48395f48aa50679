import Verif.Model.Types

/-! # Specification: votes and their conflicts -/

namespace Verif.Spec

/-- Two different votes for the same target epoch. -/
def DoubleVote (a b : AttestationData) : Prop := a ≠ b ∧ a.target.epoch = b.target.epoch

/-- The vote `a` has an earlier source and a later target than `b`. -/
def Surrounds (a b : AttestationData) : Prop :=
  a.source.epoch < b.source.epoch ∧ b.target.epoch < a.target.epoch

/-- Casper's two commandments over a validator's history of votes: no two votes
anywhere in the history conflict, in either order. -/
def Honest (votes : List AttestationData) : Prop :=
  ∀ a ∈ votes, ∀ b ∈ votes, ¬ DoubleVote a b ∧ ¬ Surrounds a b

/-- The rule of a validator client: a new vote (head of the list) has a later target
than all the votes before it and no earlier source. -/
def Cautious (votes : List AttestationData) : Prop :=
  votes.Pairwise fun new old =>
    old.target.epoch < new.target.epoch ∧ old.source.epoch ≤ new.source.epoch

end Verif.Spec
