import Verif.Spec.Config
import Verif.Spec.Shuffle

/-!
# Specification: proposer selection
-/

namespace Verif.Spec

/-- The candidate of a sampling round: the active validators are visited cyclically
in shuffled order. -/
def candidate (E : Env) (indices : List Nat) (seed : Bytes32) (round : Nat) : Nat :=
  indices.getD
    (shuffledIndex E.hash seed indices.length E.shuffle_round_count (round % indices.length)) 0

/-- The random byte of a sampling round. -/
def randomByte (E : Env) (seed : Bytes32) (round : Nat) : Nat :=
  ((E.hash (seed.toList ++ leBytes 8 (round / 32))).toList.getD (round % 32) 0).toNat

/-- A candidate is accepted with probability proportional to its effective balance. -/
def Accepts (E : Env) (s : State) (seed : Bytes32) (round c : Nat) : Prop :=
  ∃ v, s.validators[c]? = some v ∧
    E.max_effective_balance * randomByte E seed round ≤ v.effective_balance * 255

/-- `p` is the first accepted candidate, found in round `k`. -/
def FirstAccepted (E : Env) (s : State) (indices : List Nat) (seed : Bytes32) (k p : Nat) : Prop :=
  p = candidate E indices seed k ∧ Accepts E s seed k p ∧
    ∀ j < k, ¬ Accepts E s seed j (candidate E indices seed j)

end Verif.Spec
