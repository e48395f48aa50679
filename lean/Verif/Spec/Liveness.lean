import Verif.Spec.Casper
import Verif.Spec.History
import Verif.Spec.Parts

/-! # Specification: votes that a chain carries, and a majority of them -/

namespace Verif.Spec

/-- A stretch of a chain from the state `s` of fork `f` to the state of fork `g` given last: slots,
accepted blocks, and upgrades to the next fork at the start of an epoch. `l` are the blocks, each with
the fork and the state that it met. -/
inductive Journey (E : Env) (f : Fork) (s : State) :
    List (Fork × State × BeaconBlock) → Fork → State → Prop
  | start : Journey E f s [] f s
  | slots {l : List (Fork × State × BeaconBlock)} {g : Fork} {n : Nat} {t u : State} :
      Journey E f s l g t → process_slots E g n t = .ok () u → Journey E f s l g u
  | block {l : List (Fork × State × BeaconBlock)} {g : Fork} {b : BeaconBlock} {t u : State} :
      Journey E f s l g t → process_block E g b t = .ok () u →
      Journey E f s (l ++ [(g, t, b)]) g u
  | upgrade {l : List (Fork × State × BeaconBlock)} {g g' : Fork} {t u : State} :
      Journey E f s l g t → g'.ord = g.ord + 1 → E.slots_per_epoch ∣ t.slot →
      upgrade_to E g' t = .ok u → Journey E f s l g' u

/-- The block carries an attestation of validator `i` for epoch `e` whose target is the block the
state has at the start of that epoch. -/
def CarriesVote (E : Env) (f : Fork) (t : State) (b : BeaconBlock) (i e : Nat) : Prop :=
  ∃ a ∈ b.body.attestations, a.data.target.epoch = e ∧
    get_block_root E t e = .ok a.data.target.root ∧ ∃ l, AttestedBy E f t a l ∧ i ∈ l

/-- The validators `Q`, who are not slashed and have two thirds of the active balance in `t`, have
votes for epoch `e` in the blocks `l`. -/
structure Quorum (E : Env) (l : List (Fork × State × BeaconBlock)) (t : State) (e : Nat)
    (Q : List Nat) : Prop where
  distinct : Q.Nodup
  voted : ∀ i ∈ Q, ∃ x ∈ l, CarriesVote E x.1 x.2.1 x.2.2 i e
  unslashed : ∀ i ∈ Q, ∀ v, t.validators[i]? = some v → v.slashed = false
  majority : 2 * activeBalance E t ≤ 3 * totalEffective t Q

/-- The stretch ends in the last slot of epoch `e`, and `s'` is the state at the start of the next. -/
structure EpochEnds (E : Env) (f : Fork) (s : State) (l : List (Fork × State × BeaconBlock))
    (g : Fork) (t s' : State) (e : Nat) : Prop where
  journey : Journey E f s l g t
  last : t.slot + 1 = (e + 1) * E.slots_per_epoch
  ends : process_slots E g (t.slot + 1) t = .ok () s'

end Verif.Spec
