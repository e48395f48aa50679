import Verif.Spec.History
import Verif.Spec.Deposits
import Verif.Spec.Sync
import Verif.Spec.Genesis

/-! # Specification: the identity of a validator -/

namespace Verif.Spec

/-- `Onwards E f s g s'`: some sequence of calls, each of which may succeed or fail, and of fork
upgrades turns the state `s` of fork `f` into the state `s'` of fork `g`. -/
inductive Onwards (E : Env) (f : Fork) (s : State) : Fork → State → Prop
  | start : Onwards E f s f s
  | call {g : Fork} {t : State} {m : M Unit} : Onwards E f s g t → EntryPoint E g m →
      Onwards E f s g (finalState m t)
  | upgrade {g k : Fork} {t t' : State} : Onwards E f s g t → k.ord = g.ord + 1 →
      upgrade_to E k t = .ok t' → Onwards E f s k t'

/-- Validator `i` has key `k`. -/
def HasKey (s : State) (i : Nat) (k : PublicKey) : Prop :=
  ∃ v, s.validators[i]? = some v ∧ v.public_key = k

/-- All members of the current and the next sync committee are validators. -/
def MembersKnown (s : State) : Prop :=
  ∀ k ∈ s.current_sync_committee.public_keys ++ s.next_sync_committee.public_keys,
    ∃ v ∈ s.validators, v.public_key = k

/-- The keys of the registry, in order. -/
def keysOf (s : State) : List PublicKey := s.validators.map (·.public_key)

/-- A deposit brings in its key if that is new and has signed the deposit. -/
def enrol (E : Env) (keys : List PublicKey) (d : DepositData) : List PublicKey :=
  if d.public_key ∉ keys ∧ DepositSigned E d then keys ++ [d.public_key] else keys

end Verif.Spec
