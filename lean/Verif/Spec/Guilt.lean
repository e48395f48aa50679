import Verif.Spec.Finality
import Verif.Spec.Identity

/-! # Specification: what a validator can be slashed for -/

namespace Verif.Spec

/-- There is a valid signature of the key `k` under the block header `h`, for some version of the
fork with this genesis. -/
def SignedHeader (E : Env) (genesisRoot : Root) (k : PublicKey) (h : BeaconBlockHeader) : Prop :=
  ∃ (version : Version) (signature : Signature),
    E.verify_signature k (E.signing_data_root (E.header_root h)
      (domainOf E .BeaconProposer version genesisRoot)) signature = true

/-- The key signed two different block headers of one proposer for one slot. -/
def Equivocated (E : Env) (genesisRoot : Root) (k : PublicKey) : Prop :=
  ∃ h h' : BeaconBlockHeader, h.slot = h'.slot ∧ h.proposer_index = h'.proposer_index ∧ h ≠ h' ∧
    SignedHeader E genesisRoot k h ∧ SignedHeader E genesisRoot k h'

/-- The key signed two votes, or two headers, that contradict each other. -/
def Offender (E : Env) (genesisRoot : Root) (k : PublicKey) : Prop :=
  Guilty E genesisRoot k ∨ Equivocated E genesisRoot k

/-- `ChainFuture E f s f' s'`: a client that has the state `s` of fork `f` and goes on calling the
functions for slots and blocks, successfully or not, and the fork upgrades, can come to have the
state `s'` of fork `f'`. -/
inductive ChainFuture (E : Env) (f : Fork) (s : State) : Fork → State → Prop
  | start : ChainFuture E f s f s
  | call {g : Fork} {t : State} {m : M Unit} : ChainFuture E f s g t → ChainCall E g m →
      ChainFuture E f s g (finalState m t)
  | upgrade {g k : Fork} {t t' : State} : ChainFuture E f s g t → k.ord = g.ord + 1 →
      upgrade_to E k t = .ok t' → ChainFuture E f s k t'

end Verif.Spec
