import Verif.Spec.Ancestry
import Verif.Spec.Casper
import Verif.Spec.Slashable
import Verif.Spec.Votes

/-! # Specification: who stands behind a justified and a finalized checkpoint -/

namespace Verif.Spec

/-- There is a valid aggregate signature over the vote `d`, for some version of the fork with this
genesis, in which the key `k` takes part. -/
def Signed (E : Env) (genesisRoot : Root) (k : PublicKey) (d : AttestationData) : Prop :=
  ∃ (version : Version) (keys : List PublicKey) (signature : Signature), k ∈ keys ∧
    E.fast_aggregate_verify keys
      (E.signing_data_root (E.attestation_data_root d)
        (domainOf E .BeaconAttester version genesisRoot)) signature = true

/-- The validator `i` of the state `s` signed a vote from `source` to `target`. -/
def Voted (E : Env) (s : State) (source target : Checkpoint) (i : Nat) : Prop :=
  ∃ v d, s.validators[i]? = some v ∧ Signed E s.genesis_validators_root v.public_key d ∧
    d.source = source ∧ d.target = target

/-- The unslashed validators `Q`, who have two thirds of the active balance in `s` and are active in
the epoch of `target`, signed votes from `source` to the later `target`. -/
structure Link (E : Env) (s : State) (Q : List Nat) (source target : Checkpoint) : Prop where
  forward : source.epoch < target.epoch
  distinct : Q.Nodup
  weight : 2 * activeBalance E s ≤ 3 * max (totalEffective s Q) E.effective_balance_increment
  eligible : ∀ i ∈ Q, ∃ v, s.validators[i]? = some v ∧ v.slashed = false ∧
    ActiveAt v target.epoch
  voted : ∀ i ∈ Q, Voted E s source target i

/-- The checkpoint that counts as justified and finalized in the beginning. -/
def genesisCheckpoint : Checkpoint := ⟨0, zeroBytes 32⟩

/-- Casper's notion of justification on the chain with headers `hs`: a sequence of links, each
counted in some state on the way, that leads from the genesis to the checkpoint through blocks of
the chain. -/
inductive Justified (E : Env) (f₀ : Fork) (s₀ : State) (hs : List BeaconBlockHeader) :
    Checkpoint → Prop
  | genesis : Justified E f₀ s₀ hs genesisCheckpoint
  | link {f : Fork} {t : State} {past : List BeaconBlockHeader} {Q : List Nat}
      {S T : Checkpoint} : Justified E f₀ s₀ hs S →
      Chain E f₀ s₀ f t past → past <+: hs → Link E t Q S T →
      rootAt E hs (T.epoch * E.slots_per_epoch) = some T.root →
      Justified E f₀ s₀ hs T

/-- Casper's notion of finality: a justified checkpoint, and a link from it over one epoch, or over
two epochs of which the first has a justified checkpoint too. -/
def Finalized (E : Env) (f₀ : Fork) (s₀ : State) (hs : List BeaconBlockHeader)
    (F : Checkpoint) : Prop :=
  F = genesisCheckpoint ∨ Justified E f₀ s₀ hs F ∧
    ∃ (f : Fork) (t : State) (past : List BeaconBlockHeader) (Q : List Nat) (G : Checkpoint),
      Chain E f₀ s₀ f t past ∧ past <+: hs ∧ Link E t Q F G ∧
      (G.epoch = F.epoch + 1 ∨ G.epoch = F.epoch + 2 ∧
        ∃ C, C.epoch = F.epoch + 1 ∧ Justified E f₀ s₀ hs C)

/-- The key signed two votes for which it can be slashed. -/
def Guilty (E : Env) (genesisRoot : Root) (k : PublicKey) : Prop :=
  ∃ d d', Signed E genesisRoot k d ∧ Signed E genesisRoot k d' ∧
    (DoubleVote d d' ∨ Surrounds d d' ∨ Surrounds d' d)

/-- The link from `S` to `T`, with the voters `Q`, was counted in a state `t` on the way along the
chain with headers `hs`. -/
def Counted (E : Env) (f₀ : Fork) (s₀ : State) (hs : List BeaconBlockHeader) (t : State)
    (Q : List Nat) (S T : Checkpoint) : Prop :=
  ∃ (f : Fork) (past : List BeaconBlockHeader), Chain E f₀ s₀ f t past ∧ past <+: hs ∧ Link E t Q S T

/-- `k` is the key of one of the validators `Q`. -/
def KeyOf (t : State) (Q : List Nat) (k : PublicKey) : Prop :=
  ∃ i ∈ Q, ∃ v, t.validators[i]? = some v ∧ v.public_key = k

/-- The windows in which the state remembers block roots and randao mixes are large enough for the
votes of two epochs. -/
structure VotesRemembered (E : Env) : Prop where
  epoch : 1 < E.slots_per_epoch
  aligned : E.slots_per_epoch ∣ E.slots_per_historical_root
  roots : 2 * E.slots_per_epoch ≤ E.slots_per_historical_root
  mixes : E.min_seed_lookahead + 4 < E.epochs_per_historical_vector
  lookahead : E.min_seed_lookahead ≤ E.max_seed_lookahead

end Verif.Spec
