import Verif.Spec.Rotation

/-! # Specification: chains of blocks, and what a block root commits to -/

namespace Verif.Spec

/-- The states of a client that follows a chain from the state `s₀` without a failed slot, through
blocks, valid or not, and fork upgrades. `hs` has one entry for every slot that has been left: the
latest block header at that time, with its state root filled in. -/
inductive Chain (E : Env) (f₀ : Fork) (s₀ : State) : Fork → State → List BeaconBlockHeader → Prop
  | start : Chain E f₀ s₀ f₀ s₀ []
  | slot {f : Fork} {s s' : State} {hs : List BeaconBlockHeader} : Chain E f₀ s₀ f s hs →
      process_slots E f (s.slot + 1) s = .ok () s' →
      Chain E f₀ s₀ f s' (hs ++ [closedHeader E f s])
  | block {f : Fork} {s : State} {hs : List BeaconBlockHeader} (b : BeaconBlock) :
      Chain E f₀ s₀ f s hs → Chain E f₀ s₀ f (finalState (process_block E f b) s) hs
  | upgrade {f g : Fork} {s s' : State} {hs : List BeaconBlockHeader} : Chain E f₀ s₀ f s hs →
      g.ord = f.ord + 1 → upgrade_to E g s = .ok s' → Chain E f₀ s₀ g s' hs

/-- `s₀` is a genesis state of fork `f₀`. -/
def IsGenesis (E : Env) (f₀ : Fork) (s₀ : State) : Prop :=
  ∃ h t ds p, initialize_beacon_state_from_eth1 E f₀ h t ds p = .ok s₀

/-- The block root of a slot that has been left: the root of the header of the latest block at or
before that slot. -/
def rootAt (E : Env) (hs : List BeaconBlockHeader) (slot : Nat) : Option Root :=
  (hs[slot]?).map E.header_root

/-- The hash function has not been broken on these headers: different headers have different roots,
and no header contains the state root that stands for a missing one. -/
structure HashesHold (E : Env) (hs : List BeaconBlockHeader) : Prop where
  no_collision : ∀ h ∈ hs, ∀ h' ∈ hs, E.header_root h = E.header_root h' → h = h'
  no_zero : ∀ h ∈ hs, h.state_root ≠ zeroBytes 32

end Verif.Spec
