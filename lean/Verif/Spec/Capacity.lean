import Verif.Spec.History

/-! # What it means for the blocks of a client to be well typed

A block that is read from bytes or from JSON has no more attestations than its type has room for
(`MAX_ATTESTATIONS`, `phase0/beacon_block.rs:26`). The number is a parameter here. -/

namespace Verif.Spec

/-- The calls of a client that follows a chain in `f`, with blocks of at most `A` attestations. -/
inductive TypedCall (E : Env) (f : Fork) (A : Nat) : M Unit → Prop
  | process_slots (slot : Nat) : TypedCall E f A (process_slots E f slot)
  | process_block (b : BeaconBlock) : b.body.attestations.length ≤ A →
      TypedCall E f A (process_block E f b)
  | state_transition (b : SignedBeaconBlock) (v : Validation) :
      b.message.body.attestations.length ≤ A → TypedCall E f A (state_transition E f b v)
  | state_transition_block_in_slot (b : SignedBeaconBlock) (v : Validation) :
      b.message.body.attestations.length ≤ A →
      TypedCall E f A (state_transition_block_in_slot E f b v)

/-- The states of such a client in phase0, through failed and successful calls. -/
inductive TypedPhase0 (E : Env) (A : Nat) : State → Prop
  | genesis {h : Bytes32} {t : Nat} {ds : List Deposit} {p : Option ExecutionPayloadHeader}
      {s : State} : initialize_beacon_state_from_eth1 E .Phase0 h t ds p = .ok s →
      TypedPhase0 E A s
  | call {s : State} {m : M Unit} : TypedPhase0 E A s → TypedCall E .Phase0 A m →
      TypedPhase0 E A (finalState m s)

end Verif.Spec
