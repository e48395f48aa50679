import Verif.Model.Transition

/-! # Specification: advancing through slots -/

namespace Verif.Spec

/-- The latest block header with its state root filled in, if it is still missing. -/
def closedHeader (E : Env) (f : Fork) (s : State) : BeaconBlockHeader :=
  if s.latest_block_header.state_root = zeroBytes 32
  then { s.latest_block_header with state_root := E.state_root f s }
  else s.latest_block_header

/-- `Advance E f s ran s'`: from `s`, some number of slots are processed one after the other,
each by `process_slot`, possibly followed by `process_epoch`, and an increment of the slot;
`ran` lists the slots in which `process_epoch` ran. -/
inductive Advance (E : Env) (f : Fork) : State → List Nat → State → Prop
  | done (s : State) : Advance E f s [] s
  | slot {s s₁ s' : State} {ran : List Nat} :
      process_slot E f s = .ok () s₁ →
      Advance E f { s₁ with slot := s.slot + 1 } ran s' →
      Advance E f s ran s'
  | slotAndEpoch {s s₁ s₂ s' : State} {ran : List Nat} :
      process_slot E f s = .ok () s₁ →
      process_epoch E f s₁ = .ok () s₂ →
      Advance E f { s₂ with slot := s.slot + 1 } ran s' →
      Advance E f s (s.slot :: ran) s'

/-- The last slots of an epoch among the slots `a, …, b - 1`. -/
def epochEnds (E : Env) (a b : Nat) : List Nat :=
  (List.range' a (b - a)).filter fun k => (k + 1) % E.slots_per_epoch = 0

/-- A run of the chain: `log` has an entry for every slot that has been left since `s₀`: the
slot, the root of the state at the time it was left, and the root of the latest block header. Blocks
may be processed in between, whether they turn out valid or not. -/
inductive ChainRun (E : Env) (f : Fork) (s₀ : State) : State → List (Nat × Root × Root) → Prop
  | start : ChainRun E f s₀ s₀ []
  | slot {s s' : State} {log : List (Nat × Root × Root)} : ChainRun E f s₀ s log →
      process_slots E f (s.slot + 1) s = .ok () s' →
      ChainRun E f s₀ s'
        (log ++ [(s.slot, E.state_root f s, E.header_root (closedHeader E f s))])
  | block {s : State} {log : List (Nat × Root × Root)} (b : BeaconBlock) : ChainRun E f s₀ s log →
      ChainRun E f s₀ (finalState (process_block E f b) s) log

end Verif.Spec
