import Verif.Model.Block
import Verif.Model.Epoch

/-! # Slot processing and the state transition -/

namespace Verif

/-- `phase0/slot_processing.rs:45-80`. `Root::default()` is all zeros. -/
def process_slot (E : Env) (f : Fork) : M Unit := do
  let s ← get
  let previous_state_root := E.state_root f s
  let root_index ← s.slot %? E.slots_per_historical_root
  let state_roots ← setIdx s.state_roots root_index previous_state_root
  upd fun s => { s with state_roots := state_roots }
  upd fun s => { s with latest_block_header :=
    if s.latest_block_header.state_root = zeroBytes 32
    then { s.latest_block_header with state_root := previous_state_root }
    else s.latest_block_header }
  let s ← get
  let previous_block_root := E.header_root s.latest_block_header
  let root_index ← s.slot %? E.slots_per_historical_root
  let block_roots ← setIdx s.block_roots root_index previous_block_root
  upd fun s => { s with block_roots := block_roots }

/-- `phase0/slot_processing.rs:37-39` -/
def process_epoch_if_due (E : Env) (f : Fork) : M Unit := do
  let s ← get
  let next ← s.slot +? 1
  let r ← next %? E.slots_per_epoch
  if r = 0 then process_epoch E f else pure ()

/-- The loop body `phase0/slot_processing.rs:36-40`. -/
def slot_step (E : Env) (f : Fork) : M Unit := do
  process_slot E f
  process_epoch_if_due E f
  let s ← get
  let next ← s.slot +? 1
  upd fun s => { s with slot := next }

/-- The loop `phase0/slot_processing.rs:35-41`; the first argument bounds the number
of iterations. -/
def slots_loop (E : Env) (f : Fork) (slot : Nat) : Nat → M Unit
  | 0 => do
    let s ← get
    rejectIf (s.slot < slot) .diverged
  | n + 1 => do
    let s ← get
    if s.slot < slot then
      slot_step E f
      slots_loop E f slot n
    else pure ()

/-- `phase0/slot_processing.rs:9-43`. The loop is given as many iterations as there
are slots to advance; `Err.diverged` would mean that these did not suffice. -/
def process_slots (E : Env) (f : Fork) (slot : Nat) : M Unit := do
  let s ← get
  rejectIf (s.slot ≥ slot) .transitionToPreviousSlot
  slots_loop E f slot (slot - s.slot)

/-- `state_transition/mod.rs` `Validation` -/
inductive Validation
  | Enabled | Disabled
  deriving DecidableEq, Repr

/-- `phase0/state_transition.rs:55-57` -/
def verify_block_signature_if (E : Env) (f : Fork) (v : Validation) (b : SignedBeaconBlock) :
    M Unit :=
  match v with
  | .Enabled => do
    let s ← get
    verify_block_signature E f s b
  | .Disabled => pure ()

/-- `phase0/state_transition.rs:15-65`, `bellatrix/state_transition.rs:13-74`. -/
def state_transition_block_in_slot (E : Env) (f : Fork) (b : SignedBeaconBlock)
    (v : Validation) : M Unit := do
  verify_block_signature_if E f v b
  process_block E f b.message
  let s ← get
  rejectIf (v = .Enabled && b.message.state_root ≠ E.state_root f s) .invalidStateRoot

/-- `phase0/state_transition.rs:67-106`, `bellatrix/state_transition.rs:76-126`. -/
def state_transition (E : Env) (f : Fork) (b : SignedBeaconBlock) (v : Validation) : M Unit := do
  process_slots E f b.message.slot
  state_transition_block_in_slot E f b v

end Verif
