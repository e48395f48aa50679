import Verif.Model.Genesis

/-! # `state_transition/executor.rs` -/

namespace Verif

/-- Position of a fork in the order `fork.rs:4-11`. -/
def Fork.ord : Fork → Nat
  | .Phase0 => 0 | .Altair => 1 | .Bellatrix => 2 | .Capella => 3 | .Deneb => 4 | .Electra => 5

/-- `types/beacon_state.rs` `BeaconState`: a state tagged with its fork. The Rust enum
has no electra variant. -/
structure TaggedState where
  version : Fork
  state : State
  deriving DecidableEq

/-- The activation epoch fields of `Context`. -/
def fork_epoch_of (C : Context) : Fork → Nat
  | .Phase0 => GENESIS_EPOCH
  | .Altair => C.altair_fork_epoch
  | .Bellatrix => C.bellatrix_fork_epoch
  | .Capella => C.capella_fork_epoch
  | .Deneb => C.deneb_fork_epoch
  | .Electra => C.electra_fork_epoch

/-- `self.context.…_fork_epoch * self.context.slots_per_epoch`, e.g.
`executor.rs:257`. -/
def fork_slot (E : Env) (f : Fork) : R Nat := fork_epoch_of E.toContext f *? E.slots_per_epoch

/-- The forks to upgrade through, from a state of fork `a` to a block of fork `b`:
each `match` arm of `executor.rs:197-531` spells out this list. -/
def fork_path (a b : Fork) : List Fork :=
  [Fork.Altair, .Bellatrix, .Capella, .Deneb].filter fun g => a.ord < g.ord && g.ord ≤ b.ord

/-- Advance a local state of fork `f` to the first slot of each fork of the list and
upgrade it, e.g. `executor.rs:436-446`. -/
def climb (E : Env) : Fork → List Fork → State → R State
  | _, [], s => .ok s
  | f, g :: rest, s => do
    let slot ← fork_slot E g
    let s ← runLocal (process_slots E f slot) s
    let s ← upgrade_to E g s
    climb E g rest s

/-- `if signed_block.message.slot == state.slot { state_transition_block_in_slot(…)? }
else { state_transition(…)? }`, e.g. `executor.rs:448-457`. -/
def transition_after_upgrade (E : Env) (f : Fork) (b : SignedBeaconBlock) (v : Validation)
    (s : State) : R State :=
  runLocal (if b.message.slot = s.slot then state_transition_block_in_slot E f b v
    else state_transition E f b v) s

/-- The steps on local states, after the first `process_slots`: the upgrade into `g`, the
remaining forks, the block. -/
def upgrade_and_apply (E : Env) (g : Fork) (rest : List Fork) (target : Fork)
    (b : SignedBeaconBlock) (v : Validation) (s : State) : R State := do
  let s ← upgrade_to E g s
  let s ← climb E g rest s
  transition_after_upgrade E target b v s

/-- `executor.rs:135-172` together with `apply_{phase0,altair,bellatrix,capella,deneb}_block_with_validation`
(`executor.rs:174-531`), for a block of fork `target`. In the cross-fork arms the first
`process_slots` runs on `self.state` in place and everything after it on local states, so a
later failure leaves `self.state` advanced but not upgraded. -/
def apply_block_with_validation (E : Env) (target : Fork) (b : SignedBeaconBlock)
    (v : Validation) : EStateM Err TaggedState Unit := fun t =>
  if t.version = target then
    match state_transition E target b v t.state with
    | .ok _ s => .ok () ⟨target, s⟩
    | .error e s => .error e ⟨target, s⟩
  else match fork_path t.version target with
    | [] => .error .invalidForkTransition t
    | g :: rest =>
      match (do
          let slot ← fork_slot E g
          process_slots E t.version slot : M Unit) t.state with
      | .error e s => .error e ⟨t.version, s⟩
      | .ok _ s =>
        match upgrade_and_apply E g rest target b v s with
        | .error e => .error e ⟨t.version, s⟩
        | .ok s' => .ok () ⟨target, s'⟩

/-- `executor.rs:113-133` -/
def apply_block (E : Env) (target : Fork) (b : SignedBeaconBlock) : EStateM Err TaggedState Unit :=
  apply_block_with_validation E target b .Enabled

end Verif
