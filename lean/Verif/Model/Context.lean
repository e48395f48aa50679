import Verif.Model.Executor

/-! # The fork schedule: `state_transition/context.rs` -/

namespace Verif

/-- `context.rs:444-459` -/
def fork_for (C : Context) (slot : Nat) : R Fork := do
  let epoch ← slot /? C.slots_per_epoch
  if epoch ≥ C.electra_fork_epoch then return .Electra
  else if epoch ≥ C.deneb_fork_epoch then return .Deneb
  else if epoch ≥ C.capella_fork_epoch then return .Capella
  else if epoch ≥ C.bellatrix_fork_epoch then return .Bellatrix
  else if epoch ≥ C.altair_fork_epoch then return .Altair
  else return .Phase0

end Verif
