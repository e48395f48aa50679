import Verif.Model.Env

/-!
# The state-mutation monad

A Rust function `fn f(state: &mut BeaconState, …) -> Result<T>` is a computation
in `M`. As in Rust, an error does not undo the mutations made before it: the
error outcome carries the state reached.
-/

namespace Verif

abbrev M := EStateM Err State

/-- Run a reader on the current state. -/
def rd {α : Type} (f : State → R α) : M α := fun s =>
  match f s with
  | .ok a => .ok a s
  | .error e => .error e s

/-- Use a state-independent result inside `M` (`?` or a panicking expression). -/
def liftR {α : Type} (x : R α) : M α := rd fun _ => x

instance : MonadLift R M where
  monadLift := liftR

/-- A field update. -/
def upd (f : State → State) : M Unit := fun s => .ok () (f s)

/-- `state.validators[i].… = …` : panics when `i` is out of bounds. -/
def updValidator (i : Nat) (f : Validator → Validator) : M Unit := fun s =>
  match s.validators[i]? with
  | some v => .ok () { s with validators := s.validators.set i (f v) }
  | none => .error (.panic .outOfBounds) s

/-- The state after a run, whether it succeeded or failed. -/
def finalState {α : Type} (m : M α) (s : State) : State :=
  match m s with
  | .ok _ s' => s'
  | .error _ s' => s'

end Verif
