import Verif.Spec.Ancestry
import Verif.Props.Genesis
import Verif.Examples.Blocks

/-! # Chains for the examples -/

namespace Verif.Toy

open Spec Props

/-- What a client does next: advance a slot, process a block built on its state, upgrade. -/
inductive Step
  | slot
  | block (b : Fork → State → BeaconBlock)
  | upgrade (g : Fork)

abbrev Place := Fork × State × List BeaconBlockHeader

def step (E : Env) : Step → Place → Option Place
  | .slot, (f, s, hs) => match process_slots E f (s.slot + 1) s with
    | .ok _ s' => some (f, s', hs ++ [closedHeader E f s])
    | .error _ _ => none
  | .block b, (f, s, hs) =>
    if succeeds (process_block E f (b f s)) s then
      some (f, finalState (process_block E f (b f s)) s, hs)
    else none
  | .upgrade g, (f, s, hs) =>
    if g.ord = f.ord + 1 then
      match upgrade_to E g s with
      | .ok s' => some (g, s', hs)
      | .error _ => none
    else none

/-- Follow the steps; blocks that are not valid end it. -/
def follow (E : Env) : List Step → Place → Option Place
  | [], p => some p
  | x :: xs, p => match step E x p with
    | some q => follow E xs q
    | none => none

theorem step_chain {E : Env} {f₀ : Fork} {s₀ : State} {x : Step} {p q : Place}
    (hp : Chain E f₀ s₀ p.1 p.2.1 p.2.2) (h : step E x p = some q) :
    Chain E f₀ s₀ q.1 q.2.1 q.2.2 := by
  obtain ⟨f, s, hs⟩ := p
  cases x <;> unfold step at h <;> dsimp only at h
  · split at h
    · rename_i e
      cases h
      exact .slot hp e
    · cases h
  · split at h
    · cases h
      exact .block _ hp
    · cases h
  · split at h
    · split at h
      · rename_i hg _ _ e
        cases h
        exact .upgrade hp hg e
      · cases h
    · cases h

theorem follow_chain {E : Env} {f₀ : Fork} {s₀ : State} {xs : List Step} {p q : Place}
    (hp : Chain E f₀ s₀ p.1 p.2.1 p.2.2) (h : follow E xs p = some q) :
    Chain E f₀ s₀ q.1 q.2.1 q.2.2 := by
  induction xs generalizing p with
  | nil => cases h; exact hp
  | cons x xs ih =>
    unfold follow at h
    split at h
    · rename_i e
      exact ih (step_chain hp e) h
    · cases h

/-- Headers that differ in slot, proposer, parent, state or body have different roots, except for
collisions of the checksum; bodies differ by their graffiti. -/
def chainEnv : Env := { lastLeafEnv with
  header_root := fun h => hash ([UInt8.ofNat h.slot, UInt8.ofNat h.proposer_index] ++
    h.parent_root.toList.take 4 ++ h.state_root.toList.take 2 ++ h.body_root.toList.take 2)
  body_root := fun _ b => b.graffiti }

/-- A block with the given body. -/
def blockOn (E : Env) (body : State → BeaconBlockBody) (_ : Fork) (s : State) : BeaconBlock where
  slot := s.slot
  proposer_index := match get_beacon_proposer_index E s with
    | .ok i => i
    | .error _ => 0
  parent_root := E.header_root s.latest_block_header
  state_root := zeroBytes 32
  body := body s

def signed (n : Nat) (s : State) : BeaconBlockBody :=
  { Toy.body s with graffiti := root n }

/-- A chain from genesis in fork `f`. -/
def chainFrom (E : Env) (f : Fork) (ds : List Deposit) (xs : List Step) : Option Place :=
  match initialize_beacon_state_from_eth1 E f (root 4) 10 ds none with
  | .ok s => follow E xs (f, s, [])
  | .error _ => none

theorem chainFrom_chain {E : Env} {f : Fork} {ds : List Deposit} {xs : List Step} {p : Place}
    (h : chainFrom E f ds xs = some p) :
    ∃ s₀, initialize_beacon_state_from_eth1 E f (root 4) 10 ds none = .ok s₀ ∧
      Chain E f s₀ p.1 p.2.1 p.2.2 := by
  unfold chainFrom at h
  split at h
  · rename_i s e
    exact ⟨s, e, follow_chain .start h⟩
  · cases h

end Verif.Toy
