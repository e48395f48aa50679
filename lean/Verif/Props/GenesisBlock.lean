import Verif.Props.Genesis
import Verif.Proofs.Executor

/-! # C49: the genesis block -/

namespace Verif.Props

open Spec

/-- The header of a block with its state root -/
def sealedHeader (E : Env) (f : Fork) (b : BeaconBlock) : BeaconBlockHeader :=
  { headerOf E f b with state_root := b.state_root }

theorem step_header {E : Env} {f : Fork} {s s' : State} (h : slot_step E f s = .ok () s') :
    s'.latest_block_header = closedHeader E f s := by
  obtain ⟨s₁, s₂, h1, -, -, h2, rfl⟩ := slot_step_eq_ok.1 h
  obtain ⟨-, -, -, rfl⟩ := process_slot_eq_ok.1 h1
  rcases h2 with ⟨-, h2⟩ | ⟨-, rfl⟩
  · exact (epoch_mod.ok h2) .latest_block_header (by decide)
  · rfl

theorem loop_header {E : Env} {f : Fork} {t n : Nat} {s s' : State}
    (h : slots_loop E f t n s = .ok () s') (hr : s.latest_block_header.state_root ≠ zeroBytes 32) :
    s'.latest_block_header = s.latest_block_header := by
  induction n generalizing s with
  | zero => obtain ⟨-, rfl⟩ := slots_loop_zero.1 h; rfl
  | succ n ih =>
    rcases slots_loop_succ.1 h with ⟨-, s₁, h1, h2⟩ | ⟨-, rfl⟩
    · have := step_header h1
      rw [closedHeader, if_neg hr] at this
      rw [ih h2 (by rw [this]; exact hr), this]
    · rfl

/-- **C49** The block that `get_genesis_block` gives is at slot 0, without a parent, and has the root
of the genesis state. From the genesis state the chain goes on from that block: after any number of
slots its header is the latest, and the next block is accepted only as its child. (A state whose root
is all zeros is left out.) -/
theorem C49_block (E : Env) (f : Fork) (hash : Bytes32) (time : Nat) (ds : List Deposit)
    (header : Option ExecutionPayloadHeader) (s : State)
    (h : initialize_beacon_state_from_eth1 E f hash time ds header = .ok s) :
    (get_genesis_block E f s).slot = 0 ∧ (get_genesis_block E f s).parent_root = zeroBytes 32 ∧
    (get_genesis_block E f s).state_root = E.state_root f s ∧
    (E.state_root f s ≠ zeroBytes 32 → ∀ slot s', process_slots E f slot s = .ok () s' →
      s'.latest_block_header = sealedHeader E f (get_genesis_block E f s) ∧
      ∀ b s'', process_block_header E f b s' = .ok () s'' →
        b.parent_root = E.header_root (sealedHeader E f (get_genesis_block E f s))) := by
  refine ⟨rfl, rfl, rfl, ?_⟩
  unfold initialize_beacon_state_from_eth1 genesis_candidate at h
  simp only [run] at h
  obtain ⟨_, ⟨gt, _, rfl⟩, h⟩ := h
  rw [runLocal_eq_ok] at h
  have hh := (genesis_fill_mod (E := E) (f := f) (ds := ds)).ok h .latest_block_header (by decide)
  simp only [Field.same] at hh
  intro hr slot s' hs
  have key : s'.latest_block_header = sealedHeader E f (get_genesis_block E f s) := by
    have hlt := (process_slots_slot hs).1
    rw [process_slots_eq] at hs
    rw [if_pos hlt] at hs
    obtain ⟨n, hn⟩ : ∃ n, slot - s.slot = n + 1 := ⟨slot - s.slot - 1, by omega⟩
    rw [hn] at hs
    rcases slots_loop_succ.1 hs with ⟨-, s₁, h1, h2⟩ | ⟨h1, -⟩
    · have h3 := step_header h1
      have h4 : closedHeader E f s = sealedHeader E f (get_genesis_block E f s) := by
        unfold closedHeader
        rw [hh]
        exact if_pos rfl
      rw [h4] at h3
      rw [loop_header h2 (by rw [h3]; exact hr), h3]
    · omega
  refine ⟨key, ?_⟩
  intro b s'' hb
  rw [← key]
  exact ((C15_block_header_iff E f b s' s'').1 hb).1.parent

/-- A genesis state with two slots after it -/
example : (match initialize_beacon_state_from_eth1 lastLeafEnv .Phase0 (Toy.root 4) 10
      lastLeafDeposits none with
    | .ok s => (match process_slots lastLeafEnv .Phase0 2 s with
      | .ok () s' => decide (lastLeafEnv.state_root .Phase0 s ≠ zeroBytes 32 ∧ s'.slot = 2)
      | _ => false)
    | .error _ => false) = true := by decide +kernel

end Verif.Props
