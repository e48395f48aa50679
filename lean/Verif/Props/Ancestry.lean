import Verif.Proofs.Ancestry
import Verif.Examples.Chains

/-! # C67: a block root commits to the whole history -/

namespace Verif.Props

open Spec

/-- **C67** Every block of a chain that follows the genesis block names, as its parent, the block that
was the latest one in the slot before its own. -/
theorem C67_parent (E : Env) (f₀ f : Fork) (s₀ s : State) (hs : List BeaconBlockHeader)
    (hg : IsGenesis E f₀ s₀) (h : Chain E f₀ s₀ f s hs) (hh : HashesHold E hs)
    (n : Nat) (x : BeaconBlockHeader) (hx : hs[n]? = some x) :
    x.slot ≤ n ∧ (0 < x.slot → rootAt E hs (x.slot - 1) = some x.parent_root) := by
  obtain ⟨h1, -, h3⟩ := (chain_headers hg h hh.no_zero).entry n x hx
  refine ⟨h1, fun h4 => ?_⟩
  obtain ⟨p, h5, h6⟩ := h3 h4
  unfold rootAt
  rw [h5, h6]; rfl

/-- **C67** If two chains, from whatever genesis states and through whatever forks, have the same
block root in a slot, then they have the same blocks in all slots up to it. -/
theorem C67_history (E : Env) (fA fA' fB fB' : Fork) (sA sA' sB sB' : State)
    (hsA hsB : List BeaconBlockHeader) (gA : IsGenesis E fA sA) (gB : IsGenesis E fB sB)
    (hA : Chain E fA sA fA' sA' hsA) (hB : Chain E fB sB fB' sB' hsB)
    (hh : HashesHold E (hsA ++ hsB)) (n : Nat) (r : Root)
    (rA : rootAt E hsA n = some r) (rB : rootAt E hsB n = some r) :
    ∀ j, j ≤ n → hsA[j]? = hsB[j]? := by
  unfold rootAt at rA rB
  rw [Option.map_eq_some_iff] at rA rB
  obtain ⟨x, hx, rfl⟩ := rA
  obtain ⟨y, hy, hxy⟩ := rB
  exact logs_agree_at
    (chain_headers gA hA fun h m => hh.no_zero h (List.mem_append_left _ m))
    (chain_headers gB hB fun h m => hh.no_zero h (List.mem_append_right _ m))
    (fun h m h' m' => hh.no_collision h (List.mem_append_left _ m) h' (List.mem_append_right _ m'))
    hx hy hxy.symm

/-- **C67** If a block is on two chains, as the latest block of whatever slots, then the chains have
the same blocks in all slots up to its own. -/
theorem C67_block (E : Env) (fA fA' fB fB' : Fork) (sA sA' sB sB' : State)
    (hsA hsB : List BeaconBlockHeader) (gA : IsGenesis E fA sA) (gB : IsGenesis E fB sB)
    (hA : Chain E fA sA fA' sA' hsA) (hB : Chain E fB sB fB' sB' hsB)
    (hh : HashesHold E (hsA ++ hsB)) (n m : Nat) (r : Root)
    (rA : rootAt E hsA n = some r) (rB : rootAt E hsB m = some r) :
    ∃ x, hsA[n]? = some x ∧ hsB[m]? = some x ∧ x.slot ≤ n ∧ x.slot ≤ m ∧
      ∀ j, j ≤ x.slot → hsA[j]? = hsB[j]? := by
  unfold rootAt at rA rB
  rw [Option.map_eq_some_iff] at rA rB
  obtain ⟨x, hx, rfl⟩ := rA
  obtain ⟨y, hy, hxy⟩ := rB
  obtain ⟨rfl, h1, h2, h3⟩ := logs_agree
    (chain_headers gA hA fun h m => hh.no_zero h (List.mem_append_left _ m))
    (chain_headers gB hB fun h m => hh.no_zero h (List.mem_append_right _ m))
    (fun h m h' m' => hh.no_collision h (List.mem_append_left _ m) h' (List.mem_append_right _ m'))
    hx hy hxy.symm
  exact ⟨x, hx, hy, h1, h2, h3⟩

/-- **C67** So it is for the roots the library returns: two states whose `get_block_root_at_slot` agree
on one slot agree on every earlier slot for which both have an answer, and their chains have the same
blocks up to that slot. -/
theorem C67_lookup (E : Env) (hE : SaneConfig E)
    (hd : E.slots_per_epoch ∣ E.slots_per_historical_root)
    (fA fA' fB fB' : Fork) (sA sA' sB sB' : State)
    (hsA hsB : List BeaconBlockHeader) (gA : IsGenesis E fA sA) (gB : IsGenesis E fB sB)
    (hA : Chain E fA sA fA' sA' hsA) (hB : Chain E fB sB fB' sB' hsB)
    (hh : HashesHold E (hsA ++ hsB)) (n : Nat) (r : Root)
    (rA : get_block_root_at_slot E sA' n = .ok r) (rB : get_block_root_at_slot E sB' n = .ok r) :
    ∀ j, j ≤ n → hsA[j]? = hsB[j]? ∧
      ∀ a b, get_block_root_at_slot E sA' j = .ok a → get_block_root_at_slot E sB' j = .ok b →
        a = b := by
  intro j hj
  have := C67_history E fA fA' fB fB' sA sA' sB sB' hsA hsB gA gB hA hB hh n r
    (block_root_rootAt hE hd gA hA rA) (block_root_rootAt hE hd gB hB rB) j hj
  refine ⟨this, fun a b ha hb => ?_⟩
  have h1 := block_root_rootAt hE hd gA hA ha
  have h2 := block_root_rootAt hE hd gB hB hb
  unfold rootAt at h1 h2
  rw [this, h2] at h1
  cases h1; rfl

/-! ### Two chains that part in slot 3, in phase0, and go on, one of them into altair -/

open Toy in
def shared : List Step := [.slot, .block (blockOn chainEnv (signed 1)), .slot, .slot]

open Toy in
def chainA : Option Place := chainFrom chainEnv .Phase0 lastLeafDeposits
  (shared ++ [.block (blockOn chainEnv (signed 2)), .slot, .slot, .upgrade .Altair, .slot])

open Toy in
def chainB : Option Place := chainFrom chainEnv .Phase0 lastLeafDeposits
  (shared ++ [.slot, .block (blockOn chainEnv (signed 3)), .slot])

example : chainA.isSome = true ∧ chainB.isSome = true ∧
    (∀ p, chainA = some p →
      ∃ s₀, IsGenesis Toy.chainEnv .Phase0 s₀ ∧ Chain Toy.chainEnv .Phase0 s₀ p.1 p.2.1 p.2.2) ∧
    (match chainA, chainB with
      | some (_, sA, hsA), some (_, sB, hsB) => decide (
          sA.slot = 6 ∧ sB.slot = 5 ∧ hsA.length = 6 ∧ hsB.length = 5 ∧
          hsA.map (·.slot) = [0, 1, 1, 3, 3, 3] ∧ hsB.map (·.slot) = [0, 1, 1, 1, 4] ∧
          (∀ h ∈ hsA ++ hsB, ∀ h' ∈ hsA ++ hsB,
            Toy.chainEnv.header_root h = Toy.chainEnv.header_root h' → h = h') ∧
          (∀ h ∈ hsA ++ hsB, h.state_root ≠ zeroBytes 32) ∧
          get_block_root_at_slot Toy.chainEnv sA 2 = get_block_root_at_slot Toy.chainEnv sB 2 ∧
          get_block_root_at_slot Toy.chainEnv sA 3 ≠ get_block_root_at_slot Toy.chainEnv sB 3 ∧
          get_block_root_at_slot Toy.chainEnv sA 4 ≠ get_block_root_at_slot Toy.chainEnv sB 4 ∧
          (get_block_root_at_slot Toy.chainEnv sB 3).toOption.isSome)
      | _, _ => false) = true := by
  refine ⟨by decide +kernel, by decide +kernel, fun p h => ?_, by decide +kernel⟩
  obtain ⟨s₀, h1, h2⟩ := Toy.chainFrom_chain h
  exact ⟨s₀, ⟨_, _, _, _, h1⟩, h2⟩

end Verif.Props
