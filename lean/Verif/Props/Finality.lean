import Verif.Proofs.Finality
import Verif.Examples.Chains

/-! # C70: justified and finalized checkpoints are backed by signed votes, and two conflicting
finalized checkpoints convict a third of the validators -/

namespace Verif.Props

open Spec

/-- **C70** In every state of a chain, the two justified checkpoints are connected to the genesis by
links: for each link, unslashed active validators with two thirds of the active balance have signed
votes from its source to its target. -/
theorem C70_justified (E : Env) (hS : SaneConfig E) (hE : VotesRemembered E) (f₀ f : Fork)
    (s₀ s : State) (hs : List BeaconBlockHeader) (hg : IsGenesis E f₀ s₀)
    (h : Chain E f₀ s₀ f s hs) (hreg : s.validators.length ≤ 2 ^ 40) :
    Justified E f₀ s₀ hs s.previous_justified_checkpoint ∧
    Justified E f₀ s₀ hs s.current_justified_checkpoint :=
  have inv := chain_finality hS hE hg h hreg
  ⟨inv.previous, inv.current⟩

/-- **C70** The finalized checkpoint of every state of a chain is final in Casper's sense. -/
theorem C70_finalized (E : Env) (hS : SaneConfig E) (hE : VotesRemembered E) (f₀ f : Fork)
    (s₀ s : State) (hs : List BeaconBlockHeader) (hg : IsGenesis E f₀ s₀)
    (h : Chain E f₀ s₀ f s hs) (hreg : s.validators.length ≤ 2 ^ 40) :
    Finalized E f₀ s₀ hs s.finalized_checkpoint :=
  (chain_finality hS hE hg h hreg).finalized

/-- **C70** A state that has finalized a checkpoint and a state, on another chain from the same
genesis, that has justified one of the same epoch or a later one: unless the first checkpoint is on the
second chain, there are two links, one counted on each chain, such that every key that took part in
both has signed two votes it can be slashed for. -/
theorem C70_accountable (E : Env) (hS : SaneConfig E) (hE : VotesRemembered E) (f₀ fA fB : Fork)
    (s₀ sA sB : State) (hsA hsB : List BeaconBlockHeader) (hg : IsGenesis E f₀ s₀)
    (hA : Chain E f₀ s₀ fA sA hsA) (hB : Chain E f₀ s₀ fB sB hsB)
    (rA : sA.validators.length ≤ 2 ^ 40) (rB : sB.validators.length ≤ 2 ^ 40)
    (hh : HashesHold E (hsA ++ hsB)) (hpos : 0 < sA.finalized_checkpoint.epoch)
    (hle : sA.finalized_checkpoint.epoch ≤ sB.current_justified_checkpoint.epoch)
    (hne : rootAt E hsB (sA.finalized_checkpoint.epoch * E.slots_per_epoch) ≠
      some sA.finalized_checkpoint.root) :
    ∃ tA QA SA TA tB QB SB TB, Counted E f₀ s₀ hsA tA QA SA TA ∧
      Counted E f₀ s₀ hsB tB QB SB TB ∧
      ∀ k, KeyOf tA QA k → KeyOf tB QB k → Guilty E s₀.genesis_validators_root k :=
  conflict_links hg hA hB hh (C70_finalized E hS hE f₀ fA s₀ sA hsA hg hA rA)
    (C70_justified E hS hE f₀ fB s₀ sB hsB hg hB rB).2 hpos hle hne

/-- **C70** The same for two finalized checkpoints. -/
theorem C70_accountable_final (E : Env) (hS : SaneConfig E) (hE : VotesRemembered E)
    (f₀ fA fB : Fork) (s₀ sA sB : State) (hsA hsB : List BeaconBlockHeader) (hg : IsGenesis E f₀ s₀)
    (hA : Chain E f₀ s₀ fA sA hsA) (hB : Chain E f₀ s₀ fB sB hsB)
    (rA : sA.validators.length ≤ 2 ^ 40) (rB : sB.validators.length ≤ 2 ^ 40)
    (hh : HashesHold E (hsA ++ hsB)) (hpos : 0 < sA.finalized_checkpoint.epoch)
    (hle : sA.finalized_checkpoint.epoch ≤ sB.finalized_checkpoint.epoch)
    (hne : rootAt E hsB (sA.finalized_checkpoint.epoch * E.slots_per_epoch) ≠
      some sA.finalized_checkpoint.root) :
    ∃ tA QA SA TA tB QB SB TB, Counted E f₀ s₀ hsA tA QA SA TA ∧
      Counted E f₀ s₀ hsB tB QB SB TB ∧
      ∀ k, KeyOf tA QA k → KeyOf tB QB k → Guilty E s₀.genesis_validators_root k := by
  refine conflict_links hg hA hB hh (C70_finalized E hS hE f₀ fA s₀ sA hsA hg hA rA)
    (C := sB.finalized_checkpoint) ?_ hpos hle hne
  rcases C70_finalized E hS hE f₀ fB s₀ sB hsB hg hB rB with h | ⟨h, -⟩
  · rw [h]; exact .genesis
  · exact h

/-- **C70** How many they are: if the voters of two links are among validators `U` that have the
same keys and effective balances in both states and no more than the active balance of either, then
those who took part in both links have a third of it. -/
theorem C70_third (E : Env) (tA tB : State) (QA QB U : List Nat) (SA TA SB TB : Checkpoint)
    (lA : Link E tA QA SA TA) (lB : Link E tB QB SB TB) (hA : QA ⊆ U) (hB : QB ⊆ U)
    (hU : ∀ i ∈ U, ∃ v w, tA.validators[i]? = some v ∧ tB.validators[i]? = some w ∧
      v.public_key = w.public_key ∧ v.effective_balance = w.effective_balance)
    (bA : totalEffective tA U ≤ activeBalance E tA) (bB : totalEffective tA U ≤ activeBalance E tB)
    (iA : 2 * E.effective_balance_increment ≤ activeBalance E tA)
    (iB : 2 * E.effective_balance_increment ≤ activeBalance E tB) :
    ∃ D : List Nat, D.Nodup ∧ totalEffective tA U ≤ 3 * totalEffective tA D ∧
      ∀ i ∈ D, ∃ v, tA.validators[i]? = some v ∧ KeyOf tA QA v.public_key ∧
        KeyOf tB QB v.public_key := by
  have key := overlap (s := tA) lA.distinct lB.distinct hA hB
  have hw : totalEffective tB QB = totalEffective tA QB := by
    unfold totalEffective
    congr 1
    refine List.map_congr_left fun i hi => ?_
    obtain ⟨v, w, h1, h2, -, h3⟩ := hU i (hB hi)
    unfold effectiveBalance
    rw [h1, h2]
    exact h3.symm
  have h1 := lA.weight
  have h2 := lB.weight
  rw [hw] at h2
  refine ⟨_, lA.distinct.filter (· ∈ QB), by omega, fun i hi => ?_⟩
  rw [List.mem_filter, decide_eq_true_eq] at hi
  obtain ⟨v, w, h1, h2, h3, -⟩ := hU i (hA hi.1)
  exact ⟨v, h1, ⟨i, hi.1, v, h1, rfl⟩, ⟨i, hi.2, w, h2, h3.symm⟩⟩

/-! ### Two chains on which all the validators vote, in phase0 and later in altair -/

namespace Votes

open Toy

/-- Epochs of two slots, in which each of the two active validators votes once. -/
def voteEnv : Env := { lastLeafEnv with
  slots_per_epoch := 2
  slots_per_historical_root := 4
  epochs_per_historical_vector := 8
  epochs_per_slashings_vector := 2
  shuffle_round_count := 1
  sync_committee_size := 2
  hash := fun bs => root bs.length
  signing_data_root := fun r _ => r
  fork_data_root := fun _ r => r
  header_root := fun h => root (h.slot + 256 * h.body_root[0].toNat)
  body_root := fun _ b => b.graffiti }

def deposits : List Deposit :=
  [lastLeafDeposit 0 32000000000 goodSig, lastLeafDeposit 1 32000000000 goodSig]

/-- The vote of the committee of the slot before. -/
def vote (s : State) : Attestation where
  aggregation_bits := match get_beacon_committee voteEnv s (s.slot - 1) 0 with
    | .ok c => c.map fun _ => true
    | .error _ => []
  data := {
    slot := s.slot - 1
    index := 0
    beacon_block_root := (get_block_root_at_slot voteEnv s (s.slot - 1)).toOption.getD (zeroBytes 32)
    source := if (s.slot - 1) / 2 = s.slot / 2 then s.current_justified_checkpoint
      else s.previous_justified_checkpoint
    target := ⟨(s.slot - 1) / 2,
      (get_block_root_at_slot voteEnv s ((s.slot - 1) / 2 * 2)).toOption.getD (zeroBytes 32)⟩ }
  signature := goodSig

/-- A slot and a block with a vote. -/
def round (n : Nat) : List Step :=
  [.slot, .block (blockOn voteEnv fun s =>
    { signed n s with
      eth1_data := s.eth1_data
      attestations := if s.slot = 1 then [] else [vote s]
      execution_payload := { (signed n s).execution_payload with
        prev_randao := s.randao_mixes.getD (s.slot / 2 % 8) (zeroBytes 32) } })]

def rounds (n k : Nat) : List Step := (List.replicate k (round n)).flatten

/-- A chain that goes into altair in slot 4. -/
def placeA : Option Place := chainFrom voteEnv .Phase0 deposits
  (rounds 1 3 ++ [.slot, .upgrade .Altair] ++ (rounds 1 1).drop 1 ++ rounds 1 5 ++ [.slot])

/-- A chain that stays in phase0, with other blocks. -/
def placeB : Option Place := chainFrom voteEnv .Phase0 deposits (rounds 2 9 ++ [.slot])

/-- Slot, body and state of a header. -/
def tag (h : BeaconBlockHeader) : Nat × Nat × Nat :=
  (h.slot, h.body_root[0].toNat, h.state_root[0].toNat)

end Votes

example : SaneConfig Votes.voteEnv ∧ VotesRemembered Votes.voteEnv := by
  refine ⟨by constructor <;> decide +kernel, by constructor <;> decide +kernel⟩

/-- Both finalize a checkpoint of epoch 1, and they are different. The only headers that agree on
slot and body, which is what the toy root depends on, are those of the genesis block. -/
example : (match Votes.placeA, Votes.placeB with
    | some (fA, sA, hsA), some (fB, sB, hsB) => decide (
        fA = .Altair ∧ fB = .Phase0 ∧ sA.slot = 10 ∧ sB.slot = 10 ∧
        sA.finalized_checkpoint.epoch = 1 ∧ sB.finalized_checkpoint.epoch = 1 ∧
        sA.current_justified_checkpoint.epoch = 3 ∧ sB.current_justified_checkpoint.epoch = 3 ∧
        hsA.map Votes.tag = [(0, 0, 11), (1, 1, 12), (2, 1, 13), (3, 1, 14), (4, 1, 15), (5, 1, 16),
          (6, 1, 17), (7, 1, 18), (8, 1, 19), (9, 1, 20)] ∧
        hsB.map Votes.tag = [(0, 0, 11), (1, 2, 12), (2, 2, 13), (3, 2, 14), (4, 2, 15), (5, 2, 16),
          (6, 2, 17), (7, 2, 18), (8, 2, 19), (9, 2, 20)] ∧
        hsA[0]? = hsB[0]? ∧
        rootAt Votes.voteEnv hsB 2 ≠ some sA.finalized_checkpoint.root ∧
        rootAt Votes.voteEnv hsA 2 = some sA.finalized_checkpoint.root ∧
        activeBalance Votes.voteEnv sA = 64000000000 ∧
        2 * Votes.voteEnv.effective_balance_increment ≤ 64000000000)
    | _, _ => false) = true := by decide +kernel

/-- And they are the ends of chains from one genesis. -/
example (pA pB : Toy.Place) (hA : Votes.placeA = some pA) (hB : Votes.placeB = some pB) :
    ∃ s₀, IsGenesis Votes.voteEnv .Phase0 s₀ ∧
      Chain Votes.voteEnv .Phase0 s₀ pA.1 pA.2.1 pA.2.2 ∧
      Chain Votes.voteEnv .Phase0 s₀ pB.1 pB.2.1 pB.2.2 := by
  obtain ⟨s₀, h1, h2⟩ := Toy.chainFrom_chain hA
  obtain ⟨s₁, h3, h4⟩ := Toy.chainFrom_chain hB
  rw [h1] at h3
  cases h3
  exact ⟨s₀, ⟨_, _, _, _, h1⟩, h2, h4⟩

end Verif.Props
