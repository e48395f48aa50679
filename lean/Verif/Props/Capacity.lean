import Verif.Proofs.Capacity
import Verif.Props.Finality
import Verif.Props.Requests

/-! # C106 The lists of a state keep within the capacity of their types

The capacity of the lists of pending attestations is `MAX_ATTESTATIONS * SLOTS_PER_EPOCH`
(`phase0/beacon_state.rs:80-83`; `C84_bounds` for the constant). -/

namespace Verif.Props

open Spec

/-- **C106** In phase0, through valid and invalid blocks and skipped slots: while no block has more
than `A` attestations, there are never more than `A` times the slots of an epoch among the pending
attestations of the current epoch. -/
theorem C106_current (E : Env) (hE : SaneConfig E) (A : Nat) (s : State)
    (h : TypedPhase0 E A s) :
    s.current_epoch_attestations.length ≤ A * E.slots_per_epoch ∧
    s.current_epoch_attestations.length ≤ A * (s.slot % E.slots_per_epoch + 1) := by
  have hp : 0 < E.slots_per_epoch := hE.slots_per_epoch.1
  obtain ⟨-, h2, -⟩ := typed_fit hp h
  have h3 : A * (s.slot % E.slots_per_epoch +
      if s.latest_block_header.slot = s.slot then 1 else 0) ≤
      A * (s.slot % E.slots_per_epoch + 1) :=
    Nat.mul_le_mul_left _ (by split <;> omega)
  have h4 : A * (s.slot % E.slots_per_epoch + 1) ≤ A * E.slots_per_epoch :=
    Nat.mul_le_mul_left _ (Nat.mod_lt _ hp)
  omega

/-- **C106** (part) Both lists together hold no more than twice that. Missing: that those of the
previous epoch alone hold no more than once that, which is false, see `C106_overflow`. -/
theorem C106_previous_partial (E : Env) (hE : SaneConfig E) (A : Nat) (s : State)
    (h : TypedPhase0 E A s) :
    s.previous_epoch_attestations.length + s.current_epoch_attestations.length ≤
      2 * (A * E.slots_per_epoch) := by
  have hp : 0 < E.slots_per_epoch := hE.slots_per_epoch.1
  obtain ⟨-, -, h2⟩ := typed_fit hp h
  have h3 : A * (s.slot % E.slots_per_epoch +
      if s.latest_block_header.slot = s.slot then 1 else 0) ≤ A * E.slots_per_epoch :=
    Nat.mul_le_mul_left _ (by
      have := Nat.mod_lt s.slot hp
      split <;> omega)
  omega

/-- **C106** The queue of partial withdrawals never holds more than
`PENDING_PARTIAL_WITHDRAWALS_LIMIT`, in any state on a chain. -/
theorem C106_partial_withdrawals (E : Env) (f : Fork) (s : State) (h : OnChain E f s) :
    s.pending_partial_withdrawals.length ≤ E.pending_partial_withdrawals_limit :=
  onChain_partial h

/-- **C106** The queue of consolidations never holds more than `PENDING_CONSOLIDATIONS_LIMIT`, in
any state on a chain. -/
theorem C106_consolidations (E : Env) (f : Fork) (s : State) (h : OnChain E f s) :
    s.pending_consolidations.length ≤ E.pending_consolidations_limit :=
  onChain_consolidations h

/-- With room for one partial withdrawal, the second request has no effect; without room, a
consolidation is refused. -/
example :
    let E := { Toy.env with pending_partial_withdrawals_limit := 1, pending_consolidations_limit := 0 }
    let m := forEach [requestFor 1 5000000000, requestFor 1 7000000000]
      (Electra.process_execution_layer_withdrawal_request E)
    Toy.succeeds m requestState = true ∧
    (finalState m requestState).pending_partial_withdrawals = [⟨1, 5000000000, 70 + 256⟩] ∧
    Toy.errorOf (Electra.process_consolidation E ⟨⟨0, 1, 65⟩, Toy.goodSig⟩) requestState =
      some .consolidationPendingConsolidationsQueueFull := by
  decide +kernel

/-! ### A chain that fills the list of the previous epoch beyond its capacity -/

namespace Crowd

open Toy Votes

/-- The vote of the last slot of the previous epoch. -/
def lastVote (s : State) : Attestation :=
  let at' := s.slot / 2 * 2 - 1
  { vote s with
    aggregation_bits := match get_beacon_committee voteEnv s at' 0 with
      | .ok c => c.map fun _ => true
      | .error _ => []
    data := {
      slot := at'
      index := 0
      beacon_block_root := (get_block_root_at_slot voteEnv s at').toOption.getD (zeroBytes 32)
      source := s.previous_justified_checkpoint
      target := ⟨at' / 2,
        (get_block_root_at_slot voteEnv s (at' / 2 * 2)).toOption.getD (zeroBytes 32)⟩ } }

/-- The block a client gets in the slot of its state. -/
def blockAt (s : State) : BeaconBlock :=
  blockOn voteEnv (fun s =>
    { signed 1 s with
      eth1_data := s.eth1_data
      attestations := if s.slot = 1 then [] else if s.slot = 5 then [lastVote s] else [vote s] })
    .Phase0 s

/-- A slot, then its block. -/
def turn (s : State) : State :=
  let s' := finalState (process_slots voteEnv .Phase0 (s.slot + 1)) s
  finalState (process_block voteEnv .Phase0 (blockAt s')) s'

theorem turn_typed {s : State} (h : TypedPhase0 voteEnv 1 s) : TypedPhase0 voteEnv 1 (turn s) := by
  refine .call (.call h (.process_slots _)) (.process_block _ ?_)
  unfold blockAt blockOn
  dsimp only
  split
  · exact Nat.zero_le _
  · split <;> exact Nat.le_refl 1

/-- All the calls succeed. -/
def turnOk (s : State) : Bool :=
  let s' := finalState (process_slots voteEnv .Phase0 (s.slot + 1)) s
  succeeds (process_slots voteEnv .Phase0 (s.slot + 1)) s &&
    succeeds (process_block voteEnv .Phase0 (blockAt s')) s'

def start : Option State :=
  (initialize_beacon_state_from_eth1 voteEnv .Phase0 (root 4) 10 deposits none).toOption

end Crowd

/-- The calls succeed, and five slots from genesis three attestations are recorded for the
previous epoch. -/
theorem Crowd.witness : (match Crowd.start with
    | some s₀ =>
      let s₁ := Crowd.turn s₀
      let s₂ := Crowd.turn s₁
      let s₃ := Crowd.turn s₂
      let s₄ := Crowd.turn s₃
      let s₅ := Crowd.turn s₄
      Crowd.turnOk s₀ && Crowd.turnOk s₁ && Crowd.turnOk s₂ && Crowd.turnOk s₃ &&
        Crowd.turnOk s₄ && decide (s₃.current_epoch_attestations.length = 1 ∧
          s₅.previous_epoch_attestations.length = 3 ∧ s₅.slot = 5)
    | none => false) = true := by decide +kernel

/-- **C106** The capacity of the list of the previous epoch is no bound: attestations of the last
slots of an epoch can be included, again and again, in the blocks of the next. With one attestation
in a block and two slots in an epoch, the capacity is two, and three are recorded. The code does
not check the capacity before it pushes (`phase0/block_processing.rs:288`). -/
theorem C106_overflow : ∃ (E : Env) (A : Nat) (s : State), SaneConfig E ∧ TypedPhase0 E A s ∧
    A * E.slots_per_epoch < s.previous_epoch_attestations.length := by
  have h := Crowd.witness
  cases hs : Crowd.start with
  | none => rw [hs] at h; cases h
  | some s₀ =>
    rw [hs] at h
    dsimp only at h
    rw [Bool.and_eq_true, decide_eq_true_eq] at h
    refine ⟨Votes.voteEnv, 1, _, by constructor <;> decide +kernel,
      Crowd.turn_typed (Crowd.turn_typed (Crowd.turn_typed (Crowd.turn_typed
        (Crowd.turn_typed (s := s₀) (.genesis (h := Toy.root 4) (t := 10)
          (ds := Votes.deposits) (p := none) ?_))))), ?_⟩
    · unfold Crowd.start at hs
      cases hg : initialize_beacon_state_from_eth1 Votes.voteEnv .Phase0 (Toy.root 4) 10
          Votes.deposits none with
      | error e => rw [hg] at hs; cases hs
      | ok s => rw [hg] at hs; cases hs; rfl
    · rw [h.2.2.1]
      decide

/-- That chain starts with a state on a chain. -/
example : OnChain Votes.voteEnv .Phase0 (Crowd.start.getD (Toy.state 8 20)) := by
  have h := Crowd.witness
  cases hs : Crowd.start with
  | none => rw [hs] at h; cases h
  | some s₀ =>
    unfold Crowd.start at hs
    cases hg : initialize_beacon_state_from_eth1 Votes.voteEnv .Phase0 (Toy.root 4) 10
        Votes.deposits none with
    | error e => rw [hg] at hs; cases hs
    | ok s => rw [hg] at hs; cases hs; exact .genesis hg

end Verif.Props
