import Verif.Proofs.Order
import Verif.Props.Executor
import Verif.Props.Parts

/-! # C91: the order of hash sets -/

namespace Verif.Props

open Spec

/-! ## C91 -/

/-- **C91** A block is accepted whatever the order in which the hash sets are visited, or it is
rejected in every order; and if it is accepted then the state after it is the same. -/
theorem C91_transition (E : Env) (v : Order) (f : Fork) (b : SignedBeaconBlock) (w : Validation)
    (s t : State) : state_transition (reorder E v) f b w s = .ok () t ↔
      state_transition E f b w s = .ok () t :=
  ⟨transition_sub (v := E.visit) s () t, transition_sub s () t⟩

/-- **C91** So for the processing of a block in its slot. -/
theorem C91_block (E : Env) (v : Order) (f : Fork) (b : BeaconBlock) (s t : State) :
    process_block (reorder E v) f b s = .ok () t ↔ process_block E f b s = .ok () t :=
  ⟨block_sub (v := E.visit) s () t, block_sub s () t⟩

/-- **C91** So for the processing of slots. -/
theorem C91_slots (E : Env) (v : Order) (f : Fork) (slot : Nat) (s t : State) :
    process_slots (reorder E v) f slot s = .ok () t ↔ process_slots E f slot s = .ok () t :=
  ⟨slots_sub (v := E.visit) s () t, slots_sub s () t⟩

/-- **C91** So for the processing of an epoch. -/
theorem C91_epoch (E : Env) (v : Order) (f : Fork) (s t : State) :
    process_epoch (reorder E v) f s = .ok () t ↔ process_epoch E f s = .ok () t :=
  ⟨epoch_sub (v := E.visit) s () t, epoch_sub s () t⟩

/-- **C91** So for each attestation. -/
theorem C91_attestation (E : Env) (v : Order) (f : Fork) (a : Attestation) (s t : State) :
    process_attestation (reorder E v) f a s = .ok () t ↔
      process_attestation E f a s = .ok () t :=
  ⟨attestation_sub (v := E.visit) s () t, attestation_sub s () t⟩

/-- **C91** So for the upgrade to a fork. -/
theorem C91_upgrade (E : Env) (v : Order) (f : Fork) (s t : State) :
    upgrade_to (reorder E v) f s = .ok t ↔ upgrade_to E f s = .ok t :=
  ⟨(upgrade_rel (v := E.visit)).apply, upgrade_rel.apply⟩

/-- **C91** The operations that slash validators, and the total active balance, do not depend on
the order at all, even when they fail. -/
theorem C91_exact (E : Env) (v : Order) :
    get_total_active_balance (reorder E v) = get_total_active_balance E ∧
    process_attester_slashing (reorder E v) = process_attester_slashing E ∧
    process_proposer_slashing (reorder E v) = process_proposer_slashing E ∧
    process_voluntary_exit (reorder E v) = process_voluntary_exit E ∧
    process_sync_aggregate (reorder E v) = process_sync_aggregate E :=
  ⟨get_total_active_balance_ord, process_attester_slashing_ord, process_proposer_slashing_ord,
    process_voluntary_exit_ord, process_sync_aggregate_ord⟩

/-- **C91** So for the executor. -/
theorem C91_apply_block (E : Env) (v : Order) (target : Fork) (b : SignedBeaconBlock)
    (w : Validation) (t t' : TaggedState) :
    apply_block_with_validation (reorder E v) target b w t = .ok () t' ↔
      apply_block_with_validation E target b w t = .ok () t' :=
  ⟨apply_block_sub (v := E.visit), apply_block_sub⟩

/-- **C91** Two nodes that import the same blocks from the same state end in the same state. -/
theorem C91_nodes_agree (E : Env) (blocks : List (Fork × SignedBeaconBlock))
    (t t₁ t₂ : TaggedState) (h₁ : Imports E t blocks t₁) (h₂ : Imports E t blocks t₂) : t₁ = t₂ := by
  induction h₁ with
  | done t => cases h₂; rfl
  | next v hv _ ih =>
    cases h₂ with
    | next w hw h₂ =>
      have hv := (C91_apply_block E v _ _ .Enabled _ _).1 hv
      have hw := (C91_apply_block E w _ _ .Enabled _ _).1 hw
      rw [hv] at hw
      cases hw
      exact ih h₂

/-- **C91** When one node imports a chain, no node rejects a block of it. -/
theorem C91_no_split (E : Env) (blocks : List (Fork × SignedBeaconBlock)) (t t' : TaggedState)
    (h : Imports E t blocks t') : ¬ Rejects E t blocks := by
  induction h with
  | done t => intro hr; cases hr
  | next v hv _ ih =>
    intro hr
    have hv := (C91_apply_block E v _ _ .Enabled _ _).1 hv
    cases hr with
    | here w hw => exact hw _ ((C91_apply_block E w _ _ .Enabled _ _).2 hv)
    | later w hw hr =>
      have hw := (C91_apply_block E w _ _ .Enabled _ _).1 hw
      rw [hv] at hw
      cases hw
      exact ih hr

/-- The elements from last to first. -/
def backwards : Order := fun _ set => ⟨set.reverse, List.reverse_perm set⟩

/-- The two orders differ: here are the attesters of the attestations of the block below. -/
example :
    fullBody.attestations.map (fun a =>
      get_attesting_indices Toy.env dueState a.data a.aggregation_bits) = [.ok [10, 16]] ∧
    fullBody.attestations.map (fun a =>
      get_attesting_indices (reorder Toy.env backwards) dueState a.data a.aggregation_bits) =
        [.ok [16, 10]] := by decide +kernel

/-- A block with operations of every kind, processed with the sets visited backwards. -/
example : process_block (reorder Toy.env backwards) .Deneb (Toy.block dueState fullBody) dueState =
    .ok () (after .Deneb dueState fullBody) :=
  (C91_block _ _ _ _ _ _).2 toy_due

example : Toy.succeeds (process_epoch (reorder Toy.env backwards) .Altair) (Toy.state 8 15) ∧
    Toy.succeeds (process_epoch (reorder Toy.env backwards) .Phase0) (Toy.state 8 15) := by
  decide +kernel

/-- A block of the next fork is imported with the sets visited in either order. -/
example : ∃ t', Imports soonEnv ⟨.Bellatrix, Toy.state 4 15⟩ [(.Capella, soonBlock)] t' := by
  have h : (match apply_block (reorder soonEnv backwards) .Capella soonBlock
      ⟨.Bellatrix, Toy.state 4 15⟩ with
    | .ok _ _ => true | .error _ _ => false) = true := by decide +kernel
  split at h
  · rename_i u t' e
    exact ⟨t', .next backwards e (.done t')⟩
  · cases h

end Verif.Props
