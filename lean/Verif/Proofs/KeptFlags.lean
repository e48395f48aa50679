import Verif.Proofs.Credit
import Verif.Proofs.Flags

/-! # Flags of participation are only ever added, until the epoch ends -/

namespace Verif

open Spec Props

/-- Every flag in the one list is in the other. -/
def FlagsIn (a b : List UInt8) : Prop :=
  ∀ (v : Nat) x, a[v]? = some x → ∃ y, b[v]? = some y ∧ ∀ j < 8, FlagSet x j → FlagSet y j

/-- Both lists of flags keep what they have. -/
def KeptFlags (s s' : State) : Prop :=
  FlagsIn s.current_epoch_participation s'.current_epoch_participation ∧
  FlagsIn s.previous_epoch_participation s'.previous_epoch_participation

theorem flagsIn_refl (a : List UInt8) : FlagsIn a a := fun _ x h => ⟨x, h, fun _ _ h => h⟩

theorem flagsIn_trans {a b c : List UInt8} (h : FlagsIn a b) (h' : FlagsIn b c) : FlagsIn a c :=
  fun v x hx => by
    obtain ⟨y, hy, h1⟩ := h v x hx
    obtain ⟨z, hz, h2⟩ := h' v y hy
    exact ⟨z, hz, fun j hj hf => h2 j hj (h1 j hj hf)⟩

theorem flagsIn_append (a b : List UInt8) : FlagsIn a (a ++ b) := fun v x hx =>
  ⟨x, by rw [List.getElem?_append_left (List.getElem?_eq_some_iff.1 hx).1]; exact hx, fun _ _ h => h⟩

theorem flagsIn_set {a : List UInt8} {i : Nat} {x y : UInt8} (hx : a[i]? = some x)
    (h : ∀ j < 8, FlagSet x j → FlagSet y j) : FlagsIn a (a.set i y) := by
  intro v z hz
  by_cases hv : i = v
  · subst hv
    rw [hx] at hz; cases hz
    exact ⟨y, List.getElem?_set_self (List.getElem?_eq_some_iff.1 hx).1, h⟩
  · exact ⟨z, by rw [List.getElem?_set_ne hv]; exact hz, fun _ _ h => h⟩

theorem keptFlagsPre : Preorder' KeptFlags :=
  ⟨fun _ => ⟨flagsIn_refl _, flagsIn_refl _⟩,
    fun h h' => ⟨flagsIn_trans h.1 h'.1, flagsIn_trans h.2 h'.2⟩⟩

theorem keptFlags_of_same {s s' : State}
    (h : s'.current_epoch_participation = s.current_epoch_participation)
    (h' : s'.previous_epoch_participation = s.previous_epoch_participation) : KeptFlags s s' := by
  unfold KeptFlags; rw [h, h']; exact ⟨flagsIn_refl _, flagsIn_refl _⟩

theorem keptFlags_mod {α : Type} {W : List Field} {m : M α} (h : Modifies W m)
    (hW : Field.current_epoch_participation ∉ W) (hW' : Field.previous_epoch_participation ∉ W) :
    Pres KeptFlags m :=
  Pres.mono h fun _ _ hc => keptFlags_of_same (hc _ hW) (hc _ hW')

theorem upd_keptFlags {g : State → State} (h : ∀ s, KeptFlags s (g s)) : Pres KeptFlags (upd g) := Pres.upd h

section

variable {E : Env} {f : Fork}

theorem apply_flag_keptFlags {c : Bool} {fl : List Nat} {i n : Nat} {x : Nat × Nat} :
    Pres KeptFlags (apply_flag E c fl i n x) := by
  intro s
  have hr := keptFlagsPre.refl s
  unfold apply_flag
  rw [wp_bind, wp_get]
  split
  · rw [wp_bind, wp_liftM]
    refine ⟨fun y hy => ?_, fun _ _ => hr⟩
    rw [wp_bind, wp_liftM]
    refine ⟨fun _ _ => ?_, fun _ _ => hr⟩
    split
    · exact hr
    · rw [wp_bind, wp_liftM]
      refine ⟨fun z hz => ?_, fun _ _ => hr⟩
      rw [wp_bind, wp_upd]
      have hm : KeptFlags s (setParticipation c ((participationOf c s).set i z) s) := by
        have hset := flagsIn_set (idx_eq_ok.1 hy) fun j hj h => ((add_flag_spec hz).2 j hj).2 (.inl h)
        unfold setParticipation
        unfold participationOf at hset ⊢
        cases c
        · exact ⟨flagsIn_refl _, hset⟩
        · exact ⟨hset, flagsIn_refl _⟩
      rw [wp_bind, wp_get, wp_bind, wp_liftM]
      refine ⟨fun _ _ => ?_, fun _ _ => hm⟩
      rw [wp_bind, wp_liftM]
      refine ⟨fun _ _ => ?_, fun _ _ => hm⟩
      rw [wp_liftM]
      exact ⟨fun _ _ => hm, fun _ _ => hm⟩
  · exact hr

theorem apply_flags_keptFlags {c : Bool} {fl l : List Nat} : Pres KeptFlags (apply_flags E c fl l) := by
  have p := keptFlagsPre
  unfold apply_flags
  walk p [apply_flag_keptFlags]

theorem attestation_keptFlags {a : Attestation} : Pres KeptFlags (process_attestation E f a) := by
  have p := keptFlagsPre
  unfold process_attestation Electra.process_attestation Altair.process_attestation
  cases f <;>
  walk p [apply_flags_keptFlags, keptFlags_mod reward_proposer_mod (by decide) (by decide),
    keptFlags_mod phase0_attestation_mod (by decide) (by decide)]

theorem add_validator_keptFlags {k : PublicKey} {w : Bytes32} {n : Nat} :
    Pres KeptFlags (add_validator_to_registry E f k w n) := by
  intro s
  unfold add_validator_to_registry
  rw [wp_bind, wp_liftM]
  refine ⟨fun v hv => ?_, fun _ _ => keptFlagsPre.refl s⟩
  cases f <;> first
    | exact ⟨flagsIn_append _ _, flagsIn_append _ _⟩
    | exact ⟨flagsIn_refl _, flagsIn_refl _⟩

theorem electra_apply_deposit_keptFlags {k : PublicKey} {w : Bytes32} {n : Nat} {sig : Signature} :
    Pres KeptFlags (Electra.apply_deposit E k w n sig) := by
  have p := keptFlagsPre
  unfold Electra.apply_deposit
  walk p [keptFlags_mod switch_mod (by decide) (by decide), add_validator_keptFlags, upd_keptFlags]
  all_goals exact ⟨flagsIn_refl _, flagsIn_refl _⟩

theorem apply_deposit_keptFlags {k : PublicKey} {w : Bytes32} {n : Nat} {sig : Signature} :
    Pres KeptFlags (apply_deposit E f k w n sig) := by
  have p := keptFlagsPre
  have h : Pres KeptFlags (Phase0.apply_deposit E f k w n sig) := by
    unfold Phase0.apply_deposit
    walk p [keptFlags_mod increase_mod (by decide) (by decide), add_validator_keptFlags]
  unfold apply_deposit
  cases f
  case Electra => exact electra_apply_deposit_keptFlags
  all_goals exact h

theorem deposit_keptFlags {d : Deposit} : Pres KeptFlags (process_deposit E f d) := by
  have p := keptFlagsPre
  unfold process_deposit; walk p [apply_deposit_keptFlags, upd_keptFlags]
  all_goals exact ⟨flagsIn_refl _, flagsIn_refl _⟩

theorem deposit_receipt_keptFlags {r : DepositReceipt} :
    Pres KeptFlags (Electra.process_deposit_receipt E r) := by
  have p := keptFlagsPre
  unfold Electra.process_deposit_receipt
  walk p [electra_apply_deposit_keptFlags, upd_keptFlags]
  all_goals exact ⟨flagsIn_refl _, flagsIn_refl _⟩

theorem operations_keptFlags {b : BeaconBlockBody} : Pres KeptFlags (process_operations E f b) := by
  have p := keptFlagsPre
  unfold process_operations
  cases f <;>
  walk p [keptFlags_mod proposer_slashing_mod (by decide) (by decide),
    keptFlags_mod attester_slashing_mod (by decide) (by decide), attestation_keptFlags, deposit_keptFlags,
    keptFlags_mod voluntary_exit_mod (by decide) (by decide),
    keptFlags_mod bls_change_mod (by decide) (by decide),
    keptFlags_mod withdrawal_request_mod (by decide) (by decide),
    deposit_receipt_keptFlags, keptFlags_mod consolidation_mod (by decide) (by decide)]

theorem block_keptFlags {b : BeaconBlock} : Pres KeptFlags (process_block E f b) := by
  have p := keptFlagsPre
  unfold process_block
  walk p [keptFlags_mod header_mod (by decide) (by decide),
    keptFlags_mod block_payload_mod (by decide) (by decide),
    keptFlags_mod randao_mod (by decide) (by decide), keptFlags_mod eth1_mod (by decide) (by decide),
    operations_keptFlags, keptFlags_mod sync_aggregate_mod (by decide) (by decide)]

end

end Verif
