import Verif.Spec.Guilt
import Verif.Proofs.Identity
import Verif.Proofs.Evidence
import Verif.Proofs.Whole
import Verif.Proofs.Duties

/-! # Slashing needs evidence -/

namespace Verif

open Spec

/-- Nobody is slashed who was not slashed before. -/
def Clean (s s' : State) : Prop :=
  ∀ (i : Nat) (w : Validator), s'.validators[i]? = some w → w.slashed = true →
    ∃ v : Validator, s.validators[i]? = some v ∧ v.slashed = true ∧ v.public_key = w.public_key

theorem cleanPre : Preorder' Clean :=
  ⟨fun _ _ w h h' => ⟨w, h, h', rfl⟩, fun h h' i w h1 h2 => by
    obtain ⟨v, a, b, c⟩ := h' i w h1 h2
    obtain ⟨u, a', b', c'⟩ := h i v a b
    exact ⟨u, a', b', c'.trans c⟩⟩

theorem clean_eq {s s' : State} (h : s'.validators = s.validators) : Clean s s' :=
  fun _ w h1 h2 => ⟨w, by rw [← h]; exact h1, h2, rfl⟩

theorem clean_mod {α : Type} {W : List Field} {m : M α} (h : Modifies W m)
    (hW : Field.validators ∉ W) : Pres Clean m :=
  Pres.mono h fun _ _ h => clean_eq (h .validators hW)

theorem clean_updValidator {i : Nat} {g : Validator → Validator}
    (h : ∀ v, (g v).public_key = v.public_key) (h' : ∀ v, (g v).slashed = v.slashed) :
    Pres Clean (updValidator i g) := by
  apply Pres.updValidator cleanPre
  intro s v hv j w hw hs
  rw [List.getElem?_set] at hw
  split at hw
  · rename_i e
    subst e
    split at hw
    · cases hw
      exact ⟨v, hv, by rw [← h' v]; exact hs, (h v).symm⟩
    · cases hw
  · exact ⟨w, hw, hs, rfl⟩

theorem clean_upd {g : State → State} (h : ∀ s, (g s).validators = s.validators) :
    Pres Clean (upd g) := Pres.upd fun s => clean_eq (h s)

theorem clean_append {s s' : State} {v : Validator} (h : s'.validators = s.validators ++ [v])
    (hv : v.slashed = false) : Clean s s' := by
  intro i w hw hs
  rw [h, List.getElem?_append] at hw
  split at hw
  · exact ⟨w, hw, hs, rfl⟩
  · have := List.mem_of_getElem? hw
    simp only [List.mem_singleton] at this
    subst this
    rw [hv] at hs; cases hs

theorem exit_clean {E : Env} {f : Fork} {i : Nat} :
    Pres Clean (f.initiate_validator_exit E i) := by
  have h1 : Pres Clean (initiate_validator_exit E i) := by
    unfold initiate_validator_exit
    walk cleanPre [clean_updValidator]
  have h2 : Pres Clean (Electra.initiate_validator_exit E i) := by
    unfold Electra.initiate_validator_exit
    walk cleanPre [clean_mod exit_churn_mod (by decide), clean_updValidator]
  cases f <;> first | exact h1 | exact h2

theorem electra_exit_clean {E : Env} {i : Nat} :
    Pres Clean (Electra.initiate_validator_exit E i) := exit_clean (f := .Electra)

theorem switch_clean {E : Env} {i : Nat} :
    Pres Clean (Electra.switch_to_compounding_validator E i) := by
  unfold Electra.switch_to_compounding_validator
  walk cleanPre [clean_mod queue_excess_mod (by decide), clean_updValidator]

theorem new_validator_clean {E : Env} {f : Fork} {k : PublicKey} {w : Bytes32} {n : Nat}
    {v : Validator} (h : get_validator_from_deposit E f k w n = .ok v) : v.slashed = false := by
  unfold get_validator_from_deposit at h
  cases f <;> simp only [run] at h <;> obtain ⟨_, _, rfl⟩ := h <;> rfl

theorem add_validator_clean {E : Env} {f : Fork} {k : PublicKey} {w : Bytes32} {n : Nat} :
    Pres Clean (add_validator_to_registry E f k w n) := by
  intro s
  unfold add_validator_to_registry
  rw [wp_bind, wp_liftM]
  refine ⟨fun v hv => ?_, fun _ _ => cleanPre.refl s⟩
  have e := new_validator_clean hv
  cases f <;> exact clean_append (v := v) rfl e

theorem apply_deposit_clean {E : Env} {f : Fork} {k : PublicKey} {w : Bytes32} {n : Nat}
    {sig : Signature} : Pres Clean (apply_deposit E f k w n sig) := by
  have h1 : Pres Clean (Phase0.apply_deposit E f k w n sig) := by
    unfold Phase0.apply_deposit
    walk cleanPre [clean_mod increase_mod (by decide), add_validator_clean]
  have h2 : Pres Clean (Electra.apply_deposit E k w n sig) := by
    unfold Electra.apply_deposit
    walk cleanPre [clean_upd, switch_clean, add_validator_clean]
  cases f <;> first | exact h1 | exact h2

theorem electra_apply_deposit_clean {E : Env} {k : PublicKey} {w : Bytes32} {n : Nat}
    {sig : Signature} : Pres Clean (Electra.apply_deposit E k w n sig) :=
  apply_deposit_clean (f := .Electra)

theorem deposit_clean {E : Env} {f : Fork} {d : Deposit} : Pres Clean (process_deposit E f d) := by
  unfold process_deposit
  walk cleanPre [apply_deposit_clean, clean_upd]

theorem receipt_clean {E : Env} {r : DepositReceipt} :
    Pres Clean (Electra.process_deposit_receipt E r) := by
  unfold Electra.process_deposit_receipt
  walk cleanPre [electra_apply_deposit_clean, clean_upd]

theorem voluntary_exit_clean {E : Env} {f : Fork} {op : SignedVoluntaryExit} :
    Pres Clean (process_voluntary_exit E f op) := by
  unfold process_voluntary_exit; walk cleanPre [exit_clean]

theorem bls_change_clean {E : Env} {op : SignedBlsToExecutionChange} :
    Pres Clean (process_bls_to_execution_change E op) := by
  unfold process_bls_to_execution_change
  walk cleanPre [clean_updValidator]

theorem withdrawal_request_clean {E : Env} {r : ExecutionLayerWithdrawalRequest} :
    Pres Clean (Electra.process_execution_layer_withdrawal_request E r) := by
  unfold Electra.process_execution_layer_withdrawal_request
  walk cleanPre [electra_exit_clean, clean_mod exit_churn_mod (by decide), clean_upd]

theorem consolidation_clean {E : Env} {op : SignedConsolidation} :
    Pres Clean (Electra.process_consolidation E op) := by
  unfold Electra.process_consolidation
  walk cleanPre [clean_mod consolidation_churn_mod (by decide), clean_updValidator, clean_upd]

theorem registry_clean {E : Env} {f : Fork} : Pres Clean (process_registry_updates E f) := by
  unfold process_registry_updates mark_eligible eject_if_low
  walk cleanPre [exit_clean, clean_updValidator]

theorem pending_consolidations_loop_clean {E : Env} {a : Nat} {l : List PendingConsolidation} :
    Pres Clean (Electra.pending_consolidations_loop E l a) := by
  induction l generalizing a with
  | nil => unfold Electra.pending_consolidations_loop; walk cleanPre
  | cons d l ih =>
    unfold Electra.pending_consolidations_loop
    walk cleanPre [ih, clean_mod increase_mod (by decide), clean_mod decrease_mod (by decide),
      switch_clean]

theorem pending_consolidations_clean {E : Env} :
    Pres Clean (Electra.process_pending_consolidations E) := by
  unfold Electra.process_pending_consolidations
  walk cleanPre [pending_consolidations_loop_clean, clean_upd]

theorem effective_clean {E : Env} {f : Fork} :
    Pres Clean (process_effective_balance_updates E f) := by
  unfold process_effective_balance_updates
  walk cleanPre [clean_updValidator]

theorem epoch_clean {E : Env} {f : Fork} : Pres Clean (process_epoch E f) := by
  have h : Pres Clean (process_epoch_first E f) := by
    unfold process_epoch_first
    walk cleanPre [clean_mod justification_mod (by decide), clean_mod inactivity_mod (by decide),
      clean_mod rewards_mod (by decide), registry_clean, clean_mod slashings_mod (by decide),
      clean_mod eth1_reset_mod (by decide), clean_mod pending_deposits_mod (by decide),
      pending_consolidations_clean]
  unfold process_epoch
  walk cleanPre [h, effective_clean, clean_mod slashings_reset_mod (by decide),
    clean_mod randao_reset_mod (by decide), clean_mod historical_mod (by decide),
    clean_mod record_updates_mod (by decide), clean_mod flag_updates_mod (by decide),
    clean_mod sync_committees_mod (by decide)]

theorem slots_clean {E : Env} {f : Fork} {t : Nat} : Pres Clean (process_slots E f t) := by
  have h1 : Pres Clean (slot_step E f) := by
    unfold slot_step process_epoch_if_due
    walk cleanPre [clean_mod slot_mod (by decide), epoch_clean, clean_upd]
  have h2 : ∀ n, Pres Clean (slots_loop E f t n) := by
    intro n
    induction n with
    | zero => unfold slots_loop; walk cleanPre
    | succ n ih => unfold slots_loop; walk cleanPre [h1, ih]
  unfold process_slots; walk cleanPre [h2]

/-! ## Slashing -/

/-- Only members of `l` are newly slashed, and the keys stay. -/
def SlashOnly (l : List Nat) (s s' : State) : Prop :=
  SameKeys s s' ∧ ∀ (i : Nat) (w : Validator), s'.validators[i]? = some w → w.slashed = true →
    i ∈ l ∨ ∃ v : Validator, s.validators[i]? = some v ∧ v.slashed = true

theorem slashOnlyPre (l : List Nat) : Preorder' (SlashOnly l) :=
  ⟨fun s => ⟨samePre.refl s, fun _ w h h' => .inr ⟨w, h, h'⟩⟩, fun h h' =>
    ⟨samePre.trans h.1 h'.1, fun i w h1 h2 => by
      rcases h'.2 i w h1 h2 with h3 | ⟨v, h3, h4⟩
      · exact .inl h3
      · exact h.2 i v h3 h4⟩⟩

theorem slashOnly_clean {α : Type} {l : List Nat} {m : M α} (h : Pres Clean m)
    (hk : Pres SameKeys m) : Pres (SlashOnly l) m := by
  intro s
  have key : ∀ t, Clean s t → SameKeys s t → SlashOnly l s t := fun t h1 h2 =>
    ⟨h2, fun i w a b => .inr (by obtain ⟨v, c, d, -⟩ := h1 i w a b; exact ⟨v, c, d⟩)⟩
  exact wp_mono (wp_and (h s) (hk s)) (fun _ t h => key t h.1 h.2) fun _ t h => key t h.1 h.2

theorem slashOnly_mod {α : Type} {l : List Nat} {W : List Field} {m : M α} (h : Modifies W m)
    (hW : Field.validators ∉ W) : Pres (SlashOnly l) m :=
  slashOnly_clean (clean_mod h hW) (sameKeys_mod h hW)

theorem slashOnly_updValidator {l : List Nat} {i : Nat} {g : Validator → Validator} (hi : i ∈ l)
    (h : ∀ v, (g v).public_key = v.public_key) : Pres (SlashOnly l) (updValidator i g) := by
  apply Pres.updValidator (slashOnlyPre l)
  intro s v hv
  refine ⟨set_key_same hv (h v), fun j w hw hs => ?_⟩
  rw [List.getElem?_set] at hw
  split at hw
  · rename_i e
    subst e
    exact .inl hi
  · exact .inr ⟨w, hw, hs⟩

theorem slash_slashOnly {E : Env} {f : Fork} {i : Nat} {w : Option Nat} {l : List Nat}
    (hi : i ∈ l) : Pres (SlashOnly l) (slash_validator E f i w) := by
  unfold slash_validator
  have p := slashOnlyPre l
  have hu : ∀ g : State → State, (∀ s, (g s).validators = s.validators) →
      Pres (SlashOnly l) (upd g) := fun g h => slashOnly_clean (clean_upd h) (sameKeys_upd h)
  walk p [slashOnly_clean exit_clean exit_same, slashOnly_updValidator hi,
    slashOnly_mod increase_mod (by decide), slashOnly_mod decrease_mod (by decide), hu]

theorem slash_all_slashOnly {E : Env} {f : Fork} {e : Nat} {l l' : List Nat} {b : Bool}
    (hl : ∀ i ∈ l', i ∈ l) : Pres (SlashOnly l) (slash_all E f e l' b) := by
  have p := slashOnlyPre l
  induction l' generalizing b with
  | nil => unfold slash_all; walk p
  | cons x l' ih =>
    unfold slash_all
    have h1 := slash_slashOnly (E := E) (f := f) (w := none) (hl x (by simp))
    have h2 := fun b => ih (b := b) fun i hi => hl i (List.mem_cons_of_mem _ hi)
    walk p [h1, h2]

/-! ## Evidence -/

/-- Whoever is newly slashed is an offender. -/
def Evid (E : Env) (s s' : State) : Prop :=
  s'.genesis_validators_root = s.genesis_validators_root ∧
  ∀ (i : Nat) (w : Validator), s'.validators[i]? = some w → w.slashed = true →
    Offender E s.genesis_validators_root w.public_key ∨
    ∃ v : Validator, s.validators[i]? = some v ∧ v.slashed = true ∧ v.public_key = w.public_key

theorem evidPre (E : Env) : Preorder' (Evid E) :=
  ⟨fun _ => ⟨rfl, fun _ w h h' => .inr ⟨w, h, h', rfl⟩⟩, fun {s t u} h h' =>
    ⟨h'.1.trans h.1, fun i w h1 h2 => by
      rcases h'.2 i w h1 h2 with h3 | ⟨v, h3, h4, h5⟩
      · exact .inl (by rw [← h.1]; exact h3)
      · rcases h.2 i v h3 h4 with h6 | ⟨x, h6, h7, h8⟩
        · exact .inl (by rw [← h5]; exact h6)
        · exact .inr ⟨x, h6, h7, h8.trans h5⟩⟩⟩

theorem evid_of {α : Type} {E : Env} {W : List Field} {m : M α} (h : Pres Clean m)
    (hm : Modifies W m) (hW : Field.genesis_validators_root ∉ W) : Pres (Evid E) m := by
  intro s
  have key : ∀ t, Clean s t → ChangesOnly W s t → Evid E s t := fun t h1 h2 =>
    ⟨h2 .genesis_validators_root hW, fun i w a b => .inr (h1 i w a b)⟩
  exact wp_mono (wp_and (h s) (hm s)) (fun _ t h => key t h.1 h.2) fun _ t h => key t h.1 h.2

theorem evid_mod {α : Type} {E : Env} {W : List Field} {m : M α} (h : Modifies W m)
    (hW : ∀ x ∈ [Field.validators, .genesis_validators_root], x ∉ W) : Pres (Evid E) m :=
  evid_of (clean_mod h (hW _ (by decide))) h (hW _ (by decide))

/-- Slashing the members of `l`, all of them offenders. -/
theorem evid_slash {α : Type} {E : Env} {W : List Field} {m : M α} {l : List Nat} {s : State}
    (h : Pres (SlashOnly l) m) (hm : Modifies W m) (hW : Field.genesis_validators_root ∉ W)
    (hl : ∀ i ∈ l, ∀ v, s.validators[i]? = some v →
      Offender E s.genesis_validators_root v.public_key) :
    wp m (fun _ => Evid E s) (fun _ => Evid E s) s := by
  have key : ∀ t, SlashOnly l s t → ChangesOnly W s t → Evid E s t := by
    intro t h1 h2
    refine ⟨h2 .genesis_validators_root hW, fun i w a b => ?_⟩
    have hk : (s.validators.map (·.public_key))[i]? = some w.public_key := by
      rw [← h1.1, List.getElem?_map, a]; rfl
    rw [List.getElem?_map] at hk
    obtain ⟨v, hv, hp⟩ := Option.map_eq_some_iff.1 hk
    rcases h1.2 i w a b with hi | ⟨u, hu, hs⟩
    · exact .inl (by rw [← hp]; exact hl i hi v hv)
    · rw [hv] at hu; cases hu
      exact .inr ⟨v, hv, hs, hp⟩
  exact wp_mono (wp_and (h s) (hm s)) (fun _ t h => key t h.1 h.2) fun _ t h => key t h.1 h.2

theorem proposer_offender {E : Env} {s : State} {op : ProposerSlashing} {v : Validator}
    (h : ProposerEquivocation E s op v) :
    Offender E s.genesis_validators_root v.public_key :=
  .inr ⟨_, _, h.same_slot, h.same_proposer, h.different, ⟨_, _, h.signed_1⟩, ⟨_, _, h.signed_2⟩⟩

theorem proposer_slashing_evid {E : Env} {f : Fork} {op : ProposerSlashing} :
    Pres (Evid E) (process_proposer_slashing E f op) := by
  intro s
  have key : ∀ v, ProposerEquivocation E s op v →
      wp (slash_validator E f op.signed_header_1.message.proposer_index none)
        (fun _ => Evid E s) (fun _ => Evid E s) s := by
    intro v hv
    refine evid_slash (slash_slashOnly (List.mem_singleton_self _)) slash_mod (by decide) ?_
    intro i hi w hw
    rw [List.mem_singleton] at hi
    subst hi
    rw [hv.exists_proposer] at hw; cases hw
    exact proposer_offender hv
  cases hr : process_proposer_slashing E f op s with
  | ok u t =>
    obtain ⟨-, ⟨v, hv⟩, h⟩ := process_proposer_slashing_eq_ok.1 hr
    have := wp_of_ok (key v hv) h
    unfold wp; rw [hr]; exact this
  | error e t =>
    unfold wp; rw [hr]
    rcases process_proposer_slashing_error hr with rfl | ⟨⟨v, hv⟩, h⟩
    · exact (evidPre E).refl _
    · exact wp_of_error (key v hv) h

theorem indexed_signed {E : Env} {s : State} {a : IndexedAttestation} (h : ValidIndexed E s a)
    {i : Nat} {v : Validator} (hi : i ∈ a.attesting_indices) (hv : s.validators[i]? = some v) :
    Signed E s.genesis_validators_root v.public_key a.data := by
  have hkeys : ∀ m : List Nat, (∀ i ∈ m, i < s.validators.length) → ∃ keys : List PublicKey,
      keys.map some = m.map (fun i => (s.validators[i]?).map Validator.public_key) := by
    intro m hm
    induction m with
    | nil => exact ⟨[], rfl⟩
    | cons x m ih =>
      obtain ⟨ks, hk⟩ := ih fun i hi => hm i (by simp [hi])
      have hx := hm x (by simp)
      exact ⟨s.validators[x].public_key :: ks, by simp [hk, hx]⟩
  obtain ⟨keys, hk⟩ := hkeys a.attesting_indices h.in_range
  refine ⟨_, keys, a.signature, ?_, h.signed keys hk⟩
  have : some v.public_key ∈ keys.map some := by
    rw [hk, List.mem_map]
    exact ⟨i, hi, by rw [hv]; rfl⟩
  simpa using this

theorem attester_offender {E : Env} {s : State} {a b : IndexedAttestation}
    (h : DoubleVote a.data b.data ∨ Surrounds a.data b.data) (ha : ValidIndexed E s a)
    (hb : ValidIndexed E s b) {i : Nat} {v : Validator} (hi : i ∈ a.attesting_indices)
    (hi' : i ∈ b.attesting_indices) (hv : s.validators[i]? = some v) :
    Offender E s.genesis_validators_root v.public_key := by
  refine .inl ⟨_, _, indexed_signed ha hi hv, indexed_signed hb hi' hv, ?_⟩
  rcases h with h | h
  · exact .inl h
  · exact .inr (.inl h)

theorem attester_slashing_evid {E : Env} {f : Fork} {op : AttesterSlashing} :
    Pres (Evid E) (process_attester_slashing E f op) := by
  intro s
  have r := (evidPre E).refl s
  unfold process_attester_slashing
  rw [wp_bind, wp_get, wp_bind, wp_liftM]
  refine ⟨fun _ h1 => ?_, fun _ _ => r⟩
  rw [wp_bind, wp_liftM]
  refine ⟨fun _ h2 => ?_, fun _ _ => r⟩
  rw [wp_bind, wp_liftM]
  refine ⟨fun _ h3 => ?_, fun _ _ => r⟩
  rw [wp_bind, wp_liftM]
  refine ⟨fun e _ => ?_, fun _ _ => r⟩
  have h1' : DoubleVote op.attestation_1.data op.attestation_2.data ∨
      Surrounds op.attestation_1.data op.attestation_2.data := by
    rw [← slashable_data_iff]; simpa using h1
  have ha := valid_indexed_iff.1 h2
  have hb := valid_indexed_iff.1 h3
  rw [wp_bind]
  refine wp_mono (evid_slash (slash_all_slashOnly fun _ h => h) slash_all_mod (by decide) ?_) ?_
    fun _ _ h => h
  · intro i hi v hv
    simp only [mem_sortBy, mem_iterate, mem_setOfList, List.mem_filter, decide_eq_true_eq] at hi
    exact attester_offender h1' ha hb hi.1 hi.2 hv
  · intro b t ht
    rw [wp_liftM]
    exact ⟨fun _ _ => ht, fun _ _ => ht⟩

theorem operations_evid {E : Env} {f : Fork} {b : BeaconBlockBody} :
    Pres (Evid E) (process_operations E f b) := by
  unfold process_operations
  have p := evidPre E
  walk p [proposer_slashing_evid, attester_slashing_evid, evid_mod attestation_mod (by decide),
    evid_of deposit_clean deposit_mod (by decide),
    evid_of voluntary_exit_clean voluntary_exit_mod (by decide),
    evid_of bls_change_clean bls_change_mod (by decide),
    evid_of withdrawal_request_clean withdrawal_request_mod (by decide),
    evid_of receipt_clean deposit_receipt_mod (by decide),
    evid_of consolidation_clean consolidation_mod (by decide)]

theorem block_evid {E : Env} {f : Fork} {b : BeaconBlock} :
    Pres (Evid E) (process_block E f b) := by
  unfold process_block
  have p := evidPre E
  walk p [evid_mod header_mod (by decide), evid_mod block_payload_mod (by decide),
    evid_mod randao_mod (by decide), evid_mod eth1_mod (by decide), operations_evid,
    evid_mod sync_aggregate_mod (by decide)]

theorem block_in_slot_evid {E : Env} {f : Fork} {b : SignedBeaconBlock} {v : Validation} :
    Pres (Evid E) (state_transition_block_in_slot E f b v) := by
  unfold state_transition_block_in_slot
  have p := evidPre E
  walk p [evid_mod signature_if_mod (by decide), block_evid]

theorem slots_evid {E : Env} {f : Fork} {t : Nat} : Pres (Evid E) (process_slots E f t) :=
  evid_of slots_clean slots_mod (by decide)

theorem call_evid {E : Env} {f : Fork} {m : M Unit} (h : ChainCall E f m) : Pres (Evid E) m := by
  cases h with
  | process_slots => exact slots_evid
  | process_block => exact block_evid
  | state_transition =>
    unfold state_transition
    have p := evidPre E
    walk p [slots_evid, block_in_slot_evid]
  | state_transition_block_in_slot => exact block_in_slot_evid

theorem call_key {E : Env} {f : Fork} {m : M Unit} (h : ChainCall E f m) : Pres KeyStep m := by
  cases h with
  | process_slots => exact entry_key (.process_slots _)
  | process_block => exact block_key
  | state_transition => exact entry_key (.state_transition _ _)
  | state_transition_block_in_slot => exact block_in_slot_key

theorem init_queues_clean {E : Env} : Pres Clean (electra_init_queues E) := by
  unfold electra_init_queues Electra.queue_entire_balance_and_reset_validator
  walk cleanPre [clean_mod queue_excess_mod (by decide), clean_updValidator, clean_upd]

theorem upgrade_clean {E : Env} {g : Fork} {s s' : State} (h : upgrade_to E g s = .ok s') :
    Clean s s' := by
  cases g <;> unfold upgrade_to at h <;> dsimp only at h
  case Phase0 => cases h
  case Altair =>
    unfold upgrade_to_altair at h
    simp only [run, runLocal_eq_ok] at h
    obtain ⟨e, _, post, hpost, c, _, rfl⟩ := h
    have hv : post.validators = s.validators := (translate_mod.ok hpost) .validators (by decide)
    exact clean_eq hv
  case Electra =>
    unfold upgrade_to_electra at h
    simp only [run, runLocal_eq_ok] at h
    obtain ⟨e, _, x, _, y, _, h⟩ := h
    have := init_queues_clean.ok h
    intro i w h1 h2
    exact this i w h1 h2
  all_goals
    first
      | unfold upgrade_to_bellatrix at h
      | unfold upgrade_to_capella at h
      | unfold upgrade_to_deneb at h
    simp only [run] at h
    obtain ⟨e, _, rfl⟩ := h
    exact clean_eq rfl

theorem genesis_deposits_clean {E : Env} {f : Fork} {l : List DepositData} {ds : List Deposit} :
    Pres Clean (genesis_deposits E f l ds) := by
  induction ds generalizing l with
  | nil => unfold genesis_deposits; walk cleanPre
  | cons d ds ih => unfold genesis_deposits; walk cleanPre [deposit_clean, ih, clean_upd]

theorem genesis_clean {E : Env} {f : Fork} {h : Bytes32} {t : Nat} {ds : List Deposit}
    {p : Option ExecutionPayloadHeader} {s : State}
    (hs : initialize_beacon_state_from_eth1 E f h t ds p = .ok s) :
    ∀ v ∈ s.validators, v.slashed = false := by
  have hf : Pres Clean (genesis_fill E f ds) := by
    unfold genesis_fill genesis_pending_deposits genesis_activate genesis_sync_committees
    walk cleanPre [genesis_deposits_clean, clean_mod increase_mod (by decide), clean_upd,
      (clean_updValidator (fun _ => by split <;> rfl) fun _ => by split <;> rfl)]
  unfold initialize_beacon_state_from_eth1 genesis_candidate at hs
  simp only [run] at hs
  obtain ⟨_, ⟨gt, _, rfl⟩, hs⟩ := hs
  rw [runLocal_eq_ok] at hs
  intro v hv
  obtain ⟨i, hi⟩ := List.getElem?_of_mem hv
  cases hsl : v.slashed with
  | false => rfl
  | true =>
    obtain ⟨u, hu, -⟩ := hf.ok hs i v hi hsl
    cases hu

theorem upgrade_evid {E : Env} {g : Fork} {s s' : State} (h : upgrade_to E g s = .ok s') :
    Evid E s s' :=
  ⟨(upgrade_duty h).2.2, fun i w h1 h2 => .inr (upgrade_clean h i w h1 h2)⟩

theorem onchain_evid {E : Env} {f : Fork} {s : State} (h : OnChain E f s) :
    ∀ v ∈ s.validators, v.slashed = true → Offender E s.genesis_validators_root v.public_key := by
  have step : ∀ s s' : State, Evid E s s' →
      (∀ v ∈ s.validators, v.slashed = true →
        Offender E s.genesis_validators_root v.public_key) →
      ∀ v ∈ s'.validators, v.slashed = true →
        Offender E s'.genesis_validators_root v.public_key := by
    intro s s' he ih v hv hs
    obtain ⟨i, hi⟩ := List.getElem?_of_mem hv
    rw [he.1]
    rcases he.2 i v hi hs with h | ⟨u, h1, h2, h3⟩
    · exact h
    · rw [← h3]; exact ih u (List.mem_of_getElem? h1) h2
  induction h with
  | genesis h => intro v hv hs; rw [genesis_clean h v hv] at hs; cases hs
  | call _ hm ih => exact step _ _ ((call_evid hm).final _) ih
  | upgrade _ _ h ih => exact step _ _ (upgrade_evid h) ih

theorem chainFuture_evid {E : Env} {f g : Fork} {s s' : State} (h : ChainFuture E f s g s') :
    Evid E s s' ∧ KeyStep s s' := by
  induction h with
  | start => exact ⟨(evidPre E).refl _, keyPre.refl _⟩
  | call _ hm ih =>
    exact ⟨(evidPre E).trans ih.1 ((call_evid hm).final _),
      keyPre.trans ih.2 ((call_key hm).final _)⟩
  | upgrade _ _ h ih =>
    exact ⟨(evidPre E).trans ih.1 (upgrade_evid h), keyPre.trans ih.2 (key_of_same (upgrade_key h))⟩

end Verif
