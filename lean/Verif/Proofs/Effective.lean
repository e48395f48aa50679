import Verif.Proofs.EpochLoops
import Verif.Proofs.History

/-! # Effective balances stay within their limits -/

namespace Verif

open Spec

/-- The effective balance of `v` is a multiple of the increment within the limit. -/
def Fits (E : Env) (f : Fork) (v : Validator) : Prop :=
  v.effective_balance ≤ effectiveLimit E f v ∧ E.effective_balance_increment ∣ v.effective_balance

/-- The entry keeps its effective balance, and a compounding validator stays one. -/
def SameEff (v w : Validator) : Prop :=
  w.effective_balance = v.effective_balance ∧
    (v.withdrawal_credentials[0] = 2 → w.withdrawal_credentials[0] = 2)

/-- If the entries fit before they do so after. -/
def Eff (E : Env) (f : Fork) (s s' : State) : Prop :=
  (∀ v ∈ s.validators, Fits E f v) → ∀ v ∈ s'.validators, Fits E f v

theorem effPre (E : Env) (f : Fork) : Preorder' (Eff E f) := ⟨fun _ => id, fun h h' x => h' (h x)⟩

theorem fits_same {E : Env} (hB : SaneBalances E) {f : Fork} {v w : Validator} (h : SameEff v w)
    (hv : Fits E f v) : Fits E f w := by
  unfold Fits effectiveLimit at *
  rw [h.1]
  refine ⟨?_, hv.2⟩
  have := hB.le_electra
  by_cases hf : f = .Electra
  · rw [if_pos hf] at *
    have h2 := h.2
    split
    · by_cases hc : v.withdrawal_credentials[0] = 2
      · rw [if_pos hc] at hv; exact hv.1
      · rw [if_neg hc] at hv; omega
    · by_cases hc : v.withdrawal_credentials[0] = 2
      · exact absurd (h2 hc) ‹_›
      · rw [if_neg hc] at hv; exact hv.1
  · rw [if_neg hf] at *; exact hv.1

theorem eff_of_same {E : Env} {f : Fork} {s s' : State} (h : s'.validators = s.validators) :
    Eff E f s s' := by unfold Eff; rw [h]; exact id

theorem eff_mod {E : Env} {f : Fork} {α : Type} {W : List Field} {m : M α} (h : Modifies W m)
    (hW : Field.validators ∉ W) : Pres (Eff E f) m :=
  Pres.mono h fun _ _ h => eff_of_same (h _ hW)

theorem eff_set {E : Env} (hB : SaneBalances E) {f : Fork} {s : State} {i : Nat} {v w : Validator}
    (hv : s.validators[i]? = some v) (h : SameEff v w) :
    Eff E f s { s with validators := s.validators.set i w } := by
  intro hs u hu
  rcases List.mem_or_eq_of_mem_set hu with hu | rfl
  · exact hs u hu
  · exact fits_same hB h (hs v (List.mem_of_getElem? hv))

theorem upd_eff {E : Env} {f : Fork} {g : State → State}
    (h : ∀ s, (g s).validators = s.validators) : Pres (Eff E f) (upd g) :=
  Pres.upd fun s => eff_of_same (h s)

theorem updv_eff {E : Env} (hB : SaneBalances E) {f : Fork} {i : Nat} {g : Validator → Validator}
    (h : ∀ v, SameEff v (g v)) : Pres (Eff E f) (updValidator i g) :=
  Pres.updValidator (effPre E f) fun _ v hv => eff_set hB hv (h v)

theorem same_exit {v : Validator} {e : Nat} : SameEff v { v with exit_epoch := e } := ⟨rfl, id⟩
theorem same_withdrawable {v : Validator} {e : Nat} :
    SameEff v { v with withdrawable_epoch := e } := ⟨rfl, id⟩
theorem same_slashed {v : Validator} {b : Bool} : SameEff v { v with slashed := b } := ⟨rfl, id⟩
theorem same_eligibility {v : Validator} {e : Nat} :
    SameEff v { v with activation_eligibility_epoch := e } := ⟨rfl, id⟩
theorem same_activation {v : Validator} {e : Nat} :
    SameEff v { v with activation_epoch := e } := ⟨rfl, id⟩
theorem same_compounding {v : Validator} : SameEff v { v with
    withdrawal_credentials := v.withdrawal_credentials.set 0 COMPOUNDING_WITHDRAWAL_PREFIX } :=
  ⟨rfl, fun _ => by simp [COMPOUNDING_WITHDRAWAL_PREFIX]⟩

macro "effs" : tactic => `(tactic| first
  | with_reducible exact same_exit | with_reducible exact same_withdrawable
  | with_reducible exact same_slashed | with_reducible exact same_eligibility
  | with_reducible exact same_activation | with_reducible exact same_compounding
  | exact ⟨rfl, id⟩)

section

variable {E : Env} (hB : SaneBalances E) {f : Fork}
include hB

theorem exit_eff {i : Nat} : Pres (Eff E f) (f.initiate_validator_exit E i) := by
  have p := effPre E f
  unfold Fork.initiate_validator_exit initiate_validator_exit Electra.initiate_validator_exit
  walk p [eff_mod exit_churn_mod (by decide), updv_eff hB]
  all_goals effs

theorem electra_exit_eff {i : Nat} : Pres (Eff E f) (Electra.initiate_validator_exit E i) := by
  have p := effPre E f
  unfold Electra.initiate_validator_exit
  walk p [eff_mod exit_churn_mod (by decide), updv_eff hB]
  all_goals effs

theorem slash_eff {i : Nat} {w : Option Nat} : Pres (Eff E f) (slash_validator E f i w) := by
  have p := effPre E f
  unfold slash_validator
  walk p [exit_eff hB, updv_eff hB, eff_mod increase_mod (by decide),
    eff_mod decrease_mod (by decide), upd_eff]
  all_goals effs

theorem slash_all_eff {e : Nat} {l : List Nat} {b : Bool} :
    Pres (Eff E f) (slash_all E f e l b) := by
  have p := effPre E f
  induction l generalizing b with
  | nil => unfold slash_all; walk p
  | cons x l ih => unfold slash_all; walk p [slash_eff hB, ih]

theorem proposer_slashing_eff {op : ProposerSlashing} :
    Pres (Eff E f) (process_proposer_slashing E f op) := by
  have p := effPre E f
  unfold process_proposer_slashing; walk p [slash_eff hB]

theorem attester_slashing_eff {op : AttesterSlashing} :
    Pres (Eff E f) (process_attester_slashing E f op) := by
  have p := effPre E f
  unfold process_attester_slashing; walk p [slash_all_eff hB]

theorem deposit_fits {k : PublicKey} {w : Bytes32} {n : Nat} {v : Validator}
    (h : get_validator_from_deposit E f k w n = .ok v) : Fits E f v := by
  unfold get_validator_from_deposit at h
  by_cases hf : f = .Electra
  · subst hf
    simp only [run] at h
    obtain ⟨_, rfl, rfl⟩ := h
    exact ⟨Nat.zero_le _, Nat.dvd_zero _⟩
  · have key : v.effective_balance = min (n - n % E.effective_balance_increment)
        E.max_effective_balance := by
      cases f <;> simp only [run] at h <;> first
        | exact absurd rfl hf
        | (obtain ⟨_, ⟨_, ⟨rfl, -⟩, _, ⟨rfl, -⟩, rfl⟩, rfl⟩ := h; rfl)
    have hm := largest_multiple (b := n) hB.max
    unfold Fits effectiveLimit
    rw [if_neg hf, key]
    exact ⟨Nat.min_le_right _ _, hm.1⟩

theorem add_validator_eff {k : PublicKey} {w : Bytes32} {n : Nat} :
    Pres (Eff E f) (add_validator_to_registry E f k w n) := by
  intro s
  unfold add_validator_to_registry
  rw [wp_bind, wp_liftM]
  refine ⟨fun v hv => ?_, fun _ _ => (effPre E f).refl s⟩
  replace hv := deposit_fits hB hv
  have key : ∀ s' : State, s'.validators = s.validators ++ [v] → Eff E f s s' := by
    intro s' h hs u hu
    rw [h, List.mem_append, List.mem_singleton] at hu
    rcases hu with hu | rfl
    · exact hs u hu
    · exact hv
  cases f <;> exact key _ rfl

theorem switch_eff {i : Nat} : Pres (Eff E f) (Electra.switch_to_compounding_validator E i) := by
  have p := effPre E f
  unfold Electra.switch_to_compounding_validator
  walk p [eff_mod queue_excess_mod (by decide), updv_eff hB]
  all_goals effs

theorem phase0_apply_deposit_eff {k : PublicKey} {w : Bytes32} {n : Nat} {sig : Signature} :
    Pres (Eff E f) (Phase0.apply_deposit E f k w n sig) := by
  have p := effPre E f
  unfold Phase0.apply_deposit
  walk p [eff_mod increase_mod (by decide), add_validator_eff hB]

theorem electra_apply_deposit_eff {k : PublicKey} {w : Bytes32} {n : Nat} {sig : Signature} :
    Pres (Eff E .Electra) (Electra.apply_deposit E k w n sig) := by
  have p := effPre E .Electra
  unfold Electra.apply_deposit
  walk p [switch_eff hB, add_validator_eff hB, upd_eff]

theorem apply_deposit_eff {k : PublicKey} {w : Bytes32} {n : Nat} {sig : Signature} :
    Pres (Eff E f) (apply_deposit E f k w n sig) := by
  unfold apply_deposit
  cases f
  case Electra => exact electra_apply_deposit_eff hB
  all_goals exact phase0_apply_deposit_eff hB

theorem deposit_eff {d : Deposit} : Pres (Eff E f) (process_deposit E f d) := by
  have p := effPre E f
  unfold process_deposit; walk p [apply_deposit_eff hB, upd_eff]

theorem voluntary_exit_eff {op : SignedVoluntaryExit} :
    Pres (Eff E f) (process_voluntary_exit E f op) := by
  have p := effPre E f
  unfold process_voluntary_exit; walk p [exit_eff hB]

theorem bls_change_eff {op : SignedBlsToExecutionChange} :
    Pres (Eff E f) (process_bls_to_execution_change E op) := by
  intro s
  have p := effPre E f
  unfold process_bls_to_execution_change
  rw [wp_bind, wp_get, wp_bind, wp_liftM]
  refine ⟨fun v hv => ?_, fun _ _ => p.refl s⟩
  rw [wp_bind, wp_liftM]
  refine ⟨fun _ h0 => ?_, fun _ _ => p.refl s⟩
  rw [getOr_eq_ok] at hv
  have h0 : v.withdrawal_credentials[0] = 0 := by
    rw [rejectIf_eq_ok] at h0
    exact Decidable.not_not.1 (of_decide_eq_false h0)
  rw [wp_bind, wp_liftM]
  refine ⟨fun _ _ => ?_, fun _ _ => p.refl s⟩
  rw [wp_bind, wp_liftM]
  refine ⟨fun _ _ => ?_, fun _ _ => p.refl s⟩
  rw [wp_updValidator]
  refine ⟨fun v' hv' => ?_, fun _ => p.refl s⟩
  rw [hv] at hv'; cases hv'
  exact eff_set hB hv ⟨rfl, fun h => by rw [h0] at h; exact absurd h (by decide)⟩

theorem withdrawal_request_eff {r : ExecutionLayerWithdrawalRequest} :
    Pres (Eff E f) (Electra.process_execution_layer_withdrawal_request E r) := by
  have p := effPre E f
  unfold Electra.process_execution_layer_withdrawal_request
  walk p [electra_exit_eff hB, eff_mod exit_churn_mod (by decide), upd_eff]

theorem deposit_receipt_eff {r : DepositReceipt} :
    Pres (Eff E .Electra) (Electra.process_deposit_receipt E r) := by
  have p := effPre E .Electra
  unfold Electra.process_deposit_receipt
  walk p [electra_apply_deposit_eff hB, upd_eff]

theorem consolidation_eff {op : SignedConsolidation} :
    Pres (Eff E f) (Electra.process_consolidation E op) := by
  have p := effPre E f
  unfold Electra.process_consolidation
  walk p [eff_mod consolidation_churn_mod (by decide), updv_eff hB, upd_eff]
  all_goals effs

theorem operations_eff {b : BeaconBlockBody} : Pres (Eff E f) (process_operations E f b) := by
  have p := effPre E f
  unfold process_operations
  cases f <;>
  walk p [proposer_slashing_eff hB, attester_slashing_eff hB, eff_mod attestation_mod (by decide),
    deposit_eff hB, voluntary_exit_eff hB, bls_change_eff hB, withdrawal_request_eff hB,
    deposit_receipt_eff hB, consolidation_eff hB]

theorem block_eff {b : BeaconBlock} : Pres (Eff E f) (process_block E f b) := by
  have p := effPre E f
  unfold process_block
  walk p [eff_mod header_mod (by decide), eff_mod block_payload_mod (by decide),
    eff_mod randao_mod (by decide), eff_mod eth1_mod (by decide), operations_eff hB,
    eff_mod sync_aggregate_mod (by decide)]

theorem registry_eff : Pres (Eff E f) (process_registry_updates E f) := by
  have p := effPre E f
  unfold process_registry_updates mark_eligible eject_if_low
  walk p [exit_eff hB, updv_eff hB]
  all_goals effs

theorem pending_consolidations_eff : Pres (Eff E f) (Electra.process_pending_consolidations E) := by
  have p := effPre E f
  have hl : ∀ l a, Pres (Eff E f) (Electra.pending_consolidations_loop E l a) := by
    intro l
    induction l with
    | nil => intro a; unfold Electra.pending_consolidations_loop; walk p
    | cons d l ih =>
      intro a
      unfold Electra.pending_consolidations_loop
      walk p [ih, eff_mod increase_mod (by decide), eff_mod decrease_mod (by decide), switch_eff hB]
  unfold Electra.process_pending_consolidations
  walk p [hl, upd_eff]

theorem effective_updates_eff : Pres (Eff E f) (process_effective_balance_updates E f) := by
  intro s
  have p := effPre E f
  unfold process_effective_balance_updates
  simp only [wps]
  refine ⟨fun a ha => ⟨fun d hd => ⟨fun u hu => ?_, fun _ _ => p.refl s⟩, fun _ _ => p.refl s⟩,
    fun _ _ => p.refl s⟩
  have ha := (div_eq_ok.1 ha).1
  have hd := (mul_eq_ok.1 hd).1
  have hu := (mul_eq_ok.1 hu).1
  subst ha; subst hd; subst hu
  refine Pres.forEach p (fun i t => ?_) s
  simp only [wps]
  refine ⟨fun v hv => ⟨fun b hb => ⟨fun e he => ⟨fun w hw => ?_, fun _ => p.refl t⟩,
    fun _ _ => p.refl t⟩, fun _ _ => p.refl t⟩, fun _ _ => p.refl t⟩
  rw [idx_eq_ok] at hv
  rw [hv] at hw; cases hw
  intro hs x hx
  rcases List.mem_or_eq_of_mem_set hx with hx | rfl
  · exact hs x hx
  · have hfit := hs v (List.mem_of_getElem? hv)
    obtain ⟨h1, h2⟩ := updated_effective_ok hB he
    by_cases hi : InBand E v.effective_balance b
    · rw [h1 hi]; exact hfit
    · obtain ⟨m1, m2, -⟩ := h2 hi
      exact ⟨Nat.le_trans m2 (Nat.min_le_right _ _), m1⟩

theorem epoch_eff : Pres (Eff E f) (process_epoch E f) := by
  have p := effPre E f
  unfold process_epoch process_epoch_first
  walk p [eff_mod justification_mod (by decide), eff_mod inactivity_mod (by decide),
    eff_mod rewards_mod (by decide), registry_eff hB, eff_mod slashings_mod (by decide),
    eff_mod eth1_reset_mod (by decide), eff_mod pending_deposits_mod (by decide),
    pending_consolidations_eff hB, effective_updates_eff hB,
    eff_mod slashings_reset_mod (by decide),
    eff_mod randao_reset_mod (by decide), eff_mod historical_mod (by decide),
    eff_mod record_updates_mod (by decide), eff_mod flag_updates_mod (by decide),
    eff_mod sync_committees_mod (by decide)]

theorem slots_eff {t : Nat} : Pres (Eff E f) (process_slots E f t) :=
  slots_pres (effPre E f) <| slot_step_pres (effPre E f) (eff_mod slot_mod (by decide))
    (epoch_eff hB) fun _ => eff_of_same rfl

theorem entry_eff {m : M Unit} (h : EntryPoint E f m) : Pres (Eff E f) m := by
  cases h with
  | process_slots => exact slots_eff hB
  | state_transition => exact (transition_pres (effPre E f) (slots_eff hB) (block_eff hB)).2
  | state_transition_block_in_slot =>
    exact (transition_pres (effPre E f) (slots_eff hB) (block_eff hB)).1
  | process_slot => exact eff_mod slot_mod (by decide)
  | process_epoch => exact epoch_eff hB
  | process_block => exact block_eff hB
  | process_block_header => exact eff_mod header_mod (by decide)
  | process_randao => exact eff_mod randao_mod (by decide)
  | process_eth1_data => exact eff_mod eth1_mod (by decide)
  | process_operations => exact operations_eff hB
  | process_execution_payload => exact eff_mod payload_mod (by decide)
  | process_withdrawals => exact eff_mod withdrawals_mod (by decide)
  | process_sync_aggregate => exact eff_mod sync_aggregate_mod (by decide)
  | process_proposer_slashing => exact proposer_slashing_eff hB
  | process_attester_slashing => exact attester_slashing_eff hB
  | process_attestation => exact eff_mod attestation_mod (by decide)
  | process_deposit => exact deposit_eff hB
  | process_voluntary_exit => exact voluntary_exit_eff hB
  | process_bls_to_execution_change => exact bls_change_eff hB
  | process_execution_layer_withdrawal_request => exact withdrawal_request_eff hB
  | process_deposit_receipt _ h => subst h; exact deposit_receipt_eff hB
  | process_consolidation => exact consolidation_eff hB
  | initiate_validator_exit => exact exit_eff hB
  | slash_validator => exact slash_eff hB
  | increase_balance => exact eff_mod increase_mod (by decide)
  | decrease_balance => exact eff_mod decrease_mod (by decide)

theorem max_le_limit {g : Fork} {v : Validator} : E.max_effective_balance ≤ effectiveLimit E g v := by
  have h1 := hB.le_activation
  have h2 := hB.le_electra
  unfold effectiveLimit
  repeat' split
  all_goals omega

theorem genesis_deposits_eff {l : List DepositData} {ds : List Deposit} :
    Pres (Eff E f) (genesis_deposits E f l ds) := by
  have p := effPre E f
  induction ds generalizing l with
  | nil => unfold genesis_deposits; walk p
  | cons d ds ih => unfold genesis_deposits; walk p [deposit_eff hB, ih, upd_eff]

theorem genesis_activate_eff {i : Nat} : Pres (Eff E f) (genesis_activate E i) := by
  intro s
  have p := effPre E f
  unfold genesis_activate
  simp only [wps]
  refine ⟨fun b hb => ⟨fun r hr => ⟨fun a ha => ⟨fun v hv => ?_, fun _ => p.refl s⟩,
    fun _ _ => p.refl s⟩, fun _ _ => p.refl s⟩, fun _ _ => p.refl s⟩
  have hr := (mod_eq_ok.1 hr).1
  have ha := (sub_eq_ok.1 ha).1
  subst hr; subst ha
  intro hs x hx
  rcases List.mem_or_eq_of_mem_set hx with hx | rfl
  · exact hs x hx
  · have hm := (largest_multiple (b := b) hB.max).1
    split
    · exact ⟨Nat.le_trans (Nat.min_le_right _ _) (max_le_limit hB), hm⟩
    · exact ⟨Nat.le_trans (Nat.min_le_right _ _) (max_le_limit hB), hm⟩

theorem genesis_fill_eff {ds : List Deposit} : Pres (Eff E f) (genesis_fill E f ds) := by
  have p := effPre E f
  unfold genesis_fill genesis_pending_deposits genesis_sync_committees
  walk p [genesis_deposits_eff hB, eff_mod increase_mod (by decide), genesis_activate_eff hB, upd_eff]

omit hB in
theorem init_queues_eff : Pres (Eff E f) (electra_init_queues E) := by
  have p := effPre E f
  unfold electra_init_queues Electra.queue_entire_balance_and_reset_validator
  walk p [eff_mod queue_excess_mod (by decide), upd_eff]
  apply Pres.updValidator p
  intro s v hv hs x hx
  rcases List.mem_or_eq_of_mem_set hx with hx | rfl
  · exact hs x hx
  · exact ⟨Nat.zero_le _, Nat.dvd_zero _⟩

theorem upgrade_fits {g : Fork} {s s' : State} (hs : ∀ v ∈ s.validators, Fits E f v)
    (hg : g.ord = f.ord + 1) (h : upgrade_to E g s = .ok s') : ∀ v ∈ s'.validators, Fits E g v := by
  have key : ∀ v ∈ s.validators, Fits E g v := by
    intro v hv
    obtain ⟨h1, h2⟩ := hs v hv
    refine ⟨?_, h2⟩
    have hf : f ≠ .Electra := by
      intro hf; subst hf; cases g <;> simp [Fork.ord] at hg
    unfold effectiveLimit at h1
    rw [if_neg hf] at h1
    exact Nat.le_trans h1 (max_le_limit hB)
  cases g <;> unfold upgrade_to at h <;> dsimp only at h
  case Phase0 => cases h
  case Altair =>
    unfold upgrade_to_altair at h
    simp only [run, runLocal_eq_ok] at h
    obtain ⟨e, _, post, hpost, c, _, rfl⟩ := h
    have hv : post.validators = s.validators := (translate_mod.ok hpost) .validators (by decide)
    intro v hm
    exact key v (hv ▸ hm)
  case Electra =>
    unfold upgrade_to_electra at h
    simp only [run, runLocal_eq_ok] at h
    obtain ⟨e, _, x, _, y, _, h⟩ := h
    exact ((init_queues_eff (f := .Electra)).ok h) key
  all_goals
    first
      | unfold upgrade_to_bellatrix at h
      | unfold upgrade_to_capella at h
      | unfold upgrade_to_deneb at h
    simp only [run] at h
    obtain ⟨e, _, rfl⟩ := h
    exact key

theorem reachable_fits {s : State} (h : Reachable E f s) : ∀ v ∈ s.validators, Fits E f v := by
  induction h with
  | genesis hs =>
    unfold initialize_beacon_state_from_eth1 genesis_candidate at hs
    simp only [run] at hs
    obtain ⟨_, ⟨gt, _, rfl⟩, hs⟩ := hs
    rw [runLocal_eq_ok] at hs
    exact (genesis_fill_eff hB).ok hs (fun v hv => by cases hv)
  | call _ hm ih => exact (entry_eff hB hm).final _ ih
  | upgrade _ hg h ih => exact upgrade_fits hB ih hg h

end

end Verif
