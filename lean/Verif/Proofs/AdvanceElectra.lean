import Verif.Proofs.AdvanceEpoch
import Verif.Proofs.SafetyElectraEpoch

/-! # Electra's epochs and slots succeed -/

namespace Verif

open Spec Props

variable {T : Err → Prop} {E : Env} {s s' : State}

/-! ## Exits -/

theorem balance_churn_firm (hT : effectiveSum s < 2 ^ 64) :
    Firm T (Electra.get_activation_exit_churn_limit E s) := by
  unfold Electra.get_activation_exit_churn_limit Electra.get_balance_churn_limit
  firm [total_active_firm hT]

theorem exit_epoch_firm {b : Nat} (hT : effectiveSum s < 2 ^ 64) :
    FirmM T (Electra.compute_exit_epoch_and_update_churn E b) s := by
  unfold Electra.compute_exit_epoch_and_update_churn Electra.churn_step
    compute_activation_exit_epoch
  firm [current_epoch_firm, balance_churn_firm hT]
  all_goals
    dsimp only
    firm []

theorem electra_initiate_firm (hE : SaneConfig E) (hq : SaneQuotients E) (hz : SaneElectra E)
    {k : Nat} (h : Wellformed E s) (hx : Exits E k s) (hT : effectiveSum s < 2 ^ 64) {i : Nat} :
    FirmM T (Fork.initiate_validator_exit E .Electra i) s := by
  have hU : U64_BOUND = 2 ^ 64 := rfl
  have hd := hE.withdrawability_delay.2
  have hroom := hx.2
  unfold ExitRoom at hroom
  show FirmM T (Electra.initiate_validator_exit E i) s
  unfold Electra.initiate_validator_exit
  refine FirmM_get_bind (FirmM_lift_bind Firm_idx fun v hv => ?_)
  split
  · exact FirmM_pure
  rename_i hf
  have hf : v.exit_epoch = FAR_FUTURE_EPOCH := by simpa using hf
  have hv := idx_eq_ok.1 hv
  have hm := List.mem_of_getElem? hv
  have heff := h.effective v hm
  have hle : v.effective_balance ≤ exitable s := by
    have hh := le_sum_map (fun v : Validator =>
      if v.exit_epoch = FAR_FUTURE_EPOCH then v.effective_balance else 0) hm
    simp only [hf, if_true] at hh
    exact hh
  refine FirmM_bind (exit_epoch_firm hT) fun e t ht => ?_
  have hlt : e < 2 ^ 63 := (electra_exit_epoch_calm hE hq hz h (b := v.effective_balance)
    (Q := fun e _ => e < 2 ^ 63) (by omega) (by omega) fun e r _ h2 => by omega).ok ht
  refine FirmM_bind FirmM_updValidator fun _ t _ => ?_
  refine FirmM_bind (FirmM_lift (Firm_of_ok (checkedAdd_eq_ok.2 ⟨rfl, by omega⟩))) fun _ _ _ => ?_
  exact FirmM_updValidator

/-- Registry updates of electra. -/
theorem electra_registry_firm (hE : SaneConfig E) (hq : SaneQuotients E) (hx : SaneEpochs E)
    (hz : SaneElectra E) (h : Wellformed E s) (hi : Exits E 0 s) (hT : effectiveSum s < 2 ^ 64) :
    FirmM T (process_registry_updates E .Electra) s := by
  unfold process_registry_updates
  refine FirmM_get_bind (FirmM_lift_bind current_epoch_firm fun c hc => ?_)
  obtain ⟨rfl, -⟩ := current_epoch_eq_ok.1 hc
  refine FirmM_bind (FirmM_forEach' (fun rest t => (Turnover E s t ∧ Exits E 0 t) ∧
    ∀ i ∈ rest, i < s.validators.length) ?_
    ⟨⟨⟨⟨_, _, _, rfl⟩, h, rfl, fun h => h⟩, hi⟩, fun i hi => List.mem_range.1 hi⟩) fun _ t _ => ?_
  · rintro i rest t ⟨⟨g1, gi⟩, g2⟩
    have hlt := g2 i (by simp)
    have hm := mark_calm (E := E) (f := .Electra) quiet_exits.indifferent g1 gi
      (by rw [g1.length]; exact hlt)
    constructor
    · refine FirmM_bind (by unfold mark_eligible; firm []) fun _ u hu => ?_
      obtain ⟨k1, k2⟩ := hm.ok hu
      unfold eject_if_low
      firm []
      refine electra_initiate_firm hE hq hz k1.wf k2 ?_
      unfold effectiveSum
      rw [k1.effective]
      exact hT
    · intro u hu
      rw [M_bind_unit_eq_ok] at hu
      obtain ⟨t1, h1, h2⟩ := hu
      obtain ⟨k1, k2⟩ := hm.ok h1
      exact ⟨(electra_eject_calm hE hq hx hz k1 k2 (by rw [k1.length]; exact hlt)).ok h2,
        fun j hj => g2 j (by simp [hj])⟩
  · unfold compute_activation_exit_epoch to_activate
    firm []

/-! ## The queues -/

theorem deposits_loop_firm {A p n : Nat} {l : List PendingBalanceDeposit} :
    FirmM T (Electra.pending_deposits_loop A l p n) s := by
  induction l generalizing s p n with
  | nil => unfold Electra.pending_deposits_loop; exact FirmM_pure
  | cons d l ih =>
    unfold Electra.pending_deposits_loop
    firm [increase_firm, ih]

theorem deposit_queue_firm (hT : effectiveSum s < 2 ^ 64) :
    FirmM T (Electra.process_pending_balance_deposits E) s := by
  unfold Electra.process_pending_balance_deposits
  firm [balance_churn_firm hT, deposits_loop_firm]

theorem switch_firm {i : Nat} : FirmM T (Electra.switch_to_compounding_validator E i) s := by
  unfold Electra.switch_to_compounding_validator Electra.queue_excess_active_balance
  refine FirmM_get_bind (FirmM_lift_bind Firm_idx fun v _ => ?_)
  split
  · refine FirmM_bind FirmM_updValidator fun _ t _ => ?_
    refine FirmM_get_bind (FirmM_lift_bind Firm_idx fun b _ => ?_)
    split
    · refine FirmM_lift_bind (Firm_of_ok (checkedSub_eq_ok.2 ⟨rfl, by omega⟩)) fun _ _ => ?_
      exact FirmM_upd
    · exact FirmM_pure
  · exact FirmM_pure

theorem consolidations_loop_firm {n : Nat} {l : List PendingConsolidation} :
    FirmM T (Electra.pending_consolidations_loop E l n) s := by
  induction l generalizing s n with
  | nil => unfold Electra.pending_consolidations_loop; exact FirmM_pure
  | cons c l ih =>
    unfold Electra.pending_consolidations_loop Electra.get_active_balance
    firm [current_epoch_firm, switch_firm, increase_firm, decrease_firm, ih]

theorem consolidation_queue_firm : FirmM T (Electra.process_pending_consolidations E) s := by
  unfold Electra.process_pending_consolidations
  firm [consolidations_loop_firm]

/-! ## Epochs -/

theorem electra_first_firm (hE : SaneConfig E) (hq : SaneQuotients E) (hx : SaneEpochs E)
    (hk : SaneClock E) (hz : SaneElectra E) (h : Wellformed E s) (hqs : Queues E s)
    (he : ElectraEpochReady E s) (h1 : s.slot % E.slots_per_epoch ≠ 0) :
    FirmM T (process_epoch_first E .Electra) s := by
  have hne : Fork.Electra ≠ .Phase0 := by decide
  have hT : effectiveSum s < 2 ^ 64 := by have := he.stake; omega
  have hs := scored_calm hE hx h (f := .Electra)
    (fun _ => altair_balances_calm hE hq hx hne he.stake he.parallel) he.justified he.finalized
    he.parallel (fun _ => he.scores) (by decide)
  have key : FirmM T (do
      scored E .Electra
      process_rewards_and_penalties E .Electra
      process_registry_updates E .Electra
      process_slashings E .Electra
      process_eth1_data_reset E
      Electra.process_pending_balance_deposits E
      Electra.process_pending_consolidations E : M Unit) s := by
    refine FirmM_bind ?_ fun _ t ht => ?_
    · unfold scored
      exact FirmM_bind (justification_firm (altair_balances_firm hne hT) h1 hk.history)
        fun _ _ _ => inactivity_updates_firm
    obtain ⟨a, b, c, bits, sc, rfl, hw, hc, hsc⟩ := hs.ok ht
    refine FirmM_bind (altair_rewards_firm hne hT) fun _ t ht => ?_
    obtain ⟨l, rfl, l1, l2⟩ := (altair_rewards_calm hE hq hx hne hw he.stake he.effective hc
      ⟨he.parallel.1, fun hf => ⟨(he.parallel.2 hf).1, (he.parallel.2 hf).2.1,
        ((hsc hf).1).trans (he.parallel.2 hf).2.2⟩⟩
      (fun v hv x hx' => electra_scores_fit hx hz (he.effective v hv) ((hsc hne).2 x hx'))
      he.balances).ok ht
    have hx0 : Exits E 0 (withBalances { s with
        previous_justified_checkpoint := a
        current_justified_checkpoint := b
        finalized_checkpoint := c
        justification_bits := bits
        inactivity_scores := sc } l) := by
      refine ⟨hqs.congr rfl rfl rfl rfl, ?_⟩
      have h1 := he.exits
      have h2 := exitable_le (s := s)
      have h3 := he.stake
      unfold ExitRoom
      show max s.earliest_exit_epoch _ + exitable s + 0 < _
      omega
    refine FirmM_bind (electra_registry_firm hE hq hx hz (wf_balances hw l1) hx0 hT)
      fun _ t ht => ?_
    obtain ⟨gt, -⟩ := (registry_calm_of hE hx quiet_exits.indifferent
      (fun t i ht hi hlt => electra_eject_calm hE hq hx hz ht hi hlt) (wf_balances hw l1) hx0
      hc).ok ht
    have hTt : effectiveSum t < 2 ^ 64 := by
      unfold effectiveSum
      rw [gt.effective]
      exact hT
    refine FirmM_bind (slashings_firm hTt) fun _ u hu => ?_
    have eu : u.validators = t.validators :=
      slashings_mod.toOk.ok hu .validators (by decide)
    refine FirmM_bind eth1_reset_firm fun _ w hw => ?_
    have ew : w.validators = u.validators :=
      eth1_reset_mod.toOk.ok hw .validators (by decide)
    refine FirmM_bind (deposit_queue_firm ?_) fun _ _ _ => consolidation_queue_firm
    unfold effectiveSum at *
    rw [ew, eu]
    exact hTt
  unfold process_epoch_first
  unfold scored at key
  intro e t het
  refine key e t ?_
  rw [← het]
  simp only [bind_assoc]

theorem electra_epoch_firm (hE : SaneConfig E) (hq : SaneQuotients E) (hx : SaneEpochs E)
    (hk : SaneClock E) (hz : SaneElectra E) (h : Wellformed E s) (hqs : Queues E s)
    (he : ElectraEpochReady E s) (h1 : s.slot % E.slots_per_epoch ≠ 0) :
    FirmM (EpochStop E .Electra s) (process_epoch E .Electra) s := by
  unfold process_epoch
  refine FirmM_bind (electra_first_firm hE hq hx hk hz h hqs he h1) fun _ s1 h1 => ?_
  obtain ⟨w1, -, e1, b1, a1⟩ := (electra_epoch_first_calm hE hq hx hz h hqs he).ok h1
  refine FirmM_bind effective_firm fun _ s2 h2 => ?_
  obtain ⟨w2, ⟨vs, hs2⟩, a2⟩ := (effective_calm hE hx (electra_limit_le hx hz) w1 b1).ok h2
  have e2 : s2.slot = s.slot := by rw [hs2]; exact e1
  refine FirmM_bind slashings_reset_firm fun _ s3 h3 => ?_
  obtain ⟨w3, l3, rfl⟩ := (slashings_reset_calm hE w2).ok h3
  refine FirmM_bind randao_reset_firm fun _ s4 h4 => ?_
  obtain ⟨w4, l4, rfl⟩ := (randao_reset_calm hE w3).ok h4
  refine FirmM_bind historical_firm fun _ s5 h5 => ?_
  obtain ⟨w5, l5, m5, rfl⟩ := (historical_calm hE w4).ok h5
  show FirmM (EpochStop E .Electra s) (do
      process_participation_flag_updates
      process_sync_committee_updates E) _
  unfold process_participation_flag_updates
  refine FirmM_upd_bind ?_
  intro e t het
  rcases sync_updates_firm e t het with g | ⟨g1, g2⟩
  · exact .inl g
  · refine .inr ⟨by decide, ?_, g2⟩
    rw [← e2]
    exact g1

theorem electra_driven (hE : SaneConfig E) (hq : SaneQuotients E) (hx : SaneEpochs E)
    (hk : SaneClock E) (hz : SaneElectra E) :
    Driven E .Electra (fun s => Wellformed E s ∧ Queues E s) (ElectraEpochReady E) :=
  ⟨electra_steady hE hq hx hz, fun _ h he h1 => electra_epoch_firm hE hq hx hk hz h.1 h.2 he h1⟩

end Verif
