import Verif.Proofs.Advance
import Verif.Spec.Advance

/-! # Epoch processing of phase0 succeeds -/

namespace Verif

open Spec Props

variable {T : Err → Prop} {E : Env} {f : Fork} {s : State}

/-- The attesting indices of these votes can be computed. -/
def Counted (E : Env) (s : State) (l : List PendingAttestation) : Prop :=
  ∀ a ∈ l, ∃ c, get_beacon_committee E s a.data.slot a.data.index = .ok c ∧
    a.aggregation_bits.length = c.length

theorem Counted.sub {l m : List PendingAttestation} (h : Counted E s l) (hm : ∀ a ∈ m, a ∈ l) :
    Counted E s m := fun a ha => h a (hm a ha)

theorem attesting_firm {a : PendingAttestation} {l : List PendingAttestation}
    (h : Counted E s l) (ha : a ∈ l) :
    Firm T (get_attesting_indices E s a.data a.aggregation_bits) := by
  obtain ⟨c, hc, hl⟩ := h a ha
  unfold get_attesting_indices
  refine Firm_bind (Firm_of_ok hc) fun c' hc' => ?_
  rw [hc] at hc'
  cases hc'
  refine Firm_bind (Firm_of_ok (a := ()) ?_) fun _ _ => Firm_pure
  rw [rejectIf_eq_ok]
  simpa using hl

theorem insert_firm {out l : List Nat} : Firm T (Phase0.insertUnslashed s out l) := by
  induction l generalizing out with
  | nil => exact Firm_ok
  | cons i l ih => unfold Phase0.insertUnslashed; firm [ih]

theorem unslashedFrom_firm {l : List PendingAttestation} (h : Counted E s l) {out : List Nat} :
    Firm T (Phase0.unslashedFrom E s out l) := by
  induction l generalizing out with
  | nil => exact Firm_ok
  | cons a l ih =>
    unfold Phase0.unslashedFrom
    refine Firm_bind (attesting_firm h (by simp)) fun _ _ => Firm_bind insert_firm fun _ _ => ?_
    exact ih (h.sub fun b hb => by simp [hb])

theorem unslashed_firm {l : List PendingAttestation} (h : Counted E s l) :
    Firm T (Phase0.get_unslashed_attesting_indices E s l) := by
  unfold Phase0.get_unslashed_attesting_indices
  exact Firm_bind (unslashedFrom_firm h) fun _ _ => Firm_pure

theorem unslashed_total_firm (hE : SaneConfig E) (hw : Wellformed E s)
    {l : List PendingAttestation} (hr : ∀ a ∈ l, RecordedVote E s a)
    {m : List Nat} (hm : Phase0.get_unslashed_attesting_indices E s l = .ok m)
    (hT : effectiveSum s < 2 ^ 64) : Firm T (get_total_balance E s m) := by
  have := (unslashed_calm hE hw hr).ok hm
  exact total_balance_firm this.2.1 this.1 hT

theorem source_firm {e : Nat}
    (he : get_previous_epoch E s = .ok e ∨ get_current_epoch E s = .ok e) :
    Firm T (Phase0.get_matching_source_attestations E s e) := by
  unfold Phase0.get_matching_source_attestations
  refine Firm_bind previous_epoch_firm fun p hp => Firm_bind current_epoch_firm fun c hc => ?_
  refine Firm_bind (Firm_of_ok (a := ()) ?_) fun _ _ => Firm_pure
  rw [rejectIf_eq_ok]
  rcases he with he | he
  · rw [hp] at he; cases he; simp
  · rw [hc] at he; cases he; simp

theorem source_mem {e : Nat} {l : List PendingAttestation}
    (h : Phase0.get_matching_source_attestations E s e = .ok l) :
    (∀ a ∈ l, a ∈ s.previous_epoch_attestations ++ s.current_epoch_attestations) ∧
      (e < epochOf E s.slot → l = s.previous_epoch_attestations) := by
  unfold Phase0.get_matching_source_attestations at h
  simp only [run, current_epoch_eq_ok] at h
  obtain ⟨p, -, c, ⟨rfl, -⟩, -, rfl⟩ := h
  constructor
  · intro a ha
    split at ha <;> simp [ha]
  · intro he
    rw [if_neg (by omega)]

theorem target_mem {e : Nat} {l : List PendingAttestation}
    (h : Phase0.get_matching_target_attestations E s e = .ok l) :
    (∀ a ∈ l, a ∈ s.previous_epoch_attestations ++ s.current_epoch_attestations) ∧
      (e < epochOf E s.slot → ∀ a ∈ l, a ∈ s.previous_epoch_attestations) := by
  unfold Phase0.get_matching_target_attestations at h
  simp only [run] at h
  obtain ⟨src, hs, h⟩ := h
  obtain ⟨h1, h2⟩ := source_mem hs
  have hl : ∀ a ∈ l, a ∈ src := by
    rcases h with ⟨-, rfl⟩ | ⟨-, r, -, rfl⟩
    · simp
    · exact fun a ha => (List.mem_filter.1 ha).1
  exact ⟨fun a ha => h1 a (hl a ha), fun he a ha => h2 he ▸ hl a ha⟩

theorem head_mem {e : Nat} {l : List PendingAttestation}
    (h : Phase0.get_matching_head_attestations E s e = .ok l) :
    ∀ a ∈ l, a ∈ s.previous_epoch_attestations ++ s.current_epoch_attestations := by
  unfold Phase0.get_matching_head_attestations at h
  simp only [run] at h
  obtain ⟨tg, ht, h⟩ := h
  obtain ⟨h1, -⟩ := target_mem ht
  have := filterM_eq_ok (p := fun a => match get_block_root_at_slot E s a.data.slot with
      | .ok r => decide (a.data.beacon_block_root = r)
      | _ => false) (by
    intro a _ b hb
    simp only [run] at hb
    obtain ⟨r, hr, rfl⟩ := hb
    simp only [hr]) h
  rw [this]
  exact fun a ha => h1 a (List.mem_filter.1 ha).1

theorem target_firm {e : Nat}
    (he : get_previous_epoch E s = .ok e ∨ get_current_epoch E s = .ok e)
    (h1 : e * E.slots_per_epoch < s.slot)
    (h2 : s.slot ≤ e * E.slots_per_epoch + E.slots_per_historical_root) :
    Firm T (Phase0.get_matching_target_attestations E s e) := by
  unfold Phase0.get_matching_target_attestations
  refine Firm_bind (source_firm he) fun src _ => ?_
  split
  · exact Firm_pure
  refine Firm_bind ?_ fun _ _ => Firm_pure
  unfold get_block_root compute_start_slot_at_epoch
  refine Firm_bind (by firm []) fun k hk => ?_
  rw [mul_eq_ok] at hk
  obtain ⟨rfl, -⟩ := hk
  exact block_root_at_firm h1 h2

/-- The slots of the current and of the previous epoch, at the end of an epoch. -/
theorem epoch_starts (hk : SaneClock E) (h1 : s.slot % E.slots_per_epoch ≠ 0) :
    epochOf E s.slot * E.slots_per_epoch < s.slot ∧
    s.slot ≤ epochOf E s.slot * E.slots_per_epoch + E.slots_per_historical_root ∧
    (epochOf E s.slot - 1) * E.slots_per_epoch < s.slot ∧
    s.slot ≤ (epochOf E s.slot - 1) * E.slots_per_epoch + E.slots_per_historical_root ∧
    ∀ n, epochOf E s.slot ≠ 0 → epochOf E n = epochOf E s.slot - 1 →
      n < s.slot ∧ s.slot ≤ n + E.slots_per_historical_root := by
  have hk1 := hk.epoch
  have hk2 := hk.history
  have d1 := Nat.div_add_mod s.slot E.slots_per_epoch
  have d2 := Nat.mod_lt s.slot (show E.slots_per_epoch > 0 by omega)
  have d3 : (s.slot / E.slots_per_epoch - 1) * E.slots_per_epoch =
      s.slot / E.slots_per_epoch * E.slots_per_epoch - E.slots_per_epoch := Nat.sub_one_mul ..
  have d4 : E.slots_per_epoch * (s.slot / E.slots_per_epoch) =
    s.slot / E.slots_per_epoch * E.slots_per_epoch := Nat.mul_comm ..
  unfold epochOf
  generalize hq : s.slot / E.slots_per_epoch = q at *
  have d6 : q * E.slots_per_epoch = 0 ∨ q ≠ 0 ∧ E.slots_per_epoch ≤ q * E.slots_per_epoch := by
    rcases Nat.eq_zero_or_pos q with h0 | h0
    · exact .inl (by rw [h0, Nat.zero_mul])
    · exact .inr ⟨by omega, Nat.le_mul_of_pos_left _ h0⟩
  refine ⟨by omega, by omega, by omega, by omega, fun n h0 hn => ?_⟩
  have d5 : E.slots_per_epoch ≤ q * E.slots_per_epoch := Nat.le_mul_of_pos_left _ (by omega)
  have e1 := Nat.div_add_mod n E.slots_per_epoch
  have e2 := Nat.mod_lt n (show E.slots_per_epoch > 0 by omega)
  rw [hn, Nat.mul_comm, d3] at e1
  omega

section
variable (hE : SaneConfig E) (hk : SaneClock E) (hw : Wellformed E s)
  (hT : effectiveSum s < 2 ^ 64) (hr : Recorded E s) (hc : CountableVotes E s)
  (h1 : s.slot % E.slots_per_epoch ≠ 0)
include hE hw hT hr hc

theorem attesting_balance_firm {l : List PendingAttestation}
    (hl : ∀ a ∈ l, a ∈ s.previous_epoch_attestations ++ s.current_epoch_attestations) :
    Firm T (Phase0.get_attesting_balance E s l) := by
  unfold Phase0.get_attesting_balance
  exact Firm_bind (unslashed_firm fun a ha => hc.committee a (hl a ha)) fun m hm =>
    unslashed_total_firm hE hw (fun a ha => hr a (hl a ha)) hm hT

include hk h1 in
theorem phase0_balances_firm : Firm T (justification_balances E .Phase0 s) := by
  obtain ⟨g1, g2, g3, g4, -⟩ := epoch_starts hk h1
  unfold justification_balances
  refine Firm_bind previous_epoch_firm fun p hp => ?_
  refine Firm_bind (target_firm (.inl hp) ?_ ?_) fun pa hpa => ?_
  · obtain ⟨rfl, -⟩ := previous_epoch_eq_ok.1 hp; exact g3
  · obtain ⟨rfl, -⟩ := previous_epoch_eq_ok.1 hp; exact g4
  refine Firm_bind current_epoch_firm fun c hc' => ?_
  refine Firm_bind (target_firm (.inr hc') ?_ ?_) fun ca hca => ?_
  · obtain ⟨rfl, -⟩ := current_epoch_eq_ok.1 hc'; exact g1
  · obtain ⟨rfl, -⟩ := current_epoch_eq_ok.1 hc'; exact g2
  refine Firm_bind (total_active_firm hT) fun _ _ => ?_
  refine Firm_bind (attesting_balance_firm hE hw hT hr hc (target_mem hpa).1) fun _ _ => ?_
  exact Firm_bind (attesting_balance_firm hE hw hT hr hc (target_mem hca).1) fun _ _ => Firm_pure

omit hE hw hr hc in
theorem quarter_firm {i : Nat} : Firm T (Phase0.get_base_reward E s i) := by
  unfold Phase0.get_base_reward
  firm [total_active_firm hT]

omit hE hw hr hc in
theorem proposer_part_firm {i : Nat} : Firm T (Phase0.get_proposer_reward E s i) := by
  unfold Phase0.get_proposer_reward
  firm [quarter_firm hT]

theorem component_firm {l : List PendingAttestation}
    (hl : ∀ a ∈ l, a ∈ s.previous_epoch_attestations ++ s.current_epoch_attestations) :
    Firm T (Phase0.get_attestation_component_deltas E s l) := by
  unfold Phase0.get_attestation_component_deltas
  refine Firm_bind (total_active_firm hT) fun _ _ => ?_
  refine Firm_bind (unslashed_firm fun a ha => hc.committee a (hl a ha)) fun m hm => ?_
  refine Firm_bind (unslashed_total_firm hE hw (fun a ha => hr a (hl a ha)) hm hT) fun _ _ => ?_
  refine Firm_bind eligible_firm fun _ _ => Firm_foldlM fun _ _ => ?_
  unfold Phase0.component_delta
  firm [leak_firm, quarter_firm hT, reward_firm, penalize_firm]

omit hE hw hT hr hc in
theorem addAt_firm {xs : List Nat} {i d : Nat} : Firm T (addAt xs i d) := by
  unfold addAt; firm []

omit hE hw hr in
theorem inclusion_firm : Firm T (Phase0.get_inclusion_delay_deltas E s) := by
  unfold Phase0.get_inclusion_delay_deltas
  refine Firm_bind previous_epoch_firm fun p hp => Firm_bind (source_firm (.inl hp)) fun src hs => ?_
  have hsub := (source_mem hs).1
  have hct : Counted E s src := fun a ha => hc.committee a (hsub a ha)
  refine Firm_bind (unslashed_firm hct) fun m hm => Firm_foldlM fun _ _ => ?_
  unfold Phase0.inclusion_delta
  refine Firm_bind (Firm_filterM fun a ha => Firm_bind (attesting_firm hct ha)
    fun _ _ => Firm_pure) fun _ _ => ?_
  refine Firm_bind ?_ fun _ _ => ?_
  · unfold Phase0.earliest; split
    · exact Firm_panic
    · exact Firm_ok
  firm [quarter_firm hT, proposer_part_firm hT, addAt_firm]

omit hE hw hr in
include hk h1 in
theorem overdue_firm : Firm T (Phase0.get_inactivity_penalty_deltas E s) := by
  obtain ⟨g1, g2, g3, g4, -⟩ := epoch_starts hk h1
  unfold Phase0.get_inactivity_penalty_deltas
  refine Firm_bind previous_epoch_firm fun p hp => Firm_bind leak_firm fun lk _ => ?_
  split
  · refine Firm_bind (target_firm (.inl hp) ?_ ?_) fun tg htg => ?_
    · obtain ⟨rfl, -⟩ := previous_epoch_eq_ok.1 hp; exact g3
    · obtain ⟨rfl, -⟩ := previous_epoch_eq_ok.1 hp; exact g4
    refine Firm_bind (unslashed_firm fun a ha => hc.committee a ((target_mem htg).1 a ha))
      fun m hm => Firm_bind eligible_firm fun _ _ => Firm_foldlM fun _ _ => ?_
    unfold Phase0.inactivity_delta
    firm [quarter_firm hT, proposer_part_firm hT, addAt_firm, delay_firm]
  · exact Firm_pure

omit hE hw hT hr hc in
theorem sum4_firm {n : Nat} {a b c d : List Nat} : Firm T (Phase0.sum4 n a b c d) := by
  unfold Phase0.sum4
  firm []

include hk h1 in
theorem deltas_firm (h0 : epochOf E s.slot ≠ 0) : Firm T (Phase0.get_attestation_deltas E s) := by
  obtain ⟨g1, g2, g3, g4, g5⟩ := epoch_starts hk h1
  have tf : ∀ p, get_previous_epoch E s = .ok p →
      Firm T (Phase0.get_matching_target_attestations E s p) := by
    intro p hp
    refine target_firm (.inl hp) ?_ ?_
    · obtain ⟨rfl, -⟩ := previous_epoch_eq_ok.1 hp; exact g3
    · obtain ⟨rfl, -⟩ := previous_epoch_eq_ok.1 hp; exact g4
  have hsrc : Firm T (Phase0.get_source_deltas E s) := by
    unfold Phase0.get_source_deltas
    exact Firm_bind previous_epoch_firm fun p hp => Firm_bind (source_firm (.inl hp)) fun l hl =>
      component_firm hE hw hT hr hc (source_mem hl).1
  have htgt : Firm T (Phase0.get_target_deltas E s) := by
    unfold Phase0.get_target_deltas
    exact Firm_bind previous_epoch_firm fun p hp => Firm_bind (tf p hp) fun l hl =>
      component_firm hE hw hT hr hc (target_mem hl).1
  have hhead : Firm T (Phase0.get_head_deltas E s) := by
    unfold Phase0.get_head_deltas
    refine Firm_bind previous_epoch_firm fun p hp => Firm_bind ?_ fun l hl =>
      component_firm hE hw hT hr hc (head_mem hl)
    unfold Phase0.get_matching_head_attestations
    refine Firm_bind (tf p hp) fun l hl => Firm_filterM fun a ha => Firm_bind ?_ fun _ _ => Firm_pure
    obtain ⟨rfl, -⟩ := previous_epoch_eq_ok.1 hp
    have := g5 a.data.slot h0 (hc.previous a ((target_mem hl).2 (by omega) a ha))
    exact block_root_at_firm this.1 this.2
  unfold Phase0.get_attestation_deltas
  firm [hsrc, htgt, hhead, inclusion_firm hT hc, overdue_firm hk hT hc h1, sum4_firm]

include hk h1 in
theorem phase0_rewards_firm : FirmM T (process_rewards_and_penalties E .Phase0) s := by
  unfold process_rewards_and_penalties
  refine FirmM_get_bind (FirmM_lift_bind current_epoch_firm fun c hc' => ?_)
  obtain ⟨rfl, -⟩ := current_epoch_eq_ok.1 hc'
  split
  · exact FirmM_pure
  rename_i h0
  have := deltas_firm (T := T) hE hk hw hT hr hc h1 h0
  firm [this, apply_deltas_firm]

end

end Verif
