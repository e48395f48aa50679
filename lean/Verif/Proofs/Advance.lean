import Verif.Proofs.Firm
import Verif.Proofs.SafetyTransition

/-! # Epoch processing succeeds -/

namespace Verif

open Spec Props

variable {T : Err → Prop} {E : Env} {f : Fork} {s : State}

theorem current_epoch_firm : Firm T (get_current_epoch E s) := by
  unfold get_current_epoch compute_epoch_at_slot; firm []

theorem previous_epoch_firm : Firm T (get_previous_epoch E s) := by
  unfold get_previous_epoch; firm [current_epoch_firm]

theorem has_flag_firm {b : UInt8} {i : Nat} : Firm T (has_flag b i) := by
  unfold has_flag flagBit; firm []

theorem delay_firm : Firm T (get_finality_delay E s) := by
  unfold get_finality_delay; firm [previous_epoch_firm]

theorem leak_firm : Firm T (is_in_inactivity_leak E s) := by
  unfold is_in_inactivity_leak; firm [delay_firm]

theorem eligible_firm : Firm T (get_eligible_validator_indices E s) := by
  unfold get_eligible_validator_indices; firm [previous_epoch_firm]

theorem participating_firm {j e : Nat}
    (he : get_previous_epoch E s = .ok e ∨ get_current_epoch E s = .ok e) :
    Firm T (get_unslashed_participating_indices E s j e) := by
  unfold get_unslashed_participating_indices
  refine Firm_bind previous_epoch_firm fun p hp => Firm_bind current_epoch_firm fun c hc => ?_
  refine Firm_bind (Firm_of_ok (a := ()) ?_) fun _ _ => ?_
  · rw [rejectIf_eq_ok]
    rcases he with he | he
    · rw [hp] at he; cases he; simp
    · rw [hc] at he; cases he; simp
  · firm [has_flag_firm]

theorem total_balance_firm {l : List Nat} (hl : ∀ i ∈ l, i < s.validators.length)
    (hn : l.Nodup) (hT : effectiveSum s < 2 ^ 64) : Firm T (get_total_balance E s l) := by
  refine Firm_of_ok (get_total_balance_eq_ok.2 ⟨hl, ?_, rfl⟩)
  have h1 : totalEffective s l = effSum s l := by
    unfold totalEffective effSum
    congr 1
    refine List.map_congr_left fun i _ => ?_
    unfold effectiveBalance
    rw [List.getD_eq_getElem?_getD, List.getElem?_map]
    cases s.validators[i]? <;> rfl
  have h2 := effSum_le (s := s) hn
  have hb : U64_BOUND = 2 ^ 64 := rfl
  omega

theorem total_active_firm (hT : effectiveSum s < 2 ^ 64) : Firm T (get_total_active_balance E s) := by
  unfold get_total_active_balance
  refine Firm_bind current_epoch_firm fun e _ =>
    total_balance_firm (fun i hi => active_lt (mem_iterate.1 hi)) (nodup_iterate ?_) hT
  rw [activeIndices_eq]; exact List.nodup_range.filter _

/-! ## Justification -/

theorem block_root_at_firm {k : Nat} (h1 : k < s.slot)
    (h2 : s.slot ≤ k + E.slots_per_historical_root) : Firm T (get_block_root_at_slot E s k) := by
  unfold get_block_root_at_slot
  rw [if_neg (by omega)]
  refine Firm_bind (by firm []) fun bad hb => ?_
  simp only [run] at hb
  obtain ⟨_, ⟨rfl, -⟩, rfl⟩ := hb
  rw [if_neg (by simp; omega)]
  firm []

theorem participating_list {j e : Nat} (hj : j < 8) {l : List Nat}
    (h : get_unslashed_participating_indices E s j e = .ok l) :
    l.Nodup ∧ ∀ i ∈ l, i < s.validators.length := by
  obtain ⟨h1, h2⟩ := participating_eq_ok hj h
  refine ⟨h1, fun i hi => ?_⟩
  obtain ⟨v, hv, -⟩ := (h2 i).1 hi
  exact (List.getElem?_eq_some_iff.1 hv).1

theorem altair_balances_firm (hf : f ≠ .Phase0) (hT : effectiveSum s < 2 ^ 64) :
    Firm T (justification_balances E f s) := by
  have key : Firm T (do
      let current_epoch ← get_current_epoch E s
      let previous_epoch ← get_previous_epoch E s
      let previous_indices ←
        get_unslashed_participating_indices E s TIMELY_TARGET_FLAG_INDEX previous_epoch
      let current_indices ←
        get_unslashed_participating_indices E s TIMELY_TARGET_FLAG_INDEX current_epoch
      let total ← get_total_active_balance E s
      let previous ← get_total_balance E s previous_indices
      let current ← get_total_balance E s current_indices
      return (total, previous, current)) := by
    refine Firm_bind current_epoch_firm fun c hc => Firm_bind previous_epoch_firm fun p hp => ?_
    refine Firm_bind (participating_firm (.inl hp)) fun l hl => ?_
    refine Firm_bind (participating_firm (.inr hc)) fun m hm => ?_
    have h1 := participating_list (by decide) hl
    have h2 := participating_list (by decide) hm
    refine Firm_bind (total_active_firm hT) fun _ _ => ?_
    refine Firm_bind (total_balance_firm h1.2 h1.1 hT) fun _ _ => ?_
    exact Firm_bind (total_balance_firm h2.2 h2.1 hT) fun _ _ => Firm_pure
  unfold justification_balances
  cases f <;> first | exact absurd rfl hf | exact key

theorem justify_firm {epoch bit a b : Nat}
    (h1 : epoch * E.slots_per_epoch < s.slot)
    (h2 : s.slot ≤ epoch * E.slots_per_epoch + E.slots_per_historical_root) :
    FirmM T (justify_epoch E epoch bit a b) s := by
  unfold justify_epoch
  firm []
  unfold get_block_root compute_start_slot_at_epoch
  refine Firm_bind (by firm []) fun k hk => ?_
  rw [mul_eq_ok] at hk
  obtain ⟨rfl, -⟩ := hk
  exact block_root_at_firm h1 h2

theorem justification_firm (hb : Firm T (justification_balances E f s))
    (h1 : s.slot % E.slots_per_epoch ≠ 0)
    (h2 : 2 * E.slots_per_epoch ≤ E.slots_per_historical_root) :
    FirmM T (process_justification_and_finalization E f) s := by
  unfold process_justification_and_finalization
  refine FirmM_get_bind (FirmM_lift_bind current_epoch_firm fun c hc => ?_)
  obtain ⟨rfl, hS⟩ := current_epoch_eq_ok.1 hc
  split
  · exact FirmM_pure
  rename_i hep
  unfold GENESIS_EPOCH at hep
  refine FirmM_lift_bind hb fun b _ => ?_
  unfold weigh_justification_and_finalization
  refine FirmM_get_bind (FirmM_lift_bind previous_epoch_firm fun p hp => ?_)
  obtain ⟨rfl, -⟩ := previous_epoch_eq_ok.1 hp
  refine FirmM_lift_bind current_epoch_firm fun c hc' => ?_
  obtain ⟨rfl, -⟩ := current_epoch_eq_ok.1 hc'
  refine FirmM_upd_bind ?_
  have d1 := Nat.div_add_mod s.slot E.slots_per_epoch
  have d2 := Nat.mod_lt s.slot (show E.slots_per_epoch > 0 by omega)
  have d3 : (s.slot / E.slots_per_epoch - 1) * E.slots_per_epoch =
      s.slot / E.slots_per_epoch * E.slots_per_epoch - E.slots_per_epoch := Nat.sub_one_mul ..
  have d4 : E.slots_per_epoch * (s.slot / E.slots_per_epoch) =
    s.slot / E.slots_per_epoch * E.slots_per_epoch := Nat.mul_comm ..
  have d5 : E.slots_per_epoch ≤ s.slot / E.slots_per_epoch * E.slots_per_epoch :=
    Nat.le_mul_of_pos_left _ (by unfold epochOf at hep; omega)
  refine FirmM_bind (justify_firm ?_ ?_) fun _ t ht => ?_
  · unfold epochOf; simp only; omega
  · unfold epochOf; simp only; omega
  have hts : t.slot = s.slot := by
    unfold justify_epoch at ht
    simp only [run] at ht
    obtain ⟨_, -, _, -, ⟨-, _, -, rfl⟩ | ⟨-, -, rfl⟩⟩ := ht <;> rfl
  refine FirmM_bind (justify_firm ?_ ?_) fun _ u hu => ?_
  · unfold epochOf; omega
  · unfold epochOf; omega
  unfold process_finalizations finalizes
  firm []

/-! ## Scores and rewards -/

theorem inactivity_updates_firm : FirmM T (process_inactivity_updates E) s := by
  unfold process_inactivity_updates
  refine FirmM_get_bind (FirmM_lift_bind current_epoch_firm fun c hc => ?_)
  split
  · exact FirmM_pure
  refine FirmM_lift_bind eligible_firm fun l _ => ?_
  refine FirmM_lift_bind previous_epoch_firm fun p hp => ?_
  refine FirmM_lift_bind (participating_firm (.inl hp)) fun q _ => ?_
  unfold next_inactivity_score
  firm [leak_firm]

theorem reward_firm {d : Deltas} {i x : Nat} : Firm T (d.reward i x) := by
  unfold Deltas.reward addAt; firm []

theorem penalize_firm {d : Deltas} {i x : Nat} : Firm T (d.penalize i x) := by
  unfold Deltas.penalize addAt; firm []

theorem base_reward_firm (hT : effectiveSum s < 2 ^ 64) {i : Nat} :
    Firm T (Altair.get_base_reward E s i) := by
  unfold Altair.get_base_reward get_base_reward_per_increment
  firm [total_active_firm hT]

theorem flag_deltas_firm (hT : effectiveSum s < 2 ^ 64) {j : Nat} (hj : j < 8) :
    Firm T (get_flag_index_deltas E s j) := by
  unfold get_flag_index_deltas
  refine Firm_bind previous_epoch_firm fun p hp => ?_
  refine Firm_bind (participating_firm (.inl hp)) fun l hl => ?_
  have h1 := participating_list hj hl
  unfold flag_delta
  firm [total_balance_firm h1.2 h1.1 hT, total_active_firm hT, leak_firm, eligible_firm,
    base_reward_firm hT, reward_firm, penalize_firm]

theorem inactivity_deltas_firm : Firm T (get_inactivity_penalty_deltas E f s) := by
  unfold get_inactivity_penalty_deltas
  refine Firm_bind previous_epoch_firm fun p hp => ?_
  refine Firm_bind (participating_firm (.inl hp)) fun l hl => ?_
  unfold inactivity_delta
  firm [eligible_firm, penalize_firm]

theorem increase_firm {i d : Nat} : FirmM T (increase_balance i d) s := by
  unfold increase_balance; firm []

theorem decrease_firm {i d : Nat} : FirmM T (decrease_balance i d) s := by
  unfold decrease_balance; firm []

theorem apply_deltas_firm {d : Deltas} : FirmM T (apply_deltas d) s := by
  unfold apply_deltas; firm [increase_firm, decrease_firm]

theorem altair_rewards_firm (hf : f ≠ .Phase0) (hT : effectiveSum s < 2 ^ 64) :
    FirmM T (process_rewards_and_penalties E f) s := by
  unfold process_rewards_and_penalties
  refine FirmM_get_bind (FirmM_lift_bind current_epoch_firm fun c hc => ?_)
  split
  · exact FirmM_pure
  have key : FirmM T (do
      let source ← get_flag_index_deltas E s 0
      let target ← get_flag_index_deltas E s 1
      let head ← get_flag_index_deltas E s 2
      let inactivity ← get_inactivity_penalty_deltas E f s
      forEach [source, target, head, inactivity] apply_deltas) s := by
    firm [flag_deltas_firm hT (by decide : 0 < 8), flag_deltas_firm hT (by decide : 1 < 8),
      flag_deltas_firm hT (by decide : 2 < 8), inactivity_deltas_firm, apply_deltas_firm]
  cases f <;> first | exact absurd rfl hf | exact key

/-! ## Registry -/

/-- Whoever leaves does so by epoch `B`. -/
def ExitsBy (B : Nat) (s : State) : Prop :=
  ∀ v ∈ s.validators, v.exit_epoch = FAR_FUTURE_EPOCH ∨ v.exit_epoch ≤ B

theorem exit_queue_epoch_le {B e : Nat} (h : exit_queue_epoch E s = .ok e) (hB : ExitsBy B s)
    (hl : epochOf E s.slot + 1 + E.max_seed_lookahead ≤ B) : e ≤ B + 1 := by
  simp only [exit_queue_epoch, run, current_epoch_eq_ok, activation_exit_epoch_eq_ok] at h
  obtain ⟨_, ⟨rfl, _⟩, x, ⟨rfl, _⟩, n, hn, h⟩ := h
  have hm : ∀ l : List Nat, (∀ x ∈ l, x ≤ B) → ∀ a ≤ B, l.foldl max a ≤ B := by
    intro l
    induction l with
    | nil => intro _ a ha; exact ha
    | cons x l ih =>
      intro hx a ha
      exact ih (fun y hy => hx y (by simp [hy])) _ (by have := hx x (by simp); omega)
  have := hm (List.map (fun x => x.exit_epoch)
    (List.filter (fun v => decide (v.exit_epoch ≠ FAR_FUTURE_EPOCH)) s.validators) ++
      [epochOf E s.slot + 1 + E.max_seed_lookahead]) (by
        intro x hx
        rcases List.mem_append.1 hx with hx | hx
        · obtain ⟨v, hv', rfl⟩ := List.mem_map.1 hx
          obtain ⟨hv1, hv2⟩ := List.mem_filter.1 hv'
          rcases hB v hv1 with h | h
          · simp [h] at hv2
          · exact h
        · rw [List.mem_singleton] at hx; omega) 0 (by omega)
  rcases h with ⟨_, rfl, _⟩ | ⟨_, rfl⟩ <;> omega

theorem churn_limit_firm : Firm T (get_validator_churn_limit E s) := by
  unfold get_validator_churn_limit; firm [current_epoch_firm]

theorem exit_queue_firm : Firm T (exit_queue_epoch E s) := by
  unfold exit_queue_epoch compute_activation_exit_epoch
  firm [current_epoch_firm, churn_limit_firm]

theorem initiate_firm {B i : Nat} (hB : ExitsBy B s)
    (hl : epochOf E s.slot + 1 + E.max_seed_lookahead ≤ B)
    (hw : B + 1 + E.min_validator_withdrawability_delay < U64_BOUND) :
    FirmM T (Verif.initiate_validator_exit E i) s := by
  unfold Verif.initiate_validator_exit
  refine FirmM_get_bind (FirmM_lift_bind Firm_idx fun v hv => ?_)
  split
  · exact FirmM_pure
  refine FirmM_lift_bind exit_queue_firm fun e he => ?_
  have hle := exit_queue_epoch_le he hB hl
  refine FirmM_bind FirmM_updValidator fun _ t _ => ?_
  refine FirmM_bind (FirmM_lift (Firm_of_ok (checkedAdd_eq_ok.2 ⟨rfl, by omega⟩))) fun _ _ _ => ?_
  exact FirmM_updValidator

theorem ExitsBy.mono {B B' : Nat} (h : ExitsBy B s) (hB : B ≤ B') : ExitsBy B' s := by
  intro v hv
  rcases h v hv with h | h
  · exact .inl h
  · exact .inr (by omega)

theorem ExitsBy.set {B i : Nat} {w : Validator} (h : ExitsBy B s)
    (hw : w.exit_epoch = FAR_FUTURE_EPOCH ∨ w.exit_epoch ≤ B) :
    ExitsBy B { s with validators := s.validators.set i w } := by
  intro v hv
  rcases mem_set_cases hv with hv | rfl
  · exact h v hv
  · exact hw

theorem initiate_exits {B i : Nat} {s' : State} (hB : ExitsBy B s)
    (hl : epochOf E s.slot + 1 + E.max_seed_lookahead ≤ B)
    (h : Verif.initiate_validator_exit E i s = .ok () s') :
    ExitsBy (B + 1) s' ∧ s'.slot = s.slot := by
  simp only [Verif.initiate_validator_exit, run] at h
  obtain ⟨v, hv, ⟨-, -, rfl⟩ | ⟨-, e, he, u, hu, x, -, w, hw, rfl⟩⟩ := h
  · exact ⟨hB.mono (by omega), rfl⟩
  have hle := exit_queue_epoch_le he hB hl
  have h1 := (hB.mono (Nat.le_add_right B 1)).set (i := i) (w := { u with exit_epoch := e })
    (.inr hle)
  exact ⟨h1.set (h1 w (List.mem_of_getElem? hw)), rfl⟩

theorem registry_firm (hf : f ≠ .Electra) {B : Nat} (hB : ExitsBy B s)
    (hl : epochOf E s.slot + 1 + E.max_seed_lookahead ≤ B)
    (hw : B + s.validators.length + 1 + E.min_validator_withdrawability_delay < U64_BOUND) :
    FirmM T (process_registry_updates E f) s := by
  have hd : ∀ i, Fork.initiate_validator_exit E f i = Verif.initiate_validator_exit E i := by
    intro i; cases f <;> first | rfl | exact absurd rfl hf
  unfold process_registry_updates
  refine FirmM_get_bind (FirmM_lift_bind current_epoch_firm fun c hc => ?_)
  refine FirmM_bind (FirmM_forEach' (fun rest t => t.slot = s.slot ∧
    rest.length ≤ s.validators.length ∧ ExitsBy (B + s.validators.length - rest.length) t)
    ?_ ⟨rfl, by simp, hB.mono (by simp)⟩) fun _ t _ => ?_
  · rintro i rest t ⟨g1, g2, g3⟩
    rw [List.length_cons] at g2 g3
    have hmark : ∀ u, mark_eligible E f c i t = .ok () u → u.slot = s.slot ∧
        ExitsBy (B + s.validators.length - (rest.length + 1)) u := by
      intro u hu
      simp only [mark_eligible, run] at hu
      obtain ⟨v, hv, ⟨-, _, -, w, hw, rfl⟩ | ⟨-, -, rfl⟩⟩ := hu
      · exact ⟨g1, g3.set (g3 w (List.mem_of_getElem? hw))⟩
      · exact ⟨g1, g3⟩
    constructor
    · refine FirmM_bind ?_ fun _ u hu => ?_
      · unfold mark_eligible; firm []
      · obtain ⟨k1, k2⟩ := hmark u hu
        unfold eject_if_low
        rw [hd]
        firm []
        exact initiate_firm k2 (by rw [k1]; omega) (by omega)
    · intro u hu
      rw [M_bind_unit_eq_ok] at hu
      obtain ⟨t1, h1, h2⟩ := hu
      obtain ⟨k1, k2⟩ := hmark t1 h1
      simp only [eject_if_low, run, hd] at h2
      obtain ⟨v, -, ⟨-, h2⟩ | ⟨-, -, rfl⟩⟩ := h2
      · obtain ⟨m1, m2⟩ := initiate_exits k2 (by rw [k1]; omega) h2
        exact ⟨m2.trans k1, by omega, m1.mono (by omega)⟩
      · exact ⟨k1, by omega, k2.mono (by omega)⟩
  · unfold compute_activation_exit_epoch to_activate activation_limit
    firm [churn_limit_firm]

/-! ## The rest -/

theorem slashings_firm (hT : effectiveSum s < 2 ^ 64) : FirmM T (process_slashings E f) s := by
  unfold process_slashings apply_slashing_penalty slashing_penalty sumU64
  firm [current_epoch_firm, total_active_firm hT, decrease_firm]

theorem eth1_reset_firm : FirmM T (process_eth1_data_reset E) s := by
  unfold process_eth1_data_reset; firm [current_epoch_firm]

theorem effective_firm : FirmM T (process_effective_balance_updates E f) s := by
  unfold process_effective_balance_updates updated_effective_balance; firm []

theorem slashings_reset_firm : FirmM T (process_slashings_reset E) s := by
  unfold process_slashings_reset; firm [current_epoch_firm]

theorem randao_reset_firm : FirmM T (process_randao_mixes_reset E) s := by
  unfold process_randao_mixes_reset get_randao_mix; firm [current_epoch_firm]

theorem historical_firm : FirmM T (process_historical_update E f) s := by
  unfold process_historical_update; firm [current_epoch_firm]

theorem shuffled_index_firm {i n : Nat} {seed : Bytes32} (h : i < n) :
    Firm T (compute_shuffled_index E i n seed) := by
  unfold compute_shuffled_index
  refine Firm_bind (Firm_of_ok (a := ()) ?_) fun _ _ => ?_
  · rw [rejectIf_eq_ok]; simpa using h
  · unfold shuffle_round; firm []

theorem seed_firm {e : Nat} {d : DomainType} : Firm T (get_seed E s e d) := by
  unfold get_seed get_randao_mix; firm []

/-- The two ways the draw of a sync committee can fail. -/
def DrawFails (e : Err) : Prop := e = .diverged ∨ e = .bls

theorem sync_loop_firm {active : List Nat} {seed : Bytes32} {fuel i : Nat} {acc : List Nat} :
    Firm DrawFails (sync_committee_loop E s active seed fuel i acc) := by
  induction fuel generalizing i acc with
  | zero =>
    unfold sync_committee_loop
    split
    · intro e he; cases he; exact .inr (.inl rfl)
    · exact Firm_ok
  | succ n ih =>
    unfold sync_committee_loop
    split
    · refine Firm_bind (by firm []) fun k hk => ?_
      rw [mod_eq_ok] at hk
      obtain ⟨rfl, h0⟩ := hk
      firm [ih, shuffled_index_firm (Nat.mod_lt i (by omega))]
    · exact Firm_ok

theorem next_sync_committee_firm : Firm DrawFails (get_next_sync_committee E s) := by
  unfold get_next_sync_committee get_next_sync_committee_indices
  refine Firm_bind (by firm [current_epoch_firm, seed_firm, sync_loop_firm]) fun l _ => ?_
  refine Firm_bind (by firm []) fun ks _ => ?_
  refine Firm_bind ?_ fun _ _ => ?_
  · unfold rejectIf
    split
    · intro e he; cases he; exact .inr (.inr rfl)
    · exact Firm_ok
  · split
    · exact Firm_ok
    · intro e he; cases he; exact .inr (.inr rfl)

theorem sync_updates_firm :
    FirmM (fun e => (epochOf E s.slot + 1) % E.epochs_per_sync_committee_period = 0 ∧ DrawFails e)
      (process_sync_committee_updates E) s := by
  unfold process_sync_committee_updates
  refine FirmM_get_bind (FirmM_lift_bind current_epoch_firm fun c hc => ?_)
  obtain ⟨rfl, -⟩ := current_epoch_eq_ok.1 hc
  refine FirmM_lift_bind (by firm []) fun n hn => ?_
  rw [add_eq_ok] at hn
  obtain ⟨rfl, -⟩ := hn
  refine FirmM_lift_bind (by firm []) fun r hr => ?_
  rw [mod_eq_ok] at hr
  obtain ⟨rfl, -⟩ := hr
  split
  · rename_i h0
    refine FirmM_lift_bind (fun e he => ?_) fun _ _ => FirmM_upd
    rcases next_sync_committee_firm e he with h | h
    · exact .inl h
    · exact .inr ⟨h0, h⟩
  · exact FirmM_pure

end Verif
