import Verif.Spec.Pace
import Verif.Proofs.Turn
import Verif.Proofs.Leaving
import Mathlib.Data.List.Induction
import Mathlib.Order.Basic

/-! # The set of active validators changes slowly -/

namespace Verif

open Spec Props

section Exits

variable {E : Env} {f : Fork}

theorem pace_mono {n m : Nat} (h : n ≤ m) : pace E n ≤ pace E m := by
  unfold pace
  have := Nat.div_le_div_right (c := E.churn_limit_quotient) h
  omega

theorem churnLimit_le_pace {s : State} : churnLimit E s ≤ pace E s.validators.length := by
  unfold churnLimit pace
  have h : (activeIndices s (epochOf E s.slot)).length ≤ s.validators.length := by
    unfold activeIndices
    exact (List.length_filter_le _ _).trans (by simp)
  have := Nat.div_le_div_right (c := E.churn_limit_quotient) h
  omega

/-- Before electra no epoch gets more exits than may leave in it. -/
def Paced (E : Env) (f : Fork) (s s' : State) : Prop :=
  f ≠ .Electra → s.validators.length ≤ s'.validators.length ∧
    ∀ x, x ≠ FAR_FUTURE_EPOCH →
      exitsIn s' x ≤ max (exitsIn s x) (pace E s'.validators.length)

theorem pacedPre : Preorder' (Paced E f) :=
  ⟨fun _ _ => ⟨Nat.le_refl _, fun _ _ => Nat.le_max_left _ _⟩, fun h h' hf => by
    obtain ⟨h1, h2⟩ := h hf
    obtain ⟨h3, h4⟩ := h' hf
    refine ⟨h1.trans h3, fun x hx => ?_⟩
    have a := h2 x hx
    have b := h4 x hx
    have c := pace_mono (E := E) h3
    omega⟩

theorem paced_electra {α : Type} {m : M α} : Pres (Paced E .Electra) m := by
  intro s
  unfold wp
  split <;> exact fun h => absurd rfl h

theorem paced_same {s s' : State} (h : s'.validators.map (·.exit_epoch) =
    s.validators.map (·.exit_epoch)) : Paced E f s s' := by
  intro _
  have h1 := congrArg List.length h
  simp only [List.length_map] at h1
  refine ⟨by omega, fun x _ => ?_⟩
  have : exitsIn s' x = exitsIn s x := by
    have e : ∀ t : State, exitsIn t x = (t.validators.map (·.exit_epoch)).countP (· == x) := by
      intro t; unfold exitsIn; rw [List.countP_map]; rfl
    rw [e, e, h]
  omega

theorem paced_mod {α : Type} {W : List Field} {m : M α} (h : Modifies W m)
    (hW : Field.validators ∉ W) : Pres (Paced E f) m :=
  Pres.mono h fun s s' h => paced_same (by
    rw [show s'.validators = s.validators from h .validators hW])

theorem paced_upd {g : State → State} (h : ∀ s, (g s).validators = s.validators) :
    Pres (Paced E f) (upd g) := Pres.upd fun s => paced_same (by rw [h s])

theorem paced_updValidator {i : Nat} {g : Validator → Validator}
    (h : ∀ v, (g v).exit_epoch = v.exit_epoch) : Pres (Paced E f) (updValidator i g) := by
  apply Pres.updValidator pacedPre
  intro s v hv
  refine paced_same ?_
  obtain ⟨hi, hv'⟩ := List.getElem?_eq_some_iff.1 hv
  show (s.validators.set i (g v)).map _ = _
  rw [List.map_set, h v, ← hv']
  exact List.ext_getElem (by simp) fun n h1 h2 => by
    rw [List.getElem_set]
    split
    · rename_i e; subst e; simp
    · rfl

theorem phase0_exit_paced (hE : SaneConfig E) {i : Nat} :
    Pres (Paced E f) (initiate_validator_exit E i) := by
  intro s
  unfold initiate_validator_exit
  rw [wp_bind, wp_get, wp_bind, wp_liftM]
  refine ⟨fun v hv => ?_, fun _ _ => pacedPre.refl s⟩
  have hv : s.validators[i]? = some v := idx_eq_ok.1 hv
  rw [wp_ite]
  refine ⟨fun _ => pacedPre.refl s, fun hx => ?_⟩
  replace hx : v.exit_epoch = FAR_FUTURE_EPOCH := by simpa using hx
  rw [wp_bind, wp_liftM]
  refine ⟨fun e he => ?_, fun _ _ => pacedPre.refl s⟩
  obtain ⟨-, -, h3⟩ := exit_queue_epoch_spec he
  rw [wp_bind, wp_updValidator]
  refine ⟨fun v' hv' => ?_, fun _ => pacedPre.refl s⟩
  rw [hv] at hv'; cases hv'
  have hset : Paced E f s { s with validators := s.validators.set i { v with exit_epoch := e } } := by
    intro _
    refine ⟨by simp, fun x hx' => ?_⟩
    obtain ⟨hi, hv'⟩ := List.getElem?_eq_some_iff.1 hv
    have hc : exitsIn { s with validators := s.validators.set i { v with exit_epoch := e } } x =
        exitsIn s x + if e = x then 1 else 0 := by
      unfold exitsIn
      show (s.validators.set i _).countP _ = _
      rw [List.countP_set hi, hv', hx]
      simp [Ne.symm hx']
    have hp := churnLimit_le_pace (E := E) (s := s)
    have hl : ({ s with validators := s.validators.set i { v with exit_epoch := e } } :
        State).validators.length = s.validators.length := by simp
    rw [hc, hl]
    split
    · rename_i h; subst h
      have hm : 1 ≤ pace E s.validators.length := by
        have := hE.min_per_epoch_churn_limit
        unfold pace; omega
      rcases h3 hx' with h3 | h3 <;> omega
    · omega
  have ht : Pres (Paced E f) (do
      let w ← U64.checkedAdd e E.min_validator_withdrawability_delay
      updValidator i fun v => { v with withdrawable_epoch := w } : M Unit) := by
    walk pacedPre [paced_updValidator]
  exact wp_mono (ht _) (fun _ t h => pacedPre.trans hset h) fun _ t h => pacedPre.trans hset h

theorem exit_paced (hE : SaneConfig E) {i : Nat} :
    Pres (Paced E f) (f.initiate_validator_exit E i) := by
  cases f
  case Electra => exact paced_electra
  all_goals exact phase0_exit_paced hE

theorem slash_paced (hE : SaneConfig E) {i : Nat} {w : Option Nat} :
    Pres (Paced E f) (slash_validator E f i w) := by
  unfold slash_validator
  walk pacedPre [exit_paced hE, paced_updValidator, paced_mod increase_mod (by decide),
    paced_mod decrease_mod (by decide), paced_upd]

theorem slash_all_paced (hE : SaneConfig E) {e : Nat} {l : List Nat} {b : Bool} :
    Pres (Paced E f) (slash_all E f e l b) := by
  induction l generalizing b with
  | nil => unfold slash_all; walk pacedPre
  | cons x l ih => unfold slash_all; walk pacedPre [slash_paced hE, ih]

theorem paced_append {s s' : State} {v : Validator} (h : s'.validators = s.validators ++ [v])
    (hv : v.exit_epoch = FAR_FUTURE_EPOCH) : Paced E f s s' := by
  intro _
  refine ⟨by rw [h]; simp, fun x hx => ?_⟩
  have : exitsIn s' x = exitsIn s x := by
    unfold exitsIn
    rw [h, List.countP_append, List.countP_singleton]
    simp [hv, Ne.symm hx]
  omega

theorem new_validator_stays {k : PublicKey} {w : Bytes32} {n : Nat} {v : Validator}
    (h : get_validator_from_deposit E f k w n = .ok v) : v.exit_epoch = FAR_FUTURE_EPOCH := by
  unfold get_validator_from_deposit at h
  cases f <;> simp only [run] at h <;> obtain ⟨_, _, rfl⟩ := h <;> rfl

theorem add_validator_paced {k : PublicKey} {w : Bytes32} {n : Nat} :
    Pres (Paced E f) (add_validator_to_registry E f k w n) := by
  intro s
  unfold add_validator_to_registry
  rw [wp_bind, wp_liftM]
  refine ⟨fun v hv => ?_, fun _ _ => pacedPre.refl s⟩
  have e := new_validator_stays hv
  cases f <;> exact paced_append (v := v) rfl e

theorem apply_deposit_paced {k : PublicKey} {w : Bytes32} {n : Nat} {sig : Signature} :
    Pres (Paced E f) (apply_deposit E f k w n sig) := by
  have h1 : Pres (Paced E f) (Phase0.apply_deposit E f k w n sig) := by
    unfold Phase0.apply_deposit
    walk pacedPre [paced_mod increase_mod (by decide), add_validator_paced]
  cases f
  case Electra => exact paced_electra
  all_goals exact h1

theorem deposit_paced {d : Deposit} : Pres (Paced E f) (process_deposit E f d) := by
  unfold process_deposit
  walk pacedPre [apply_deposit_paced, paced_upd]

theorem proposer_slashing_paced (hE : SaneConfig E) {op : ProposerSlashing} :
    Pres (Paced E f) (process_proposer_slashing E f op) := by
  unfold process_proposer_slashing; walk pacedPre [slash_paced hE]

theorem attester_slashing_paced (hE : SaneConfig E) {op : AttesterSlashing} :
    Pres (Paced E f) (process_attester_slashing E f op) := by
  unfold process_attester_slashing; walk pacedPre [slash_all_paced hE]

theorem voluntary_exit_paced (hE : SaneConfig E) {op : SignedVoluntaryExit} :
    Pres (Paced E f) (process_voluntary_exit E f op) := by
  unfold process_voluntary_exit; walk pacedPre [exit_paced hE]

theorem bls_change_paced {op : SignedBlsToExecutionChange} :
    Pres (Paced E f) (process_bls_to_execution_change E op) := by
  unfold process_bls_to_execution_change
  walk pacedPre [paced_updValidator]

theorem operations_paced (hE : SaneConfig E) {b : BeaconBlockBody} :
    Pres (Paced E f) (process_operations E f b) := by
  cases f
  case Electra => exact paced_electra
  all_goals
    unfold process_operations
    walk pacedPre [proposer_slashing_paced hE, attester_slashing_paced hE,
      paced_mod attestation_mod (by decide), deposit_paced, voluntary_exit_paced hE,
      bls_change_paced]

theorem block_paced (hE : SaneConfig E) {b : BeaconBlock} :
    Pres (Paced E f) (process_block E f b) := by
  unfold process_block
  walk pacedPre [paced_mod header_mod (by decide), paced_mod block_payload_mod (by decide),
    paced_mod randao_mod (by decide), paced_mod eth1_mod (by decide), operations_paced hE,
    paced_mod sync_aggregate_mod (by decide)]

theorem registry_paced (hE : SaneConfig E) : Pres (Paced E f) (process_registry_updates E f) := by
  unfold process_registry_updates mark_eligible eject_if_low
  walk pacedPre [exit_paced hE, paced_updValidator]

theorem effective_paced : Pres (Paced E f) (process_effective_balance_updates E f) := by
  unfold process_effective_balance_updates
  walk pacedPre [paced_updValidator]

theorem epoch_paced (hE : SaneConfig E) : Pres (Paced E f) (process_epoch E f) := by
  cases f
  case Electra => exact paced_electra
  all_goals
    unfold process_epoch process_epoch_first
    walk pacedPre [paced_mod justification_mod (by decide), paced_mod inactivity_mod (by decide),
      paced_mod rewards_mod (by decide), registry_paced hE, paced_mod slashings_mod (by decide),
      paced_mod eth1_reset_mod (by decide), effective_paced,
      paced_mod slashings_reset_mod (by decide), paced_mod randao_reset_mod (by decide),
      paced_mod historical_mod (by decide), paced_mod record_updates_mod (by decide),
      paced_mod flag_updates_mod (by decide), paced_mod sync_committees_mod (by decide)]

theorem slots_paced (hE : SaneConfig E) {t : Nat} : Pres (Paced E f) (process_slots E f t) := by
  have h1 : Pres (Paced E f) (slot_step E f) := by
    unfold slot_step process_epoch_if_due
    walk pacedPre [paced_mod slot_mod (by decide), epoch_paced hE, paced_upd]
  have h2 : ∀ n, Pres (Paced E f) (slots_loop E f t n) := by
    intro n
    induction n with
    | zero => unfold slots_loop; walk pacedPre
    | succ n ih => unfold slots_loop; walk pacedPre [h1, ih]
  unfold process_slots; walk pacedPre [h2]

theorem block_in_slot_paced (hE : SaneConfig E) {b : SignedBeaconBlock} {v : Validation} :
    Pres (Paced E f) (state_transition_block_in_slot E f b v) := by
  unfold state_transition_block_in_slot
  walk pacedPre [paced_mod signature_if_mod (by decide), block_paced hE]

theorem entry_paced (hE : SaneConfig E) {m : M Unit} (h : EntryPoint E f m) :
    Pres (Paced E f) m := by
  by_cases hf : f = .Electra
  · subst hf; exact paced_electra
  cases h with
  | process_slots => exact slots_paced hE
  | state_transition =>
    unfold state_transition; walk pacedPre [slots_paced hE, block_in_slot_paced hE]
  | state_transition_block_in_slot => exact block_in_slot_paced hE
  | process_slot => exact paced_mod slot_mod (by decide)
  | process_epoch => exact epoch_paced hE
  | process_block => exact block_paced hE
  | process_block_header => exact paced_mod header_mod (by decide)
  | process_randao => exact paced_mod randao_mod (by decide)
  | process_eth1_data => exact paced_mod eth1_mod (by decide)
  | process_operations => exact operations_paced hE
  | process_execution_payload => exact paced_mod payload_mod (by decide)
  | process_withdrawals => exact paced_mod withdrawals_mod (by decide)
  | process_sync_aggregate => exact paced_mod sync_aggregate_mod (by decide)
  | process_proposer_slashing => exact proposer_slashing_paced hE
  | process_attester_slashing => exact attester_slashing_paced hE
  | process_attestation => exact paced_mod attestation_mod (by decide)
  | process_deposit => exact deposit_paced
  | process_voluntary_exit => exact voluntary_exit_paced hE
  | process_bls_to_execution_change => exact bls_change_paced
  | process_execution_layer_withdrawal_request _ h => exact absurd h hf
  | process_deposit_receipt _ h => exact absurd h hf
  | process_consolidation _ h => exact absurd h hf
  | initiate_validator_exit => exact exit_paced hE
  | slash_validator => exact slash_paced hE
  | increase_balance => exact paced_mod increase_mod (by decide)
  | decrease_balance => exact paced_mod decrease_mod (by decide)

theorem genesis_deposits_paced {l : List DepositData} {ds : List Deposit} :
    Pres (Paced E f) (genesis_deposits E f l ds) := by
  induction ds generalizing l with
  | nil => unfold genesis_deposits; walk pacedPre
  | cons d ds ih => unfold genesis_deposits; walk pacedPre [deposit_paced, ih, paced_upd]

theorem genesis_paced {h : Bytes32} {t : Nat} {ds : List Deposit}
    {p : Option ExecutionPayloadHeader} {s : State} (hf : f ≠ .Electra)
    (hs : initialize_beacon_state_from_eth1 E f h t ds p = .ok s) (x : Nat)
    (hx : x ≠ FAR_FUTURE_EPOCH) : exitsIn s x ≤ pace E s.validators.length := by
  have hg : Pres (Paced E f) (genesis_fill E f ds) := by
    unfold genesis_fill genesis_pending_deposits genesis_activate genesis_sync_committees
    walk pacedPre [genesis_deposits_paced, paced_mod increase_mod (by decide), paced_upd,
      (paced_updValidator fun _ => by split <;> rfl)]
  unfold initialize_beacon_state_from_eth1 genesis_candidate at hs
  simp only [run] at hs
  obtain ⟨_, ⟨gt, _, rfl⟩, hs⟩ := hs
  rw [runLocal_eq_ok] at hs
  have := ((hg.ok hs) hf).2 x hx
  exact this.trans (Nat.max_le.2 ⟨Nat.zero_le _, Nat.le_refl _⟩)

theorem before_electra {g : Fork} (ho : g.ord = f.ord + 1) : f ≠ .Electra := by
  rintro rfl
  cases g <;> cases ho

theorem reachable_paced (hE : SaneConfig E) {s : State} (h : Reachable E f s) (hf : f ≠ .Electra)
    (x : Nat) (hx : x ≠ FAR_FUTURE_EPOCH) : exitsIn s x ≤ pace E s.validators.length := by
  induction h with
  | genesis h => exact genesis_paced hf h x hx
  | @call f s m _ hm ih =>
    obtain ⟨h1, h2⟩ := ((entry_paced hE hm).final s) hf
    have h3 := h2 x hx
    have h4 := ih hf
    have h5 := pace_mono (E := E) h1
    omega
  | upgrade _ ho h ih =>
    unfold exitsIn
    rw [upgrade_registry hf h]
    exact ih (before_electra ho)

end Exits

/-! ## Counting -/

section Counting

variable {l : List Validator} {p : Validator → Bool}

theorem count_eq : l.countP p =
    ((List.range l.length).filter fun i => (l[i]?.map p) = some true).length := by
  induction l using List.reverseRecOn with
  | nil => rfl
  | append_singleton l v ih =>
    rw [List.countP_append, ih, List.length_append, List.length_singleton, List.range_succ,
      List.filter_append, List.length_append]
    congr 1
    · congr 1
      refine List.filter_congr fun i hi => ?_
      rw [List.getElem?_append_left (List.mem_range.1 hi)]
    · rw [List.countP_singleton]
      cases h : p v <;> simp [h]

/-- All that count are in the list. -/
theorem count_le {m : List Nat} (h : ∀ (i : Nat) v, l[i]? = some v → p v = true → i ∈ m) :
    l.countP p ≤ m.length := by
  rw [count_eq]
  refine List.Subperm.length_le (List.Nodup.subperm (List.Nodup.filter _ List.nodup_range) ?_)
  intro i hi
  obtain ⟨-, hi⟩ := List.mem_filter.1 hi
  obtain ⟨v, hv, he⟩ := Option.map_eq_some_iff.1 (of_decide_eq_true hi)
  exact h i v hv he

/-- All in the list count. -/
theorem le_count {m : List Nat} (hm : m.Nodup) (h : ∀ i ∈ m, ∃ v, l[i]? = some v ∧ p v = true) :
    m.length ≤ l.countP p := by
  rw [count_eq]
  refine List.Subperm.length_le (List.Nodup.subperm hm ?_)
  intro i hi
  obtain ⟨v, hv, hp⟩ := h i hi
  refine List.mem_filter.2 ⟨List.mem_range.2 (List.getElem?_eq_some_iff.1 hv).1, ?_⟩
  rw [hv, Option.map_some, hp]
  exact decide_eq_true rfl

theorem count_mono {l' : List Validator} {q : Validator → Bool}
    (h : ∀ (i : Nat) w, l'[i]? = some w → q w = true → ∃ v, l[i]? = some v ∧ p v = true) :
    l'.countP q ≤ l.countP p := by
  rw [count_eq (l := l)]
  refine count_le fun i w hw hq => ?_
  obtain ⟨v, hv, hp⟩ := h i w hw hq
  refine List.mem_filter.2 ⟨List.mem_range.2 (List.getElem?_eq_some_iff.1 hv).1, ?_⟩
  rw [hv, Option.map_some, hp]
  exact decide_eq_true rfl

/-- If no value is taken more than `L` times, a range of values is taken at most `L` times each. -/
theorem count_range {g : Validator → Nat} {L a : Nat} (d : Nat)
    (h : ∀ e, a < e → e ≤ a + d → l.countP (fun v => g v == e) ≤ L) :
    l.countP (fun v => decide (a < g v ∧ g v ≤ a + d)) ≤ d * L := by
  induction d with
  | zero =>
    rw [Nat.zero_mul, Nat.le_zero, List.countP_eq_zero]
    intro v _
    simp only [decide_eq_true_eq, Nat.add_zero]
    omega
  | succ d ih =>
    have h1 := ih fun e h1 h2 => h e h1 (by omega)
    have h2 := h (a + (d + 1)) (by omega) (Nat.le_refl _)
    have h3 : l.countP (fun v => decide (a < g v ∧ g v ≤ a + (d + 1))) ≤
        l.countP (fun v => decide (a < g v ∧ g v ≤ a + d)) +
          l.countP (fun v => g v == a + (d + 1)) := by
      generalize l = l
      induction l with
      | nil => simp
      | cons v l ih =>
        simp only [List.countP_cons, decide_eq_true_eq, beq_iff_eq]
        split <;> split <;> split <;> omega
    rw [Nat.add_mul, Nat.one_mul]
    omega

end Counting

/-! ## Joining -/

section Joins

variable {E : Env} {f : Fork} {s t u : State}

theorem slot_joined (hf : f ≠ .Electra) (ho : Orderly E f t) (hj : JoinedSlowly E t)
    (h : process_slots E f (t.slot + 1) t = .ok () u) : JoinedSlowly E u := by
  obtain ⟨-, -, ⟨h1, h2⟩ | ⟨j, A, hS⟩⟩ := slot_turn ho h
  · refine ⟨fun e h0 hF => ?_, fun v hv => ?_⟩
    · unfold joinsIn
      rw [h2]
      exact hj.limit e h0 hF
    · unfold nextFreeEpoch
      rw [h1]
      exact hj.ahead v (by rw [← h2]; exact hv)
  · have back : ∀ (i : Nat) w, u.validators[i]? = some w → ∃ v, t.validators[i]? = some v ∧
        w.activation_epoch = if i ∈ A then nextFreeEpoch E t else v.activation_epoch := by
      intro i w hw
      have hi := (List.getElem?_eq_some_iff.1 hw).1
      rw [hS.length] at hi
      obtain ⟨w', hw', -, h3⟩ := hS.entries i _ (List.getElem?_eq_getElem hi)
      rw [hw] at hw'; cases hw'
      exact ⟨_, List.getElem?_eq_getElem hi, h3⟩
    refine ⟨fun e h0 hF => ?_, fun w hw => ?_⟩
    · by_cases he : e = nextFreeEpoch E t
      · have h1 : joinsIn u e ≤ A.length := by
          refine count_le fun i w hw hq => ?_
          obtain ⟨v, hv, h3⟩ := back i w hw
          rw [beq_iff_eq.1 hq] at h3
          by_contra hA
          rw [if_neg hA] at h3
          rcases hj.ahead v (List.mem_of_getElem? hv) with h4 | h4
          · exact hF (h3.trans h4)
          · omega
        have h2 := hS.activated.limit hf
        have h3 : activationLimit E f j ≤ churnLimit E j := by
          unfold activationLimit
          split <;> omega
        have h4 := churnLimit_le_pace (E := E) (s := j)
        rw [hS.same, ← hS.length] at h4
        omega
      · have h1 : joinsIn u e ≤ joinsIn t e := by
          refine count_mono fun i w hw hq => ?_
          obtain ⟨v, hv, h3⟩ := back i w hw
          rw [beq_iff_eq.1 hq] at h3
          split at h3
          · exact absurd h3 he
          · exact ⟨v, hv, beq_iff_eq.2 h3.symm⟩
        rw [hS.length]
        exact h1.trans (hj.limit e h0 hF)
    · obtain ⟨i, hi⟩ := List.mem_iff_getElem?.1 hw
      obtain ⟨v, hv, h3⟩ := back i w hi
      have h4 : nextFreeEpoch E t < nextFreeEpoch E u := by
        have := hS.epoch
        unfold nextFreeEpoch; omega
      rw [h3]
      split
      · exact .inr h4
      · rcases hj.ahead v (List.mem_of_getElem? hv) with h5 | h5
        · exact .inl h5
        · exact .inr (h5.trans h4)

theorem still_length (h : Still t u) : t.validators.length ≤ u.validators.length := by
  by_contra hn
  obtain ⟨w, hw, -⟩ := h.1 u.validators.length _ (List.getElem?_eq_getElem (by omega))
  rw [List.getElem?_eq_none (Nat.le_refl _)] at hw
  cases hw

theorem still_back (h : Still t u) {i : Nat} {w : Validator} (hw : u.validators[i]? = some w)
    (hn : w.activation_epoch ≠ FAR_FUTURE_EPOCH) :
    ∃ v, t.validators[i]? = some v ∧ w.activation_epoch = v.activation_epoch := by
  cases hv : t.validators[i]? with
  | none => exact absurd (h.2 i w hw hv).2 hn
  | some v =>
    obtain ⟨w', hw', h1⟩ := h.1 i v hv
    rw [hw] at hw'; cases hw'
    exact ⟨v, rfl, h1.2⟩

theorem block_joined {b : BeaconBlock} (hj : JoinedSlowly E t)
    (h : process_block E f b t = .ok () u) : JoinedSlowly E u := by
  have hs := block_still.ok h
  have hsl : u.slot = t.slot := block_mod.ok h .slot (by decide)
  refine ⟨fun e h0 hF => ?_, fun w hw => ?_⟩
  · have h1 : joinsIn u e ≤ joinsIn t e := by
      refine count_mono fun i w hw hq => ?_
      obtain ⟨v, hv, h3⟩ := still_back hs hw (by rw [beq_iff_eq.1 hq]; exact hF)
      exact ⟨v, hv, by rw [← h3]; exact hq⟩
    exact (h1.trans (hj.limit e h0 hF)).trans (pace_mono (still_length hs))
  · by_cases hn : w.activation_epoch = FAR_FUTURE_EPOCH
    · exact .inl hn
    · obtain ⟨i, hi⟩ := List.mem_iff_getElem?.1 hw
      obtain ⟨v, hv, h3⟩ := still_back hs hi hn
      have h4 := hj.ahead v (List.mem_of_getElem? hv)
      unfold nextFreeEpoch at *
      rw [h3, hsl]
      exact h4

theorem follows_joined (hf : f ≠ .Electra) (ho : Orderly E f s) (hj : JoinedSlowly E s)
    (h : Follows E f s t) : Orderly E f t ∧ JoinedSlowly E t := by
  induction h with
  | start => exact ⟨ho, hj⟩
  | slot _ h ih => exact ⟨(slot_turn ih.1 h).1, slot_joined hf ih.1 ih.2 h⟩
  | block _ h ih => exact ⟨(block_turn ih.1 h).1, block_joined ih.2 h⟩

/-- Whoever is in the registry was activated at genesis or not at all. -/
def Initial (s s' : State) : Prop :=
  (∀ v ∈ s.validators, v.activation_epoch = FAR_FUTURE_EPOCH ∨ v.activation_epoch = 0) →
    ∀ v ∈ s'.validators, v.activation_epoch = FAR_FUTURE_EPOCH ∨ v.activation_epoch = 0

theorem initialPre : Preorder' Initial := ⟨fun _ => id, fun h h' x => h' (h x)⟩

theorem initial_still {α : Type} {m : M α} (h : Pres Still m) : Pres Initial m :=
  Pres.mono h fun s s' hs hi w hw => by
    by_cases hn : w.activation_epoch = FAR_FUTURE_EPOCH
    · exact .inl hn
    · obtain ⟨i, hi'⟩ := List.mem_iff_getElem?.1 hw
      obtain ⟨v, hv, h3⟩ := still_back hs hi' hn
      rw [h3]
      exact hi v (List.mem_of_getElem? hv)

theorem initial_updValidator {i : Nat} {g : Validator → Validator}
    (h : ∀ v, (g v).activation_epoch = v.activation_epoch ∨ (g v).activation_epoch = 0) :
    Pres Initial (updValidator i g) := by
  apply Pres.updValidator initialPre
  intro s v hv hi w hw
  rcases List.mem_or_eq_of_mem_set hw with hw | rfl
  · exact hi w hw
  · rcases h v with h | h
    · rw [h]; exact hi v (List.mem_of_getElem? hv)
    · exact .inr h

theorem genesis_joined {h : Bytes32} {t : Nat} {ds : List Deposit}
    {p : Option ExecutionPayloadHeader}
    (hs : initialize_beacon_state_from_eth1 E f h t ds p = .ok s) : JoinedSlowly E s := by
  have hd : ∀ l, Pres Still (genesis_deposits E f l ds) := by
    clear hs
    induction ds with
    | nil => intro l; unfold genesis_deposits; walk stillPre
    | cons d ds ih => intro l; unfold genesis_deposits; walk stillPre [deposit_still, ih, upd_still]
  have hg : Pres Initial (genesis_fill E f ds) := by
    unfold genesis_fill genesis_pending_deposits genesis_activate genesis_sync_committees
    walk initialPre [initial_still (hd _), initial_still (still_mod increase_mod (by decide)),
      initial_still (upd_still _),
      (initial_updValidator fun _ => by split; exacts [.inr rfl, .inl rfl])]
  unfold initialize_beacon_state_from_eth1 genesis_candidate at hs
  simp only [run] at hs
  obtain ⟨_, ⟨gt, _, rfl⟩, hs⟩ := hs
  rw [runLocal_eq_ok] at hs
  have key := (hg.ok hs) (by intro v hv; cases hv)
  refine ⟨fun e h0 hF => ?_, fun v hv => ?_⟩
  · have : joinsIn s e = 0 := by
      unfold joinsIn
      rw [List.countP_eq_zero]
      intro v hv he
      rw [beq_iff_eq] at he
      rcases key v hv with h | h <;> omega
    omega
  · rcases key v hv with h | h
    · exact .inl h
    · right; unfold nextFreeEpoch; omega

theorem followed_joined (hE : SaneConfig E) (hB : SaneBalances E)
    (hI : E.effective_balance_increment < 2 ^ 64) (hf : f ≠ .Electra) (h : Followed E f s) :
    JoinedSlowly E s := by
  induction h with
  | genesis h => exact genesis_joined h
  | slot h0 h ih => exact slot_joined hf (followed_orderly hE hB hI h0).1 (ih hf) h
  | block _ h ih => exact block_joined (ih hf) h
  | upgrade _ ho h ih =>
    have hr := upgrade_registry hf h
    have hj := ih (before_electra ho)
    have hsl := (upgrade_common h).1
    refine ⟨fun e h0 hF => ?_, fun v hv => ?_⟩
    · unfold joinsIn; rw [hr]; exact hj.limit e h0 hF
    · unfold nextFreeEpoch; rw [hsl]; exact hj.ahead v (by rw [← hr]; exact hv)

theorem followed_reachable (h : Followed E f s) : Reachable E f s := by
  induction h with
  | genesis h => exact .genesis h
  | @slot f s s' _ h ih =>
    have := Reachable.call ih (.process_slots (s.slot + 1))
    unfold finalState at this; rw [h] at this; exact this
  | @block f s s' b _ h ih =>
    have := Reachable.call ih (.process_block b)
    unfold finalState at this; rw [h] at this; exact this
  | upgrade _ ho h ih => exact .upgrade ih ho h

/-! ## The active set -/

theorem active_only_nodup {a b : Nat} : (activeOnlyIn s b a).Nodup :=
  List.Nodup.filter _ (List.Nodup.filter _ List.nodup_range)

/-- Whoever is active later and not before has joined in between. -/
theorem newcomers_le {L a b : Nat} (hab : a ≤ b)
    (h : ∀ e, a < e → e ≤ b → joinsIn s e ≤ L) : (activeOnlyIn s b a).length ≤ (b - a) * L := by
  obtain ⟨d, rfl⟩ := Nat.exists_eq_add_of_le hab
  rw [Nat.add_sub_cancel_left]
  refine Nat.le_trans (le_count (p := fun v => decide (a < v.activation_epoch ∧
    v.activation_epoch ≤ a + d)) active_only_nodup fun i hi => ?_) (count_range d h)
  obtain ⟨h1, h2⟩ := List.mem_filter.1 hi
  obtain ⟨v, hv, h3, h4⟩ := mem_activeIndices.1 h1
  refine ⟨v, hv, decide_eq_true ⟨?_, h3⟩⟩
  by_contra hn
  exact of_decide_eq_true h2 (mem_activeIndices.2 ⟨v, hv, by omega, by omega⟩)

/-- Whoever is active before and not later has left in between. -/
theorem leavers_le {L a b : Nat} (hab : a ≤ b)
    (h : ∀ e, a < e → e ≤ b → exitsIn s e ≤ L) : (activeOnlyIn s a b).length ≤ (b - a) * L := by
  obtain ⟨d, rfl⟩ := Nat.exists_eq_add_of_le hab
  rw [Nat.add_sub_cancel_left]
  refine Nat.le_trans (le_count (p := fun v => decide (a < v.exit_epoch ∧
    v.exit_epoch ≤ a + d)) active_only_nodup fun i hi => ?_) (count_range d h)
  obtain ⟨h1, h2⟩ := List.mem_filter.1 hi
  obtain ⟨v, hv, h3, h4⟩ := mem_activeIndices.1 h1
  refine ⟨v, hv, decide_eq_true ⟨h4, ?_⟩⟩
  by_contra hn
  exact of_decide_eq_true h2 (mem_activeIndices.2 ⟨v, hv, by omega, by omega⟩)

end Joins

end Verif
