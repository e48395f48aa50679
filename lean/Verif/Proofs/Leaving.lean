import Verif.Spec.Leaving
import Verif.Proofs.Effective
import Verif.Proofs.Ends
import Verif.Props.Parts
import Verif.Props.Withdrawals

/-! # Leaving -/

namespace Verif

open Spec Props

/-! ## The exit queue has no holes -/

/-- The exit epochs that `s'` has and `s` has not follow upon an epoch that is full. -/
structure Dense (E : Env) (s s' : State) : Prop where
  more : ∀ x < FAR_FUTURE_EPOCH, exitsIn s x ≤ exitsIn s' x
  time : s.slot ≤ s'.slot
  full : ∀ v ∈ s'.validators, v.exit_epoch < FAR_FUTURE_EPOCH → nextFreeEpoch E s' < v.exit_epoch →
    (∃ w ∈ s.validators, w.exit_epoch = v.exit_epoch) ∨
      E.min_per_epoch_churn_limit ≤ exitsIn s' (v.exit_epoch - 1)

theorem free_mono {E : Env} {s t : State} (h : s.slot ≤ t.slot) :
    nextFreeEpoch E s ≤ nextFreeEpoch E t := by
  unfold nextFreeEpoch epochOf
  have := Nat.div_le_div_right (c := E.slots_per_epoch) h
  omega

theorem densePre (E : Env) : Preorder' (Dense E) := by
  refine ⟨fun s => ⟨fun _ _ => Nat.le_refl _, Nat.le_refl _, fun v hv _ _ => Or.inl ⟨v, hv, rfl⟩⟩,
    fun {a b c} h h' => ⟨fun x hx => Nat.le_trans (h.more x hx) (h'.more x hx),
      Nat.le_trans h.time h'.time, fun v hv h1 h2 => ?_⟩⟩
  rcases h'.full v hv h1 h2 with ⟨w, hw, he⟩ | h3
  · have hm := free_mono (E := E) h'.time
    rcases h.full w hw (by omega) (by omega) with ⟨y, hy, hye⟩ | h4
    · exact Or.inl ⟨y, hy, hye.trans he⟩
    · rw [he] at h4
      exact Or.inr (Nat.le_trans h4 (h'.more _ (by omega)))
  · exact Or.inr h3

theorem exitsIn_map (s : State) (x : Nat) : exitsIn s x = (s.validators.map (·.exit_epoch)).count x := by
  unfold exitsIn
  rw [List.count, List.countP_map]
  rfl

/-- The same exit epochs, but for new entries. -/
theorem dense_of {E : Env} {s s' : State} {l : List Nat} (h1 : s.slot ≤ s'.slot)
    (h2 : s'.validators.map (·.exit_epoch) = s.validators.map (·.exit_epoch) ++ l)
    (h3 : ∀ x ∈ l, x = FAR_FUTURE_EPOCH) : Dense E s s' := by
  refine ⟨fun x _ => ?_, h1, fun v hv hx _ => Or.inl ?_⟩
  · rw [exitsIn_map, exitsIn_map, h2, List.count_append]; omega
  · have : v.exit_epoch ∈ s'.validators.map (·.exit_epoch) := List.mem_map_of_mem hv
    rw [h2, List.mem_append] at this
    rcases this with h | h
    · obtain ⟨w, hw, he⟩ := List.mem_map.1 h
      exact ⟨w, hw, he⟩
    · have := h3 _ h; omega

theorem dense_same {E : Env} {s s' : State} (h1 : s'.slot = s.slot)
    (h2 : s'.validators.map (·.exit_epoch) = s.validators.map (·.exit_epoch)) : Dense E s s' :=
  dense_of (l := []) (Nat.le_of_eq h1.symm) (by rw [h2, List.append_nil]) (by simp)

theorem dense_mod {E : Env} {α : Type} {W : List Field} {m : M α} (h : Modifies W m)
    (hW : Field.validators ∉ W ∧ Field.slot ∉ W) : Pres (Dense E) m :=
  Pres.mono h fun s s' h => dense_same (h .slot hW.2)
    (by rw [show s'.validators = s.validators from h .validators hW.1])

theorem map_set_same {l : List Validator} {i : Nat} {v w : Validator} (hv : l[i]? = some v)
    (h : w.exit_epoch = v.exit_epoch) :
    (l.set i w).map (·.exit_epoch) = l.map (·.exit_epoch) := by
  rw [List.map_set, h]
  apply List.ext_getElem?
  intro j
  by_cases hj : i = j
  · subst hj
    rw [List.getElem?_set]
    have := (List.getElem?_eq_some_iff.1 hv).1
    simp [this, ← (List.getElem?_eq_some_iff.1 hv).2]
  · rw [List.getElem?_set_ne hj]

theorem upd_dense {E : Env} {g : State → State} (h : ∀ s, (g s).validators = s.validators)
    (h' : ∀ s, (g s).slot = s.slot) : Pres (Dense E) (upd g) :=
  Pres.upd fun s => dense_same (h' s) (by rw [h s])

theorem updv_dense {E : Env} {i : Nat} {g : Validator → Validator}
    (h : ∀ v, (g v).exit_epoch = v.exit_epoch) : Pres (Dense E) (updValidator i g) :=
  Pres.updValidator (densePre E) fun _ v hv => dense_same rfl (map_set_same hv (h v))

theorem foldl_max_mem {l : List Nat} {a : Nat} : l.foldl max a = a ∨ l.foldl max a ∈ l := by
  induction l generalizing a with
  | nil => simp
  | cons y l ih =>
    simp only [List.foldl_cons, List.mem_cons]
    rcases @ih (max a y) with h | h
    · rw [h]
      rcases Nat.le_total a y with h' | h'
      · right; left; omega
      · left; omega
    · exact Or.inr (Or.inr h)

/-- Where the next validator to leave is put. -/
theorem exit_queue_epoch_dense {E : Env} {s : State} {e : Nat} (h : exit_queue_epoch E s = .ok e) :
    e ≤ nextFreeEpoch E s ∨ (∃ w ∈ s.validators, w.exit_epoch = e) ∨
      1 ≤ e ∧ E.min_per_epoch_churn_limit ≤ exitsIn s (e - 1) := by
  simp only [exit_queue_epoch, run, current_epoch_eq_ok, activation_exit_epoch_eq_ok] at h
  obtain ⟨_, ⟨rfl, _⟩, x, ⟨rfl, _⟩, n, hn, h⟩ := h
  replace hn := churn_limit_eq_ok hn
  subst hn
  rcases h with ⟨hc, h, _⟩ | ⟨hc, h⟩
  · subst h
    refine Or.inr (Or.inr ⟨by omega, ?_⟩)
    rw [Nat.add_sub_cancel]
    refine Nat.le_trans ?_ hc
    unfold churnLimit
    omega
  · subst h
    rcases @foldl_max_mem ((List.map (fun x => x.exit_epoch)
      (List.filter (fun v => decide (v.exit_epoch ≠ FAR_FUTURE_EPOCH)) s.validators)) ++
      [epochOf E s.slot + 1 + E.max_seed_lookahead]) 0 with h | h
    · rw [h]; exact Or.inl (Nat.zero_le _)
    · rw [List.mem_append] at h
      rcases h with h | h
      · obtain ⟨w, hw, he⟩ := List.mem_map.1 h
        exact Or.inr (Or.inl ⟨w, (List.mem_filter.1 hw).1, he⟩)
      · rw [List.mem_singleton] at h
        rw [h]
        exact Or.inl (Nat.le_refl _)

theorem exitsIn_write {s : State} {i e x : Nat} {v w : Validator} (hv : s.validators[i]? = some v)
    (hx : v.exit_epoch ≠ x) (he : w.exit_epoch = e) :
    exitsIn { s with validators := s.validators.set i w } x =
      exitsIn s x + if e = x then 1 else 0 := by
  have hi := (List.getElem?_eq_some_iff.1 hv).1
  have hg : s.validators[i] = v := (List.getElem?_eq_some_iff.1 hv).2
  unfold exitsIn
  simp only [List.countP_set hi, hg, he, beq_iff_eq, hx, if_false, Nat.sub_zero]

section Calls

variable {E : Env} {f : Fork}

theorem phase0_exit_dense {i : Nat} : Pres (Dense E) (initiate_validator_exit E i) := by
  intro s
  have p := densePre E
  unfold initiate_validator_exit
  rw [wp_bind, wp_get, wp_bind, wp_liftM]
  refine ⟨fun v hv => ?_, fun _ _ => p.refl s⟩
  rw [idx_eq_ok] at hv
  rw [wp_ite]
  refine ⟨fun _ => p.refl s, fun h => ?_⟩
  rw [wp_bind, wp_liftM]
  refine ⟨fun e he => ?_, fun _ _ => p.refl s⟩
  rw [wp_bind, wp_updValidator]
  refine ⟨fun v' hv' => ?_, fun _ => p.refl s⟩
  rw [hv] at hv'; cases hv'
  have hex := Decidable.not_not.1 h
  have h1 : Dense E s { s with validators := s.validators.set i { v with exit_epoch := e } } := by
    have hcount : ∀ x < FAR_FUTURE_EPOCH, exitsIn s x ≤ exitsIn
        { s with validators := s.validators.set i { v with exit_epoch := e } } x := fun x hx => by
      rw [exitsIn_write hv (by omega) rfl]; omega
    refine ⟨hcount, Nat.le_refl _, fun w hw hx hn => ?_⟩
    rcases List.mem_or_eq_of_mem_set hw with hw | rfl
    · exact Or.inl ⟨w, hw, rfl⟩
    · rcases exit_queue_epoch_dense he with h | h | h
      · exact absurd hn (Nat.not_lt.2 h)
      · exact Or.inl h
      · exact Or.inr (Nat.le_trans h.2 (hcount _ (by dsimp only at hx ⊢; omega)))
  have h2 : Pres (Dense E) (do
      let w ← U64.checkedAdd e E.min_validator_withdrawability_delay
      updValidator i fun v => { v with withdrawable_epoch := w }) := by
    walk p [updv_dense]
  exact wp_mono (h2 _) (fun _ _ h => p.trans h1 h) fun _ _ h => p.trans h1 h

variable (hf : f ≠ .Electra)
include hf

theorem exit_dense {i : Nat} : Pres (Dense E) (f.initiate_validator_exit E i) := by
  unfold Fork.initiate_validator_exit
  cases f
  case Electra => exact absurd rfl hf
  all_goals exact phase0_exit_dense

theorem slash_dense {i : Nat} {w : Option Nat} : Pres (Dense E) (slash_validator E f i w) := by
  have p := densePre E
  unfold slash_validator
  walk p [exit_dense hf, updv_dense, dense_mod increase_mod (by decide),
    dense_mod decrease_mod (by decide), upd_dense]

theorem slash_all_dense {e : Nat} {l : List Nat} {b : Bool} :
    Pres (Dense E) (slash_all E f e l b) := by
  have p := densePre E
  induction l generalizing b with
  | nil => unfold slash_all; walk p
  | cons x l ih => unfold slash_all; walk p [slash_dense hf, ih]

theorem proposer_slashing_dense {op : ProposerSlashing} :
    Pres (Dense E) (process_proposer_slashing E f op) := by
  have p := densePre E
  unfold process_proposer_slashing; walk p [slash_dense hf]

theorem attester_slashing_dense {op : AttesterSlashing} :
    Pres (Dense E) (process_attester_slashing E f op) := by
  have p := densePre E
  unfold process_attester_slashing; walk p [slash_all_dense hf]

omit hf in
theorem add_validator_dense {k : PublicKey} {w : Bytes32} {n : Nat} :
    Pres (Dense E) (add_validator_to_registry E f k w n) := by
  intro s
  unfold add_validator_to_registry
  rw [wp_bind, wp_liftM]
  refine ⟨fun v hv => ?_, fun _ _ => (densePre E).refl s⟩
  have hv : v.exit_epoch = FAR_FUTURE_EPOCH := by
    unfold get_validator_from_deposit at hv
    simp only [run] at hv
    obtain ⟨_, _, rfl⟩ := hv
    rfl
  have key : ∀ s' : State, s'.slot = s.slot → s'.validators = s.validators ++ [v] →
      Dense E s s' := fun s' h1 h2 =>
    dense_of (l := [v.exit_epoch]) (Nat.le_of_eq h1.symm) (by rw [h2]; simp)
      (by simpa using hv)
  cases f <;> exact key _ rfl rfl

omit hf in
theorem phase0_apply_deposit_dense {k : PublicKey} {w : Bytes32} {n : Nat} {sig : Signature} :
    Pres (Dense E) (Phase0.apply_deposit E f k w n sig) := by
  have p := densePre E
  unfold Phase0.apply_deposit
  walk p [dense_mod increase_mod (by decide), add_validator_dense]

theorem apply_deposit_dense {k : PublicKey} {w : Bytes32} {n : Nat} {sig : Signature} :
    Pres (Dense E) (apply_deposit E f k w n sig) := by
  unfold apply_deposit
  cases f
  case Electra => exact absurd rfl hf
  all_goals exact phase0_apply_deposit_dense

theorem deposit_dense {d : Deposit} : Pres (Dense E) (process_deposit E f d) := by
  have p := densePre E
  unfold process_deposit; walk p [apply_deposit_dense hf, upd_dense]

theorem voluntary_exit_dense {op : SignedVoluntaryExit} :
    Pres (Dense E) (process_voluntary_exit E f op) := by
  have p := densePre E
  unfold process_voluntary_exit; walk p [exit_dense hf]

omit hf in
theorem bls_change_dense {op : SignedBlsToExecutionChange} :
    Pres (Dense E) (process_bls_to_execution_change E op) := by
  intro s
  have p := densePre E
  unfold process_bls_to_execution_change
  rw [wp_bind, wp_get, wp_bind, wp_liftM]
  refine ⟨fun v hv => ?_, fun _ _ => p.refl s⟩
  rw [wp_bind, wp_liftM]
  refine ⟨fun _ _ => ?_, fun _ _ => p.refl s⟩
  rw [wp_bind, wp_liftM]
  refine ⟨fun _ _ => ?_, fun _ _ => p.refl s⟩
  rw [wp_bind, wp_liftM]
  refine ⟨fun _ _ => ?_, fun _ _ => p.refl s⟩
  rw [wp_updValidator]
  exact ⟨fun v' hv' => dense_same rfl (map_set_same hv' rfl), fun _ => p.refl s⟩

theorem operations_dense {b : BeaconBlockBody} : Pres (Dense E) (process_operations E f b) := by
  have p := densePre E
  unfold process_operations
  cases f
  case Electra => exact absurd rfl hf
  all_goals
  walk p [proposer_slashing_dense hf, attester_slashing_dense hf,
    dense_mod attestation_mod (by decide), deposit_dense hf, voluntary_exit_dense hf,
    bls_change_dense]

theorem block_dense {b : BeaconBlock} : Pres (Dense E) (process_block E f b) := by
  have p := densePre E
  unfold process_block
  walk p [dense_mod header_mod (by decide), dense_mod block_payload_mod (by decide),
    dense_mod randao_mod (by decide), dense_mod eth1_mod (by decide), operations_dense hf,
    dense_mod sync_aggregate_mod (by decide)]

theorem registry_dense : Pres (Dense E) (process_registry_updates E f) := by
  have p := densePre E
  unfold process_registry_updates mark_eligible eject_if_low
  walk p [exit_dense hf, updv_dense]

omit hf in
theorem effective_updates_dense : Pres (Dense E) (process_effective_balance_updates E f) := by
  have p := densePre E
  unfold process_effective_balance_updates
  walk p [updv_dense]

theorem epoch_dense : Pres (Dense E) (process_epoch E f) := by
  have p := densePre E
  unfold process_epoch process_epoch_first
  cases f
  case Electra => exact absurd rfl hf
  all_goals
  walk p [dense_mod justification_mod (by decide), dense_mod inactivity_mod (by decide),
    dense_mod rewards_mod (by decide), registry_dense hf, dense_mod slashings_mod (by decide),
    dense_mod eth1_reset_mod (by decide), effective_updates_dense,
    dense_mod slashings_reset_mod (by decide),
    dense_mod randao_reset_mod (by decide), dense_mod historical_mod (by decide),
    dense_mod record_updates_mod (by decide), dense_mod flag_updates_mod (by decide),
    dense_mod sync_committees_mod (by decide)]

theorem slots_dense {t : Nat} : Pres (Dense E) (process_slots E f t) :=
  slots_pres (densePre E) <| slot_step_pres (densePre E) (dense_mod slot_mod (by decide))
    (epoch_dense hf) fun s =>
      dense_of (l := []) (Nat.le_succ s.slot) (by simp) (by simp)

theorem entry_dense {m : M Unit} (h : EntryPoint E f m) : Pres (Dense E) m := by
  cases h with
  | process_slots => exact slots_dense hf
  | state_transition => exact (transition_pres (densePre E) (slots_dense hf) (block_dense hf)).2
  | state_transition_block_in_slot =>
    exact (transition_pres (densePre E) (slots_dense hf) (block_dense hf)).1
  | process_slot => exact dense_mod slot_mod (by decide)
  | process_epoch => exact epoch_dense hf
  | process_block => exact block_dense hf
  | process_block_header => exact dense_mod header_mod (by decide)
  | process_randao => exact dense_mod randao_mod (by decide)
  | process_eth1_data => exact dense_mod eth1_mod (by decide)
  | process_operations => exact operations_dense hf
  | process_execution_payload => exact dense_mod payload_mod (by decide)
  | process_withdrawals => exact dense_mod withdrawals_mod (by decide)
  | process_sync_aggregate => exact dense_mod sync_aggregate_mod (by decide)
  | process_proposer_slashing => exact proposer_slashing_dense hf
  | process_attester_slashing => exact attester_slashing_dense hf
  | process_attestation => exact dense_mod attestation_mod (by decide)
  | process_deposit => exact deposit_dense hf
  | process_voluntary_exit => exact voluntary_exit_dense hf
  | process_bls_to_execution_change => exact bls_change_dense
  | process_execution_layer_withdrawal_request _ h => exact absurd h hf
  | process_deposit_receipt _ h => exact absurd h hf
  | process_consolidation _ h => exact absurd h hf
  | initiate_validator_exit => exact exit_dense hf
  | slash_validator => exact slash_dense hf
  | increase_balance => exact dense_mod increase_mod (by decide)
  | decrease_balance => exact dense_mod decrease_mod (by decide)

theorem genesis_deposits_dense {ds : List DepositData} {ls : List Deposit} :
    Pres (Dense E) (genesis_deposits E f ds ls) := by
  have p := densePre E
  induction ls generalizing ds with
  | nil => unfold genesis_deposits; walk p
  | cons d ls ih => unfold genesis_deposits; walk p [deposit_dense hf, ih, upd_dense]

theorem genesis_fill_dense {ds : List Deposit} : Pres (Dense E) (genesis_fill E f ds) := by
  have p := densePre E
  unfold genesis_fill genesis_pending_deposits genesis_activate genesis_sync_committees
  walk p [genesis_deposits_dense hf, dense_mod increase_mod (by decide), upd_dense, updv_dense]

end Calls

/-- Who leaves later than at the next free epoch follows upon an epoch that is full. -/
def Compact (E : Env) (s : State) : Prop :=
  ∀ v ∈ s.validators, v.exit_epoch < FAR_FUTURE_EPOCH → nextFreeEpoch E s < v.exit_epoch →
    E.min_per_epoch_churn_limit ≤ exitsIn s (v.exit_epoch - 1)

theorem compact_step {E : Env} {s s' : State} (h : Dense E s s') (hs : Compact E s) :
    Compact E s' := by
  intro v hv h1 h2
  rcases h.full v hv h1 h2 with ⟨w, hw, he⟩ | h3
  · have hm := free_mono (E := E) h.time
    have h4 := hs w hw (by omega) (by omega)
    rw [he] at h4
    exact Nat.le_trans h4 (h.more _ (by omega))
  · exact h3

theorem upgrade_registry {E : Env} {g : Fork} {s s' : State} (hg : g ≠ .Electra)
    (h : upgrade_to E g s = .ok s') : s'.validators = s.validators := by
  cases g <;> unfold upgrade_to at h <;> dsimp only at h
  case Phase0 => cases h
  case Electra => exact absurd rfl hg
  case Altair =>
    unfold upgrade_to_altair at h
    simp only [run, runLocal_eq_ok] at h
    obtain ⟨e, _, post, hpost, c, _, rfl⟩ := h
    exact translate_mod.ok hpost .validators (by decide)
  all_goals
    first
      | unfold upgrade_to_bellatrix at h
      | unfold upgrade_to_capella at h
      | unfold upgrade_to_deneb at h
    simp only [run] at h
    obtain ⟨e, _, rfl⟩ := h
    rfl

theorem reachable_compact {E : Env} {f : Fork} {s : State} (h : Reachable E f s)
    (hf : f ≠ .Electra) : Compact E s := by
  induction h with
  | genesis hs =>
    unfold initialize_beacon_state_from_eth1 genesis_candidate at hs
    simp only [run] at hs
    obtain ⟨_, ⟨gt, _, rfl⟩, hs⟩ := hs
    rw [runLocal_eq_ok] at hs
    refine compact_step ((genesis_fill_dense hf).ok hs) ?_
    intro v hv; cases hv
  | call _ hm ih => exact compact_step ((entry_dense hf hm).final _) (ih hf)
  | @upgrade f g s s' _ hg h ih =>
    have := ih (by rintro rfl; revert hg; cases g <;> decide)
    refine compact_step ?_ this
    exact dense_same (upgrade_common h).1 (by rw [upgrade_registry hf h])

theorem leaving_step {E : Env} {s : State} {x : Nat} (h : nextFreeEpoch E s ≤ x) :
    leavingBefore E s (x + 1) = leavingBefore E s x + exitsIn s x := by
  unfold leavingBefore exitsIn
  induction s.validators with
  | nil => rfl
  | cons v l ih =>
    simp only [List.countP_cons, ih]
    by_cases h1 : v.exit_epoch = x
    · simp [h1, h]; omega
    · have : (nextFreeEpoch E s ≤ v.exit_epoch ∧ v.exit_epoch < x + 1) ↔
          (nextFreeEpoch E s ≤ v.exit_epoch ∧ v.exit_epoch < x) := by omega
      simp [h1, this]; omega

/-- All epochs before one in which somebody leaves are full. -/
theorem compact_bound {E : Env} {s : State} (hc : Compact E s) (hmin : 0 < E.min_per_epoch_churn_limit)
    {n x : Nat} (hx : x = nextFreeEpoch E s + n) (hlt : x < FAR_FUTURE_EPOCH)
    (hv : 0 < exitsIn s x) :
    n * E.min_per_epoch_churn_limit ≤ leavingBefore E s x := by
  induction n generalizing x with
  | zero => omega
  | succ n ih =>
    obtain ⟨v, hm, he⟩ := List.countP_pos_iff.1 (show 0 < s.validators.countP _ from hv)
    have he : v.exit_epoch = x := by simpa using he
    have h1 := hc v hm (by omega) (by omega)
    rw [he] at h1
    have h2 := ih (x := x - 1) (by omega) (by omega) (by omega)
    have h3 := leaving_step (E := E) (s := s) (x := x - 1) (by omega)
    rw [show x - 1 + 1 = x by omega] at h3
    rw [h3, Nat.add_mul]
    omega

theorem compact_wait {E : Env} {s : State} (hc : Compact E s)
    (hmin : 0 < E.min_per_epoch_churn_limit) {v : Validator} (hv : v ∈ s.validators)
    (hx : v.exit_epoch < FAR_FUTURE_EPOCH) :
    v.exit_epoch ≤ nextFreeEpoch E s +
      leavingBefore E s v.exit_epoch / E.min_per_epoch_churn_limit := by
  by_cases h : v.exit_epoch ≤ nextFreeEpoch E s
  · exact Nat.le_trans h (Nat.le_add_right _ _)
  · have hpos : 0 < exitsIn s v.exit_epoch := List.countP_pos_iff.2 ⟨v, hv, by simp⟩
    have := compact_bound hc hmin (n := v.exit_epoch - nextFreeEpoch E s) (by omega) hx hpos
    have := (Nat.le_div_iff_mul_le hmin).2 this
    omega

/-! ## A validator that leaves keeps its place, its epochs and its address -/

/-- The entry `v` of a leaving validator in `s` becomes `w`: only a slashing moves the epoch from
which it can withdraw, and there is one only before that epoch. -/
structure Leaves (E : Env) (s : State) (v w : Validator) : Prop where
  exit : w.exit_epoch = v.exit_epoch
  slashed : v.slashed = true → w.slashed = true
  credentials : v.withdrawal_credentials[0] = 1 →
    w.withdrawal_credentials = v.withdrawal_credentials
  withdrawable : w.withdrawable_epoch = v.withdrawable_epoch ∧ w.slashed = v.slashed ∨
    v.slashed = false ∧ w.slashed = true ∧ epochOf E s.slot < v.withdrawable_epoch

/-- Every leaving validator does so. -/
structure Abides (E : Env) (s s' : State) : Prop where
  time : s.slot ≤ s'.slot
  entry : ∀ (i : Nat) v, s.validators[i]? = some v → v.exit_epoch ≠ FAR_FUTURE_EPOCH →
    ∃ w, s'.validators[i]? = some w ∧ Leaves E s v w

theorem leaves_refl (E : Env) (s : State) (v : Validator) : Leaves E s v v :=
  ⟨rfl, id, fun _ => rfl, Or.inl ⟨rfl, rfl⟩⟩

theorem epoch_mono {E : Env} {s t : State} (h : s.slot ≤ t.slot) :
    epochOf E s.slot ≤ epochOf E t.slot := Nat.div_le_div_right h

theorem leaves_trans {E : Env} {s t : State} {u v w : Validator} (ht : s.slot ≤ t.slot)
    (h : Leaves E s u v) (h' : Leaves E t v w) : Leaves E s u w := by
  refine ⟨h'.exit.trans h.exit, fun x => h'.slashed (h.slashed x), fun hc => ?_, ?_⟩
  · have := h.credentials hc
    rw [h'.credentials (by rw [this]; exact hc), this]
  · have hm := epoch_mono (E := E) ht
    rcases h.withdrawable with h1 | ⟨h1, h2, h3⟩
    · rcases h'.withdrawable with h4 | ⟨h4, h5, h6⟩
      · exact Or.inl ⟨h4.1.trans h1.1, h4.2.trans h1.2⟩
      · refine Or.inr ⟨?_, h5, by omega⟩
        cases hu : u.slashed
        · rfl
        · rw [h.slashed hu] at h4; cases h4
    · exact Or.inr ⟨h1, h'.slashed h2, h3⟩

theorem abidesPre (E : Env) : Preorder' (Abides E) := by
  refine ⟨fun s => ⟨Nat.le_refl _, fun i v hv _ => ⟨v, hv, leaves_refl E s v⟩⟩,
    fun {a b c} h h' => ⟨Nat.le_trans h.time h'.time, fun i v hv hx => ?_⟩⟩
  obtain ⟨w, hw, h1⟩ := h.entry i v hv hx
  obtain ⟨x, hx', h2⟩ := h'.entry i w hw (by rw [h1.exit]; exact hx)
  exact ⟨x, hx', leaves_trans h.time h1 h2⟩

theorem abides_same {E : Env} {s s' : State} (h1 : s.slot ≤ s'.slot)
    (h2 : ∀ (i : Nat) v, s.validators[i]? = some v → s'.validators[i]? = some v) : Abides E s s' :=
  ⟨h1, fun i v hv _ => ⟨v, h2 i v hv, leaves_refl E s v⟩⟩

theorem abides_mod {E : Env} {α : Type} {W : List Field} {m : M α} (h : Modifies W m)
    (hW : Field.validators ∉ W ∧ Field.slot ∉ W) : PresOk (Abides E) m :=
  Pres.toOk <| Pres.mono h fun s s' h =>
    abides_same (Nat.le_of_eq (h .slot hW.2 : s'.slot = s.slot).symm) fun i v hv => by
      rw [show s'.validators = s.validators from h .validators hW.1]; exact hv

/-- One entry is written. -/
theorem abides_set {E : Env} {s s' : State} {i : Nat} {v w : Validator} (h1 : s.slot ≤ s'.slot)
    (hv : s.validators[i]? = some v) (h2 : s'.validators = s.validators.set i w)
    (h : v.exit_epoch ≠ FAR_FUTURE_EPOCH → Leaves E s v w) : Abides E s s' := by
  refine ⟨h1, fun j u hu hx => ?_⟩
  by_cases hj : i = j
  · subst hj
    rw [hv] at hu; cases hu
    exact ⟨w, by rw [h2]; simp [(List.getElem?_eq_some_iff.1 hv).1], h hx⟩
  · exact ⟨u, by rw [h2, List.getElem?_set_ne hj]; exact hu, leaves_refl E s u⟩

theorem upd_abides {E : Env} {g : State → State} (h : ∀ s, (g s).validators = s.validators)
    (h' : ∀ s, (g s).slot = s.slot) : PresOk (Abides E) (upd g) :=
  PresOk.upd fun s => abides_same (Nat.le_of_eq (h' s).symm) fun _ _ hv => by rw [h s]; exact hv

theorem updv_abides {E : Env} {i : Nat} {g : Validator → Validator}
    (h : ∀ v, (g v).exit_epoch = v.exit_epoch ∧ (g v).slashed = v.slashed ∧
      (g v).withdrawal_credentials = v.withdrawal_credentials ∧
      (g v).withdrawable_epoch = v.withdrawable_epoch) : PresOk (Abides E) (updValidator i g) :=
  Pres.toOk <| Pres.updValidator (abidesPre E) fun s v hv =>
    abides_set (Nat.le_refl _) hv rfl fun _ =>
      ⟨(h v).1, fun hs => by rw [(h v).2.1]; exact hs, fun _ => (h v).2.2.1,
        Or.inl ⟨(h v).2.2.2, (h v).2.1⟩⟩

section Abide

variable {E : Env} {f : Fork} (hf : f ≠ .Electra)

theorem exit_abides {i : Nat} : PresOk (Abides E) (f.initiate_validator_exit E i) := by
  apply PresOk.of
  intro s _ s' h
  obtain ⟨v, v', h⟩ := Fork.initiate_validator_exit_effect h
  have hs := h.state
  refine abides_set (by rw [hs]) h.before (congrArg State.validators hs)
    fun hx => ?_
  rw [(h.exiting hx).2]
  exact leaves_refl E s v

theorem slash_abides {i : Nat} {w : Option Nat} {s s' : State} {v : Validator}
    (hv : s.validators[i]? = some v) (hs : v.slashed = false)
    (he : epochOf E s.slot < v.withdrawable_epoch)
    (h : slash_validator E f i w s = .ok () s') : Abides E s s' := by
  have hslot : s'.slot = s.slot := slash_mod.ok h .slot (by decide)
  obtain ⟨p, share, v', v₁, _, _, hx⟩ := slash_validator_effect h
  obtain ⟨t, ht, _⟩ := hx.exit
  have := ht.before
  rw [hv] at this; cases this
  refine abides_set (Nat.le_of_eq hslot.symm) hv hx.validators fun hne => ?_
  rw [(ht.exiting hne).2]
  exact ⟨rfl, fun _ => rfl, fun _ => rfl, Or.inr ⟨hs, rfl, he⟩⟩

theorem slash_all_abides {e : Nat} {l : List Nat} {b c : Bool} {s s' : State}
    (he : epochOf E s.slot = e) (h : slash_all E f e l b s = .ok c s') : Abides E s s' := by
  induction l generalizing b s with
  | nil =>
    unfold slash_all at h
    simp only [run] at h
    obtain ⟨_, rfl⟩ := h
    exact (abidesPre E).refl _
  | cons x l ih =>
    unfold slash_all at h
    simp only [run] at h
    obtain ⟨v, hv, h⟩ := h
    rcases h with ⟨hs, s₁, h1, h2⟩ | ⟨_, h2⟩
    · unfold is_slashable_validator at hs
      simp only [Bool.and_eq_true, Bool.not_eq_true', decide_eq_true_eq] at hs
      have hslot : s₁.slot = s.slot := slash_mod.ok h1 .slot (by decide)
      exact (abidesPre E).trans (slash_abides hv hs.1 (by omega) h1)
        (ih (by rw [hslot]; exact he) h2)
    · exact ih he h2

theorem attester_slashing_abides {op : AttesterSlashing} :
    PresOk (Abides E) (process_attester_slashing E f op) := by
  apply PresOk.of
  intro s _ s' h
  unfold process_attester_slashing at h
  simp only [run, current_epoch_eq_ok] at h
  grind [slash_all_abides]

theorem proposer_slashing_abides {op : ProposerSlashing} :
    PresOk (Abides E) (process_proposer_slashing E f op) := by
  apply PresOk.of
  intro s _ s' h
  obtain ⟨_, ⟨v, hv⟩, h⟩ := process_proposer_slashing_eq_ok.1 h
  exact slash_abides hv.exists_proposer hv.slashable.1 hv.slashable.2.2 h

theorem add_validator_abides {k : PublicKey} {w : Bytes32} {n : Nat} :
    PresOk (Abides E) (add_validator_to_registry E f k w n) := by
  apply Pres.toOk
  intro s
  unfold add_validator_to_registry
  rw [wp_bind, wp_liftM]
  refine ⟨fun v _ => ?_, fun _ _ => (abidesPre E).refl s⟩
  have key : ∀ s' : State, s'.slot = s.slot → s'.validators = s.validators ++ [v] →
      Abides E s s' := fun s' h1 h2 =>
    abides_same (Nat.le_of_eq h1.symm) fun i u hu => by
      rw [h2, List.getElem?_append_left (List.getElem?_eq_some_iff.1 hu).1]; exact hu
  cases f <;> exact key _ rfl rfl

theorem phase0_apply_deposit_abides {k : PublicKey} {w : Bytes32} {n : Nat} {sig : Signature} :
    PresOk (Abides E) (Phase0.apply_deposit E f k w n sig) := by
  have p := abidesPre E
  unfold Phase0.apply_deposit
  walkOk p [abides_mod increase_mod (by decide), add_validator_abides]

theorem voluntary_exit_abides {op : SignedVoluntaryExit} :
    PresOk (Abides E) (process_voluntary_exit E f op) := by
  have p := abidesPre E
  unfold process_voluntary_exit; walkOk p [exit_abides]

theorem bls_change_abides {op : SignedBlsToExecutionChange} :
    PresOk (Abides E) (process_bls_to_execution_change E op) := by
  apply Pres.toOk
  intro s
  have p := abidesPre E
  unfold process_bls_to_execution_change
  rw [wp_bind, wp_get, wp_bind, wp_liftM]
  refine ⟨fun v hv => ?_, fun _ _ => p.refl s⟩
  rw [wp_bind, wp_liftM]
  refine ⟨fun _ h1 => ?_, fun _ _ => p.refl s⟩
  rw [wp_bind, wp_liftM]
  refine ⟨fun _ _ => ?_, fun _ _ => p.refl s⟩
  rw [wp_bind, wp_liftM]
  refine ⟨fun _ _ => ?_, fun _ _ => p.refl s⟩
  rw [wp_updValidator]
  refine ⟨fun v' hv' => abides_set (Nat.le_refl _) hv' rfl fun _ =>
    ⟨rfl, id, fun hc => ?_, Or.inl ⟨rfl, rfl⟩⟩, fun _ => p.refl s⟩
  simp only [run] at h1 hv
  rw [hv'] at hv; cases hv
  rw [hc] at h1
  simp [BLS_WITHDRAWAL_PREFIX] at h1

theorem registry_abides : PresOk (Abides E) (process_registry_updates E f) := by
  have p := abidesPre E
  unfold process_registry_updates mark_eligible eject_if_low
  walkOk p [exit_abides, updv_abides] <;> exact ⟨rfl, rfl, rfl, rfl⟩

theorem effective_updates_abides : PresOk (Abides E) (process_effective_balance_updates E f) := by
  have p := abidesPre E
  unfold process_effective_balance_updates
  walkOk p [updv_abides]
  exact ⟨rfl, rfl, rfl, rfl⟩

include hf

theorem apply_deposit_abides {k : PublicKey} {w : Bytes32} {n : Nat} {sig : Signature} :
    PresOk (Abides E) (apply_deposit E f k w n sig) := by
  unfold apply_deposit
  cases f
  case Electra => exact absurd rfl hf
  all_goals exact phase0_apply_deposit_abides

theorem deposit_abides {d : Deposit} : PresOk (Abides E) (process_deposit E f d) := by
  have p := abidesPre E
  unfold process_deposit; walkOk p [apply_deposit_abides hf, upd_abides]

theorem operations_abides {b : BeaconBlockBody} : PresOk (Abides E) (process_operations E f b) := by
  have p := abidesPre E
  unfold process_operations
  cases f
  case Electra => exact absurd rfl hf
  all_goals
  walkOk p [proposer_slashing_abides, attester_slashing_abides,
    abides_mod attestation_mod (by decide), deposit_abides hf, voluntary_exit_abides,
    bls_change_abides]

theorem block_abides {b : BeaconBlock} : PresOk (Abides E) (process_block E f b) := by
  have p := abidesPre E
  unfold process_block
  walkOk p [abides_mod header_mod (by decide), abides_mod block_payload_mod (by decide),
    abides_mod randao_mod (by decide), abides_mod eth1_mod (by decide), operations_abides hf,
    abides_mod sync_aggregate_mod (by decide)]

theorem epoch_abides : PresOk (Abides E) (process_epoch E f) := by
  have p := abidesPre E
  unfold process_epoch process_epoch_first
  cases f
  case Electra => exact absurd rfl hf
  all_goals
  walkOk p [abides_mod justification_mod (by decide), abides_mod inactivity_mod (by decide),
    abides_mod rewards_mod (by decide), registry_abides, abides_mod slashings_mod (by decide),
    abides_mod eth1_reset_mod (by decide), effective_updates_abides,
    abides_mod slashings_reset_mod (by decide),
    abides_mod randao_reset_mod (by decide), abides_mod historical_mod (by decide),
    abides_mod record_updates_mod (by decide), abides_mod flag_updates_mod (by decide),
    abides_mod sync_committees_mod (by decide)]

theorem slots_abides {t : Nat} : PresOk (Abides E) (process_slots E f t) := by
  have p := abidesPre E
  have hstep : PresOk (Abides E) (slot_step E f) := by
    unfold slot_step process_epoch_if_due
    refine PresOk.bind p (abides_mod slot_mod (by decide)) fun _ => PresOk.bind p ?_ fun _ =>
      (slot_incr_pres p fun s => abides_same (Nat.le_succ s.slot) fun _ _ h => h).toOk
    walkOk p [epoch_abides hf]
  have hl : ∀ n, PresOk (Abides E) (slots_loop E f t n) := by
    intro n
    induction n with
    | zero => unfold slots_loop; walkOk p
    | succ n ih => unfold slots_loop; walkOk p [hstep, ih]
  unfold process_slots
  walkOk p [hl]

theorem passes_abides {s s' : State} {l : List (State × BeaconBlock)} (h : Passes E f s l s') :
    Abides E s s' := by
  induction h with
  | start => exact (abidesPre E).refl _
  | slots _ hx ih => exact (abidesPre E).trans ih ((slots_abides hf).ok hx)
  | block _ hx ih => exact (abidesPre E).trans ih ((block_abides hf).ok hx)

end Abide

/-! ## The payment -/

open Verif.Props in
theorem paid_out {E : Env} {f : Fork} {s s' : State} (hE : SaneConfig E) (hmax : 0 < E.max_deposits)
    (hf : f = .Capella ∨ f = .Deneb) {l : List (State × BeaconBlock)} {i : Nat} {v : Validator}
    (hv : s.validators[i]? = some v) (hx : v.exit_epoch ≠ FAR_FUTURE_EPOCH)
    (hc : v.withdrawal_credentials[0] = 1)
    (he : v.withdrawable_epoch ≤ epochOf E s.slot) (hr : SweepReady E s) (hp : Parallel f s)
    (h : Passes E f s l s') (hl : s'.validators.length ≤ l.length)
    (hreg : s'.validators.length ≤ 2 ^ 40)
    (hidx : s.next_withdrawal_index + (l.length + 1) * E.max_withdrawals_per_payload < 2 ^ 64) :
    ∃ x ∈ l, x.1.balances[i]? = some 0 ∨ PaysOut x.1 x.2 i v.withdrawal_credentials := by
  have hf' : f ≠ .Electra := by rcases hf with rfl | rfl <;> decide
  by_contra hno
  have key : LeftUnpaid E f i s l.length s' := by
    clear hl
    induction h with
    | start => exact .start
    | slots _ hx' ih =>
      exact .slots (ih (Nat.le_trans (slots_len (f := f).ok hx').grow hreg) hidx hno) hx'
    | @block l b t u h1 hx' ih =>
      have hgr := (block_len (f := f).ok hx').grow
      simp only [List.length_append, List.length_singleton] at hidx ⊢
      have hexp : (l.length + 1 + 1) * E.max_withdrawals_per_payload =
        (l.length + 1) * E.max_withdrawals_per_payload + E.max_withdrawals_per_payload := by
          rw [Nat.add_mul (l.length + 1) 1, Nat.one_mul]
      have hexp' : (l.length + 1) * E.max_withdrawals_per_payload =
        l.length * E.max_withdrawals_per_payload + E.max_withdrawals_per_payload := by
          rw [Nat.add_mul l.length 1, Nat.one_mul]
      have hu := ih (Nat.le_trans hgr hreg) (by omega) fun ⟨x, hm, hx⟩ =>
        hno ⟨x, List.mem_append_left _ hm, hx⟩
      obtain ⟨a, hct, c, -⟩ := left_unpaid hE hf hu hp hr.payload hr.sweep hr.width hr.cursor
        (Nat.le_refl (2 ^ 40)) (Nat.le_trans hgr hreg) (by omega)
      have hrt : SweepReady E t := ⟨hr.payload, hr.sweep, hct, Nat.le_trans hgr hreg, a.1,
        by omega, hr.width⟩
      obtain ⟨w, hw, hk⟩ := (passes_abides hf' h1).entry i v hv hx
      have hcr := hk.credentials hc
      have htime := epoch_mono (E := E) (passes_abides hf' h1).time
      have hwd : w.withdrawable_epoch ≤ epochOf E t.slot := by
        rcases hk.withdrawable with h | ⟨_, _, h⟩ <;> omega
      obtain ⟨n, hn⟩ : ∃ n, t.balances[i]? = some n := by
        have := (List.getElem?_eq_some_iff.1 hw).1
        exact ⟨_, List.getElem?_eq_getElem (by rw [a.1]; exact this)⟩
      have how : owedTo E f t i = n := by
        unfold owedTo owed
        rw [hw, hn]
        exact if_pos ⟨Or.inl (by rw [hcr]; exact hc), hwd⟩
      have hmem : (t, b) ∈ l ++ [(t, b)] := by simp
      refine .block hu hx' ?_ fun hpaid => ?_
      · rw [how]
        refine Nat.pos_of_ne_zero fun h0 => ?_
        subst h0
        exact hno ⟨_, hmem, Or.inl hn⟩
      · obtain ⟨x, hxm, hxi⟩ := List.mem_map.1 hpaid
        obtain ⟨hpay, -⟩ := C86_withdrawals hE hmax hf hrt hx'
        obtain ⟨hamt, y, hy, hadr⟩ := hpay.exact x hxm
        rw [hxi] at hamt hy
        rw [hw] at hy; cases hy
        refine hno ⟨_, hmem, Or.inr ⟨x, hxm, hxi, ?_, ?_⟩⟩
        · rw [hn, hamt, how]
        · rw [hadr, hcr]
  have := C45_paid_in_time E hE f hf s s' hr hp i l.length (List.getElem?_eq_some_iff.1 hv).1 key
    hreg hidx
  omega

end Verif
