import Verif.Spec.Duties
import Verif.Proofs.Rings
import Verif.Proofs.Upgrade
import Verif.Proofs.Slash

/-!
# What is known in advance

One relation, `Duty`, is followed through every function that writes the registry: keys stay, and
activations and exits are scheduled only for epochs after `E.max_seed_lookahead` from now.
-/

namespace Verif

open Spec

/-- The last epoch whose active set is already decided. -/
def decided (E : Env) (s : State) : Nat := epochOf E s.slot + E.max_seed_lookahead

/-- An epoch number that means: not up to epoch `B`. -/
def Late (B x : Nat) : Prop := B < x ∨ x = FAR_FUTURE_EPOCH

/-- The key is the same, and so is everything about activity up to epoch `B`. -/
structure Fixed (B : Nat) (v w : Validator) : Prop where
  key : w.public_key = v.public_key
  activation : w.activation_epoch = v.activation_epoch ∨
    Late B v.activation_epoch ∧ Late B w.activation_epoch
  exit : w.exit_epoch = v.exit_epoch ∨ Late B v.exit_epoch ∧ Late B w.exit_epoch

theorem Late.mono {B C x : Nat} (h : B ≤ C) (hx : Late C x) : Late B x :=
  hx.imp (fun h' => by omega) id

theorem fixed_refl (B : Nat) (v : Validator) : Fixed B v v := ⟨rfl, Or.inl rfl, Or.inl rfl⟩

theorem fixed_trans {B C : Nat} (hBC : B ≤ C) {u v w : Validator} (h : Fixed B u v)
    (h' : Fixed C v w) : Fixed B u w := by
  refine ⟨h'.key.trans h.key, ?_, ?_⟩
  · rcases h'.activation with h1 | ⟨h1, h2⟩
    · rw [h1]; exact h.activation
    · rcases h.activation with h3 | ⟨h3, h4⟩
      · rw [← h3]; exact Or.inr ⟨h1.mono hBC, h2.mono hBC⟩
      · exact Or.inr ⟨h3, h2.mono hBC⟩
  · rcases h'.exit with h1 | ⟨h1, h2⟩
    · rw [h1]; exact h.exit
    · rcases h.exit with h3 | ⟨h3, h4⟩
      · rw [← h3]; exact Or.inr ⟨h1.mono hBC, h2.mono hBC⟩
      · exact Or.inr ⟨h3, h2.mono hBC⟩

/-- Time does not go back, every entry is as above, and new ones are not active. -/
def Duty (E : Env) (s s' : State) : Prop :=
  s.slot ≤ s'.slot ∧
  (∀ (i : Nat) v, s.validators[i]? = some v →
    ∃ w, s'.validators[i]? = some w ∧ Fixed (decided E s) v w) ∧
  (∀ (i : Nat) w, s.validators[i]? = none → s'.validators[i]? = some w →
    Late (decided E s) w.activation_epoch)

theorem dutyPre (E : Env) : Preorder' (Duty E) := by
  refine ⟨fun s => ⟨Nat.le_refl _, fun _ v h => ⟨v, h, fixed_refl _ v⟩, fun i w h h' => ?_⟩, ?_⟩
  · rw [h] at h'; cases h'
  rintro s t u ⟨h1, h2, h3⟩ ⟨g1, g2, g3⟩
  have hd : decided E s ≤ decided E t := Nat.add_le_add_right (epochOf_mono E h1) _
  refine ⟨Nat.le_trans h1 g1, fun i v hv => ?_, fun i w hs hw => ?_⟩
  · obtain ⟨w, hw, h4⟩ := h2 i v hv
    obtain ⟨x, hx, h5⟩ := g2 i w hw
    exact ⟨x, hx, fixed_trans hd h4 h5⟩
  · cases ht : t.validators[i]? with
    | none => exact (g3 i w ht hw).mono hd
    | some v =>
      have h4 := h3 i v hs ht
      obtain ⟨w', hw', h5⟩ := g2 i v ht
      rw [hw] at hw'; cases hw'
      rcases h5.activation with h6 | ⟨-, h6⟩
      · rw [h6]; exact h4
      · exact h6.mono hd

theorem duty_of_same {E : Env} {s s' : State} (h : s'.validators = s.validators)
    (hs : s'.slot = s.slot) : Duty E s s' := by
  unfold Duty
  rw [h, hs]
  exact (dutyPre E).refl s

theorem duty_mod {α : Type} {E : Env} {W : List Field} {m : M α} (h : Modifies W m)
    (hW : ∀ x ∈ [Field.validators, .slot], x ∉ W) : Pres (Duty E) m :=
  Pres.mono h fun _ _ h => duty_of_same (h _ (hW .validators (by decide)))
    (h _ (hW .slot (by decide)))

theorem duty_set {E : Env} {s t : State} {i : Nat} {v w : Validator}
    (hv : s.validators[i]? = some v) (h : Fixed (decided E s) v w)
    (ht : t.validators = s.validators.set i w) (hs : t.slot = s.slot) : Duty E s t := by
  have hi := (List.getElem?_eq_some_iff.1 hv).1
  refine ⟨Nat.le_of_eq hs.symm, fun j u hu => ?_, fun j u hu hu' => ?_⟩
  · rw [ht]
    by_cases hj : i = j
    · subst hj
      rw [hv] at hu; cases hu
      exact ⟨w, List.getElem?_set_self hi, h⟩
    · exact ⟨u, by rw [List.getElem?_set_ne hj]; exact hu, fixed_refl _ u⟩
  · have : i ≠ j := by rintro rfl; rw [hv] at hu; cases hu
    rw [ht, List.getElem?_set_ne this, hu] at hu'; cases hu'

theorem duty_append {E : Env} {s s' : State} {l : List Validator}
    (hl : ∀ v ∈ l, v.activation_epoch = FAR_FUTURE_EPOCH)
    (h : s'.validators = s.validators ++ l) (hs : s'.slot = s.slot) : Duty E s s' := by
  refine ⟨Nat.le_of_eq hs.symm, fun i v hv => ?_, fun i w hn hw => ?_⟩
  · exact ⟨v, by rw [h, List.getElem?_append_left (List.getElem?_eq_some_iff.1 hv).1]; exact hv,
      fixed_refl _ v⟩
  · rw [h, List.getElem?_append_right (List.getElem?_eq_none_iff.1 hn)] at hw
    exact Or.inr (hl w (List.mem_of_getElem? hw))

theorem wp_and {α : Type} {m : M α} {s : State} {Q Q' : α → State → Prop}
    {R R' : Err → State → Prop} (h : wp m Q R s) (h' : wp m Q' R' s) :
    wp m (fun a t => Q a t ∧ Q' a t) (fun e t => R e t ∧ R' e t) s := by
  unfold wp at *
  split at h <;> simp_all

/-! ## Exits and slashings -/

theorem duty_exit_write {E : Env} {i epoch : Nat} {s t : State} {v : Validator}
    (hv : s.validators[i]? = some v) (hex : v.exit_epoch = FAR_FUTURE_EPOCH)
    (hep : decided E s < epoch) (ht : t.validators = s.validators) (hts : t.slot = s.slot) :
    wp (do
        updValidator i fun v => { v with exit_epoch := epoch }
        let w ← U64.checkedAdd epoch E.min_validator_withdrawability_delay
        updValidator i fun v => { v with withdrawable_epoch := w })
      (fun _ s' => Duty E s s') (fun _ s' => Duty E s s') t := by
  have hi := (List.getElem?_eq_some_iff.1 hv).1
  simp only [wps]
  refine ⟨fun v1 hv1 => ?_, fun _ => duty_of_same ht hts⟩
  rw [ht, hv] at hv1; cases hv1
  have h1 : Duty E s { t with validators := t.validators.set i { v with exit_epoch := epoch } } :=
    duty_set (w := { v with exit_epoch := epoch }) hv
      ⟨rfl, Or.inl rfl, Or.inr ⟨Or.inr hex, Or.inl hep⟩⟩ (by rw [ht]) hts
  refine ⟨fun w hw => ⟨fun v2 hv2 => ?_, fun _ => h1⟩, fun _ _ => h1⟩
  rw [ht, List.getElem?_set_self hi] at hv2; cases hv2
  exact duty_set (w := { v with exit_epoch := epoch, withdrawable_epoch := w }) hv
    ⟨rfl, Or.inl rfl, Or.inr ⟨Or.inr hex, Or.inl hep⟩⟩ (by simp only [List.set_set, ht]) hts

theorem phase0_exit_duty {E : Env} {i : Nat} : Pres (Duty E) (initiate_validator_exit E i) := by
  intro s
  have r0 := (dutyPre E).refl s
  unfold initiate_validator_exit
  rw [wp_bind, wp_get, wp_bind, wp_liftM]
  refine ⟨fun v hv => ?_, fun _ _ => r0⟩
  rw [idx_eq_ok] at hv
  rw [wp_ite]
  refine ⟨fun h => r0, fun h => ?_⟩
  rw [wp_bind, wp_liftM]
  refine ⟨fun epoch he => ?_, fun _ _ => r0⟩
  have := (exit_queue_epoch_spec he).1
  exact duty_exit_write hv (Decidable.not_not.1 h) (by unfold decided; omega) rfl rfl

theorem exit_churn_late {E : Env} {b : Nat} (s : State) :
    wp (Electra.compute_exit_epoch_and_update_churn E b)
      (fun e t => decided E s < e ∧ t.validators = s.validators ∧ t.slot = s.slot)
      (fun _ t => Duty E s t) s := by
  have r0 := (dutyPre E).refl s
  unfold Electra.compute_exit_epoch_and_update_churn
  simp only [wps]
  refine ⟨fun r hr => ⟨fun _ _ => ⟨?_, trivial, trivial⟩, fun _ _ => r0⟩, fun _ _ => r0⟩
  have := (Electra.churn_step_spec hr).1
  unfold decided; omega

theorem consolidation_churn_late {E : Env} {b : Nat} (s : State) :
    wp (Electra.compute_consolidation_epoch_and_update_churn E b)
      (fun e t => decided E s < e ∧ t.validators = s.validators ∧ t.slot = s.slot)
      (fun _ t => Duty E s t) s := by
  have r0 := (dutyPre E).refl s
  unfold Electra.compute_consolidation_epoch_and_update_churn
  simp only [wps]
  refine ⟨fun r hr => ⟨fun _ _ => ⟨?_, trivial, trivial⟩, fun _ _ => r0⟩, fun _ _ => r0⟩
  have := (Electra.churn_step_spec hr).1
  unfold decided; omega

theorem electra_exit_duty {E : Env} {i : Nat} :
    Pres (Duty E) (Electra.initiate_validator_exit E i) := by
  intro s
  have r0 := (dutyPre E).refl s
  unfold Electra.initiate_validator_exit
  rw [wp_bind, wp_get, wp_bind, wp_liftM]
  refine ⟨fun v hv => ?_, fun _ _ => r0⟩
  rw [idx_eq_ok] at hv
  rw [wp_ite]
  refine ⟨fun h => r0, fun h => ?_⟩
  rw [wp_bind]
  refine wp_mono (exit_churn_late s) (fun epoch t ht => ?_) (fun e t ht => ht)
  exact duty_exit_write hv (Decidable.not_not.1 h) ht.1 ht.2.1 ht.2.2

theorem exit_duty {E : Env} {f : Fork} {i : Nat} : Pres (Duty E) (f.initiate_validator_exit E i) := by
  unfold Fork.initiate_validator_exit
  split
  · exact electra_exit_duty
  · exact phase0_exit_duty

/-- Writing anything but the key, the activation and the exit epoch. -/
theorem updValidator_duty {E : Env} {i : Nat} {g : Validator → Validator}
    (h1 : ∀ v, (g v).public_key = v.public_key)
    (h2 : ∀ v, (g v).activation_epoch = v.activation_epoch)
    (h3 : ∀ v, (g v).exit_epoch = v.exit_epoch) : Pres (Duty E) (updValidator i g) := by
  apply Pres.updValidator (dutyPre E)
  intro s v hv
  exact duty_set hv ⟨h1 v, Or.inl (h2 v), Or.inl (h3 v)⟩ rfl rfl

theorem upd_duty {E : Env} {g : State → State} (h : ∀ s, (g s).validators = s.validators)
    (hs : ∀ s, (g s).slot = s.slot) :
    Pres (Duty E) (upd g) := Pres.upd fun s => duty_of_same (h s) (hs s)

theorem slash_duty {E : Env} {f : Fork} {i : Nat} {w : Option Nat} :
    Pres (Duty E) (slash_validator E f i w) := by
  have pre := dutyPre E
  unfold slash_validator
  walk pre [exit_duty, updValidator_duty,
    duty_mod increase_mod (by decide), duty_mod decrease_mod (by decide),
    upd_duty]

theorem slash_all_duty {E : Env} {f : Fork} {e : Nat} {l : List Nat} {b : Bool} :
    Pres (Duty E) (slash_all E f e l b) := by
  have pre := dutyPre E
  induction l generalizing b with
  | nil => unfold slash_all; walk pre
  | cons x l ih => unfold slash_all; walk pre [slash_duty, ih]

theorem proposer_slashing_duty {E : Env} {f : Fork} {op : ProposerSlashing} :
    Pres (Duty E) (process_proposer_slashing E f op) := by
  have pre := dutyPre E
  unfold process_proposer_slashing; walk pre [slash_duty]

theorem attester_slashing_duty {E : Env} {f : Fork} {op : AttesterSlashing} :
    Pres (Duty E) (process_attester_slashing E f op) := by
  have pre := dutyPre E
  unfold process_attester_slashing; walk pre [slash_all_duty]

/-! ## Other operations -/

theorem add_validator_duty {E : Env} {f : Fork} {k : PublicKey} {w : Bytes32} {n : Nat} :
    Pres (Duty E) (add_validator_to_registry E f k w n) := by
  intro s
  unfold add_validator_to_registry
  rw [wp_bind, wp_liftM]
  refine ⟨fun v hv => ?_, fun _ _ => (dutyPre E).refl s⟩
  have hv' : v.activation_epoch = FAR_FUTURE_EPOCH := by
    unfold get_validator_from_deposit at hv
    simp only [run] at hv
    obtain ⟨_, _, rfl⟩ := hv
    rfl
  cases f <;> exact duty_append (l := [v]) (by simpa using hv') rfl rfl

theorem switch_duty {E : Env} {i : Nat} :
    Pres (Duty E) (Electra.switch_to_compounding_validator E i) := by
  have pre := dutyPre E
  unfold Electra.switch_to_compounding_validator
  walk pre [duty_mod queue_excess_mod (by decide), updValidator_duty]

theorem phase0_apply_deposit_duty {E : Env} {f : Fork} {k : PublicKey} {w : Bytes32} {n : Nat}
    {sig : Signature} : Pres (Duty E) (Phase0.apply_deposit E f k w n sig) := by
  have pre := dutyPre E
  unfold Phase0.apply_deposit
  walk pre [duty_mod increase_mod (by decide), add_validator_duty]

theorem electra_apply_deposit_duty {E : Env} {k : PublicKey} {w : Bytes32} {n : Nat}
    {sig : Signature} : Pres (Duty E) (Electra.apply_deposit E k w n sig) := by
  have pre := dutyPre E
  unfold Electra.apply_deposit
  walk pre [switch_duty, add_validator_duty, upd_duty]

theorem apply_deposit_duty {E : Env} {f : Fork} {k : PublicKey} {w : Bytes32} {n : Nat}
    {sig : Signature} : Pres (Duty E) (apply_deposit E f k w n sig) := by
  have pre := dutyPre E
  unfold apply_deposit; walk pre [phase0_apply_deposit_duty, electra_apply_deposit_duty]

theorem deposit_duty {E : Env} {f : Fork} {d : Deposit} : Pres (Duty E) (process_deposit E f d) := by
  have pre := dutyPre E
  unfold process_deposit; walk pre [apply_deposit_duty, upd_duty]

theorem voluntary_exit_duty {E : Env} {f : Fork} {op : SignedVoluntaryExit} :
    Pres (Duty E) (process_voluntary_exit E f op) := by
  have pre := dutyPre E
  unfold process_voluntary_exit; walk pre [exit_duty]

theorem bls_change_duty {E : Env} {op : SignedBlsToExecutionChange} :
    Pres (Duty E) (process_bls_to_execution_change E op) := by
  have pre := dutyPre E
  unfold process_bls_to_execution_change
  walk pre [updValidator_duty]

theorem withdrawal_request_duty {E : Env} {r : ExecutionLayerWithdrawalRequest} :
    Pres (Duty E) (Electra.process_execution_layer_withdrawal_request E r) := by
  have pre := dutyPre E
  unfold Electra.process_execution_layer_withdrawal_request
  walk pre [electra_exit_duty, duty_mod exit_churn_mod (by decide),
    upd_duty]

theorem deposit_receipt_duty {E : Env} {r : DepositReceipt} :
    Pres (Duty E) (Electra.process_deposit_receipt E r) := by
  have pre := dutyPre E
  unfold Electra.process_deposit_receipt
  walk pre [electra_apply_deposit_duty, upd_duty]

theorem consolidation_duty {E : Env} {op : SignedConsolidation} :
    Pres (Duty E) (Electra.process_consolidation E op) := by
  have pre := dutyPre E
  intro s
  unfold Electra.process_consolidation
  rw [wp_bind, wp_get, wp_bind, wp_liftM]
  refine ⟨fun v hv => ?_, fun _ _ => pre.refl s⟩
  obtain ⟨hvi, hex⟩ : s.validators[op.message.source_index]? = some v ∧
      v.exit_epoch = FAR_FUTURE_EPOCH := by
    simp only [Electra.check_consolidation, run] at hv
    obtain ⟨_, _, _, _, _, w, hw, _, _, _, _, _, _, h, _, _, _, _, _, _, rfl⟩ := hv
    exact ⟨hw, Decidable.not_not.1 (of_decide_eq_false h)⟩
  rw [wp_bind]
  refine wp_mono (consolidation_churn_late (E := E) s) (fun epoch t ht => ?_) (fun _ _ h => h)
  obtain ⟨h1, h2, h3⟩ := ht
  rw [wp_bind, wp_updValidator]
  refine ⟨fun v' hv' => ?_, fun _ => duty_of_same h2 h3⟩
  rw [h2, hvi] at hv'; cases hv'
  have h4 : Duty E s { t with
      validators := t.validators.set op.message.source_index { v with exit_epoch := epoch } } :=
    duty_set (w := { v with exit_epoch := epoch }) hvi ⟨rfl, Or.inl rfl, Or.inr ⟨Or.inr hex, Or.inl h1⟩⟩ (by rw [h2]) h3
  refine wp_mono (?_ : wp _ (fun _ s' => Duty E _ s') (fun _ s' => Duty E _ s') _)
    (fun _ _ h => pre.trans h4 h) (fun _ _ h => pre.trans h4 h)
  refine (?_ : Pres (Duty E) _) _
  walk pre [updValidator_duty, upd_duty]

theorem operations_duty {E : Env} {f : Fork} {b : BeaconBlockBody} :
    Pres (Duty E) (process_operations E f b) := by
  have pre := dutyPre E
  unfold process_operations
  walk pre [proposer_slashing_duty, attester_slashing_duty, duty_mod attestation_mod (by decide),
    deposit_duty, voluntary_exit_duty, bls_change_duty, withdrawal_request_duty,
    deposit_receipt_duty, consolidation_duty]

theorem block_duty {E : Env} {f : Fork} {b : BeaconBlock} : Pres (Duty E) (process_block E f b) := by
  have pre := dutyPre E
  unfold process_block
  walk pre [duty_mod header_mod (by decide), duty_mod block_payload_mod (by decide),
    duty_mod randao_mod (by decide), duty_mod eth1_mod (by decide), operations_duty,
    duty_mod sync_aggregate_mod (by decide)]

/-! ## Epochs -/

theorem mark_duty {E : Env} {f : Fork} {e i : Nat} : Pres (Duty E) (mark_eligible E f e i) := by
  have pre := dutyPre E
  unfold mark_eligible
  walk pre [updValidator_duty]

theorem eject_duty {E : Env} {f : Fork} {e i : Nat} : Pres (Duty E) (eject_if_low E f e i) := by
  have pre := dutyPre E
  unfold eject_if_low; walk pre [exit_duty]

theorem registry_duty {E : Env} {f : Fork} : Pres (Duty E) (process_registry_updates E f) := by
  have pre := dutyPre E
  intro s
  unfold process_registry_updates
  rw [wp_bind, wp_get, wp_bind, wp_liftM]
  refine ⟨fun epoch hep => ?_, fun _ _ => pre.refl s⟩
  obtain ⟨rfl, -⟩ := current_epoch_eq_ok.1 hep
  rw [wp_bind]
  have h1 : Pres (Duty E) (forEach (List.range s.validators.length) fun i => do
      mark_eligible E f (epochOf E s.slot) i
      eject_if_low E f (epochOf E s.slot) i) := by
    walk pre [mark_duty, eject_duty]
  have h2 : Modifies [.validators, .exit_balance_to_consume, .earliest_exit_epoch]
      (forEach (List.range s.validators.length) fun i => do
      mark_eligible E f (epochOf E s.slot) i
      eject_if_low E f (epochOf E s.slot) i) := by
    mods [mark_mod, eject_mod]
  refine wp_mono (wp_and (h1 s) (h2 s)) (fun _ t ht => ?_) fun _ _ h => h.1
  obtain ⟨ht, hts⟩ := ht
  replace hts : t.slot = s.slot := hts .slot (by decide)
  rw [wp_bind, wp_liftM]
  refine ⟨fun e he => ?_, fun _ _ => ht⟩
  obtain ⟨rfl, -⟩ := activation_exit_epoch_eq_ok.1 he
  rw [wp_bind, wp_get, wp_bind, wp_liftM]
  refine ⟨fun l hl => ?_, fun _ _ => ht⟩
  have hfar := to_activate_far hl
  refine wp_mono (?_ : wp _ (fun _ s' => Duty E t s') (fun _ s' => Duty E t s') t)
    (fun _ _ h => pre.trans ht h) (fun _ _ h => pre.trans ht h)
  have hlate : decided E t < epochOf E s.slot + 1 + E.max_seed_lookahead := by
    unfold decided; rw [hts]; omega
  refine wp_forEach (fun rest u => Duty E t u ∧ u.slot = t.slot ∧
    ∀ i ∈ rest, ∀ v, u.validators[i]? = some v → v.activation_epoch = FAR_FUTURE_EPOCH ∨
      v.activation_epoch = epochOf E s.slot + 1 + E.max_seed_lookahead) ?_ (fun u h => h.1)
    ⟨pre.refl t, rfl, fun i hi v hv => Or.inl (hfar i hi v hv)⟩
  intro i rest u ⟨hu, hus, hur⟩
  rw [wp_updValidator]
  refine ⟨fun v hv => ?_, fun _ => hu⟩
  have hv' := hur i (by simp) v hv
  have hB : decided E u = decided E t := by unfold decided; rw [hus]
  refine ⟨pre.trans hu (duty_set (w := { v with
      activation_epoch := epochOf E s.slot + 1 + E.max_seed_lookahead }) hv ⟨rfl, Or.inr ⟨?_, ?_⟩, Or.inl rfl⟩ rfl rfl), hus, ?_⟩
  · rw [hB]
    rcases hv' with h' | h'
    · exact Or.inr h'
    · rw [h']; exact Or.inl hlate
  · rw [hB]; exact Or.inl hlate
  · intro j hj w hw
    by_cases hij : i = j
    · subst hij
      rw [List.getElem?_set_self (List.getElem?_eq_some_iff.1 hv).1] at hw
      cases hw; exact Or.inr rfl
    · rw [List.getElem?_set_ne hij] at hw
      exact hur j (by simp [hj]) w hw

theorem pending_consolidations_loop_duty {E : Env} {a : Nat} {l : List PendingConsolidation} :
    Pres (Duty E) (Electra.pending_consolidations_loop E l a) := by
  have pre := dutyPre E
  induction l generalizing a with
  | nil => unfold Electra.pending_consolidations_loop; walk pre
  | cons d l ih =>
    unfold Electra.pending_consolidations_loop
    walk pre [ih, duty_mod increase_mod (by decide), duty_mod decrease_mod (by decide), switch_duty]

theorem pending_consolidations_duty {E : Env} :
    Pres (Duty E) (Electra.process_pending_consolidations E) := by
  have pre := dutyPre E
  unfold Electra.process_pending_consolidations
  walk pre [pending_consolidations_loop_duty, upd_duty]

theorem effective_duty {E : Env} {f : Fork} :
    Pres (Duty E) (process_effective_balance_updates E f) := by
  have pre := dutyPre E
  unfold process_effective_balance_updates
  walk pre [updValidator_duty]

theorem epoch_duty {E : Env} {f : Fork} : Pres (Duty E) (process_epoch E f) := by
  have pre := dutyPre E
  unfold process_epoch process_epoch_first
  walk pre [duty_mod justification_mod (by decide), duty_mod inactivity_mod (by decide),
    duty_mod rewards_mod (by decide), registry_duty, duty_mod slashings_mod (by decide),
    duty_mod eth1_reset_mod (by decide), duty_mod pending_deposits_mod (by decide),
    pending_consolidations_duty, effective_duty, duty_mod slashings_reset_mod (by decide),
    duty_mod randao_reset_mod (by decide), duty_mod historical_mod (by decide),
    duty_mod record_updates_mod (by decide), duty_mod flag_updates_mod (by decide),
    duty_mod sync_committees_mod (by decide)]

theorem slots_duty {E : Env} {f : Fork} {t : Nat} : Pres (Duty E) (process_slots E f t) :=
  slots_pres (dutyPre E) <| slot_step_pres (dutyPre E) (duty_mod slot_mod (by decide)) epoch_duty
    fun s => ⟨Nat.le_succ _, fun _ v h => ⟨v, h, fixed_refl _ v⟩, fun i w h h' => by
      rw [h] at h'; cases h'⟩

theorem entry_duty {E : Env} {f : Fork} {m : M Unit} (h : EntryPoint E f m) :
    Pres (Duty E) m := by
  cases h with
  | process_slots => exact slots_duty
  | state_transition => exact (transition_pres (dutyPre E) slots_duty block_duty).2
  | state_transition_block_in_slot => exact (transition_pres (dutyPre E) slots_duty block_duty).1
  | process_slot => exact duty_mod slot_mod (by decide)
  | process_epoch => exact epoch_duty
  | process_block => exact block_duty
  | process_block_header => exact duty_mod header_mod (by decide)
  | process_randao => exact duty_mod randao_mod (by decide)
  | process_eth1_data => exact duty_mod eth1_mod (by decide)
  | process_operations => exact operations_duty
  | process_execution_payload => exact duty_mod payload_mod (by decide)
  | process_withdrawals => exact duty_mod withdrawals_mod (by decide)
  | process_sync_aggregate => exact duty_mod sync_aggregate_mod (by decide)
  | process_proposer_slashing => exact proposer_slashing_duty
  | process_attester_slashing => exact attester_slashing_duty
  | process_attestation => exact duty_mod attestation_mod (by decide)
  | process_deposit => exact deposit_duty
  | process_voluntary_exit => exact voluntary_exit_duty
  | process_bls_to_execution_change => exact bls_change_duty
  | process_execution_layer_withdrawal_request => exact withdrawal_request_duty
  | process_deposit_receipt => exact deposit_receipt_duty
  | process_consolidation => exact consolidation_duty
  | initiate_validator_exit => exact exit_duty
  | slash_validator => exact slash_duty
  | increase_balance => exact duty_mod increase_mod (by decide)
  | decrease_balance => exact duty_mod decrease_mod (by decide)

/-! ## Upgrades -/

theorem upgrade_duty {E : Env} {g : Fork} {s s' : State} (h : upgrade_to E g s = .ok s') :
    Duty E s s' ∧ s'.randao_mixes = s.randao_mixes ∧
      s'.genesis_validators_root = s.genesis_validators_root := by
  cases g <;> unfold upgrade_to at h <;> dsimp only at h
  case Phase0 => cases h
  case Electra =>
    obtain ⟨h1, -, h2, -⟩ := into_electra h
    have hslot : s'.slot = s.slot := h2 .slot (by decide)
    refine ⟨⟨Nat.le_of_eq hslot.symm, fun i v hv => ?_, fun i w hn hw => ?_⟩,
      h2 .randao_mixes (by decide), h2 .genesis_validators_root (by decide)⟩
    · refine ⟨resetValidator v, by rw [h1.validators, List.getElem?_map, hv]; rfl, ?_⟩
      unfold resetValidator
      split
      · exact ⟨rfl, Or.inl rfl, Or.inl rfl⟩
      · exact fixed_refl _ _
    · rw [h1.validators, List.getElem?_map, hn] at hw; cases hw
  case Altair =>
    have h2 := (altair_carried h).1
    exact ⟨duty_of_same (h2 .validators (by decide)) (h2 .slot (by decide)),
      h2 .randao_mixes (by decide), h2 .genesis_validators_root (by decide)⟩
  case Bellatrix =>
    have h2 := (into_bellatrix h).2.2
    exact ⟨duty_of_same (h2 .validators (by decide)) (h2 .slot (by decide)),
      h2 .randao_mixes (by decide), h2 .genesis_validators_root (by decide)⟩
  case Capella =>
    have h2 := (into_capella h).2.2
    exact ⟨duty_of_same (h2 .validators (by decide)) (h2 .slot (by decide)),
      h2 .randao_mixes (by decide), h2 .genesis_validators_root (by decide)⟩
  case Deneb =>
    have h2 := (into_deneb h).2.2
    exact ⟨duty_of_same (h2 .validators (by decide)) (h2 .slot (by decide)),
      h2 .randao_mixes (by decide), h2 .genesis_validators_root (by decide)⟩

theorem upgrade_mix {E : Env} {g : Fork} {s s' : State} (h : upgrade_to E g s = .ok s') :
    Mix E s s' := by
  obtain ⟨h1, h2, -⟩ := upgrade_duty h
  refine ⟨h1.1, fun p _ _ => ?_⟩
  unfold mixAt
  rw [h2]

theorem future_duty {E : Env} {f f' : Fork} {s s' : State} (h : Future E f s f' s') :
    Duty E s s' ∧ Mix E s s' := by
  induction h with
  | start => exact ⟨(dutyPre E).refl _, (mixPre E).refl _⟩
  | call _ hm ih =>
    exact ⟨(dutyPre E).trans ih.1 ((entry_duty hm).final _),
      (mixPre E).trans ih.2 ((entry_mix hm).final _)⟩
  | upgrade _ _ h ih =>
    exact ⟨(dutyPre E).trans ih.1 (upgrade_duty h).1, (mixPre E).trans ih.2 (upgrade_mix h)⟩

/-! ## Active sets, seeds, committees -/

theorem Fixed.active {B e : Nat} {v w : Validator} (h : Fixed B v w) (he : e ≤ B)
    (hf : e < FAR_FUTURE_EPOCH) : ActiveAt w e ↔ ActiveAt v e := by
  have late : ∀ x, Late B x → e < x := fun x hx => by
    rcases hx with hx | rfl <;> omega
  unfold ActiveAt
  rcases h.activation with h1 | ⟨h1, h2⟩
  · rw [h1]
    rcases h.exit with h3 | ⟨h3, h4⟩
    · rw [h3]
    · have := late _ h3; have := late _ h4; omega
  · have := late _ h1; have := late _ h2; omega

theorem active_decided {E : Env} {s s' : State} (h : Duty E s s') {e : Nat}
    (he : e ≤ decided E s) (hf : e < FAR_FUTURE_EPOCH) :
    activeIndices s' e = activeIndices s e := by
  have h1 : (activeIndices s' e).Pairwise (· < ·) :=
    List.Pairwise.filter _ List.pairwise_lt_range
  have h2 : (activeIndices s e).Pairwise (· < ·) :=
    List.Pairwise.filter _ List.pairwise_lt_range
  refine List.Perm.eq_of_pairwise (le := (· < ·)) ?_ h1 h2 ?_
  · intro a b _ _ h h'; omega
  rw [List.perm_ext_iff_of_nodup (h1.imp Nat.ne_of_lt) (h2.imp Nat.ne_of_lt)]
  intro i
  rw [mem_activeIndices, mem_activeIndices]
  constructor
  · rintro ⟨w, hw, ha⟩
    cases hv : s.validators[i]? with
    | none =>
      have := h.2.2 i w hv hw
      have := ha.1
      rcases h.2.2 i w hv hw with h3 | h3 <;> omega
    | some v =>
      obtain ⟨w', hw', h3⟩ := h.2.1 i v hv
      rw [hw] at hw'; cases hw'
      exact ⟨v, rfl, (h3.active he hf).1 ha⟩
  · rintro ⟨v, hv, ha⟩
    obtain ⟨w, hw, h3⟩ := h.2.1 i v hv
    exact ⟨w, hw, (h3.active he hf).2 ha⟩

theorem seed_decided {E : Env} {s s' : State} (h : Mix E s s') {e : Nat} {t : DomainType}
    (hn : e ≤ epochOf E s.slot + E.min_seed_lookahead)
    (hw : epochOf E s'.slot + E.min_seed_lookahead + 2 < e + E.epochs_per_historical_vector) :
    get_seed E s' e t = get_seed E s e t := by
  unfold get_seed
  cases ha : (E.epochs_per_historical_vector -? E.min_seed_lookahead) with
  | error => rfl
  | ok a =>
    rw [R_bind_ok, R_bind_ok]
    cases hb : (e +? a) with
    | error => rfl
    | ok b =>
      rw [R_bind_ok, R_bind_ok]
      cases hc : (b -? 1) with
      | error => rfl
      | ok c =>
        rw [R_bind_ok, R_bind_ok]
        obtain ⟨rfl, hle⟩ := sub_eq_ok.1 ha
        obtain ⟨rfl, -⟩ := add_eq_ok.1 hb
        obtain ⟨rfl, hle'⟩ := sub_eq_ok.1 hc
        have := h.2 (e + (E.epochs_per_historical_vector - E.min_seed_lookahead) - 1)
          (by omega) (by omega)
        have : get_randao_mix E s' (e + (E.epochs_per_historical_vector - E.min_seed_lookahead) - 1) =
            get_randao_mix E s (e + (E.epochs_per_historical_vector - E.min_seed_lookahead) - 1) := by
          unfold get_randao_mix
          cases hd : (e + (E.epochs_per_historical_vector - E.min_seed_lookahead) - 1) %?
              E.epochs_per_historical_vector with
          | error => rfl
          | ok k =>
            rw [R_bind_ok, R_bind_ok]
            obtain ⟨rfl, -⟩ := mod_eq_ok.1 hd
            unfold mixAt at this
            unfold idx
            rw [this]
        rw [this]

theorem committee_decided {E : Env} {s s' : State} (h : Duty E s s') (hm : Mix E s s')
    {slot index : Nat} (he : epochOf E slot ≤ decided E s) (hf : epochOf E slot < FAR_FUTURE_EPOCH)
    (hn : epochOf E slot ≤ epochOf E s.slot + E.min_seed_lookahead)
    (hw : epochOf E s'.slot + E.min_seed_lookahead + 2 <
      epochOf E slot + E.epochs_per_historical_vector) :
    get_beacon_committee E s' slot index = get_beacon_committee E s slot index := by
  unfold get_beacon_committee
  cases hc : compute_epoch_at_slot E slot with
  | error => rfl
  | ok e =>
    rw [R_bind_ok, R_bind_ok]
    obtain ⟨rfl, -⟩ := div_eq_ok.1 hc
    have h1 : get_active_validator_indices s' (slot / E.slots_per_epoch) =
        get_active_validator_indices s (slot / E.slots_per_epoch) := by
      rw [activeIndices_eq, activeIndices_eq]
      exact active_decided h he hf
    have h2 := seed_decided hm (t := .BeaconAttester) hn hw
    unfold epochOf at h2
    unfold get_committee_count_per_slot
    rw [h1, h2]

end Verif
