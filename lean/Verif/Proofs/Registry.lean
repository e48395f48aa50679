import Verif.Spec.Registry
import Verif.Spec.Config
import Verif.Proofs.Modifies
import Verif.Proofs.Sort

/-!
# The registry only moves forward

One relation, `Reg`, is followed through every function that writes the registry; for all
others it is a consequence of not writing it.
-/

namespace Verif

open Spec

theorem validatorStep_refl (v : Validator) : ValidatorStep v v :=
  ⟨rfl, id, fun _ => rfl, fun _ => rfl, fun _ => rfl, fun _ => Nat.le_refl _, fun h => ⟨h, rfl⟩⟩

theorem validatorStep_trans {u v w : Validator} (h : ValidatorStep u v) (h' : ValidatorStep v w) :
    ValidatorStep u w := by
  refine ⟨h'.key.trans h.key, fun x => h'.slashed (h.slashed x), fun x => ?_, fun x => ?_,
    fun x => ?_, fun x => ?_, fun x => ?_⟩
  · have := h.eligibility x; rw [h'.eligibility (by rw [this]; exact x), this]
  · have := h.activation x; rw [h'.activation (by rw [this]; exact x), this]
  · have := h.exit x; rw [h'.exit (by rw [this]; exact x), this]
  · exact Nat.le_trans (h.withdrawable x) (h'.withdrawable (by rw [h.exit x]; exact x))
  · obtain ⟨h1, h2⟩ := h.credentials x
    obtain ⟨h3, h4⟩ := h'.credentials h1
    exact ⟨h3, h4.trans h2⟩

/-- The registry moves forward, and keeps withdrawals after exits. -/
def Reg (s s' : State) : Prop :=
  RegistryStep s.validators s'.validators ∧ (ExitBeforeWithdrawal s → ExitBeforeWithdrawal s')

theorem regPre : Preorder' Reg :=
  ⟨fun _ => ⟨fun _ v h => ⟨v, h, validatorStep_refl v⟩, id⟩,
   fun h h' => ⟨fun i v hv => by
     obtain ⟨w, hw, h1⟩ := h.1 i v hv
     obtain ⟨x, hx, h2⟩ := h'.1 i w hw
     exact ⟨x, hx, validatorStep_trans h1 h2⟩, fun x => h'.2 (h.2 x)⟩⟩

theorem reg_of_same {s s' : State} (h : s'.validators = s.validators) : Reg s s' := by
  unfold Reg RegistryStep ExitBeforeWithdrawal
  rw [h]
  exact regPre.refl s

theorem reg_mod {α : Type} {W : List Field} {m : M α} (h : Modifies W m)
    (hW : Field.validators ∉ W) : Pres Reg m :=
  Pres.mono h fun _ _ h => reg_of_same (h _ hW)

theorem reg_set {s : State} {i : Nat} {v w : Validator} (hv : s.validators[i]? = some v)
    (h : ValidatorStep v w)
    (hw : (v.exit_epoch = FAR_FUTURE_EPOCH → v.withdrawable_epoch = FAR_FUTURE_EPOCH) →
      w.exit_epoch = FAR_FUTURE_EPOCH → w.withdrawable_epoch = FAR_FUTURE_EPOCH) :
    Reg s { s with validators := s.validators.set i w } := by
  have hi := (List.getElem?_eq_some_iff.1 hv).1
  constructor
  · intro j u hu
    by_cases hj : i = j
    · subst hj
      rw [hv] at hu; cases hu
      exact ⟨w, List.getElem?_set_self hi, h⟩
    · exact ⟨u, by rw [List.getElem?_set_ne hj]; exact hu, validatorStep_refl u⟩
  · intro hs u hu
    rcases List.mem_or_eq_of_mem_set hu with hu | rfl
    · exact hs u hu
    · exact hw (hs v (List.mem_of_getElem? hv))

theorem reg_append {s : State} {l : List Validator}
    (hl : ∀ v ∈ l, v.exit_epoch = FAR_FUTURE_EPOCH → v.withdrawable_epoch = FAR_FUTURE_EPOCH)
    {s' : State} (h : s'.validators = s.validators ++ l) : Reg s s' := by
  constructor
  · intro i v hv
    exact ⟨v, by rw [h, List.getElem?_append_left (List.getElem?_eq_some_iff.1 hv).1]; exact hv,
      validatorStep_refl v⟩
  · intro hs v hv
    rw [h, List.mem_append] at hv
    exact hv.elim (hs v) (hl v)

/-- Follow a preorder through a program. -/
syntax "walk" ident (" [" term,* "]")? : tactic

macro_rules
  | `(tactic| walk $p:ident) => `(tactic| walk $p:ident [])
  | `(tactic| walk $p:ident [$ts,*]) => do
    let ts := ts.getElems
    `(tactic| repeat' first
      | with_reducible apply Pres.pure $p
      | with_reducible apply Pres.get $p
      | with_reducible apply Pres.liftM $p
      | with_reducible apply Pres.rd $p
      $[| with_reducible apply $ts]*
      | with_reducible apply Pres.bind $p
      | with_reducible apply Pres.ite
      | with_reducible apply Pres.forEach $p
      | with_reducible apply Pres.foldlM $p
      | with_reducible intro _
      | rfl
      | split)

/-! ## Exits and slashings -/

/-- Writing an exit epoch and then the withdrawable epoch. -/
theorem reg_exit_write {E : Env} (hE : SaneConfig E) {i epoch : Nat} {s t : State} {v : Validator}
    (hv : s.validators[i]? = some v) (hex : v.exit_epoch = FAR_FUTURE_EPOCH)
    (ht : t.validators = s.validators) :
    wp (do
        updValidator i fun v => { v with exit_epoch := epoch }
        let w ← U64.checkedAdd epoch E.min_validator_withdrawability_delay
        updValidator i fun v => { v with withdrawable_epoch := w })
      (fun _ s' => Reg s s' ∧ ∀ w, s'.validators[i]? = some w → w.exit_epoch ≠ FAR_FUTURE_EPOCH)
      (fun _ s' => Reg s s') t := by
  have hd := hE.withdrawability_delay.1
  have hi := (List.getElem?_eq_some_iff.1 hv).1
  simp only [wps]
  refine ⟨fun v1 hv1 => ?_, fun _ => reg_of_same ht⟩
  rw [ht, hv] at hv1; cases hv1
  have h1 : Reg s { s with validators := s.validators.set i { v with exit_epoch := epoch } } :=
    reg_set hv ⟨rfl, id, fun _ => rfl, fun _ => rfl, fun h => absurd hex h, fun h => absurd hex h,
      fun h => ⟨h, rfl⟩⟩ (fun hs _ => hs hex)
  have h1' : Reg s { t with validators := t.validators.set i { v with exit_epoch := epoch } } := by
    rw [ht]; exact h1
  refine ⟨fun w hw => ⟨fun v2 hv2 => ?_, fun _ => h1'⟩, fun _ _ => h1'⟩
  have hw := checkedAdd_eq_ok.1 hw
  rw [ht, List.getElem?_set_self hi] at hv2; cases hv2
  have hne : epoch ≠ FAR_FUTURE_EPOCH := by
    unfold FAR_FUTURE_EPOCH U64_BOUND at *; omega
  simp only [List.set_set, ht]
  constructor
  · show Reg s _
    refine reg_set (s := s) (w := { v with exit_epoch := epoch, withdrawable_epoch := w }) hv
      ⟨rfl, id, fun _ => rfl, fun _ => rfl, fun h => absurd hex h, fun h => absurd hex h,
      fun h => ⟨h, rfl⟩⟩ (fun _ h => absurd h hne)
  · intro w' hw'
    rw [List.getElem?_set_self hi] at hw'
    cases hw'
    exact hne

theorem phase0_exit_wp {E : Env} (hE : SaneConfig E) {i : Nat} (s : State) :
    wp (initiate_validator_exit E i)
      (fun _ s' => Reg s s' ∧ ∀ w, s'.validators[i]? = some w → w.exit_epoch ≠ FAR_FUTURE_EPOCH)
      (fun _ s' => Reg s s') s := by
  unfold initiate_validator_exit
  rw [wp_bind, wp_get, wp_bind, wp_liftM]
  refine ⟨fun v hv => ?_, fun _ _ => regPre.refl s⟩
  rw [idx_eq_ok] at hv
  rw [wp_ite]
  refine ⟨fun h => ⟨regPre.refl s, fun w hw => by rw [hv] at hw; cases hw; exact h⟩, fun h => ?_⟩
  rw [wp_bind, wp_liftM]
  refine ⟨fun epoch _ => ?_, fun _ _ => regPre.refl s⟩
  exact reg_exit_write hE hv (Decidable.not_not.1 h) rfl

theorem electra_exit_wp {E : Env} (hE : SaneConfig E) {i : Nat} (s : State) :
    wp (Electra.initiate_validator_exit E i)
      (fun _ s' => Reg s s' ∧ ∀ w, s'.validators[i]? = some w → w.exit_epoch ≠ FAR_FUTURE_EPOCH)
      (fun _ s' => Reg s s') s := by
  unfold Electra.initiate_validator_exit
  rw [wp_bind, wp_get, wp_bind, wp_liftM]
  refine ⟨fun v hv => ?_, fun _ _ => regPre.refl s⟩
  rw [idx_eq_ok] at hv
  rw [wp_ite]
  refine ⟨fun h => ⟨regPre.refl s, fun w hw => by rw [hv] at hw; cases hw; exact h⟩, fun h => ?_⟩
  rw [wp_bind]
  refine wp_mono (exit_churn_mod (E := E) s) (fun epoch t ht => ?_) (fun e t ht => ?_)
  · exact reg_exit_write hE hv (Decidable.not_not.1 h) (ht .validators (by decide))
  · exact reg_of_same (ht .validators (by decide))

theorem exit_wp {E : Env} (hE : SaneConfig E) {f : Fork} {i : Nat} (s : State) :
    wp (f.initiate_validator_exit E i)
      (fun _ s' => Reg s s' ∧ ∀ w, s'.validators[i]? = some w → w.exit_epoch ≠ FAR_FUTURE_EPOCH)
      (fun _ s' => Reg s s') s := by
  unfold Fork.initiate_validator_exit
  split
  · exact electra_exit_wp hE s
  · exact phase0_exit_wp hE s

theorem exit_reg {E : Env} (hE : SaneConfig E) {f : Fork} {i : Nat} :
    Pres Reg (f.initiate_validator_exit E i) := fun s =>
  wp_mono (exit_wp hE s) (fun _ _ h => h.1) fun _ _ h => h

theorem electra_exit_reg {E : Env} (hE : SaneConfig E) {i : Nat} :
    Pres Reg (Electra.initiate_validator_exit E i) := fun s =>
  wp_mono (electra_exit_wp hE s) (fun _ _ h => h.1) fun _ _ h => h

theorem slash_reg {E : Env} (hE : SaneConfig E) {f : Fork} {i : Nat} {w : Option Nat} :
    Pres Reg (slash_validator E f i w) := by
  intro s
  unfold slash_validator
  rw [wp_bind, wp_get, wp_bind, wp_liftM]
  refine ⟨fun epoch _ => ?_, fun _ _ => regPre.refl s⟩
  rw [wp_bind]
  refine wp_mono (exit_wp hE s) (fun _ t ht => ?_) fun _ _ h => h
  obtain ⟨ht, hex⟩ := ht
  rw [wp_bind, wp_updValidator]
  refine ⟨fun v hv => ?_, fun _ => ht⟩
  have hne := hex v hv
  have h1 : Reg t { t with validators := t.validators.set i { v with slashed := true } } :=
    reg_set hv ⟨rfl, fun _ => rfl, fun _ => rfl, fun _ => rfl, fun _ => rfl,
      fun _ => Nat.le_refl _, fun h => ⟨h, rfl⟩⟩ (fun h => h)
  generalize hu : ({ t with validators := t.validators.set i { v with slashed := true } } : State) =
    u at h1
  have hui : u.validators[i]? = some { v with slashed := true } := by
    rw [← hu]; exact List.getElem?_set_self (List.getElem?_eq_some_iff.1 hv).1
  have hsu := regPre.trans ht h1
  rw [wp_bind, wp_liftM]
  refine ⟨fun x _ => ?_, fun _ _ => hsu⟩
  rw [wp_bind, wp_updValidator]
  refine ⟨fun v' hv' => ?_, fun _ => hsu⟩
  rw [hui] at hv'; cases hv'
  have h2 := reg_set (w := { v with
      slashed := true, withdrawable_epoch := max v.withdrawable_epoch x }) hui
    ⟨rfl, id, fun _ => rfl, fun _ => rfl, fun _ => rfl, fun _ => Nat.le_max_left _ _,
      fun h => ⟨h, rfl⟩⟩ (fun _ h => absurd h hne)
  have hsv := regPre.trans hsu h2
  refine wp_mono (?_ : wp _ (fun _ s' => Reg _ s') (fun _ s' => Reg _ s') _)
    (fun _ _ h => regPre.trans hsv h) (fun _ _ h => regPre.trans hsv h)
  refine reg_mod (W := [.slashings, .balances]) ?_ (by decide) _
  mods [increase_mod, decrease_mod]

theorem slash_all_reg {E : Env} (hE : SaneConfig E) {f : Fork} {e : Nat} {l : List Nat} {b : Bool} :
    Pres Reg (slash_all E f e l b) := by
  induction l generalizing b with
  | nil => unfold slash_all; walk regPre
  | cons x l ih => unfold slash_all; walk regPre [slash_reg hE, ih]

theorem proposer_slashing_reg {E : Env} (hE : SaneConfig E) {f : Fork} {op : ProposerSlashing} :
    Pres Reg (process_proposer_slashing E f op) := by
  unfold process_proposer_slashing; walk regPre [slash_reg hE]

theorem attester_slashing_reg {E : Env} (hE : SaneConfig E) {f : Fork} {op : AttesterSlashing} :
    Pres Reg (process_attester_slashing E f op) := by
  unfold process_attester_slashing; walk regPre [slash_all_reg hE]

/-! ## Other operations -/

theorem attestation_reg {E : Env} {f : Fork} {a : Attestation} :
    Pres Reg (process_attestation E f a) := reg_mod attestation_mod (by decide)

theorem validator_from_deposit {E : Env} {f : Fork} {k : PublicKey} {w : Bytes32} {n : Nat}
    {v : Validator} (h : get_validator_from_deposit E f k w n = .ok v) :
    v.exit_epoch = FAR_FUTURE_EPOCH → v.withdrawable_epoch = FAR_FUTURE_EPOCH := by
  unfold get_validator_from_deposit at h
  simp only [run] at h
  obtain ⟨_, _, rfl⟩ := h
  exact id

theorem add_validator_reg {E : Env} {f : Fork} {k : PublicKey} {w : Bytes32} {n : Nat} :
    Pres Reg (add_validator_to_registry E f k w n) := by
  intro s
  unfold add_validator_to_registry
  rw [wp_bind, wp_liftM]
  refine ⟨fun v hv => ?_, fun _ _ => regPre.refl s⟩
  replace hv := validator_from_deposit hv
  cases f <;> exact reg_append (l := [v]) (by simpa using hv) rfl

theorem set_prefix_drop (c : Bytes32) (x : UInt8) :
    (c.set 0 x).toList.drop 1 = c.toList.drop 1 := by
  simp only [Vector.toList, Vector.set, Array.toList_set]
  cases c.toArray.toList <;> rfl

theorem switch_reg {E : Env} {i : Nat} : Pres Reg (Electra.switch_to_compounding_validator E i) := by
  unfold Electra.switch_to_compounding_validator
  walk regPre [reg_mod queue_excess_mod (by decide)]
  apply Pres.updValidator regPre
  intro s v hv
  refine reg_set hv ⟨rfl, id, fun _ => rfl, fun _ => rfl, fun _ => rfl, fun _ => Nat.le_refl _,
    fun h => ⟨?_, set_prefix_drop _ _⟩⟩ (fun h => h)
  simp [COMPOUNDING_WITHDRAWAL_PREFIX]

theorem upd_reg {g : State → State} (h : ∀ s, (g s).validators = s.validators) :
    Pres Reg (upd g) := Pres.upd fun s => reg_of_same (h s)

theorem phase0_apply_deposit_reg {E : Env} {f : Fork} {k : PublicKey} {w : Bytes32} {n : Nat}
    {sig : Signature} : Pres Reg (Phase0.apply_deposit E f k w n sig) := by
  unfold Phase0.apply_deposit
  walk regPre [reg_mod increase_mod (by decide), add_validator_reg]

theorem electra_apply_deposit_reg {E : Env} {k : PublicKey} {w : Bytes32} {n : Nat}
    {sig : Signature} : Pres Reg (Electra.apply_deposit E k w n sig) := by
  unfold Electra.apply_deposit
  walk regPre [switch_reg, add_validator_reg, upd_reg]

theorem apply_deposit_reg {E : Env} {f : Fork} {k : PublicKey} {w : Bytes32} {n : Nat}
    {sig : Signature} : Pres Reg (apply_deposit E f k w n sig) := by
  unfold apply_deposit; walk regPre [phase0_apply_deposit_reg, electra_apply_deposit_reg]

theorem deposit_reg {E : Env} {f : Fork} {d : Deposit} : Pres Reg (process_deposit E f d) := by
  unfold process_deposit; walk regPre [apply_deposit_reg, upd_reg]

theorem voluntary_exit_reg {E : Env} (hE : SaneConfig E) {f : Fork} {op : SignedVoluntaryExit} :
    Pres Reg (process_voluntary_exit E f op) := by
  unfold process_voluntary_exit; walk regPre [exit_reg hE]

theorem bls_change_reg {E : Env} {op : SignedBlsToExecutionChange} :
    Pres Reg (process_bls_to_execution_change E op) := by
  intro s
  unfold process_bls_to_execution_change
  rw [wp_bind, wp_get, wp_bind, wp_liftM]
  refine ⟨fun v hv => ?_, fun _ _ => regPre.refl s⟩
  rw [wp_bind, wp_liftM]
  refine ⟨fun _ h0 => ?_, fun _ _ => regPre.refl s⟩
  rw [getOr_eq_ok] at hv
  have h0 : v.withdrawal_credentials[0] = 0 := by
    rw [rejectIf_eq_ok] at h0
    exact Decidable.not_not.1 (of_decide_eq_false h0)
  rw [wp_bind, wp_liftM]
  refine ⟨fun _ _ => ?_, fun _ _ => regPre.refl s⟩
  rw [wp_bind, wp_liftM]
  refine ⟨fun _ _ => ?_, fun _ _ => regPre.refl s⟩
  rw [wp_updValidator]
  refine ⟨fun v' hv' => ?_, fun _ => regPre.refl s⟩
  rw [hv] at hv'; cases hv'
  exact reg_set hv ⟨rfl, id, fun _ => rfl, fun _ => rfl, fun _ => rfl, fun _ => Nat.le_refl _,
    fun h => absurd h0 h⟩ (fun h => h)

theorem withdrawal_request_reg {E : Env} (hE : SaneConfig E)
    {r : ExecutionLayerWithdrawalRequest} :
    Pres Reg (Electra.process_execution_layer_withdrawal_request E r) := by
  unfold Electra.process_execution_layer_withdrawal_request
  walk regPre [electra_exit_reg hE, reg_mod exit_churn_mod (by decide), upd_reg]

theorem deposit_receipt_reg {E : Env} {r : DepositReceipt} :
    Pres Reg (Electra.process_deposit_receipt E r) := by
  unfold Electra.process_deposit_receipt
  walk regPre [electra_apply_deposit_reg, upd_reg]

theorem consolidation_reg {E : Env} (hE : SaneConfig E) {op : SignedConsolidation} :
    Pres Reg (Electra.process_consolidation E op) := by
  intro s
  unfold Electra.process_consolidation
  rw [wp_bind, wp_get, wp_bind, wp_liftM]
  refine ⟨fun v hv => ?_, fun _ _ => regPre.refl s⟩
  obtain ⟨hvi, hex⟩ : s.validators[op.message.source_index]? = some v ∧
      v.exit_epoch = FAR_FUTURE_EPOCH := by
    simp only [Electra.check_consolidation, run] at hv
    obtain ⟨_, _, _, _, _, w, hw, _, _, _, _, _, _, h, _, _, _, _, _, _, rfl⟩ := hv
    exact ⟨hw, Decidable.not_not.1 (of_decide_eq_false h)⟩
  rw [wp_bind]
  refine wp_mono (consolidation_churn_mod (E := E) s) (fun epoch t ht => ?_)
    (fun e t ht => reg_of_same (ht .validators (by decide)))
  have ht := ht .validators (by decide)
  change t.validators = s.validators at ht
  rw [wp_bind, wp_updValidator]
  refine ⟨fun v' hv' => ?_, fun _ => reg_of_same ht⟩
  rw [ht, hvi] at hv'; cases hv'
  have h1 : Reg s { t with
      validators := t.validators.set op.message.source_index { v with exit_epoch := epoch } } := by
    have := reg_set (s := s) (w := { v with exit_epoch := epoch }) hvi
      ⟨rfl, id, fun _ => rfl, fun _ => rfl, fun h => absurd hex h, fun h => absurd hex h,
        fun h => ⟨h, rfl⟩⟩ (fun hs _ => hs hex)
    rw [ht]; exact this
  rw [wp_bind, wp_liftM]
  refine ⟨fun w hw => ?_, fun _ _ => h1⟩
  have := hE.withdrawability_delay.1
  rw [add_eq_ok, hex] at hw
  unfold FAR_FUTURE_EPOCH U64_BOUND at hw
  omega

theorem operations_reg {E : Env} (hE : SaneConfig E) {f : Fork} {b : BeaconBlockBody} :
    Pres Reg (process_operations E f b) := by
  unfold process_operations
  walk regPre [proposer_slashing_reg hE, attester_slashing_reg hE, attestation_reg, deposit_reg,
    voluntary_exit_reg hE, bls_change_reg, withdrawal_request_reg hE, deposit_receipt_reg,
    consolidation_reg hE]

theorem block_reg {E : Env} (hE : SaneConfig E) {f : Fork} {b : BeaconBlock} :
    Pres Reg (process_block E f b) := by
  unfold process_block
  walk regPre [reg_mod header_mod (by decide), reg_mod block_payload_mod (by decide),
    reg_mod randao_mod (by decide), reg_mod eth1_mod (by decide), operations_reg hE,
    reg_mod sync_aggregate_mod (by decide)]

/-! ## Epochs -/

theorem mark_reg {E : Env} {f : Fork} {e i : Nat} : Pres Reg (mark_eligible E f e i) := by
  intro s
  unfold mark_eligible
  rw [wp_bind, wp_get, wp_bind, wp_liftM]
  refine ⟨fun v hv => ?_, fun _ _ => regPre.refl s⟩
  rw [idx_eq_ok] at hv
  rw [wp_ite]
  refine ⟨fun h => ?_, fun _ => regPre.refl s⟩
  have he : v.activation_eligibility_epoch = FAR_FUTURE_EPOCH := by
    unfold Fork.is_eligible_for_activation_queue Verif.is_eligible_for_activation_queue
      Electra.is_eligible_for_activation_queue at h
    cases f <;> simp only [Bool.and_eq_true, beq_iff_eq] at h <;> exact h.1
  rw [wp_bind, wp_liftM]
  refine ⟨fun n _ => ?_, fun _ _ => regPre.refl s⟩
  rw [wp_updValidator]
  refine ⟨fun v' hv' => ?_, fun _ => regPre.refl s⟩
  rw [hv] at hv'; cases hv'
  exact reg_set hv ⟨rfl, id, fun h => absurd he h, fun _ => rfl, fun _ => rfl,
    fun _ => Nat.le_refl _, fun h => ⟨h, rfl⟩⟩ (fun h => h)

theorem eject_reg {E : Env} (hE : SaneConfig E) {f : Fork} {e i : Nat} :
    Pres Reg (eject_if_low E f e i) := by
  unfold eject_if_low; walk regPre [exit_reg hE]

theorem eligible_far {s : State} {v : Validator} (h : is_eligible_for_activation s v = true) :
    v.activation_epoch = FAR_FUTURE_EPOCH := by
  unfold is_eligible_for_activation at h
  simp only [Bool.and_eq_true, beq_iff_eq] at h
  exact h.2

theorem to_activate_far {E : Env} {f : Fork} {s : State} {l : List Nat}
    (h : to_activate E f s = .ok l) :
    ∀ i ∈ l, ∀ v, s.validators[i]? = some v → v.activation_epoch = FAR_FUTURE_EPOCH := by
  have key : ∀ i : Nat, (∃ v, (v, i) ∈ s.validators.zipIdx ∧
      is_eligible_for_activation s v = true) →
      ∀ v, s.validators[i]? = some v → v.activation_epoch = FAR_FUTURE_EPOCH := by
    rintro i ⟨v, hm, he⟩ w hw
    rw [List.mem_zipIdx_iff_getElem?] at hm
    dsimp only at hm
    rw [hw] at hm; cases hm
    exact eligible_far he
  have hq : ∀ i ∈ activation_queue s, ∀ v, s.validators[i]? = some v →
      v.activation_epoch = FAR_FUTURE_EPOCH := by
    intro i hi
    apply key
    unfold activation_queue at hi
    rw [List.mem_map] at hi
    obtain ⟨p, hp, rfl⟩ := hi
    rw [(sortBy_perm _).mem_iff, List.mem_filterMap] at hp
    obtain ⟨⟨v, j⟩, h1, h2⟩ := hp
    dsimp only at h2
    split at h2
    · cases h2; exact ⟨v, h1, ‹_›⟩
    · cases h2
  intro i hi
  unfold to_activate at h
  split at h
  · cases h
    rw [List.mem_filterMap] at hi
    obtain ⟨⟨v, j⟩, h1, h2⟩ := hi
    dsimp only at h2
    split at h2
    · cases h2; exact key _ ⟨v, h1, ‹_›⟩
    · cases h2
  · simp only [run] at h
    obtain ⟨n, -, rfl⟩ := h
    exact hq i (List.mem_of_mem_take hi)

theorem registry_reg {E : Env} (hE : SaneConfig E) {f : Fork} :
    Pres Reg (process_registry_updates E f) := by
  intro s
  unfold process_registry_updates
  rw [wp_bind, wp_get, wp_bind, wp_liftM]
  refine ⟨fun epoch _ => ?_, fun _ _ => regPre.refl s⟩
  rw [wp_bind]
  have h1 : Pres Reg (forEach (List.range s.validators.length) fun i => do
      mark_eligible E f epoch i
      eject_if_low E f epoch i) := by
    walk regPre [mark_reg, eject_reg hE]
  refine wp_mono (h1 s) (fun _ t ht => ?_) fun _ _ h => h
  rw [wp_bind, wp_liftM]
  refine ⟨fun e _ => ?_, fun _ _ => ht⟩
  rw [wp_bind, wp_get, wp_bind, wp_liftM]
  refine ⟨fun l hl => ?_, fun _ _ => ht⟩
  have hfar := to_activate_far hl
  refine wp_mono (?_ : wp _ (fun _ s' => Reg t s') (fun _ s' => Reg t s') t)
    (fun _ _ h => regPre.trans ht h) (fun _ _ h => regPre.trans ht h)
  refine wp_forEach (fun rest u => Reg t u ∧ ∀ i ∈ rest, ∀ v, u.validators[i]? = some v →
    v.activation_epoch = FAR_FUTURE_EPOCH ∨ v.activation_epoch = e) ?_ (fun u h => h.1)
    ⟨regPre.refl t, fun i hi v hv => Or.inl (hfar i hi v hv)⟩
  intro i rest u hu
  rw [wp_updValidator]
  refine ⟨fun v hv => ?_, fun _ => hu.1⟩
  have hv' := hu.2 i (by simp) v hv
  refine ⟨regPre.trans hu.1 (reg_set hv ⟨rfl, id, fun _ => rfl, fun h => ?_, fun _ => rfl,
    fun _ => Nat.le_refl _, fun h => ⟨h, rfl⟩⟩ (fun h => h)), ?_⟩
  · rcases hv' with h' | h'
    · exact absurd h' h
    · exact h'.symm
  · intro j hj w hw
    by_cases hij : i = j
    · subst hij
      rw [List.getElem?_set_self (List.getElem?_eq_some_iff.1 hv).1] at hw
      cases hw; exact Or.inr rfl
    · rw [List.getElem?_set_ne hij] at hw
      exact hu.2 j (by simp [hj]) w hw

theorem pending_consolidations_loop_reg {E : Env} {a : Nat} {l : List PendingConsolidation} :
    Pres Reg (Electra.pending_consolidations_loop E l a) := by
  induction l generalizing a with
  | nil => unfold Electra.pending_consolidations_loop; walk regPre
  | cons d l ih =>
    unfold Electra.pending_consolidations_loop
    walk regPre [ih, reg_mod increase_mod (by decide), reg_mod decrease_mod (by decide), switch_reg]

theorem pending_consolidations_reg {E : Env} :
    Pres Reg (Electra.process_pending_consolidations E) := by
  unfold Electra.process_pending_consolidations
  walk regPre [pending_consolidations_loop_reg, upd_reg]

theorem effective_reg {E : Env} {f : Fork} :
    Pres Reg (process_effective_balance_updates E f) := by
  unfold process_effective_balance_updates
  walk regPre
  apply Pres.updValidator regPre
  intro s v hv
  exact reg_set hv ⟨rfl, id, fun _ => rfl, fun _ => rfl, fun _ => rfl, fun _ => Nat.le_refl _,
    fun h => ⟨h, rfl⟩⟩ (fun h => h)

theorem epoch_first_reg {E : Env} (hE : SaneConfig E) {f : Fork} :
    Pres Reg (process_epoch_first E f) := by
  unfold process_epoch_first
  walk regPre [reg_mod justification_mod (by decide), reg_mod inactivity_mod (by decide),
    reg_mod rewards_mod (by decide), registry_reg hE, reg_mod slashings_mod (by decide),
    reg_mod eth1_reset_mod (by decide), reg_mod pending_deposits_mod (by decide),
    pending_consolidations_reg]

theorem epoch_reg {E : Env} (hE : SaneConfig E) {f : Fork} : Pres Reg (process_epoch E f) := by
  unfold process_epoch
  walk regPre [epoch_first_reg hE, effective_reg, reg_mod slashings_reset_mod (by decide),
    reg_mod randao_reset_mod (by decide), reg_mod historical_mod (by decide),
    reg_mod record_updates_mod (by decide), reg_mod flag_updates_mod (by decide),
    reg_mod sync_committees_mod (by decide)]

theorem slot_step_reg {E : Env} (hE : SaneConfig E) {f : Fork} : Pres Reg (slot_step E f) := by
  unfold slot_step process_epoch_if_due
  walk regPre [reg_mod slot_mod (by decide), epoch_reg hE, upd_reg]

theorem slots_loop_reg {E : Env} (hE : SaneConfig E) {f : Fork} {t n : Nat} :
    Pres Reg (slots_loop E f t n) := by
  induction n with
  | zero => unfold slots_loop; walk regPre
  | succ n ih => unfold slots_loop; walk regPre [slot_step_reg hE, ih]

theorem slots_reg {E : Env} (hE : SaneConfig E) {f : Fork} {t : Nat} :
    Pres Reg (process_slots E f t) := by
  unfold process_slots; walk regPre [slots_loop_reg hE]

theorem block_in_slot_reg {E : Env} (hE : SaneConfig E) {f : Fork} {b : SignedBeaconBlock}
    {v : Validation} : Pres Reg (state_transition_block_in_slot E f b v) := by
  unfold state_transition_block_in_slot
  walk regPre [reg_mod signature_if_mod (by decide), block_reg hE]

theorem transition_reg {E : Env} (hE : SaneConfig E) {f : Fork} {b : SignedBeaconBlock}
    {v : Validation} : Pres Reg (state_transition E f b v) := by
  unfold state_transition; walk regPre [slots_reg hE, block_in_slot_reg hE]

end Verif
