import Verif.Proofs.Duties
import Verif.Proofs.Sync

/-! # The proposer stays the same while a block is processed -/

namespace Verif

open Spec

/-- Registry entries keep their effective balance. -/
def Weights (s s' : State) : Prop :=
  s'.slot = s.slot ∧ ∀ (i : Nat) v, s.validators[i]? = some v →
    ∃ w, s'.validators[i]? = some w ∧ w.effective_balance = v.effective_balance

theorem weightsPre : Preorder' Weights :=
  ⟨fun _ => ⟨rfl, fun _ v h => ⟨v, h, rfl⟩⟩, fun h h' => ⟨h'.1.trans h.1, fun i v hv => by
    obtain ⟨w, hw, h1⟩ := h.2 i v hv
    obtain ⟨x, hx, h2⟩ := h'.2 i w hw
    exact ⟨x, hx, h2.trans h1⟩⟩⟩

theorem weights_of_same {s s' : State} (h : s'.validators = s.validators) (hs : s'.slot = s.slot) :
    Weights s s' := by
  unfold Weights
  rw [h, hs]
  exact weightsPre.refl s

theorem weights_mod {α : Type} {W : List Field} {m : M α} (h : Modifies W m)
    (hW : ∀ x ∈ [Field.validators, .slot], x ∉ W) : Pres Weights m :=
  Pres.mono h fun _ _ h => weights_of_same (h _ (hW .validators (by decide)))
    (h _ (hW .slot (by decide)))

theorem eff_updValidator {i : Nat} {g : Validator → Validator}
    (h : ∀ v, (g v).effective_balance = v.effective_balance) : Pres Weights (updValidator i g) := by
  apply Pres.updValidator weightsPre
  intro s v hv
  have hi := (List.getElem?_eq_some_iff.1 hv).1
  refine ⟨rfl, fun j u hu => ?_⟩
  by_cases hj : i = j
  · subst hj
    rw [hv] at hu; cases hu
    exact ⟨_, List.getElem?_set_self hi, h v⟩
  · exact ⟨u, by rw [← hu]; exact List.getElem?_set_ne hj, rfl⟩

theorem eff_upd {g : State → State} (h : ∀ s, (g s).validators = s.validators)
    (hs : ∀ s, (g s).slot = s.slot) : Pres Weights (upd g) :=
  Pres.upd fun s => weights_of_same (h s) (hs s)

theorem exit_weights {E : Env} {f : Fork} {i : Nat} : Pres Weights (f.initiate_validator_exit E i) := by
  have h1 : Pres Weights (initiate_validator_exit E i) := by
    unfold initiate_validator_exit
    walk weightsPre [eff_updValidator]
  have h2 : Pres Weights (Electra.initiate_validator_exit E i) := by
    unfold Electra.initiate_validator_exit
    walk weightsPre [weights_mod exit_churn_mod (by decide), eff_updValidator]
  cases f <;> first | exact h1 | exact h2

theorem slash_weights {E : Env} {f : Fork} {i : Nat} {w : Option Nat} :
    Pres Weights (slash_validator E f i w) := by
  unfold slash_validator
  walk weightsPre [exit_weights, eff_updValidator, weights_mod increase_mod (by decide),
    weights_mod decrease_mod (by decide), eff_upd]

theorem slash_all_weights {E : Env} {f : Fork} {e : Nat} {l : List Nat} {b : Bool} :
    Pres Weights (slash_all E f e l b) := by
  induction l generalizing b with
  | nil => unfold slash_all; walk weightsPre
  | cons x l ih => unfold slash_all; walk weightsPre [slash_weights, ih]

theorem add_validator_weights {E : Env} {f : Fork} {k : PublicKey} {w : Bytes32} {n : Nat} :
    Pres Weights (add_validator_to_registry E f k w n) := by
  intro s
  unfold add_validator_to_registry
  rw [wp_bind, wp_liftM]
  refine ⟨fun v hv => ?_, fun _ _ => weightsPre.refl s⟩
  cases f <;> refine ⟨rfl, fun i u hu => ⟨u, ?_, rfl⟩⟩ <;>
    exact (List.getElem?_append_left (List.getElem?_eq_some_iff.1 hu).1).trans hu

theorem switch_weights {E : Env} {i : Nat} : Pres Weights (Electra.switch_to_compounding_validator E i) := by
  unfold Electra.switch_to_compounding_validator
  walk weightsPre [weights_mod queue_excess_mod (by decide), eff_updValidator]

theorem electra_apply_deposit_weights {E : Env} {k : PublicKey} {w : Bytes32} {n : Nat}
    {sig : Signature} : Pres Weights (Electra.apply_deposit E k w n sig) := by
  unfold Electra.apply_deposit
  walk weightsPre [switch_weights, add_validator_weights, eff_upd]

theorem deposit_weights {E : Env} {f : Fork} {d : Deposit} : Pres Weights (process_deposit E f d) := by
  unfold process_deposit apply_deposit Phase0.apply_deposit
  walk weightsPre [electra_apply_deposit_weights, weights_mod increase_mod (by decide), add_validator_weights,
    eff_upd]

theorem consolidation_weights {E : Env} {op : SignedConsolidation} :
    Pres Weights (Electra.process_consolidation E op) := by
  unfold Electra.process_consolidation
  walk weightsPre [weights_mod consolidation_churn_mod (by decide), eff_updValidator, eff_upd]

theorem proposer_slashing_weights {E : Env} {f : Fork} {op : ProposerSlashing} :
    Pres Weights (process_proposer_slashing E f op) := by
  unfold process_proposer_slashing; walk weightsPre [slash_weights]

theorem attester_slashing_weights {E : Env} {f : Fork} {op : AttesterSlashing} :
    Pres Weights (process_attester_slashing E f op) := by
  unfold process_attester_slashing; walk weightsPre [slash_all_weights]

theorem voluntary_exit_weights {E : Env} {f : Fork} {op : SignedVoluntaryExit} :
    Pres Weights (process_voluntary_exit E f op) := by
  unfold process_voluntary_exit; walk weightsPre [exit_weights]

theorem bls_change_weights {E : Env} {op : SignedBlsToExecutionChange} :
    Pres Weights (process_bls_to_execution_change E op) := by
  unfold process_bls_to_execution_change; walk weightsPre [eff_updValidator]

theorem request_weights {E : Env} {r : ExecutionLayerWithdrawalRequest} :
    Pres Weights (Electra.process_execution_layer_withdrawal_request E r) := by
  have hx : ∀ i, Pres Weights (Electra.initiate_validator_exit E i) := fun i =>
    exit_weights (f := .Electra)
  unfold Electra.process_execution_layer_withdrawal_request
  walk weightsPre [hx, weights_mod exit_churn_mod (by decide), eff_upd]

theorem receipt_weights {E : Env} {r : DepositReceipt} :
    Pres Weights (Electra.process_deposit_receipt E r) := by
  unfold Electra.process_deposit_receipt
  walk weightsPre [electra_apply_deposit_weights, eff_upd]

theorem operations_weights {E : Env} {f : Fork} {b : BeaconBlockBody} :
    Pres Weights (process_operations E f b) := by
  unfold process_operations
  walk weightsPre [proposer_slashing_weights, attester_slashing_weights, weights_mod attestation_mod (by decide),
    deposit_weights, voluntary_exit_weights, bls_change_weights, request_weights, receipt_weights, consolidation_weights]

theorem block_weights {E : Env} {f : Fork} {b : BeaconBlock} : Pres Weights (process_block E f b) := by
  unfold process_block
  walk weightsPre [weights_mod header_mod (by decide), weights_mod block_payload_mod (by decide),
    weights_mod randao_mod (by decide), weights_mod eth1_mod (by decide), operations_weights,
    weights_mod sync_aggregate_mod (by decide)]

/-! ## The election -/

theorem proposer_loop_decided {E : Env} {s s' : State} {seed : Bytes32} {cand : Nat → R Nat}
    (h : ∀ r c, cand r = .ok c → (s'.validators[c]?).map Validator.effective_balance =
      (s.validators[c]?).map Validator.effective_balance) (fuel r : Nat) :
    proposer_loop E s' seed cand fuel r = proposer_loop E s seed cand fuel r := by
  induction fuel generalizing r with
  | zero => rfl
  | succ n ih =>
    unfold proposer_loop
    cases hc : cand r with
    | error => rfl
    | ok c =>
      rw [R_bind_ok, R_bind_ok, sample_congr (h r c hc)]
      congr 1; funext a
      rw [ih]

theorem idx_mem {α : Type} {l : List α} {i : Nat} {x : α} (h : idx l i = .ok x) : x ∈ l := by
  simp only [run] at h
  exact List.mem_of_getElem? h

theorem proposer_decided {E : Env} (hE : SaneConfig E) {s s' : State} (h : Duty E s s')
    (hm : Mix E s s') (he : Weights s s') (hreg : s.validators.length ≤ 2 ^ 40)
    (hslot : epochOf E s.slot < FAR_FUTURE_EPOCH)
    (hV : E.min_seed_lookahead + 2 < E.epochs_per_historical_vector) :
    get_beacon_proposer_index E s' = get_beacon_proposer_index E s := by
  unfold get_beacon_proposer_index
  have h1 : get_current_epoch E s' = get_current_epoch E s := by
    unfold get_current_epoch; rw [he.1]
  rw [h1]
  cases hc : get_current_epoch E s with
  | error e => rfl
  | ok e =>
    have := (current_epoch_eq_ok.1 hc).1; subst this
    simp only [R_bind_ok]
    rw [seed_decided hm (Nat.le_add_right _ _) (by rw [he.1]; omega), activeIndices_eq,
      activeIndices_eq, active_decided h (Nat.le_add_right _ _) hslot, he.1]
    congr 1; funext seed
    have key : ∀ c ∈ activeIndices s (epochOf E s.slot),
        (s'.validators[c]?).map Validator.effective_balance =
          (s.validators[c]?).map Validator.effective_balance := by
      intro c hc
      obtain ⟨v, hv, -⟩ := mem_activeIndices.1 hc
      obtain ⟨w, hw, h2⟩ := he.2 c v hv
      rw [hv, hw, Option.map_some, Option.map_some, h2]
    unfold compute_proposer_index
    have hl : 2 * (activeIndices s (epochOf E s.slot)).length < U64_BOUND := by
      have := active_length_le s (epochOf E s.slot)
      unfold U64_BOUND; omega
    congr 1; funext _
    dsimp only
    rw [compute_shuffled_indices_list E _ _ hl hE.shuffle_round_count]
    simp only [R_bind_ok]
    split
    · apply proposer_loop_decided
      intro r c hc
      exact key c ((shuffledList_perm E _ _).mem_iff.1 (idx_mem hc))
    · apply proposer_loop_decided
      intro r c hc
      simp only [run] at hc
      obtain ⟨k, -, hk⟩ := hc
      exact key c (List.mem_of_getElem? hk)

end Verif
