import Verif.Proofs.Credit
import Verif.Proofs.Joining

/-! # The validators that blocks of electra add

Their stake is what is credited to them later: they begin with nothing, and with an entry in the queue
of deposits. -/

namespace Verif

open Spec Props

/-- The entry keeps its stake. -/
def SameStake (v w : Validator) : Prop := w.effective_balance = v.effective_balance

/-- All entries do, and new ones have none. -/
def Bare (s s' : State) : Prop :=
  (∀ (i : Nat) v, s.validators[i]? = some v → ∃ w, s'.validators[i]? = some w ∧ SameStake v w) ∧
  ∀ (i : Nat) w, s'.validators[i]? = some w → s.validators[i]? = none → w.effective_balance = 0

theorem barePre : Preorder' Bare := by
  refine ⟨fun s => ⟨fun i v h => ⟨v, h, rfl⟩, fun i w h h' => by rw [h] at h'; cases h'⟩,
    fun {a b c} h h' => ⟨fun i v hv => ?_, fun i w hw hn => ?_⟩⟩
  · obtain ⟨w, hw, h1⟩ := h.1 i v hv
    obtain ⟨x, hx, h2⟩ := h'.1 i w hw
    exact ⟨x, hx, h2.trans h1⟩
  · cases hb : b.validators[i]? with
    | none => exact h'.2 i w hw hb
    | some v =>
      obtain ⟨x, hx, h2⟩ := h'.1 i v hb
      rw [hw] at hx; cases hx
      exact h2.trans (h.2 i v hb hn)

theorem bare_of_same {s s' : State} (h : s'.validators = s.validators) : Bare s s' := by
  unfold Bare; rw [h]; exact barePre.refl s

theorem bare_mod {α : Type} {W : List Field} {m : M α} (h : Modifies W m)
    (hW : Field.validators ∉ W) : Pres Bare m :=
  Pres.mono h fun _ _ h => bare_of_same (h _ hW)

theorem bare_set {s : State} {i : Nat} {v w : Validator}
    (hv : s.validators[i]? = some v) (h : SameStake v w) :
    Bare s { s with validators := s.validators.set i w } := by
  have hi := (List.getElem?_eq_some_iff.1 hv).1
  refine ⟨fun j u hu => ?_, fun j u hu hn => ?_⟩
  · by_cases hj : i = j
    · subst hj
      rw [hv] at hu; cases hu
      exact ⟨w, by simp [hi], h⟩
    · exact ⟨u, by simpa [List.getElem?_set_ne hj] using hu, rfl⟩
  · have h1 := (List.getElem?_eq_some_iff.1 hu).1
    simp only [List.length_set] at h1
    rw [List.getElem?_eq_getElem h1] at hn
    cases hn

theorem upd_bare {g : State → State} (h : ∀ s, (g s).validators = s.validators) :
    Pres Bare (upd g) := Pres.upd fun s => bare_of_same (h s)

theorem updv_bare {i : Nat} {g : Validator → Validator} (h : ∀ v, SameStake v (g v)) :
    Pres Bare (updValidator i g) :=
  Pres.updValidator barePre fun _ v hv => bare_set hv (h v)

theorem stake_exit {v : Validator} {e : Nat} : SameStake v { v with exit_epoch := e } := rfl
theorem stake_withdrawable {v : Validator} {e : Nat} :
    SameStake v { v with withdrawable_epoch := e } := rfl
theorem stake_slashed {v : Validator} {b : Bool} : SameStake v { v with slashed := b } := rfl
theorem stake_credentials {v : Validator} {c : Bytes32} :
    SameStake v { v with withdrawal_credentials := c } := rfl

macro "stakes" : tactic => `(tactic| first
  | with_reducible exact stake_exit | with_reducible exact stake_withdrawable
  | with_reducible exact stake_slashed | with_reducible exact stake_credentials
  | exact rfl)

section Blocks

variable {E : Env}

theorem exit_bare {i : Nat} : Pres Bare (Fork.Electra.initiate_validator_exit E i) := by
  have p := barePre
  unfold Fork.initiate_validator_exit initiate_validator_exit Electra.initiate_validator_exit
  walk p [bare_mod exit_churn_mod (by decide), updv_bare]

theorem electra_exit_bare {i : Nat} : Pres Bare (Electra.initiate_validator_exit E i) := by
  have p := barePre
  unfold Electra.initiate_validator_exit
  walk p [bare_mod exit_churn_mod (by decide), updv_bare]

theorem slash_bare {i : Nat} {w : Option Nat} : Pres Bare (slash_validator E .Electra i w) := by
  have p := barePre
  unfold slash_validator
  walk p [exit_bare, updv_bare, bare_mod increase_mod (by decide),
    bare_mod decrease_mod (by decide), upd_bare]

theorem slash_all_bare {e : Nat} {l : List Nat} {b : Bool} :
    Pres Bare (slash_all E .Electra e l b) := by
  have p := barePre
  induction l generalizing b with
  | nil => unfold slash_all; walk p
  | cons x l ih => unfold slash_all; walk p [slash_bare, ih]

theorem proposer_slashing_bare {op : ProposerSlashing} :
    Pres Bare (process_proposer_slashing E .Electra op) := by
  have p := barePre
  unfold process_proposer_slashing; walk p [slash_bare]

theorem attester_slashing_bare {op : AttesterSlashing} :
    Pres Bare (process_attester_slashing E .Electra op) := by
  have p := barePre
  unfold process_attester_slashing; walk p [slash_all_bare]

theorem add_validator_bare {k : PublicKey} {w : Bytes32} {n : Nat} :
    Pres Bare (add_validator_to_registry E .Electra k w n) := by
  intro s
  unfold add_validator_to_registry
  rw [wp_bind, wp_liftM]
  refine ⟨fun v hv => ?_, fun _ _ => barePre.refl s⟩
  have hv : v.effective_balance = 0 := by
    unfold get_validator_from_deposit at hv
    simp only [run] at hv
    obtain ⟨_, rfl, rfl⟩ := hv
    rfl
  have key : ∀ s' : State, s'.validators = s.validators ++ [v] → Bare s s' := by
    intro s' h
    refine ⟨fun i u hu => ⟨u, ?_, rfl⟩, fun i u hu hn => ?_⟩
    · rw [h, List.getElem?_append_left (List.getElem?_eq_some_iff.1 hu).1]; exact hu
    · rw [h, List.getElem?_append_right (List.getElem?_eq_none_iff.1 hn)] at hu
      have := List.mem_of_getElem? hu
      rw [List.mem_singleton] at this
      subst this; exact hv
  exact key _ rfl

theorem switch_bare {i : Nat} : Pres Bare (Electra.switch_to_compounding_validator E i) := by
  have p := barePre
  unfold Electra.switch_to_compounding_validator
  walk p [bare_mod queue_excess_mod (by decide), updv_bare]

theorem electra_apply_deposit_bare {k : PublicKey} {w : Bytes32} {n : Nat} {sig : Signature} :
    Pres Bare (Electra.apply_deposit E k w n sig) := by
  have p := barePre
  unfold Electra.apply_deposit
  walk p [switch_bare, add_validator_bare, upd_bare]

theorem apply_deposit_bare {k : PublicKey} {w : Bytes32} {n : Nat} {sig : Signature} :
    Pres Bare (apply_deposit E .Electra k w n sig) := electra_apply_deposit_bare

theorem deposit_bare {d : Deposit} : Pres Bare (process_deposit E .Electra d) := by
  have p := barePre
  unfold process_deposit; walk p [apply_deposit_bare, upd_bare]

theorem voluntary_exit_bare {op : SignedVoluntaryExit} :
    Pres Bare (process_voluntary_exit E .Electra op) := by
  have p := barePre
  unfold process_voluntary_exit; walk p [exit_bare]

theorem bls_change_bare {op : SignedBlsToExecutionChange} :
    Pres Bare (process_bls_to_execution_change E op) := by
  intro s
  have p := barePre
  unfold process_bls_to_execution_change
  rw [wp_bind, wp_get, wp_bind, wp_liftM]
  refine ⟨fun v hv => ?_, fun _ _ => p.refl s⟩
  rw [wp_bind, wp_liftM]
  refine ⟨fun _ _ => ?_, fun _ _ => p.refl s⟩
  rw [wp_bind, wp_liftM]
  refine ⟨fun _ _ => ?_, fun _ _ => p.refl s⟩
  rw [wp_bind, wp_liftM]
  refine ⟨fun _ _ => ?_, fun _ _ => p.refl s⟩
  rw [wp_updValidator]
  exact ⟨fun v' hv' => bare_set hv' rfl, fun _ => p.refl s⟩

theorem withdrawal_request_bare {r : ExecutionLayerWithdrawalRequest} :
    Pres Bare (Electra.process_execution_layer_withdrawal_request E r) := by
  have p := barePre
  unfold Electra.process_execution_layer_withdrawal_request
  walk p [electra_exit_bare, bare_mod exit_churn_mod (by decide), upd_bare]

theorem deposit_receipt_bare {r : DepositReceipt} :
    Pres Bare (Electra.process_deposit_receipt E r) := by
  have p := barePre
  unfold Electra.process_deposit_receipt
  walk p [electra_apply_deposit_bare, upd_bare]

theorem consolidation_bare {op : SignedConsolidation} :
    Pres Bare (Electra.process_consolidation E op) := by
  have p := barePre
  unfold Electra.process_consolidation
  walk p [bare_mod consolidation_churn_mod (by decide), updv_bare, upd_bare]

theorem operations_bare {b : BeaconBlockBody} : Pres Bare (process_operations E .Electra b) := by
  have p := barePre
  unfold process_operations
  walk p [proposer_slashing_bare, attester_slashing_bare, bare_mod attestation_mod (by decide),
    deposit_bare, voluntary_exit_bare, bls_change_bare, withdrawal_request_bare,
    deposit_receipt_bare, consolidation_bare]

theorem block_bare {b : BeaconBlock} : Pres Bare (process_block E .Electra b) := by
  have p := barePre
  unfold process_block
  walk p [bare_mod header_mod (by decide), bare_mod block_payload_mod (by decide),
    bare_mod randao_mod (by decide), bare_mod eth1_mod (by decide), operations_bare,
    bare_mod sync_aggregate_mod (by decide)]

end Blocks

section

variable {E : Env} {s t u : State}

/-- Validator `i` has the key, and the amount is in the queue of deposits for it. -/
def Awaits (key : PublicKey) (amount i : Nat) (t : State) : Prop :=
  (∃ w, t.validators[i]? = some w ∧ w.public_key = key) ∧
    (⟨i, amount⟩ : PendingBalanceDeposit) ∈ t.pending_balance_deposits

theorem queued_step {key : PublicKey} {amount i : Nat} (h1 : Reg t u) (h2 : Lines t u)
    (h : Awaits key amount i t) : Awaits key amount i u := by
  obtain ⟨⟨v, hv, hk⟩, hm⟩ := h
  obtain ⟨w, hw, e⟩ := h1.1 i v hv
  exact ⟨⟨w, hw, e.key.trans hk⟩, List.IsPrefix.subset h2 hm⟩

theorem effect_queued {d : DepositData} (h : ElectraDepositEffect E d t u) :
    ∃ i, Awaits d.public_key d.amount i u := by
  cases h with
  | topUp i v known val signed =>
    exact ⟨i, known.1, List.mem_append_right _ (List.mem_singleton.2 rfl)⟩
  | switch i b v known val signed switch balance =>
    obtain ⟨w, hw, hk⟩ := known.1
    rw [val] at hw; cases hw
    refine ⟨i, ⟨{ v with withdrawal_credentials := v.withdrawal_credentials.set 0 2 }, ?_, hk⟩, ?_⟩
    · exact List.getElem?_set_self (List.getElem?_eq_some_iff.1 val).1
    · unfold Spec.compounding
      dsimp only
      split
      · exact List.mem_append_left _ (List.mem_append_right _ (List.mem_singleton.2 rfl))
      · exact List.mem_append_right _ (List.mem_singleton.2 rfl)
  | added new signed =>
    refine ⟨t.validators.length, ⟨newValidator d 0, ?_, rfl⟩,
      List.mem_append_right _ (List.mem_singleton.2 rfl)⟩
    show (t.validators ++ [newValidator d 0])[t.validators.length]? = _
    simp

theorem later_queued (hE : SaneConfig E) {key : PublicKey} {amount i : Nat}
    {body : BeaconBlockBody} : ∀ m ∈ laterParts E .Electra body, ∀ t u,
      Awaits key amount i t → m t = .ok () u → Awaits key amount i u :=
  later_all
    (fun _ _ _ _ _ ht hm => queued_step (bls_change_reg.toOk.ok hm)
      ((lines_mod bls_change_mod (by decide)).toOk.ok hm) ht)
    (fun _ _ _ _ _ ht hm => queued_step ((withdrawal_request_reg hE).toOk.ok hm)
      ((lines_mod withdrawal_request_mod (by decide)).toOk.ok hm) ht)
    (fun _ _ _ _ _ ht hm => queued_step (deposit_receipt_reg.toOk.ok hm)
      (deposit_receipt_lines.toOk.ok hm) ht)
    (fun _ _ _ _ _ ht hm => queued_step ((consolidation_reg hE).toOk.ok hm)
      ((lines_mod consolidation_mod (by decide)).toOk.ok hm) ht)

theorem closing_queued {key : PublicKey} {amount i : Nat}
    {body : BeaconBlockBody} : ∀ m ∈ closingParts E .Electra body, ∀ t u,
      Awaits key amount i t → m t = .ok () u → Awaits key amount i u :=
  closing_all fun _ t u ht hm => by
    have hc : ChangesOnly _ t u := sync_aggregate_mod.toOk.ok hm
    exact queued_step (reg_of_same (hc .validators (by decide)))
      ((lines_mod sync_aggregate_mod (by decide)).toOk.ok hm) ht

/-- Every deposit of an accepted block is queued for a validator with its key. -/
theorem block_queues (hE : SaneConfig E) (hmax : 0 < E.max_deposits) {b : BeaconBlock}
    (h : process_block E .Electra b s = .ok () u) {d : DepositData}
    (hd : d ∈ depositsOf .Electra b.body) : ∃ i, Awaits d.public_key d.amount i u := by
  obtain ⟨a0, a1, a2, a3, a4, a5, a6, hp⟩ := phases hmax h
  unfold depositsOf at hd
  rw [if_pos rfl] at hd
  rcases List.mem_append.1 hd with hd | hd
  · obtain ⟨x, hx, rfl⟩ := List.mem_map.1 hd
    obtain ⟨l, r, y, z, he, -, h2, h3⟩ := runs_mem (List.mem_map_of_mem hx) hp.deposits
    obtain ⟨-, -, h2⟩ := process_deposit_ok_iff.1 h2
    obtain ⟨i, hi⟩ := effect_queued (electra_apply_deposit_eq_ok.1 h2)
    have e4 := runs_inv (J := Awaits x.data.public_key x.data.amount i) (fun m hm t u ht hmu => by
      have : m ∈ b.body.deposits.map (process_deposit E .Electra) := by
        rw [he]; exact List.mem_append_right _ (List.mem_cons_of_mem _ hm)
      obtain ⟨x, -, rfl⟩ := List.mem_map.1 this
      exact queued_step (deposit_reg.toOk.ok hmu) (deposit_lines.toOk.ok hmu) ht) h3 hi
    have e5 := runs_inv (J := Awaits x.data.public_key x.data.amount i) (map_all fun _ _ t u ht hm =>
      queued_step ((voluntary_exit_reg hE).toOk.ok hm)
        ((lines_mod voluntary_exit_mod (by decide)).toOk.ok hm) ht) hp.exits e4
    have e6 := runs_inv (later_queued hE) hp.later e5
    exact ⟨i, runs_inv closing_queued hp.closing e6⟩
  · obtain ⟨x, hx, rfl⟩ := List.mem_map.1 hd
    have hmem : Electra.process_deposit_receipt E x ∈ laterParts E .Electra b.body := by
      simp only [laterParts, List.mem_append]
      right
      rw [if_pos (by trivial)]
      simp only [List.mem_append]
      exact .inl (.inr (List.mem_map_of_mem hx))
    obtain ⟨l, r, y, z, he, -, h2, h3⟩ := runs_mem hmem hp.later
    obtain ⟨i, hi⟩ := effect_queued ((C69_receipt_iff E x y z).1 h2)
    have e6 := runs_inv (J := Awaits x.public_key x.amount i) (fun m hm => later_queued hE m (by
      rw [he]; exact List.mem_append_right _ (List.mem_cons_of_mem _ hm))) h3 hi
    exact ⟨i, runs_inv closing_queued hp.closing e6⟩

end

end Verif
