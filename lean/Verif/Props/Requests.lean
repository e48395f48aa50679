import Verif.Spec.Requests
import Verif.Props.Queues
import Verif.Proofs.Deposits

/-! # C69: requests from the execution layer (electra) -/

namespace Verif.Props

open Spec

/-- **C69** A request from the execution layer makes the validator leave, queues a partial withdrawal
of what was asked for but never more than what is free, or has no effect at all; and it does so exactly
when it should: it must come from the address of a validator that is active, has been for long enough
and is not leaving. -/
theorem C69_request (E : Env) (r : ExecutionLayerWithdrawalRequest) (s s' : State)
    (h : Electra.process_execution_layer_withdrawal_request E r s = .ok () s') :
    RequestEffect E s r s' := by
  have hw : ∀ v, Electra.has_execution_withdrawal_credential v = true ↔ Withdraws .Electra v := by
    intro v
    unfold Electra.has_execution_withdrawal_credential Withdraws
    rw [Bool.or_eq_true, or_comm]
    refine or_congr beq_iff_eq ?_
    rw [and_iff_right rfl]
    exact beq_iff_eq
  have hc : ∀ v, Electra.has_compounding_withdrawal_credential v = true ↔ Compounding v :=
    fun v => beq_iff_eq
  have ha : ∀ v : Validator, (credentialsAddress v.withdrawal_credentials == r.source_address) = true ↔
      r.source_address.toList = v.withdrawal_credentials.toList.drop 12 := by
    intro v
    rw [beq_iff_eq, ← address_eq, Vector.toList_inj]
    exact eq_comm
  unfold Electra.process_execution_layer_withdrawal_request at h
  cases hk : s.validators.findIdx? fun v => v.public_key == r.validator_public_key with
  | none =>
    have hn : ∀ i v, ¬ Authorised E s r i v := fun i v h => not_both h.holder (findKey_none.1 hk)
    simp only [run, hk] at h
    have : s' = s := by
      rcases h with ⟨-, -, h⟩ | ⟨-, -, h⟩ <;> exact h.symm
    subst this
    exact .ignored (fun i v h => hn i v h.2.1) (fun i v b h => hn i v h.2.2.1)
  | some i =>
    have hk := findKey_some.1 hk
    obtain ⟨⟨v, hv, -⟩, -⟩ := id hk
    have uniq : ∀ j w, Authorised E s r j w → j = i ∧ w = v := by
      intro j w h
      obtain rfl := firstWithKey_unique hk h.holder
      exact ⟨rfl, Option.some.inj (h.entry.symm.trans hv)⟩
    have none' : (¬ LeaveRequest E s r i v) → (∀ b, ¬ PartRequest E s r i v b) →
        RequestEffect E s r s := by
      intro h1 h2
      refine .ignored (fun j w h => ?_) (fun j w b h => ?_)
      · obtain ⟨rfl, rfl⟩ := uniq j w h.2.1; exact h1 h
      · obtain ⟨rfl, rfl⟩ := uniq j w h.2.2.1; exact h2 b h
    have unauth : ¬ Authorised E s r i v → RequestEffect E s r s := fun h =>
      none' (fun h' => h h'.2.1) (fun b h' => h h'.2.2.1)
    simp only [run, findKey_some.2 hk, current_epoch_eq_ok, pending_balance_eq_ok] at h
    have hz : (r.amount == FULL_EXIT_REQUEST_AMOUNT) = true ↔ r.amount = 0 := beq_iff_eq
    rcases h with ⟨h1, -, rfl⟩ | ⟨h1, w, hw', h⟩
    · simp only [Bool.and_eq_true, decide_eq_true_eq, Bool.not_eq_true', ← Bool.not_eq_true, hz] at h1
      exact none' (fun h => h1.2 h.1) (fun b h => h.2.1 h1.1)
    rw [hv] at hw'; cases hw'
    rcases h with ⟨h2, -, rfl⟩ | ⟨h2, _, ⟨rfl, -⟩, h⟩
    · rw [Bool.not_eq_true', ← Bool.not_eq_true, Bool.and_eq_true, hw, ha] at h2
      exact unauth fun h => h2 ⟨h.withdraws, h.address⟩
    rw [Bool.not_eq_true', Bool.not_eq_false, Bool.and_eq_true, hw, ha] at h2
    rcases h with ⟨h3, -, rfl⟩ | ⟨h3, ⟨h4, -, rfl⟩ | ⟨h4, _, ⟨rfl, -⟩, ⟨h5, -, rfl⟩ | ⟨h5, _, ⟨-, rfl⟩, h⟩⟩⟩
    · rw [Bool.not_eq_true', ← Bool.not_eq_true, is_active_iff] at h3
      exact unauth fun h => h3 h.active
    · exact unauth fun h => h4 h.staying
    · exact unauth fun h => absurd h.seasoned (by omega)
    rw [Bool.not_eq_true', Bool.not_eq_false, is_active_iff] at h3
    have auth : Authorised E s r i v := ⟨hk, hv, h2.1, h2.2, h3, Decidable.not_not.1 h4, by omega⟩
    rcases h with ⟨h6, ⟨h7, h⟩ | ⟨h7, -, rfl⟩⟩ | ⟨h6, b, hb, _, ⟨rfl, -⟩, h⟩
    · rw [hz] at h6
      have := C50_initiated E s s' i v hv h
      rw [if_pos (Decidable.not_not.1 h4)] at this
      obtain ⟨epoch, left, q, rfl⟩ := this
      exact .leave i v epoch left ⟨h6, auth, h7⟩ q
    · rw [hz] at h6
      exact none' (fun h => h7 h.2.2) (fun b h => h.1 h6)
    rw [hz] at h6
    rcases h with ⟨h8, _, ⟨rfl, -⟩, _, ⟨rfl, -⟩, epoch, t, ht, _, ⟨rfl, -⟩, -, rfl⟩ | ⟨h8, -, rfl⟩
    · simp only [Bool.and_eq_true, decide_eq_true_eq, hc] at h8
      have hlen : s.pending_partial_withdrawals.length ≠ E.pending_partial_withdrawals_limit := by
        intro hl
        apply h1
        simp [hl, h6, FULL_EXIT_REQUEST_AMOUNT]
      obtain ⟨q, hst⟩ := exit_epoch_eq_ok ht
      have := RequestEffect.part i v b epoch _
        ⟨h6, hlen, auth, h8.1, h8.2.1, hb, h8.2.2⟩ q
      rw [hst]
      exact this
    · simp only [Bool.and_eq_true, decide_eq_true_eq, hc] at h8
      refine none' (fun h => h6 h.1) (fun b' h => h8 ?_)
      obtain ⟨-, -, -, p1, p2, p3, p4⟩ := h
      rw [hb] at p3; cases p3
      exact ⟨p1, p2, p4⟩

/-- **C69** So nothing is promised that is not there: after the request what is promised to a
validator is what it was before, or at most its balance above the minimum. -/
theorem C69_covered (E : Env) (r : ExecutionLayerWithdrawalRequest) (s s' : State)
    (h : Electra.process_execution_layer_withdrawal_request E r s = .ok () s') (i : Nat) :
    pendingWithdrawalsOf s' i = pendingWithdrawalsOf s i ∨
    ∃ b, s.balances[i]? = some b ∧ s'.balances[i]? = some b ∧
      pendingWithdrawalsOf s' i + E.min_activation_balance ≤ b := by
  cases C69_request E r s s' h with
  | leave => exact Or.inl rfl
  | ignored => exact Or.inl rfl
  | part j v b epoch left hp q =>
    by_cases hi : j = i
    · subst hi
      refine Or.inr ⟨b, hp.2.2.2.2.2.1, hp.2.2.2.2.2.1, ?_⟩
      have := hp.2.2.2.2.2.2
      have : granted E s r j b ≤ b - E.min_activation_balance - pendingWithdrawalsOf s j :=
        Nat.min_le_left _ _
      unfold pendingWithdrawalsOf at *
      simp only [List.filter_append, List.map_append, List.sum_append]
      simp
      omega
    · refine Or.inl ?_
      unfold pendingWithdrawalsOf
      simp [hi]

/-- **C69** The queue of partial withdrawals never exceeds its limit. -/
theorem C69_limit (E : Env) (r : ExecutionLayerWithdrawalRequest) (s s' : State)
    (h : Electra.process_execution_layer_withdrawal_request E r s = .ok () s')
    (hl : s.pending_partial_withdrawals.length ≤ E.pending_partial_withdrawals_limit) :
    s'.pending_partial_withdrawals.length ≤ E.pending_partial_withdrawals_limit := by
  cases C69_request E r s s' h with
  | leave => exact hl
  | ignored => exact hl
  | part j v b epoch left hp q =>
    have := hp.2.1
    simp only [List.length_append, List.length_cons, List.length_nil]
    omega

/-- **C69** A deposit receipt is applied like a deposit, without a proof and without advancing the
deposit index. The index of the first receipt is remembered, and only that one. -/
theorem C69_receipt_iff (E : Env) (r : DepositReceipt) (s s' : State) :
    Electra.process_deposit_receipt E r s = .ok () s' ↔
      ElectraDepositEffect E ⟨r.public_key, r.withdrawal_credentials, r.amount, r.signature⟩
        { s with deposit_receipts_start_index :=
            if s.deposit_receipts_start_index = 2 ^ 64 - 1 then r.index
            else s.deposit_receipts_start_index } s' := by
  rw [← electra_apply_deposit_eq_ok]
  unfold Electra.process_deposit_receipt
  simp only [run]
  have : (if s.deposit_receipts_start_index = UNSET_DEPOSIT_RECEIPTS_START_INDEX then
      { s with deposit_receipts_start_index := r.index } else s) =
      { s with deposit_receipts_start_index :=
            if s.deposit_receipts_start_index = 2 ^ 64 - 1 then r.index
            else s.deposit_receipts_start_index } := by
    unfold UNSET_DEPOSIT_RECEIPTS_START_INDEX
    split <;> rfl
  rw [this]
  rfl

/-- **C69** No consolidation succeeds: the withdrawable epoch is computed from the exit epoch the
source had before, which is the far future. -/
theorem C69_consolidation_fails (E : Env) (hd : 0 < E.min_validator_withdrawability_delay)
    (op : SignedConsolidation) (s s' : State) :
    Electra.process_consolidation E op s ≠ .ok () s' := by
  intro h
  unfold Electra.process_consolidation at h
  simp only [run] at h
  obtain ⟨v, hv, e, t, -, w, -, _, ⟨-, hlt⟩, -⟩ := h
  have : v.exit_epoch = FAR_FUTURE_EPOCH := by
    unfold Electra.check_consolidation at hv
    simp only [run] at hv
    obtain ⟨-, -, -, -, -, x, -, y, -, -, -, -, -, hx, -, -, -, -, -, -, rfl⟩ := hv
    simpa using hx
  rw [this] at hlt
  unfold FAR_FUTURE_EPOCH U64_BOUND at hlt
  omega

/-! ### Examples, in epoch 65 -/

/-- Three compounding validators that withdraw to one address. -/
def requestState : State :=
  let s := Toy.state 3 520
  let creds : Bytes32 := Vector.ofFn fun i : Fin 32 => if i.val = 0 then 2 else if i.val < 12 then 0 else 9
  { s with
    validators := s.validators.map fun v =>
      { v with withdrawal_credentials := creds, effective_balance := 2048000000000 }
    balances := [32000000000, 40000000000, 2048000000000]
    deposit_receipts_start_index := 2 ^ 64 - 1 }

def requestFor (key amount : Nat) : ExecutionLayerWithdrawalRequest :=
  ⟨Vector.ofFn fun _ : Fin 20 => 9, Toy.pk key, amount⟩

/-- Validator 1 asks for 5 and then for 7 ether, and gets the 3 that are left; then it cannot leave.
Validator 0 can, and validator 2 does not from another address. -/
example :
    let run (rs : List ExecutionLayerWithdrawalRequest) :=
      forEach rs (Electra.process_execution_layer_withdrawal_request Toy.env)
    let s1 := finalState (run [requestFor 1 5000000000, requestFor 1 7000000000]) requestState
    let s2 := finalState (run [requestFor 1 0, requestFor 0 0, requestFor 0 1,
      { requestFor 2 0 with source_address := Vector.ofFn fun _ : Fin 20 => 8 }]) s1
    Toy.succeeds (run [requestFor 1 5000000000, requestFor 1 7000000000]) requestState = true ∧
    s1.pending_partial_withdrawals =
      [⟨1, 5000000000, 70 + 256⟩, ⟨1, 3000000000, 70 + 256⟩] ∧
    s1.validators = requestState.validators ∧
    s2.validators.map (·.exit_epoch) = [86, FAR_FUTURE_EPOCH, FAR_FUTURE_EPOCH] ∧
    s2.pending_partial_withdrawals = s1.pending_partial_withdrawals := by
  decide +kernel

/-- Two receipts, for a known and a new key: the index of the first one is remembered. -/
example :
    let m := forEach [⟨Toy.pk 1, zeroBytes 32, 1000000000, Toy.goodSig, 17⟩,
      ⟨Toy.pk 7, zeroBytes 32, 32000000000, Toy.goodSig, 18⟩]
      (Electra.process_deposit_receipt Toy.env)
    let s := finalState m requestState
    Toy.succeeds m requestState = true ∧ s.deposit_receipts_start_index = 17 ∧
    s.pending_balance_deposits = [⟨1, 1000000000⟩, ⟨3, 32000000000⟩] ∧
    s.validators.length = 4 ∧ s.eth1_deposit_index = requestState.eth1_deposit_index := by
  decide +kernel

/-- A consolidation that passes every check, and fails. -/
example :
    let op : SignedConsolidation := ⟨⟨0, 1, 65⟩, Toy.goodSig⟩
    (Electra.check_consolidation Toy.env requestState op).toOption.isSome = true ∧
    Toy.errorOf (Electra.process_consolidation Toy.env op) requestState = some (.panic .overflow) ∧
    0 < Toy.env.min_validator_withdrawability_delay := by
  decide +kernel

end Verif.Props
