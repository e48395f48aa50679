import Verif.Model.Altair.Helpers

/-! # `capella/helpers.rs`, `electra/helpers.rs` (without `slash_validator`) -/

namespace Verif

/-- `primitives.rs:47-49` -/
def BLS_WITHDRAWAL_PREFIX : UInt8 := 0x00
def ETH1_ADDRESS_WITHDRAWAL_PREFIX : UInt8 := 0x01
def COMPOUNDING_WITHDRAWAL_PREFIX : UInt8 := 0x02

/-- `electra/constants.rs:3` -/
def UNSET_DEPOSIT_RECEIPTS_START_INDEX : Nat := 2 ^ 64 - 1
/-- `electra/constants.rs:4` -/
def FULL_EXIT_REQUEST_AMOUNT : Nat := 0

/-- `capella/helpers.rs:7-9` -/
def has_eth1_withdrawal_credential (v : Validator) : Bool :=
  v.withdrawal_credentials[0] == ETH1_ADDRESS_WITHDRAWAL_PREFIX

/-- `&withdrawal_credentials[12..]` as an execution address. -/
def credentialsAddress (c : Bytes32) : ExecutionAddress :=
  Vector.ofFn fun i : Fin 20 => c[12 + i.val]

namespace Electra

/-- `electra/helpers.rs:21-25` -/
def is_eligible_for_activation_queue (E : Env) (v : Validator) : Bool :=
  v.activation_eligibility_epoch == FAR_FUTURE_EPOCH &&
    decide (v.effective_balance ≥ E.min_activation_balance)

/-- `electra/helpers.rs:27-29` -/
def is_compounding_withdrawal_credential (c : Bytes32) : Bool :=
  c[0] == COMPOUNDING_WITHDRAWAL_PREFIX

/-- `electra/helpers.rs:31-33` -/
def has_compounding_withdrawal_credential (v : Validator) : Bool :=
  is_compounding_withdrawal_credential v.withdrawal_credentials

/-- `electra/helpers.rs:35-37` -/
def has_execution_withdrawal_credential (v : Validator) : Bool :=
  has_compounding_withdrawal_credential v || has_eth1_withdrawal_credential v

/-- `electra/helpers.rs:64-70` -/
def get_validator_max_effective_balance (E : Env) (v : Validator) : Nat :=
  if has_compounding_withdrawal_credential v then E.max_effective_balance_electra
  else E.min_activation_balance

/-- `electra/helpers.rs:58-62` -/
def get_committee_indices (committee_bits : List Bool) : List Nat :=
  committee_bits.zipIdx.filterMap fun (b, i) => if b then some i else none

/-- `electra/helpers.rs:72-107` -/
def get_balance_churn_limit (E : Env) (s : State) : R Nat := do
  let total ← get_total_active_balance E s
  let churn_limit ← total /? E.churn_limit_quotient
  let churn := max E.min_per_epoch_churn_limit_electra churn_limit
  let r ← churn %? E.effective_balance_increment
  churn -? r

/-- `electra/helpers.rs:109-143` -/
def get_activation_exit_churn_limit (E : Env) (s : State) : R Nat := do
  let churn_limit ← get_balance_churn_limit E s
  return min E.max_per_epoch_activation_exit_churn_limit churn_limit

/-- `electra/helpers.rs:145-178` -/
def get_consolidation_churn_limit (E : Env) (s : State) : R Nat := do
  let a ← get_balance_churn_limit E s
  let b ← get_activation_exit_churn_limit E s
  a -? b

/-- `electra/helpers.rs:180-216` -/
def get_active_balance (E : Env) (s : State) (validator_index : Nat) : R Nat := do
  let v ← idx s.validators validator_index
  let b ← idx s.balances validator_index
  return min b (get_validator_max_effective_balance E v)

/-- `electra/helpers.rs:218-261` -/
def get_pending_balance_to_withdraw (s : State) (validator_index : Nat) : R Nat :=
  sumU64 ((s.pending_partial_withdrawals.filter fun w => w.index == validator_index).map
    (·.amount))

/-- The inner loop `electra/helpers.rs:304-308` of one committee: bit
`committee_offset + i` decides about the `i`-th member. -/
def committee_attesters (bits : List Bool) (committee_offset : Nat) :
    Nat → List Nat → R (List Nat)
  | _, [] => .ok []
  | i, v :: rest => do
    let b ← idx bits (committee_offset + i)
    let others ← committee_attesters bits committee_offset (i + 1) rest
    return if b then v :: others else others

/-- The outer loop `electra/helpers.rs:302-309` from committee position
`committee_offset` on: the offset is the position of the committee among the
attesting committees, not the number of bits used by the committees before it. -/
def attesters_from (E : Env) (s : State) (a : Attestation) :
    Nat → List Nat → R (List Nat)
  | _, [] => .ok []
  | committee_offset, index :: rest => do
    let committee ← get_beacon_committee E s a.data.slot index
    let here ← committee_attesters a.aggregation_bits committee_offset 0 committee
    let others ← attesters_from E s a (committee_offset + 1) rest
    return here ++ others

/-- `electra/helpers.rs:263-312` -/
def get_attesting_indices (E : Env) (s : State) (a : Attestation) : R (List Nat) := do
  let l ← attesters_from E s a 0 (get_committee_indices a.committee_bits)
  return iterate E s (setOfList l)

/-- `electra/helpers.rs:314-359` -/
def get_indexed_attestation (E : Env) (s : State) (a : Attestation) :
    R IndexedAttestation := do
  let indices ← get_attesting_indices E s a
  return { attesting_indices := sortBy (· ≤ ·) indices, data := a.data,
           signature := a.signature }

/-- The arithmetic shared by `electra/helpers.rs:569-584` and `625-642`: from the
recorded earliest epoch and remaining balance, the new pair
(earliest epoch, balance to consume before subtracting `balance`). -/
def churn_step (E : Env) (s : State) (earliest to_consume balance : Nat) : R (Nat × Nat) := do
  let current_epoch ← get_current_epoch E s
  let activation_exit_epoch ← compute_activation_exit_epoch E current_epoch
  let new_earliest := max earliest activation_exit_epoch
  let per_epoch_churn ← get_activation_exit_churn_limit E s
  let to_consume := if earliest < new_earliest then per_epoch_churn else to_consume
  if balance > to_consume then
    let balance_to_process ← balance -? to_consume
    let a ← balance_to_process -? 1
    let b ← a /? per_epoch_churn
    let additional_epochs ← b +? 1
    let e ← new_earliest +? additional_epochs
    let c ← additional_epochs *? per_epoch_churn
    let t ← to_consume +? c
    return (e, t)
  else return (new_earliest, to_consume)

/-- `electra/helpers.rs:536-590` -/
def compute_exit_epoch_and_update_churn (E : Env) (exit_balance : Nat) : M Nat := do
  let s ← get
  let r ← churn_step E s s.earliest_exit_epoch s.exit_balance_to_consume exit_balance
  let rest ← r.2 -? exit_balance
  upd fun s => { s with exit_balance_to_consume := rest }
  upd fun s => { s with earliest_exit_epoch := r.1 }
  return r.1

/-- `electra/helpers.rs:592-649` -/
def compute_consolidation_epoch_and_update_churn (E : Env) (consolidation_balance : Nat) :
    M Nat := do
  let s ← get
  let r ← churn_step E s s.earliest_consolidation_epoch s.consolidation_balance_to_consume
    consolidation_balance
  let rest ← r.2 -? consolidation_balance
  upd fun s => { s with consolidation_balance_to_consume := rest }
  upd fun s => { s with earliest_consolidation_epoch := r.1 }
  return r.1

/-- `electra/helpers.rs:361-410` -/
def initiate_validator_exit (E : Env) (index : Nat) : M Unit := do
  let s ← get
  let v ← idx s.validators index
  if v.exit_epoch ≠ FAR_FUTURE_EPOCH then
    return ()
  else
    let epoch ← compute_exit_epoch_and_update_churn E v.effective_balance
    updValidator index fun v => { v with exit_epoch := epoch }
    let w ← U64.checkedAdd epoch E.min_validator_withdrawability_delay
    updValidator index fun v => { v with withdrawable_epoch := w }

/-- `electra/helpers.rs:452-493`; the `checked_sub` cannot fail under the test. -/
def queue_excess_active_balance (E : Env) (index : Nat) : M Unit := do
  let s ← get
  let balance ← idx s.balances index
  if balance > E.min_activation_balance then
    let excess ← U64.checkedSub balance E.min_activation_balance
    upd fun s => { s with
      balances := s.balances.set index E.min_activation_balance
      pending_balance_deposits := s.pending_balance_deposits ++ [⟨index, excess⟩] }
  else return ()

/-- `electra/helpers.rs:412-450` -/
def switch_to_compounding_validator (E : Env) (index : Nat) : M Unit := do
  let s ← get
  let v ← idx s.validators index
  if has_eth1_withdrawal_credential v then
    updValidator index fun v => { v with
      withdrawal_credentials := v.withdrawal_credentials.set 0 COMPOUNDING_WITHDRAWAL_PREFIX }
    queue_excess_active_balance E index
  else return ()

/-- `electra/helpers.rs:495-534` -/
def queue_entire_balance_and_reset_validator (index : Nat) : M Unit := do
  let s ← get
  let balance ← idx s.balances index
  upd fun s => { s with balances := s.balances.set index 0 }
  updValidator index fun v => { v with
    effective_balance := 0
    activation_eligibility_epoch := FAR_FUTURE_EPOCH }
  upd fun s => { s with
    pending_balance_deposits := s.pending_balance_deposits ++ [⟨index, balance⟩] }

end Electra

/-! ## Withdrawability, by fork -/

/-- `capella/helpers.rs:11-15`; `electra/helpers.rs:39-43` -/
def is_fully_withdrawable_validator (f : Fork) (v : Validator) (balance epoch : Nat) : Bool :=
  (match f with
    | .Electra => Electra.has_execution_withdrawal_credential v
    | _ => has_eth1_withdrawal_credential v) &&
  (decide (v.withdrawable_epoch ≤ epoch) && decide (balance > 0))

/-- `capella/helpers.rs:17-25`; `electra/helpers.rs:45-56` -/
def is_partially_withdrawable_validator (E : Env) (f : Fork) (v : Validator) (balance : Nat) :
    Bool :=
  match f with
  | .Electra =>
    let max := Electra.get_validator_max_effective_balance E v
    Electra.has_execution_withdrawal_credential v &&
      (v.effective_balance == max && decide (balance > max))
  | _ =>
    has_eth1_withdrawal_credential v &&
      (v.effective_balance == E.max_effective_balance &&
        decide (balance > E.max_effective_balance))

end Verif
