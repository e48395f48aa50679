import Verif.Model.Operations

/-! # Execution payloads and withdrawals -/

namespace Verif

/-! ## Payload containers, by fork -/

/-- `ExecutionPayloadHeader::default()`; the logs bloom is `BYTES_PER_LOGS_BLOOM` = 256
zero bytes. -/
def defaultPayloadCore : PayloadCore where
  parent_hash := zeroBytes 32
  fee_recipient := zeroBytes 20
  state_root := zeroBytes 32
  receipts_root := zeroBytes 32
  logs_bloom := List.replicate 256 0
  prev_randao := zeroBytes 32
  block_number := 0
  gas_limit := 0
  gas_used := 0
  timestamp := 0
  extra_data := []
  base_fee_per_gas := 0
  block_hash := zeroBytes 32
  blob_gas_used := 0
  excess_blob_gas := 0

/-- `ExecutionPayloadHeader::default()` -/
def defaultPayloadHeader : ExecutionPayloadHeader where
  toPayloadCore := defaultPayloadCore
  transactions_root := zeroBytes 32
  withdrawals_root := zeroBytes 32
  deposit_receipts_root := zeroBytes 32
  withdrawal_requests_root := zeroBytes 32

/-- `ExecutionPayload::default()` -/
def defaultPayload : ExecutionPayload where
  toPayloadCore := defaultPayloadCore
  transactions := []
  withdrawals := []
  deposit_receipts := []
  withdrawal_requests := []

/-- The bellatrix fields of a header; the later fields are cleared. -/
def ExecutionPayloadHeader.bellatrixPart (h : ExecutionPayloadHeader) : ExecutionPayloadHeader :=
  { h with
    blob_gas_used := 0, excess_blob_gas := 0, withdrawals_root := zeroBytes 32
    deposit_receipts_root := zeroBytes 32, withdrawal_requests_root := zeroBytes 32 }

/-- The bellatrix fields of a payload. -/
def ExecutionPayload.bellatrixPart (p : ExecutionPayload) : ExecutionPayload :=
  { p with
    blob_gas_used := 0, excess_blob_gas := 0, withdrawals := [], deposit_receipts := []
    withdrawal_requests := [] }

/-- The header written by `process_execution_payload`: `bellatrix/block_processing.rs:100-115`,
`capella/block_processing.rs:256-272`, `deneb/block_processing.rs:248-266`,
`electra/block_processing.rs:348-368`. Fields the fork lacks are default. -/
def header_of_payload (E : Env) (f : Fork) (p : ExecutionPayload) : ExecutionPayloadHeader where
  toPayloadCore := match f with
    | .Deneb | .Electra => p.toPayloadCore
    | _ => { p.toPayloadCore with blob_gas_used := 0, excess_blob_gas := 0 }
  transactions_root := E.transactions_root p.transactions
  withdrawals_root := match f with
    | .Capella | .Deneb | .Electra => E.withdrawals_root p.withdrawals
    | _ => zeroBytes 32
  deposit_receipts_root := match f with
    | .Electra => E.deposit_receipts_root p.deposit_receipts
    | _ => zeroBytes 32
  withdrawal_requests_root := match f with
    | .Electra => E.withdrawal_requests_root p.withdrawal_requests
    | _ => zeroBytes 32

/-! ## `bellatrix/helpers.rs` -/

/-- `bellatrix/helpers.rs:115-141` -/
def is_merge_transition_complete (s : State) : Bool :=
  decide (s.latest_execution_payload_header.bellatrixPart ≠ defaultPayloadHeader)

/-- `bellatrix/helpers.rs:143-191` -/
def is_merge_transition_block (s : State) (body : BeaconBlockBody) : Bool :=
  !is_merge_transition_complete s &&
    decide (body.execution_payload.bellatrixPart ≠ defaultPayload)

/-- `bellatrix/helpers.rs:193-241` -/
def is_execution_enabled (s : State) (body : BeaconBlockBody) : Bool :=
  is_merge_transition_block s body || is_merge_transition_complete s

/-- `bellatrix/helpers.rs:243-273` -/
def compute_timestamp_at_slot (E : Env) (s : State) (slot : Nat) : R Nat := do
  let slots_since_genesis ← U64.checkedSub slot GENESIS_SLOT
  let t ← slots_since_genesis *? E.seconds_per_slot
  s.genesis_time +? t

/-- `deneb/blob_sidecar.rs:10` -/
def VERSIONED_HASH_VERSION_KZG : UInt8 := 1

/-- `deneb/helpers.rs:16-21` -/
def kzg_commitment_to_versioned_hash (E : Env) (c : Bytes 48) : Bytes32 :=
  (E.hash c.toList).set 0 VERSIONED_HASH_VERSION_KZG

/-- The request handed to the execution engine: `bellatrix/block_processing.rs:98`,
`capella/block_processing.rs:254`, `deneb/block_processing.rs:237-246`,
`electra/block_processing.rs:337-346`. -/
def payload_request (E : Env) (f : Fork) (s : State) (body : BeaconBlockBody) : PayloadRequest :=
  match f with
  | .Deneb | .Electra =>
    .newPayload body.execution_payload
      (body.blob_kzg_commitments.map (kzg_commitment_to_versioned_hash E))
      s.latest_block_header.parent_root
  | _ => .payload body.execution_payload

/-- `bellatrix/block_processing.rs:14-118`, `capella/block_processing.rs:166-275`,
`deneb/block_processing.rs:138-269`, `electra/block_processing.rs:223-371`. -/
def process_execution_payload (E : Env) (f : Fork) (body : BeaconBlockBody) : M Unit := do
  let s ← get
  let payload := body.execution_payload
  let must_match := match f with
    | .Bellatrix => is_merge_transition_complete s
    | _ => true
  rejectIf (must_match &&
    decide (payload.parent_hash ≠ s.latest_execution_payload_header.block_hash))
    .payloadInvalidParentHash
  let current_epoch ← get_current_epoch E s
  let randao_mix ← get_randao_mix E s current_epoch
  rejectIf (payload.prev_randao ≠ randao_mix) .payloadInvalidPrevRandao
  let timestamp ← compute_timestamp_at_slot E s s.slot
  rejectIf (payload.timestamp ≠ timestamp) .payloadInvalidTimestamp
  let blob_limit_exceeded := match f with
    | .Deneb | .Electra => decide (body.blob_kzg_commitments.length > E.max_blobs_per_block)
    | _ => false
  rejectIf blob_limit_exceeded .payloadInvalidBlobCommitments
  rejectIf (!E.engine_accepts (payload_request E f s body)) .executionEngine
  upd fun s => { s with latest_execution_payload_header := header_of_payload E f payload }

/-! ## Withdrawals -/

/-- The amount the sweep withdraws from one validator, if any:
`capella/block_processing.rs:382-404`, `electra/block_processing.rs:110-116`. -/
def sweep_amount (E : Env) (f : Fork) (v : Validator) (balance epoch : Nat) : R (Option Nat) :=
  if is_fully_withdrawable_validator f v balance epoch then .ok (some balance)
  else if is_partially_withdrawable_validator E f v balance then do
    let a ← balance -? (match f with
      | .Electra => Electra.get_validator_max_effective_balance E v
      | _ => E.max_effective_balance)
    return some a
  else .ok none

/-- The sweep `capella/block_processing.rs:379-409`, `electra/block_processing.rs:106-136`,
with `n` validators left to visit. -/
def sweep_loop (E : Env) (f : Fork) (s : State) (epoch : Nat) :
    Nat → Nat → Nat → List Withdrawal → R (List Withdrawal)
  | 0, _, _, acc => .ok acc
  | n + 1, withdrawal_index, validator_index, acc => do
    let v ← idx s.validators validator_index
    let balance ← idx s.balances validator_index
    let amount ← sweep_amount E f v balance epoch
    let r ← (match amount with
      | some amount => do
        let next ← withdrawal_index +? 1
        pure (next, acc ++ [⟨withdrawal_index, validator_index,
          credentialsAddress v.withdrawal_credentials, amount⟩])
      | none => pure (withdrawal_index, acc))
    if r.2.length = E.max_withdrawals_per_payload then return r.2
    else
      let next ← validator_index +? 1
      let next ← next %? s.validators.length
      sweep_loop E f s epoch n r.1 next r.2

/-- The first loop of `electra/block_processing.rs:70-101`. The emitted withdrawals
carry the sweep cursor `validator_index`, as in the code (line 94). -/
def Electra.partials_loop (E : Env) (s : State) (epoch validator_index : Nat) :
    List PendingPartialWithdrawal → Nat → List Withdrawal → R (Nat × List Withdrawal)
  | [], withdrawal_index, acc => .ok (withdrawal_index, acc)
  | w :: rest, withdrawal_index, acc =>
    if w.withdrawable_epoch > epoch then .ok (withdrawal_index, acc)
    else if acc.length = E.max_pending_partials_per_withdrawals_sweep then
      .ok (withdrawal_index, acc)
    else do
      let v ← idx s.validators w.index
      let balance ← idx s.balances w.index
      if v.exit_epoch = FAR_FUTURE_EPOCH && (decide (v.effective_balance > E.min_activation_balance)
          && decide (balance > E.min_activation_balance)) then
        let excess ← balance -? E.min_activation_balance
        let next ← withdrawal_index +? 1
        partials_loop E s epoch validator_index rest next
          (acc ++ [⟨withdrawal_index, validator_index,
            credentialsAddress v.withdrawal_credentials, min excess w.amount⟩])
      else partials_loop E s epoch validator_index rest withdrawal_index acc

/-- `capella/block_processing.rs:348-411`; `electra/block_processing.rs:33-139`, which
also returns the number of pending partial withdrawals (0 here for the others). -/
def get_expected_withdrawals (E : Env) (f : Fork) (s : State) : R (List Withdrawal × Nat) := do
  let epoch ← get_current_epoch E s
  let r ← (match f with
    | .Electra => Electra.partials_loop E s epoch s.next_withdrawal_validator_index
        s.pending_partial_withdrawals s.next_withdrawal_index []
    | _ => pure (s.next_withdrawal_index, []))
  let bound := min s.validators.length E.max_validators_per_withdrawals_sweep
  let withdrawals ← sweep_loop E f s epoch bound r.1 s.next_withdrawal_validator_index r.2
  return (withdrawals, r.2.length)

/-- The new sweep cursor: `capella/block_processing.rs:333-344`,
`electra/block_processing.rs:208-218` (which uses the withdrawal's index, not its
validator's). -/
def next_sweep_start (E : Env) (f : Fork) (s : State) (expected : List Withdrawal) : R Nat := do
  if expected.length = E.max_withdrawals_per_payload then
    match f, expected.getLast? with
    | .Electra, none => return s.next_withdrawal_validator_index
    | .Electra, some latest => do
      let n ← latest.index +? 1
      n %? s.validators.length
    | _, none => .error (.panic .unwrap)
    | _, some latest => do
      let n ← latest.validator_index +? 1
      n %? s.validators.length
  else
    let n ← s.next_withdrawal_validator_index +? E.max_validators_per_withdrawals_sweep
    n %? s.validators.length

/-- The new withdrawal index: `capella/block_processing.rs:328-331`,
`electra/block_processing.rs:204-206`. -/
def next_withdrawal_index_of (s : State) (expected : List Withdrawal) : R Nat :=
  match expected.getLast? with
  | some latest => latest.index +? 1
  | none => .ok s.next_withdrawal_index

/-- `capella/block_processing.rs:277-346`, `electra/block_processing.rs:141-221`. The
queue of pending partial withdrawals is only shortened in electra. -/
def process_withdrawals (E : Env) (f : Fork) (p : ExecutionPayload) : M Unit := do
  let s ← get
  let r ← get_expected_withdrawals E f s
  rejectIf (p.withdrawals ≠ r.1) .incorrectWithdrawals
  forEach r.1 fun w => decrease_balance w.validator_index w.amount
  upd fun s => { s with
    pending_partial_withdrawals := match f with
      | .Electra => s.pending_partial_withdrawals.drop r.2
      | _ => s.pending_partial_withdrawals }
  let s ← get
  let n ← next_withdrawal_index_of s r.1
  upd fun s => { s with next_withdrawal_index := n }
  let s ← get
  let next ← next_sweep_start E f s r.1
  upd fun s => { s with next_withdrawal_validator_index := next }

end Verif
