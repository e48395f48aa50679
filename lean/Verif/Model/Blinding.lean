import Verif.Model.Ssz

/-! # Headers of payloads, on the level of SSZ

`TryFrom<&ExecutionPayload> for ExecutionPayloadHeader` of
`ethereum-consensus/src/{bellatrix,capella,deneb,electra}/execution_payload.rs`, over the shapes of the
types, whose values are the tuples of their fields in the order of the declarations.
`header_of_payload` of `Model/Payload.lean` is the same function on the level of the state, where the
roots of the lists are parameters. -/

namespace Verif.Ssz

open Json

/-- A node as a value of the type `Root`. The nodes of `ssz_rs` have 32 bytes, and are those bytes. -/
def asRoot (n : Node) : (Schema.bytes 32).Val := ⟨pad n, by simp [pad, zeroNode]⟩

/-- `ExecutionPayloadHeader::try_from`, `bellatrix/execution_payload.rs:101-128`. The roots of lists
within their limits are always found. -/
def bellatrix.payloadHeader (H : Hash) (K : Consts) :
    (bellatrix.ExecutionPayload K).Val → (bellatrix.ExecutionPayloadHeader K).Val :=
  fun (parent_hash, fee_recipient, state_root, receipts_root, logs_bloom, prev_randao, block_number,
      gas_limit, gas_used, timestamp, extra_data, base_fee_per_gas, block_hash, transactions, ()) =>
    let transactions_root := asRoot (root H (.seq (.atMost K.MAX_TRANSACTIONS_PER_PAYLOAD)
      (.byteList K.MAX_BYTES_PER_TRANSACTION)) transactions)
    (parent_hash, fee_recipient, state_root, receipts_root, logs_bloom, prev_randao, block_number,
      gas_limit, gas_used, timestamp, extra_data, base_fee_per_gas, block_hash, transactions_root, ())

/-- `ExecutionPayloadHeader::try_from`, `capella/execution_payload.rs:108-138` -/
def capella.payloadHeader (H : Hash) (K : Consts) :
    (capella.ExecutionPayload K).Val → (capella.ExecutionPayloadHeader K).Val :=
  fun (parent_hash, fee_recipient, state_root, receipts_root, logs_bloom, prev_randao, block_number,
      gas_limit, gas_used, timestamp, extra_data, base_fee_per_gas, block_hash, transactions,
      withdrawals, ()) =>
    let transactions_root := asRoot (root H (.seq (.atMost K.MAX_TRANSACTIONS_PER_PAYLOAD)
      (.byteList K.MAX_BYTES_PER_TRANSACTION)) transactions)
    let withdrawals_root := asRoot (root H (.seq (.atMost K.MAX_WITHDRAWALS_PER_PAYLOAD)
      (capella.Withdrawal K)) withdrawals)
    (parent_hash, fee_recipient, state_root, receipts_root, logs_bloom, prev_randao, block_number,
      gas_limit, gas_used, timestamp, extra_data, base_fee_per_gas, block_hash, transactions_root,
      withdrawals_root, ())

/-- `ExecutionPayloadHeader::try_from`, `deneb/execution_payload.rs:98-130` -/
def deneb.payloadHeader (H : Hash) (K : Consts) :
    (deneb.ExecutionPayload K).Val → (deneb.ExecutionPayloadHeader K).Val :=
  fun (parent_hash, fee_recipient, state_root, receipts_root, logs_bloom, prev_randao, block_number,
      gas_limit, gas_used, timestamp, extra_data, base_fee_per_gas, block_hash, transactions,
      withdrawals, blob_gas_used, excess_blob_gas, ()) =>
    let transactions_root := asRoot (root H (.seq (.atMost K.MAX_TRANSACTIONS_PER_PAYLOAD)
      (.byteList K.MAX_BYTES_PER_TRANSACTION)) transactions)
    let withdrawals_root := asRoot (root H (.seq (.atMost K.MAX_WITHDRAWALS_PER_PAYLOAD)
      (capella.Withdrawal K)) withdrawals)
    (parent_hash, fee_recipient, state_root, receipts_root, logs_bloom, prev_randao, block_number,
      gas_limit, gas_used, timestamp, extra_data, base_fee_per_gas, block_hash, transactions_root,
      withdrawals_root, blob_gas_used, excess_blob_gas, ())

/-- `ExecutionPayloadHeader::try_from`, `electra/execution_payload.rs:110-148` -/
def electra.payloadHeader (H : Hash) (K : Consts) :
    (electra.ExecutionPayload K).Val → (electra.ExecutionPayloadHeader K).Val :=
  fun (parent_hash, fee_recipient, state_root, receipts_root, logs_bloom, prev_randao, block_number,
      gas_limit, gas_used, timestamp, extra_data, base_fee_per_gas, block_hash, transactions,
      withdrawals, blob_gas_used, excess_blob_gas, deposit_receipts, withdrawal_requests, ()) =>
    let transactions_root := asRoot (root H (.seq (.atMost K.MAX_TRANSACTIONS_PER_PAYLOAD)
      (.byteList K.MAX_BYTES_PER_TRANSACTION)) transactions)
    let withdrawals_root := asRoot (root H (.seq (.atMost K.MAX_WITHDRAWALS_PER_PAYLOAD)
      (capella.Withdrawal K)) withdrawals)
    let deposit_receipts_root := asRoot (root H (.seq (.atMost K.MAX_DEPOSIT_RECEIPTS_PER_PAYLOAD)
      (electra.DepositReceipt K)) deposit_receipts)
    let withdrawal_requests_root := asRoot (root H
      (.seq (.atMost K.MAX_WITHDRAWAL_REQUESTS_PER_PAYLOAD)
        (electra.ExecutionLayerWithdrawalRequest K)) withdrawal_requests)
    (parent_hash, fee_recipient, state_root, receipts_root, logs_bloom, prev_randao, block_number,
      gas_limit, gas_used, timestamp, extra_data, base_fee_per_gas, block_hash, transactions_root,
      withdrawals_root, blob_gas_used, excess_blob_gas, deposit_receipts_root,
      withdrawal_requests_root, ())

end Verif.Ssz
