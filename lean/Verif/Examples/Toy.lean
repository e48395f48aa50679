import Verif.Model.Presets
import Verif.Model.Monad

/-!
# Concrete environment and state used by the examples

Toy primitives (a checksum "hash", signatures that verify when the first byte of
the signature is 1), the repository's minimal preset, and a small state.
-/

deriving instance DecidableEq for Except
deriving instance DecidableEq for EStateM.Result

namespace Verif.Toy

/-- Does the computation succeed? -/
def succeeds {α : Type} (m : M α) (s : State) : Bool :=
  match m s with
  | .ok _ _ => true
  | .error _ _ => false

theorem ok_of_succeeds {m : M Unit} {s : State} (h : succeeds m s = true) :
    m s = .ok () (finalState m s) := by
  unfold succeeds at h
  unfold finalState
  split at h
  · rename_i e; rw [e]
  · cases h

/-- The error it ends with. -/
def errorOf {α : Type} (m : M α) (s : State) : Option Err :=
  match m s with
  | .ok _ _ => none
  | .error e _ => some e

/-- A deterministic 32-byte mixing function. -/
def hash (bs : List UInt8) : Bytes32 :=
  let x := bs.foldl (fun a b => (a * 31 + b.toNat + 7) % 1000003) 17
  Vector.ofFn fun i : Fin 32 => UInt8.ofNat (x * (i.val + 3) / 5 + i.val)

def root (n : Nat) : Root := Vector.ofFn fun i : Fin 32 => UInt8.ofNat (n / 2 ^ (8 * i.val))

def pk (n : Nat) : PublicKey := Vector.ofFn fun i : Fin 48 => UInt8.ofNat (n / 2 ^ (8 * i.val))

/-- A signature the toy verifier accepts. -/
def goodSig : Signature := Vector.ofFn fun i : Fin 96 => if i.val = 0 then 1 else 0

def badSig : Signature := zeroBytes 96

def prims : Primitives where
  hash := hash
  verify_signature _ _ sig := sig[0] == 1
  fast_aggregate_verify pks _ sig := !pks.isEmpty && sig[0] == 1
  aggregate_public_keys pks := pks.head?
  is_valid_merkle_branch leaf _ _ _ r := leaf == r
  signing_data_root r d := hash (r.toList ++ d)
  fork_data_root v r := hash (v.toList ++ r.toList)
  header_root h := root (h.slot + 1000 * h.proposer_index + 7)
  body_root _ _ := root 5
  block_root _ b := root (b.slot + 3)
  state_root _ s := root (s.slot + 11)
  attestation_data_root d := root (d.slot + 13)
  deposit_message_root m := root (m.amount + 17)
  deposit_data_root d := root d.amount
  voluntary_exit_root e := root (e.validator_index + 19)
  u64_root n := root n
  root_root r := r
  roots_root rs := root rs.length
  historical_batch_root a b := hash (a.toList ++ b.toList)
  validators_root vs := root vs.length
  bls_change_root c := root c.validator_index
  consolidation_root c := root c.source_index
  transactions_root ts := root ts.length
  withdrawals_root ws := root ws.length
  deposit_receipts_root ws := root ws.length
  withdrawal_requests_root ws := root ws.length
  deposit_data_list_root ds := root ds.length
  engine_accepts
    | .payload p => p.gas_used ≤ p.gas_limit
    | .newPayload p _ _ => p.gas_used ≤ p.gas_limit

/-- minimal preset, list shuffling on (the default feature set). -/
def env : Env where
  toContext := Context.minimal
  toPrimitives := prims
  shuffling := true
  fuel := 100

/-- The same with the per-index shuffle. -/
def envNoShuffling : Env := { env with shuffling := false }

def validator (n : Nat) : Validator where
  public_key := pk n
  withdrawal_credentials := zeroBytes 32
  effective_balance := 32000000000
  slashed := false
  activation_eligibility_epoch := 0
  activation_epoch := 0
  exit_epoch := FAR_FUTURE_EPOCH
  withdrawable_epoch := FAR_FUTURE_EPOCH

def checkpoint (e : Nat) : Checkpoint := ⟨e, root (100 + e)⟩

def eth1 : Eth1Data := ⟨root 1, 12, root 2⟩

def payloadCore : PayloadCore where
  parent_hash := zeroBytes 32
  fee_recipient := zeroBytes 20
  state_root := zeroBytes 32
  receipts_root := zeroBytes 32
  logs_bloom := List.replicate 256 0
  prev_randao := zeroBytes 32
  block_number := 0
  gas_limit := 0
  gas_used := 0
  timestamp := 0
  extra_data := []
  base_fee_per_gas := 0
  block_hash := zeroBytes 32
  blob_gas_used := 0
  excess_blob_gas := 0

def payloadHeader : ExecutionPayloadHeader where
  toPayloadCore := payloadCore
  transactions_root := zeroBytes 32
  withdrawals_root := zeroBytes 32
  deposit_receipts_root := zeroBytes 32
  withdrawal_requests_root := zeroBytes 32

def syncCommittee : SyncCommittee := ⟨(List.range 4).map pk, pk 0⟩

/-- A state with `n` active validators at slot `slot`. -/
def state (n slot : Nat) : State where
  genesis_time := 0
  genesis_validators_root := root 9
  slot := slot
  fork := ⟨#v[0, 0, 0, 1], #v[0, 0, 0, 1], 0⟩
  latest_block_header := ⟨0, 0, root 0, root 0, root 0⟩
  block_roots := (List.range 64).map root
  state_roots := (List.range 64).map root
  historical_roots := []
  eth1_data := eth1
  eth1_data_votes := []
  eth1_deposit_index := 12
  validators := (List.range n).map validator
  balances := List.replicate n 32000000000
  randao_mixes := (List.range 64).map root
  slashings := List.replicate 64 0
  previous_epoch_attestations := []
  current_epoch_attestations := []
  previous_epoch_participation := List.replicate n 0
  current_epoch_participation := List.replicate n 0
  justification_bits := [false, false, false, false]
  previous_justified_checkpoint := checkpoint 0
  current_justified_checkpoint := checkpoint 0
  finalized_checkpoint := checkpoint 0
  inactivity_scores := List.replicate n 0
  current_sync_committee := syncCommittee
  next_sync_committee := syncCommittee
  latest_execution_payload_header := payloadHeader
  next_withdrawal_index := 0
  next_withdrawal_validator_index := 0
  historical_summaries := []
  deposit_receipts_start_index := 0
  deposit_balance_to_consume := 0
  exit_balance_to_consume := 0
  earliest_exit_epoch := 0
  consolidation_balance_to_consume := 0
  earliest_consolidation_epoch := 0
  pending_balance_deposits := []
  pending_partial_withdrawals := []
  pending_consolidations := []

end Verif.Toy
