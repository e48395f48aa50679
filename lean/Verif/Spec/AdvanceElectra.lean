import Verif.Spec.Advance
import Verif.Spec.SafetyElectra
import Verif.Spec.Withdrawals

/-! # Specification: what it takes for electra's chain to go on -/

namespace Verif.Spec

/-- The withdrawals of a payload of electra: first the requests that are due, then what the sweep
finds. The validator named in the former is the one at the position of the sweep, whoever asked (see
C54). -/
def ElectraPays (E : Env) (s : State) (ws : List Withdrawal) : Prop :=
  ∃ ps rest, ws = ps ++ rest ∧
    PaysRequests E s (nextRequests E s) s.next_withdrawal_index ps ∧
    (∀ w ∈ ps, w.validator_index = s.next_withdrawal_validator_index) ∧
    Pays E .Electra s ((creditors E .Electra s).take (E.max_withdrawals_per_payload - ps.length))
      (s.next_withdrawal_index + ps.length) rest

/-- There are no operations in the block that only electra has. -/
structure NoRequests (b : BeaconBlockBody) : Prop where
  withdrawal_requests : b.execution_payload.withdrawal_requests = []
  deposit_receipts : b.execution_payload.deposit_receipts = []
  consolidations : b.consolidations = []

/-- The block fits the state, as `Acceptable` has it before electra. No deposit is due that the old
bridge has to bring. -/
structure ElectraAcceptable (E : Env) (s : State) (b : BeaconBlock) : Prop where
  header : ValidHeader E s b
  reveal : ValidReveal E s b.body.randao_reveal
  payload : PayloadFits E .Electra { s with latest_block_header := headerOf E .Electra b } b.body
  withdrawals : ElectraPays E s b.body.execution_payload.withdrawals
  deposits : min (eth1After E s b.body).deposit_count s.deposit_receipts_start_index ≤
    s.eth1_deposit_index
  sync : SyncSigned E s b.body.sync_aggregate

/-- The execution engine can continue every chain, with a payload that contains no requests. -/
def ElectraBuilds (E : Env) : Prop :=
  ∀ parent mix time ws root, ∃ p : ExecutionPayload,
    p.parent_hash = parent ∧ p.prev_randao = mix ∧ p.timestamp = time ∧ p.withdrawals = ws ∧
    p.withdrawal_requests = [] ∧ p.deposit_receipts = [] ∧
    ∀ s body, s.latest_block_header.parent_root = root → body.execution_payload = p →
      body.blob_kzg_commitments = [] → E.engine_accepts (payload_request E .Electra s body) = true

/-- Somebody can propose in the state. -/
structure ElectraCanPropose (E : Env) (s : State) (p : Nat) : Prop where
  fresh : s.latest_block_header.slot < s.slot
  elected : get_beacon_proposer_index E s = .ok p
  proposer : ∃ v, s.validators[p]? = some v ∧ v.slashed = false ∧ CanSign E v.public_key
  deposits : min s.eth1_data.deposit_count s.deposit_receipts_start_index ≤ s.eth1_deposit_index

end Verif.Spec
