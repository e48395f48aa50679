import Verif.Spec.Slashable
import Verif.Model.Block

/-! # Specification: when block operations are acceptable -/

namespace Verif.Spec

/-- A block header fits the state. -/
structure ValidHeader (E : Env) (s : State) (b : BeaconBlock) : Prop where
  slot : b.slot = s.slot
  newer : s.latest_block_header.slot < b.slot
  proposer : get_beacon_proposer_index E s = .ok b.proposer_index
  parent : b.parent_root = E.header_root s.latest_block_header
  not_slashed : ∃ v, s.validators[b.proposer_index]? = some v ∧ v.slashed = false

/-- The header recorded for a block: its state root is filled in by the next slot. -/
def headerOf (E : Env) (f : Fork) (b : BeaconBlock) : BeaconBlockHeader where
  slot := b.slot
  proposer_index := b.proposer_index
  parent_root := b.parent_root
  state_root := zeroBytes 32
  body_root := E.body_root f b.body

/-- The RANDAO reveal of a block is the current proposer's signature of the epoch. -/
def ValidReveal (E : Env) (s : State) (reveal : Signature) : Prop :=
  ∃ p v, get_beacon_proposer_index E s = .ok p ∧ s.validators[p]? = some v ∧
    E.verify_signature v.public_key
      (E.signing_data_root (E.u64_root (epochOf E s.slot))
        (domainAt E s .Randao (epochOf E s.slot))) reveal = true

/-- The mix of an epoch: the ring buffer has `epochs_per_historical_vector` places. -/
def mixAt (E : Env) (s : State) (epoch : Nat) : Option Bytes32 :=
  s.randao_mixes[epoch % E.epochs_per_historical_vector]?

/-- How many of the recorded votes are for `d`. -/
def votesFor (s : State) (d : Eth1Data) : Nat := s.eth1_data_votes.count d

/-- The number of slots of an eth1 voting period. -/
def votingPeriodSlots (E : Env) : Nat := E.epochs_per_eth1_voting_period * E.slots_per_epoch

/-- The sum of the pending partial withdrawals of a validator (electra). -/
def pendingWithdrawalsOf (s : State) (i : Nat) : Nat :=
  ((s.pending_partial_withdrawals.filter fun w => w.index = i).map (·.amount)).sum

/-- The domain an exit message for `epoch` is signed with: the fork of the epoch, and
from deneb on always capella's. -/
def exitDomain (E : Env) (f : Fork) (s : State) (epoch : Nat) : Domain :=
  if f = .Deneb ∨ f = .Electra then
    domainOf E .VoluntaryExit E.capella_fork_version s.genesis_validators_root
  else domainAt E s .VoluntaryExit epoch

/-- A voluntary exit is allowed for validator `v`. -/
structure ExitAllowed (E : Env) (f : Fork) (s : State) (op : SignedVoluntaryExit)
    (v : Validator) : Prop where
  exists_validator : s.validators[op.message.validator_index]? = some v
  active : ActiveAt v (epochOf E s.slot)
  not_exiting : v.exit_epoch = FAR_FUTURE_EPOCH
  epoch_reached : op.message.epoch ≤ epochOf E s.slot
  /-- measured from the eligibility epoch, as the code does -/
  served : v.activation_eligibility_epoch + E.shard_committee_period ≤ epochOf E s.slot
  no_pending : f = .Electra → pendingWithdrawalsOf s op.message.validator_index = 0
  signed : E.verify_signature v.public_key
    (E.signing_data_root (E.voluntary_exit_root op.message)
      (exitDomain E f s op.message.epoch)) op.signature = true

/-- A change of withdrawal credentials is authorised for validator `v`. -/
structure ChangeAllowed (E : Env) (s : State) (op : SignedBlsToExecutionChange)
    (v : Validator) : Prop where
  exists_validator : s.validators[op.message.validator_index]? = some v
  /-- the credentials are a zero byte followed by the tail of the key's hash -/
  credentials : v.withdrawal_credentials.toList =
    0 :: (E.hash op.message.from_bls_public_key.toList).toList.drop 1
  signed : E.verify_signature op.message.from_bls_public_key
    (E.signing_data_root (E.bls_change_root op.message)
      (domainOf E .BlsToExecutionChange E.genesis_fork_version s.genesis_validators_root))
    op.signature = true

/-- Execution credentials: `0x01`, eleven zero bytes, the address. -/
def executionCredentials (a : ExecutionAddress) : List UInt8 :=
  1 :: (List.replicate 11 0 ++ a.toList)

/-- The payload the merge starts from: "the merge is complete" means that the recorded
header is not the default one (bellatrix fields). -/
def MergeComplete (s : State) : Prop :=
  s.latest_execution_payload_header.bellatrixPart ≠ defaultPayloadHeader

/-- An execution payload fits the state. -/
structure PayloadFits (E : Env) (f : Fork) (s : State) (body : BeaconBlockBody) : Prop where
  parent : (f = .Bellatrix → MergeComplete s) →
    body.execution_payload.parent_hash = s.latest_execution_payload_header.block_hash
  prev_randao : mixAt E s (epochOf E s.slot) = some body.execution_payload.prev_randao
  timestamp : body.execution_payload.timestamp = s.genesis_time + s.slot * E.seconds_per_slot
  timestamp_fits : s.genesis_time + s.slot * E.seconds_per_slot < 2 ^ 64
  blobs : f = .Deneb ∨ f = .Electra →
    body.blob_kzg_commitments.length ≤ E.max_blobs_per_block
  engine : E.engine_accepts (payload_request E f s body) = true

/-- The recorded header summarises the payload; fields a fork lacks are default. -/
structure Summarises (E : Env) (f : Fork) (p : ExecutionPayload) (h : ExecutionPayloadHeader) :
    Prop where
  parent_hash : h.parent_hash = p.parent_hash
  fee_recipient : h.fee_recipient = p.fee_recipient
  state_root : h.state_root = p.state_root
  receipts_root : h.receipts_root = p.receipts_root
  logs_bloom : h.logs_bloom = p.logs_bloom
  prev_randao : h.prev_randao = p.prev_randao
  block_number : h.block_number = p.block_number
  gas_limit : h.gas_limit = p.gas_limit
  gas_used : h.gas_used = p.gas_used
  timestamp : h.timestamp = p.timestamp
  extra_data : h.extra_data = p.extra_data
  base_fee_per_gas : h.base_fee_per_gas = p.base_fee_per_gas
  block_hash : h.block_hash = p.block_hash
  blobs : f = .Deneb ∨ f = .Electra →
    h.blob_gas_used = p.blob_gas_used ∧ h.excess_blob_gas = p.excess_blob_gas
  transactions : h.transactions_root = E.transactions_root p.transactions
  withdrawals : f = .Capella ∨ f = .Deneb ∨ f = .Electra →
    h.withdrawals_root = E.withdrawals_root p.withdrawals
  receipts : f = .Electra → h.deposit_receipts_root = E.deposit_receipts_root p.deposit_receipts
  requests : f = .Electra →
    h.withdrawal_requests_root = E.withdrawal_requests_root p.withdrawal_requests

end Verif.Spec
