import Verif.Spec.Executor
import Verif.Spec.Parts
import Verif.Spec.Safety
import Verif.Spec.Sync

/-! # Specification: what it takes for the chain to go on -/

namespace Verif.Spec

/-- An epoch has at least two slots, and the block roots of two epochs are kept. -/
structure SaneClock (E : Env) : Prop where
  epoch : 2 ≤ E.slots_per_epoch
  history : 2 * E.slots_per_epoch ≤ E.slots_per_historical_root

/-- The votes that phase0 has recorded can be counted: they have a bit for each member of their
committee, and are kept with those of the same epoch. -/
structure CountableVotes (E : Env) (s : State) : Prop where
  committee : ∀ a ∈ s.previous_epoch_attestations ++ s.current_epoch_attestations,
    ∃ c, get_beacon_committee E s a.data.slot a.data.index = .ok c ∧
      a.aggregation_bits.length = c.length
  previous : ∀ a ∈ s.previous_epoch_attestations,
    epochOf E a.data.slot = epochOf E s.slot - 1
  current : ∀ a ∈ s.current_epoch_attestations, epochOf E a.data.slot = epochOf E s.slot

/-- What epoch processing needs to succeed, beyond what it needs not to panic: the exit queue does
not reach beyond the end of time, and in phase0 the recorded votes can be counted. -/
structure Countable (E : Env) (f : Fork) (s : State) : Prop where
  exits : ∀ v ∈ s.validators, v.exit_epoch = FAR_FUTURE_EPOCH ∨ v.exit_epoch ≤ 2 ^ 62
  votes : f = .Phase0 → CountableVotes E s

/-- A slot in which a period of sync committees begins: then the next committee is drawn. -/
def DrawSlot (E : Env) (n : Nat) : Prop :=
  n % (E.slots_per_epoch * E.epochs_per_sync_committee_period) = 0

/-- There are no operations in the block. -/
structure NoOperations (b : BeaconBlockBody) : Prop where
  proposer_slashings : b.proposer_slashings = []
  attester_slashings : b.attester_slashings = []
  attestations : b.attestations = []
  deposits : b.deposits = []
  voluntary_exits : b.voluntary_exits = []
  bls_to_execution_changes : b.bls_to_execution_changes = []

/-- The eth1 data once the vote of the block has been counted. -/
def eth1After (E : Env) (s : State) (b : BeaconBlockBody) : Eth1Data :=
  if votingPeriodSlots E < 2 * (votesFor s b.eth1_data + 1) then b.eth1_data else s.eth1_data

/-- The block fits the state: it is the proposer's, for this slot and on this chain; they have
signed the epoch; its payload is one the engine accepts here, and pays the withdrawals that are due;
no deposit is due; and the sync committee, or nobody, has signed the block before. -/
structure Acceptable (E : Env) (f : Fork) (s : State) (b : BeaconBlock) : Prop where
  header : ValidHeader E s b
  reveal : ValidReveal E s b.body.randao_reveal
  payload : HasPayload f s b.body →
    PayloadFits E f { s with latest_block_header := headerOf E f b } b.body
  withdrawals : Fork.withdraws f = true →
    Pays E f s ((creditors E f s).take E.max_withdrawals_per_payload) s.next_withdrawal_index
      b.body.execution_payload.withdrawals
  deposits : (eth1After E s b.body).deposit_count = s.eth1_deposit_index
  sync : f ≠ .Phase0 → SyncSigned E s b.body.sync_aggregate

/-- The owner of the key can sign anything. -/
def CanSign (E : Env) (key : PublicKey) : Prop :=
  ∀ m, ∃ sig, E.verify_signature key m sig = true

/-- The execution engine can continue every chain: it accepts some payload on the given parent, with
the given randao value, time and withdrawals. -/
def EngineBuilds (E : Env) (f : Fork) : Prop :=
  ∀ parent mix time ws root, ∃ p : ExecutionPayload,
    p.parent_hash = parent ∧ p.prev_randao = mix ∧ p.timestamp = time ∧ p.withdrawals = ws ∧
    ∀ s body, s.latest_block_header.parent_root = root → body.execution_payload = p →
      body.blob_kzg_commitments = [] → E.engine_accepts (payload_request E f s body) = true

/-- A body without operations, which repeats the vote of the state and reports no sync signatures. -/
def quietBody (E : Env) (s : State) (reveal : Signature) (p : ExecutionPayload) :
    BeaconBlockBody where
  randao_reveal := reveal
  eth1_data := s.eth1_data
  graffiti := zeroBytes 32
  proposer_slashings := []
  attester_slashings := []
  attestations := []
  deposits := []
  voluntary_exits := []
  sync_aggregate := ⟨List.replicate E.sync_committee_size false, (zeroBytes 96).set 0 0xc0⟩
  execution_payload := p
  bls_to_execution_changes := []
  blob_kzg_commitments := []
  consolidations := []

/-- Somebody can propose in the state: no block has been accepted in its slot, the elected proposer
is not slashed and has their key, and no deposit is due. -/
structure CanPropose (E : Env) (s : State) (p : Nat) : Prop where
  fresh : s.latest_block_header.slot < s.slot
  elected : get_beacon_proposer_index E s = .ok p
  proposer : ∃ v, s.validators[p]? = some v ∧ v.slashed = false ∧ CanSign E v.public_key
  deposits : s.eth1_data.deposit_count = s.eth1_deposit_index

end Verif.Spec
