import Verif.Spec.Attestations
import Verif.Spec.History
import Verif.Spec.Operations

/-! # Specification: what a block and the end of an epoch consist of -/

namespace Verif.Spec

/-- The computations run one after the other, and all of them succeed. -/
def Runs : List (M Unit) → State → State → Prop
  | [], s, s' => s' = s
  | m :: ms, s, s' => ∃ t, m s = .ok () t ∧ Runs ms t s'

/-- The number of deposits in a block is right for the state. (Electra's condition is what the
code checks: no deposit is due. See C26.) -/
def RightCount (E : Env) (f : Fork) (s : State) (body : BeaconBlockBody) : Prop :=
  match f with
  | .Electra => min s.eth1_data.deposit_count s.deposit_receipts_start_index ≤ s.eth1_deposit_index
  | _ => s.eth1_deposit_index ≤ s.eth1_data.deposit_count ∧
      body.deposits.length = min E.max_deposits (s.eth1_data.deposit_count - s.eth1_deposit_index)

/-- The block carries an execution payload that is to be executed: in bellatrix, the merge is
complete or completed by this block; always from capella on. -/
def HasPayload (f : Fork) (s : State) (body : BeaconBlockBody) : Prop :=
  match f with
  | .Phase0 | .Altair => False
  | .Bellatrix => MergeComplete s ∨ body.execution_payload.bellatrixPart ≠ defaultPayload
  | _ => True

instance (f : Fork) (s : State) (body : BeaconBlockBody) : Decidable (HasPayload f s body) := by
  cases f <;> unfold HasPayload MergeComplete <;> infer_instance

/-- The fork has credential changes and withdrawals. -/
def Fork.withdraws : Fork → Bool
  | .Capella | .Deneb | .Electra => true
  | _ => false

/-- What comes before the operations of a block, in order. -/
def openingParts (E : Env) (f : Fork) (s : State) (b : BeaconBlock) : List (M Unit) :=
  [process_block_header E f b] ++
  (if Fork.withdraws f then [process_withdrawals E f b.body.execution_payload] else []) ++
  (if HasPayload f s b.body then [process_execution_payload E f b.body] else []) ++
  [process_randao E b.body, process_eth1_data E b.body]

/-- The operations of a block, in order. -/
def operationParts (E : Env) (f : Fork) (body : BeaconBlockBody) : List (M Unit) :=
  body.proposer_slashings.map (process_proposer_slashing E f) ++
  body.attester_slashings.map (process_attester_slashing E f) ++
  body.attestations.map (process_attestation E f) ++
  body.deposits.map (process_deposit E f) ++
  body.voluntary_exits.map (process_voluntary_exit E f) ++
  (if Fork.withdraws f then
    body.bls_to_execution_changes.map (process_bls_to_execution_change E) else []) ++
  (if f = .Electra then
    body.execution_payload.withdrawal_requests.map
      (Electra.process_execution_layer_withdrawal_request E) ++
    body.execution_payload.deposit_receipts.map (Electra.process_deposit_receipt E) ++
    body.consolidations.map (Electra.process_consolidation E) else [])

/-- What comes after them. -/
def closingParts (E : Env) (f : Fork) (body : BeaconBlockBody) : List (M Unit) :=
  if f = .Phase0 then [] else [process_sync_aggregate E body.sync_aggregate]

/-- What is done at the end of an epoch, in order. -/
def epochParts (E : Env) : Fork → List (M Unit)
  | .Phase0 =>
    [process_justification_and_finalization E .Phase0,
     process_rewards_and_penalties E .Phase0,
     process_registry_updates E .Phase0,
     process_slashings E .Phase0,
     process_eth1_data_reset E,
     process_effective_balance_updates E .Phase0,
     process_slashings_reset E,
     process_randao_mixes_reset E,
     process_historical_update E .Phase0,
     process_participation_record_updates]
  | .Electra =>
    [process_justification_and_finalization E .Electra,
     process_inactivity_updates E,
     process_rewards_and_penalties E .Electra,
     process_registry_updates E .Electra,
     process_slashings E .Electra,
     process_eth1_data_reset E,
     Electra.process_pending_balance_deposits E,
     Electra.process_pending_consolidations E,
     process_effective_balance_updates E .Electra,
     process_slashings_reset E,
     process_randao_mixes_reset E,
     process_historical_update E .Electra,
     process_participation_flag_updates,
     process_sync_committee_updates E]
  | f =>
    [process_justification_and_finalization E f,
     process_inactivity_updates E,
     process_rewards_and_penalties E f,
     process_registry_updates E f,
     process_slashings E f,
     process_eth1_data_reset E,
     process_effective_balance_updates E f,
     process_slashings_reset E,
     process_randao_mixes_reset E,
     process_historical_update E f,
     process_participation_flag_updates,
     process_sync_committee_updates E]

/-! ## Who is concerned by a block -/

/-- A registry entry the block names: it may change. From electra on deposits and requests of the
execution layer name a validator by its key. -/
def Named (f : Fork) (b : BeaconBlockBody) (i : Nat) (key : PublicKey) : Prop :=
  (∃ op ∈ b.proposer_slashings, op.signed_header_1.message.proposer_index = i) ∨
  (∃ op ∈ b.attester_slashings,
    i ∈ op.attestation_1.attesting_indices ∧ i ∈ op.attestation_2.attesting_indices) ∨
  (∃ op ∈ b.voluntary_exits, op.message.validator_index = i) ∨
  (Fork.withdraws f = true ∧ ∃ op ∈ b.bls_to_execution_changes, op.message.validator_index = i) ∨
  (f = .Electra ∧
    ((∃ d ∈ b.deposits, d.data.public_key = key) ∨
     (∃ r ∈ b.execution_payload.withdrawal_requests, r.validator_public_key = key) ∨
     (∃ r ∈ b.execution_payload.deposit_receipts, r.public_key = key)))

/-- A balance the block may change: that of the proposer, of a validator it slashes, of one it pays
a withdrawal or deposits for, or of a member of the sync committee. -/
def Paid (f : Fork) (s : State) (b : BeaconBlock) (i : Nat) (key : PublicKey) : Prop :=
  b.proposer_index = i ∨
  (∃ op ∈ b.body.proposer_slashings, op.signed_header_1.message.proposer_index = i) ∨
  (∃ op ∈ b.body.attester_slashings,
    i ∈ op.attestation_1.attesting_indices ∧ i ∈ op.attestation_2.attesting_indices) ∨
  (∃ d ∈ b.body.deposits, d.data.public_key = key) ∨
  (f ≠ .Phase0 ∧ key ∈ s.current_sync_committee.public_keys) ∨
  (Fork.withdraws f = true ∧
    ∃ w ∈ b.body.execution_payload.withdrawals, w.validator_index = i) ∨
  (f = .Electra ∧ ∃ r ∈ b.body.execution_payload.deposit_receipts, r.public_key = key)

/-- The validators `l` signed the attestation. In electra these are the ones
`get_attesting_indices` selects (see C53). -/
def AttestedBy (E : Env) (f : Fork) (s : State) (a : Attestation) (l : List Nat) : Prop :=
  match f with
  | .Electra => ∃ idxs, Electra.get_attesting_indices E s a = .ok idxs ∧ l.Perm idxs ∧
      ValidIndexed E s ⟨l, a.data, a.signature⟩
  | _ => CommitteeVote E s a l

/-- The attestation earns validator `i` the flag `j`. -/
def EarnsFlag (E : Env) (f : Fork) (s : State) (a : Attestation) (i j : Nat) : Prop :=
  ∃ l fl, AttestedBy E f s a l ∧ EarnedFlags E f s a.data fl ∧ i ∈ l ∧ j ∈ fl

/-- `new` is `old`, perhaps longer, with exactly the flags in `P` added. -/
def FlagsEarned (P : Nat → Nat → Prop) (old new : List UInt8) : Prop :=
  ∀ (i : Nat) x, old[i]? = some x →
    ∃ y, new[i]? = some y ∧ ∀ j < 8, FlagSet y j ↔ FlagSet x j ∨ P i j

/-- The deposits a block brings: those of the deposit contract and, in electra, those the execution
layer reports in its payload. -/
def depositsOf (f : Fork) (b : BeaconBlockBody) : List DepositData :=
  b.deposits.map (·.data) ++
    if f = .Electra then b.execution_payload.deposit_receipts.map fun r =>
      ⟨r.public_key, r.withdrawal_credentials, r.amount, r.signature⟩
    else []

end Verif.Spec
