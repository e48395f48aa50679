import Verif.Model.Slash

/-! # Block operations: `*/block_processing.rs` -/

namespace Verif

/-! ## Slashings -/

/-- `phase0/block_processing.rs:34-107`, used by every fork. -/
def process_proposer_slashing (E : Env) (f : Fork) (op : ProposerSlashing) : M Unit := do
  let s ← get
  let header_1 := op.signed_header_1.message
  let header_2 := op.signed_header_2.message
  rejectIf (header_1.slot ≠ header_2.slot) .proposerSlashingSlotMismatch
  rejectIf (header_1.proposer_index ≠ header_2.proposer_index) .proposerSlashingProposerMismatch
  rejectIf (header_1 = header_2) .proposerSlashingHeadersAreEqual
  let proposer ← getOr s.validators header_1.proposer_index .proposerSlashingInvalidIndex
  let current_epoch ← get_current_epoch E s
  rejectIf (!is_slashable_validator proposer current_epoch) .proposerSlashingProposerIsNotSlashable
  let epoch ← compute_epoch_at_slot E header_1.slot
  let domain ← get_domain E s .BeaconProposer (some epoch)
  rejectIf (!E.verify_signature proposer.public_key
    (compute_signing_root E (E.header_root header_1) domain) op.signed_header_1.signature)
    .proposerSlashingInvalidSignature
  rejectIf (!E.verify_signature proposer.public_key
    (compute_signing_root E (E.header_root header_2) domain) op.signed_header_2.signature)
    .proposerSlashingInvalidSignature
  slash_validator E f header_1.proposer_index none

/-- The loop `phase0/block_processing.rs:156-161`: slash every slashable validator
of the list; did it slash any? -/
def slash_all (E : Env) (f : Fork) (current_epoch : Nat) : List Nat → Bool → M Bool
  | [], slashed_any => pure slashed_any
  | index :: rest, slashed_any => do
    let s ← get
    let v ← idx s.validators index
    if is_slashable_validator v current_epoch then
      slash_validator E f index none
      slash_all E f current_epoch rest true
    else slash_all E f current_epoch rest slashed_any

/-- `phase0/block_processing.rs:109-170`, used by every fork. -/
def process_attester_slashing (E : Env) (f : Fork) (op : AttesterSlashing) : M Unit := do
  let s ← get
  rejectIf (!is_slashable_attestation_data op.attestation_1.data op.attestation_2.data)
    .attesterSlashingNotSlashable
  is_valid_indexed_attestation E s op.attestation_1
  is_valid_indexed_attestation E s op.attestation_2
  let indices_1 := setOfList op.attestation_1.attesting_indices
  let indices_2 := setOfList op.attestation_2.attesting_indices
  let indices := sortBy (· ≤ ·) (iterate E s (indices_1.filter fun i => decide (i ∈ indices_2)))
  let current_epoch ← get_current_epoch E s
  let slashed_any ← slash_all E f current_epoch indices false
  rejectIf (!slashed_any) .attesterSlashingNoSlashings

/-! ## Attestations -/

/-- The checks on target epoch, slot and inclusion window:
`phase0/block_processing.rs:195-233`, `altair/block_processing.rs:54-92`,
`deneb/block_processing.rs:53-85`, `electra/block_processing.rs:518-550`. Returns
`is_current`. The `NotTimely` error repeats the two sums, which cannot fail then. -/
def check_attestation_data (E : Env) (f : Fork) (s : State) (data : AttestationData) :
    R Bool := do
  let previous_epoch ← get_previous_epoch E s
  let current_epoch ← get_current_epoch E s
  let is_previous := decide (data.target.epoch = previous_epoch)
  let is_current := decide (data.target.epoch = current_epoch)
  rejectIf (!(is_previous || is_current)) .attestationInvalidTargetEpoch
  let attestation_epoch ← compute_epoch_at_slot E data.slot
  rejectIf (data.target.epoch ≠ attestation_epoch) .attestationInvalidSlot
  let earliest ← data.slot +? E.min_attestation_inclusion_delay
  match f with
  | .Deneb | .Electra =>
    rejectIf (!decide (earliest ≤ s.slot)) .attestationNoDelay
    return is_current
  | _ =>
    let latest ← data.slot +? E.slots_per_epoch
    rejectIf (!(decide (earliest ≤ s.slot) && decide (s.slot ≤ latest))) .attestationNotTimely
    return is_current

/-- The checks on committee index and bitfield length:
`phase0/block_processing.rs:235-251`, `altair/block_processing.rs:94-109`,
`deneb/block_processing.rs:86-100`. -/
def check_attestation_committee (E : Env) (s : State) (a : Attestation) : R Unit := do
  let committee_count ← get_committee_count_per_slot E s a.data.target.epoch
  rejectIf (a.data.index ≥ committee_count) .attestationInvalidIndex
  let committee ← get_beacon_committee E s a.data.slot a.data.index
  rejectIf (a.aggregation_bits.length ≠ committee.length) .attestationBitfield

/-- The loop `electra/block_processing.rs:560-571`: total size of the committees. -/
def Electra.participants_count (E : Env) (s : State) (slot committee_count : Nat) :
    List Nat → Nat → R Nat
  | [], n => .ok n
  | index :: rest, n => do
    rejectIf (index ≥ committee_count) .attestationInvalidIndex
    let committee ← get_beacon_committee E s slot index
    let n' ← n +? committee.length
    Electra.participants_count E s slot committee_count rest n'

/-- `electra/block_processing.rs:552-580` -/
def Electra.check_attestation_committees (E : Env) (s : State) (a : Attestation) : R Unit := do
  rejectIf (a.data.index ≠ 0) .attestationInvalidIndex
  let committee_indices := Electra.get_committee_indices a.committee_bits
  let committee_count ← get_committee_count_per_slot E s a.data.target.epoch
  let n ← Electra.participants_count E s a.data.slot committee_count committee_indices 0
  rejectIf (a.aggregation_bits.length ≠ n) .attestationBitfield

/-- `phase0/block_processing.rs:172-292` -/
def Phase0.process_attestation (E : Env) (a : Attestation) : M Unit := do
  let s ← get
  let is_current ← check_attestation_data E .Phase0 s a.data
  check_attestation_committee E s a
  let indexed ← get_indexed_attestation E s a
  is_valid_indexed_attestation E s indexed
  let inclusion_delay ← s.slot -? a.data.slot
  let proposer_index ← get_beacon_proposer_index E s
  let pending : PendingAttestation :=
    ⟨a.aggregation_bits, a.data, inclusion_delay, proposer_index⟩
  if is_current then
    rejectIf (a.data.source ≠ s.current_justified_checkpoint) .attestationInvalidSource
    upd fun s => { s with current_epoch_attestations := s.current_epoch_attestations ++ [pending] }
  else
    rejectIf (a.data.source ≠ s.previous_justified_checkpoint) .attestationInvalidSource
    upd fun s =>
      { s with previous_epoch_attestations := s.previous_epoch_attestations ++ [pending] }

/-- The participation list written by an attestation. -/
def participationOf (is_current : Bool) (s : State) : List UInt8 :=
  if is_current then s.current_epoch_participation else s.previous_epoch_participation

/-- Write that list. -/
def setParticipation (is_current : Bool) (p : List UInt8) (s : State) : State :=
  if is_current then { s with current_epoch_participation := p }
  else { s with previous_epoch_participation := p }

/-- The body of the inner loop `altair/block_processing.rs:128-144` for one flag. -/
def apply_flag (E : Env) (is_current : Bool) (flag_indices : List Nat) (index : Nat)
    (numerator : Nat) (flag : Nat × Nat) : M Nat := do
  let s ← get
  if flag_indices.contains flag.1 then
    let flags ← idx (participationOf is_current s) index
    let present ← has_flag flags flag.1
    if present then return numerator
    else
      let flags' ← add_flag flags flag.1
      upd fun s => setParticipation is_current ((participationOf is_current s).set index flags') s
      let s ← get
      let base_reward ← Altair.get_base_reward E s index
      let r ← base_reward *? flag.2
      numerator +? r
  else return numerator

/-- `PARTICIPATION_FLAG_WEIGHTS.iter().enumerate()` -/
def enumeratedWeights : List (Nat × Nat) := [(0, 14), (1, 26), (2, 14)]

/-- The loops `altair/block_processing.rs:126-145`: set the flags, sum up the
proposer reward numerator. -/
def apply_flags (E : Env) (is_current : Bool) (flag_indices attesting_indices : List Nat) :
    M Nat :=
  attesting_indices.foldlM
    (fun numerator index =>
      enumeratedWeights.foldlM (apply_flag E is_current flag_indices index) numerator) 0

/-- `altair/block_processing.rs:147-152` -/
def reward_attestation_proposer (E : Env) (numerator : Nat) : M Unit := do
  let d₁ ← WEIGHT_DENOMINATOR -? PROPOSER_WEIGHT
  let d₂ ← d₁ *? WEIGHT_DENOMINATOR
  let denominator ← d₂ /? PROPOSER_WEIGHT
  let proposer_reward ← numerator /? denominator
  let s ← get
  let proposer_index ← get_beacon_proposer_index E s
  increase_balance proposer_index proposer_reward

/-- `altair/block_processing.rs:31-153` (altair, bellatrix, capella),
`deneb/block_processing.rs:26-136`. -/
def Altair.process_attestation (E : Env) (f : Fork) (a : Attestation) : M Unit := do
  let s ← get
  let is_current ← check_attestation_data E f s a.data
  check_attestation_committee E s a
  let inclusion_delay ← s.slot -? a.data.slot
  let flag_indices ← get_attestation_participation_flag_indices E f s a.data inclusion_delay
  let indexed ← get_indexed_attestation E s a
  is_valid_indexed_attestation E s indexed
  let attesting_indices ← get_attesting_indices E s a.data a.aggregation_bits
  let numerator ← apply_flags E is_current flag_indices attesting_indices
  reward_attestation_proposer E numerator

/-- `electra/block_processing.rs:483-618` -/
def Electra.process_attestation (E : Env) (a : Attestation) : M Unit := do
  let s ← get
  let is_current ← check_attestation_data E .Electra s a.data
  Electra.check_attestation_committees E s a
  let inclusion_delay ← s.slot -? a.data.slot
  let flag_indices ←
    get_attestation_participation_flag_indices E .Electra s a.data inclusion_delay
  let indexed ← Electra.get_indexed_attestation E s a
  is_valid_indexed_attestation E s indexed
  let attesting_indices ← Electra.get_attesting_indices E s a
  let numerator ← apply_flags E is_current flag_indices attesting_indices
  reward_attestation_proposer E numerator

/-- The fork's `process_attestation`. -/
def process_attestation (E : Env) (f : Fork) (a : Attestation) : M Unit :=
  match f with
  | .Phase0 => Phase0.process_attestation E a
  | .Electra => Electra.process_attestation E a
  | f => Altair.process_attestation E f a

/-! ## Deposits -/

/-- `phase0/block_processing.rs:294-315`; `electra/block_processing.rs:744-758`,
where the effective balance starts at zero. -/
def get_validator_from_deposit (E : Env) (f : Fork) (public_key : PublicKey)
    (withdrawal_credentials : Bytes32) (amount : Nat) : R Validator := do
  let effective_balance ← (match f with
    | .Electra => pure 0
    | _ => do
      let r ← amount %? E.effective_balance_increment
      let a ← amount -? r
      pure (min a E.max_effective_balance))
  return { public_key, withdrawal_credentials, effective_balance, slashed := false,
           activation_eligibility_epoch := FAR_FUTURE_EPOCH,
           activation_epoch := FAR_FUTURE_EPOCH,
           exit_epoch := FAR_FUTURE_EPOCH,
           withdrawable_epoch := FAR_FUTURE_EPOCH }

/-- `phase0/block_processing.rs:317-349`, `altair/block_processing.rs:155-190`,
`electra/block_processing.rs:701-742`. -/
def add_validator_to_registry (E : Env) (f : Fork) (public_key : PublicKey)
    (withdrawal_credentials : Bytes32) (amount : Nat) : M Unit := do
  let v ← get_validator_from_deposit E f public_key withdrawal_credentials amount
  match f with
  | .Phase0 =>
    upd fun s => { s with
      validators := s.validators ++ [v]
      balances := s.balances ++ [amount] }
  | .Electra =>
    upd fun s => { s with
      validators := s.validators ++ [v]
      balances := s.balances ++ [0]
      previous_epoch_participation := s.previous_epoch_participation ++ [0]
      current_epoch_participation := s.current_epoch_participation ++ [0]
      inactivity_scores := s.inactivity_scores ++ [0]
      pending_balance_deposits := s.pending_balance_deposits ++ [⟨s.validators.length, amount⟩] }
  | _ =>
    upd fun s => { s with
      validators := s.validators ++ [v]
      balances := s.balances ++ [amount]
      previous_epoch_participation := s.previous_epoch_participation ++ [0]
      current_epoch_participation := s.current_epoch_participation ++ [0]
      inactivity_scores := s.inactivity_scores ++ [0] }

/-- Does the deposit's signature verify (domain `Deposit`, genesis fork version, zero
root)? `phase0/block_processing.rs:383-389`, `electra/block_processing.rs:688-699`. -/
def deposit_signature_ok (E : Env) (public_key : PublicKey) (withdrawal_credentials : Bytes32)
    (amount : Nat) (signature : Signature) : Bool :=
  E.verify_signature public_key
    (compute_signing_root E
      (E.deposit_message_root ⟨public_key, withdrawal_credentials, amount⟩)
      (compute_domain E .Deposit none none))
    signature

/-- `phase0/block_processing.rs:351-403` -/
def Phase0.apply_deposit (E : Env) (f : Fork) (public_key : PublicKey)
    (withdrawal_credentials : Bytes32) (amount : Nat) (signature : Signature) : M Unit := do
  let s ← get
  match s.validators.findIdx? fun v => v.public_key == public_key with
  | some index => increase_balance index amount
  | none =>
    if deposit_signature_ok E public_key withdrawal_credentials amount signature then
      add_validator_to_registry E f public_key withdrawal_credentials amount
    else return ()

/-- `electra/block_processing.rs:620-686` -/
def Electra.apply_deposit (E : Env) (public_key : PublicKey)
    (withdrawal_credentials : Bytes32) (amount : Nat) (signature : Signature) : M Unit := do
  let s ← get
  match s.validators.findIdx? fun v => v.public_key == public_key with
  | some index =>
    let v ← idx s.validators index
    upd fun s => { s with
      pending_balance_deposits := s.pending_balance_deposits ++ [⟨index, amount⟩] }
    rejectIf (!deposit_signature_ok E public_key withdrawal_credentials amount signature) .bls
    if Electra.is_compounding_withdrawal_credential withdrawal_credentials &&
        has_eth1_withdrawal_credential v then
      Electra.switch_to_compounding_validator E index
    else return ()
  | none =>
    rejectIf (!deposit_signature_ok E public_key withdrawal_credentials amount signature) .bls
    add_validator_to_registry E .Electra public_key withdrawal_credentials amount

/-- The fork's `apply_deposit`. -/
def apply_deposit (E : Env) (f : Fork) (public_key : PublicKey)
    (withdrawal_credentials : Bytes32) (amount : Nat) (signature : Signature) : M Unit :=
  match f with
  | .Electra => Electra.apply_deposit E public_key withdrawal_credentials amount signature
  | f => Phase0.apply_deposit E f public_key withdrawal_credentials amount signature

/-- `phase0/constants.rs` `DEPOSIT_CONTRACT_TREE_DEPTH` -/
def DEPOSIT_CONTRACT_TREE_DEPTH : Nat := 32

/-- `phase0/block_processing.rs:405-446`, used by every fork. -/
def process_deposit (E : Env) (f : Fork) (d : Deposit) : M Unit := do
  let s ← get
  rejectIf (!E.is_valid_merkle_branch (E.deposit_data_root d.data) d.proof
    (DEPOSIT_CONTRACT_TREE_DEPTH + 1) s.eth1_deposit_index s.eth1_data.deposit_root)
    .depositInvalidProof
  let next ← s.eth1_deposit_index +? 1
  upd fun s => { s with eth1_deposit_index := next }
  apply_deposit E f d.data.public_key d.data.withdrawal_credentials d.data.amount d.data.signature

/-! ## Voluntary exits -/

/-- The domain a voluntary exit is signed with: `phase0/block_processing.rs:511`;
`deneb/block_processing.rs:333-338` and `electra/block_processing.rs:841-846` fix the
capella version. -/
def voluntary_exit_domain (E : Env) (f : Fork) (s : State) (epoch : Nat) : R Domain :=
  match f with
  | .Deneb | .Electra =>
    .ok (compute_domain E .VoluntaryExit (some E.capella_fork_version)
      (some s.genesis_validators_root))
  | _ => get_domain E s .VoluntaryExit (some epoch)

/-- `phase0/block_processing.rs:448-520`, `deneb/block_processing.rs:271-348`,
`electra/block_processing.rs:760-858`. -/
def process_voluntary_exit (E : Env) (f : Fork) (op : SignedVoluntaryExit) : M Unit := do
  let s ← get
  let exit := op.message
  let validator ← getOr s.validators exit.validator_index .exitInvalidIndex
  let current_epoch ← get_current_epoch E s
  rejectIf (!is_active_validator validator current_epoch) .exitInactiveValidator
  rejectIf (validator.exit_epoch ≠ FAR_FUTURE_EPOCH) .exitValidatorAlreadyExited
  rejectIf (current_epoch < exit.epoch) .exitEarlyExit
  let minimum_time_active ← validator.activation_eligibility_epoch +? E.shard_committee_period
  rejectIf (current_epoch < minimum_time_active) .exitValidatorIsNotActiveForLongEnough
  let pending ← (match f with
    | .Electra => Electra.get_pending_balance_to_withdraw s exit.validator_index
    | _ => pure 0)
  rejectIf (pending ≠ 0) .exitNonZeroPendingBalanceToWithdraw
  let domain ← voluntary_exit_domain E f s exit.epoch
  rejectIf (!E.verify_signature validator.public_key
    (compute_signing_root E (E.voluntary_exit_root exit) domain) op.signature)
    .exitInvalidSignature
  Fork.initiate_validator_exit E f exit.validator_index

/-! ## Capella: credential changes -/

/-- The credentials written by `capella/block_processing.rs:82-84`. -/
def eth1Credentials (a : ExecutionAddress) : Bytes32 :=
  Vector.ofFn fun i : Fin 32 =>
    if i.val = 0 then ETH1_ADDRESS_WITHDRAWAL_PREFIX
    else if h : 12 ≤ i.val then a[i.val - 12]
    else 0

/-- `capella/block_processing.rs:23-87`, used by capella, deneb and electra. -/
def process_bls_to_execution_change (E : Env) (op : SignedBlsToExecutionChange) : M Unit := do
  let s ← get
  let change := op.message
  let v ← getOr s.validators change.validator_index .blsChangeValidatorIndexOutOfBounds
  rejectIf (v.withdrawal_credentials[0] ≠ BLS_WITHDRAWAL_PREFIX)
    .blsChangeWithdrawalCredentialsPrefix
  rejectIf (v.withdrawal_credentials.toList.drop 1 ≠
    (E.hash change.from_bls_public_key.toList).toList.drop 1) .blsChangePublicKeyMismatch
  let domain := compute_domain E .BlsToExecutionChange none (some s.genesis_validators_root)
  verify_signed_data E (E.bls_change_root change) op.signature change.from_bls_public_key domain
  updValidator change.validator_index fun v =>
    { v with withdrawal_credentials := eth1Credentials change.to_execution_address }

/-! ## Electra: execution layer requests and consolidations -/

namespace Electra

/-- `electra/block_processing.rs:860-960`. `PENDING_PARTIAL_WITHDRAWALS_LIMIT` is a
const generic equal to the preset's value. -/
def process_execution_layer_withdrawal_request (E : Env)
    (r : ExecutionLayerWithdrawalRequest) : M Unit := do
  let s ← get
  let is_full_exit_request := r.amount == FULL_EXIT_REQUEST_AMOUNT
  if s.pending_partial_withdrawals.length = E.pending_partial_withdrawals_limit &&
      !is_full_exit_request then
    return ()
  else match s.validators.findIdx? fun v => v.public_key == r.validator_public_key with
  | none => return ()
  | some index =>
    let v ← idx s.validators index
    if !(has_execution_withdrawal_credential v &&
        credentialsAddress v.withdrawal_credentials == r.source_address) then
      return ()
    else
    let current_epoch ← get_current_epoch E s
    if !is_active_validator v current_epoch then return ()
    else if v.exit_epoch ≠ FAR_FUTURE_EPOCH then return ()
    else
    let earliest ← v.activation_epoch +? E.shard_committee_period
    if current_epoch < earliest then return ()
    else
    let pending ← get_pending_balance_to_withdraw s index
    if is_full_exit_request then
      if pending = 0 then initiate_validator_exit E index else return ()
    else
    let balance ← idx s.balances index
    let reserved ← E.min_activation_balance +? pending
    if has_compounding_withdrawal_credential v &&
        (decide (v.effective_balance ≥ E.min_activation_balance) &&
          decide (balance > reserved)) then
      let a ← balance -? E.min_activation_balance
      let b ← a -? pending
      let to_withdraw := min b r.amount
      let exit_queue_epoch ← compute_exit_epoch_and_update_churn E to_withdraw
      let withdrawable_epoch ← exit_queue_epoch +? E.min_validator_withdrawability_delay
      upd fun s => { s with
        pending_partial_withdrawals :=
          s.pending_partial_withdrawals ++ [⟨index, to_withdraw, withdrawable_epoch⟩] }
    else return ()

/-- `electra/block_processing.rs:962-1006` -/
def process_deposit_receipt (E : Env) (r : DepositReceipt) : M Unit := do
  upd fun s =>
    if s.deposit_receipts_start_index = UNSET_DEPOSIT_RECEIPTS_START_INDEX then
      { s with deposit_receipts_start_index := r.index }
    else s
  apply_deposit E r.public_key r.withdrawal_credentials r.amount r.signature

/-- The checks `electra/block_processing.rs:1041-1136`; returns the source
validator. -/
def check_consolidation (E : Env) (s : State) (op : SignedConsolidation) : R Validator := do
  rejectIf (s.pending_consolidations.length ≥ E.pending_consolidations_limit)
    .consolidationPendingConsolidationsQueueFull
  let churn ← get_consolidation_churn_limit E s
  rejectIf (churn ≤ E.min_activation_balance) .consolidationInsufficientConsolidationChurnLimit
  let c := op.message
  rejectIf (c.source_index = c.target_index) .consolidationEqualSourceAndTargetIndices
  let source ← getOr s.validators c.source_index .consolidationInvalidIndex
  let target ← getOr s.validators c.target_index .consolidationInvalidIndex
  let current_epoch ← get_current_epoch E s
  rejectIf (!is_active_validator source current_epoch) .consolidationInactiveValidator
  rejectIf (!is_active_validator target current_epoch) .consolidationInactiveValidator
  rejectIf (source.exit_epoch ≠ FAR_FUTURE_EPOCH) .consolidationExitInitiatedForValidator
  rejectIf (target.exit_epoch ≠ FAR_FUTURE_EPOCH) .consolidationExitInitiatedForValidator
  rejectIf (current_epoch < c.epoch) .consolidationEarlyConsolidation
  rejectIf (!has_execution_withdrawal_credential source)
    .consolidationMissingExecutionWithdrawalCredentials
  rejectIf (!has_execution_withdrawal_credential target)
    .consolidationMissingExecutionWithdrawalCredentials
  rejectIf (credentialsAddress source.withdrawal_credentials ≠
    credentialsAddress target.withdrawal_credentials) .consolidationWithdrawalCredentialsMismatch
  let domain := compute_domain E .Consolidation none (some s.genesis_validators_root)
  let signing_root := compute_signing_root E (E.consolidation_root c) domain
  rejectIf (!E.fast_aggregate_verify [source.public_key, target.public_key] signing_root
    op.signature) .bls
  return source

/-- `electra/block_processing.rs:1008-1152`. Lines 1144-1145 read the exit epoch of
the copy taken before the update. -/
def process_consolidation (E : Env) (op : SignedConsolidation) : M Unit := do
  let s ← get
  let source ← check_consolidation E s op
  let epoch ← compute_consolidation_epoch_and_update_churn E source.effective_balance
  updValidator op.message.source_index fun v => { v with exit_epoch := epoch }
  let w ← source.exit_epoch +? E.min_validator_withdrawability_delay
  updValidator op.message.source_index fun v => { v with withdrawable_epoch := w }
  upd fun s => { s with
    pending_consolidations :=
      s.pending_consolidations ++ [⟨op.message.source_index, op.message.target_index⟩] }

end Electra

end Verif
