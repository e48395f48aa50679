import Verif.Spec.Churn
import Verif.Spec.Fields
import Verif.Spec.Attestations
import Verif.Spec.Activation

/-! # Specification: fork upgrades -/

namespace Verif.Spec

/-- The fields of the fork before `g` that the upgrade into `g` takes over. All fields of the old
fork are among them except: the `fork` record itself; the pending attestations of phase0, which
become participation flags; the payload header, which gains fields; and in electra the registry and
balances of the validators that are put on the deposit queue. -/
def carried : Fork → List Field
  | .Phase0 => []
  | .Altair => [.genesis_time, .genesis_validators_root, .slot, .latest_block_header, .block_roots,
      .state_roots, .historical_roots, .eth1_data, .eth1_data_votes, .eth1_deposit_index,
      .validators, .balances, .randao_mixes, .slashings, .justification_bits,
      .previous_justified_checkpoint, .current_justified_checkpoint, .finalized_checkpoint]
  | .Bellatrix | .Capella => [.genesis_time, .genesis_validators_root, .slot,
      .latest_block_header, .block_roots, .state_roots, .historical_roots, .eth1_data,
      .eth1_data_votes, .eth1_deposit_index, .validators, .balances, .randao_mixes, .slashings,
      .previous_epoch_participation, .current_epoch_participation, .justification_bits,
      .previous_justified_checkpoint, .current_justified_checkpoint, .finalized_checkpoint,
      .inactivity_scores, .current_sync_committee, .next_sync_committee]
  | .Deneb => [.genesis_time, .genesis_validators_root, .slot,
      .latest_block_header, .block_roots, .state_roots, .historical_roots, .eth1_data,
      .eth1_data_votes, .eth1_deposit_index, .validators, .balances, .randao_mixes, .slashings,
      .previous_epoch_participation, .current_epoch_participation, .justification_bits,
      .previous_justified_checkpoint, .current_justified_checkpoint, .finalized_checkpoint,
      .inactivity_scores, .current_sync_committee, .next_sync_committee, .next_withdrawal_index,
      .next_withdrawal_validator_index, .historical_summaries]
  | .Electra => [.genesis_time, .genesis_validators_root, .slot,
      .latest_block_header, .block_roots, .state_roots, .historical_roots, .eth1_data,
      .eth1_data_votes, .eth1_deposit_index, .randao_mixes, .slashings,
      .previous_epoch_participation, .current_epoch_participation, .justification_bits,
      .previous_justified_checkpoint, .current_justified_checkpoint, .finalized_checkpoint,
      .inactivity_scores, .current_sync_committee, .next_sync_committee, .next_withdrawal_index,
      .next_withdrawal_validator_index, .historical_summaries]

/-- The version configured for a fork. -/
def versionOf (C : Context) : Fork → Version
  | .Phase0 => C.genesis_fork_version
  | .Altair => C.altair_fork_version
  | .Bellatrix => C.bellatrix_fork_version
  | .Capella => C.capella_fork_version
  | .Deneb => C.deneb_fork_version
  | .Electra => C.electra_fork_version

/-- The fork record after the upgrade. -/
def upgradedFork (E : Env) (g : Fork) (s : State) : ForkRecord where
  previous_version := s.fork.current_version
  current_version := versionOf E.toContext g
  epoch := epochOf E s.slot

/-! ## Into altair -/

/-- `flags` has, for every validator, exactly the flags that the attestations recorded for the
previous epoch earn it. -/
def FlagsOfAttestations (E : Env) (s : State) (flags : List UInt8) : Prop :=
  flags.length = s.validators.length ∧
  ∀ i x, flags[i]? = some x → ∀ j < 8,
    (FlagSet x j ↔ ∃ a ∈ s.previous_epoch_attestations, Attested E s a i ∧
      ∃ fl, EarnsFlags E .Altair s a.data a.inclusion_delay fl ∧ j ∈ fl)

structure IntoAltair (E : Env) (s s' : State) : Prop where
  previous : FlagsOfAttestations E s s'.previous_epoch_participation
  current : s'.current_epoch_participation = List.replicate s.validators.length 0
  scores : s'.inactivity_scores = List.replicate s.validators.length 0
  committee : get_next_sync_committee E s = .ok s'.current_sync_committee
  next_committee : s'.next_sync_committee = s'.current_sync_committee

/-! ## Into bellatrix, capella and deneb -/

/-- Every field of the payload header is zero or empty. -/
structure BlankHeader (h : ExecutionPayloadHeader) : Prop where
  parent_hash : h.parent_hash = zeroBytes 32
  fee_recipient : h.fee_recipient = zeroBytes 20
  state_root : h.state_root = zeroBytes 32
  receipts_root : h.receipts_root = zeroBytes 32
  logs_bloom : ∀ b ∈ h.logs_bloom, b = 0
  prev_randao : h.prev_randao = zeroBytes 32
  block_number : h.block_number = 0
  gas_limit : h.gas_limit = 0
  gas_used : h.gas_used = 0
  timestamp : h.timestamp = 0
  extra_data : h.extra_data = []
  base_fee_per_gas : h.base_fee_per_gas = 0
  block_hash : h.block_hash = zeroBytes 32
  transactions_root : h.transactions_root = zeroBytes 32

structure IntoCapella (s s' : State) : Prop where
  header : s'.latest_execution_payload_header = { s.latest_execution_payload_header with
    blob_gas_used := 0, excess_blob_gas := 0, withdrawals_root := zeroBytes 32,
    deposit_receipts_root := zeroBytes 32, withdrawal_requests_root := zeroBytes 32 }
  withdrawal_index : s'.next_withdrawal_index = 0
  withdrawal_validator : s'.next_withdrawal_validator_index = 0
  summaries : s'.historical_summaries = []

structure IntoDeneb (s s' : State) : Prop where
  header : s'.latest_execution_payload_header = { s.latest_execution_payload_header with
    blob_gas_used := 0, excess_blob_gas := 0,
    deposit_receipts_root := zeroBytes 32, withdrawal_requests_root := zeroBytes 32 }

/-! ## Into electra -/

/-- The validator has not been activated. -/
def NotActivated (v : Validator) : Prop := v.activation_epoch = FAR_FUTURE_EPOCH

instance (v : Validator) : Decidable (NotActivated v) := inferInstanceAs (Decidable (_ = _))

/-- A validator that is not activated goes back to the start. -/
def resetValidator (v : Validator) : Validator :=
  if NotActivated v then
    { v with effective_balance := 0, activation_eligibility_epoch := FAR_FUTURE_EPOCH }
  else v

/-- What it has in excess is put on the deposit queue: all of it if it is not activated, and what
exceeds the activation balance if it compounds. -/
def excess (E : Env) (v : Validator) (b : Nat) : Nat :=
  if NotActivated v then b
  else if Compounding v then b - E.min_activation_balance
  else 0

/-- `i` with entry `v` and balance `b`. -/
def Entry (s : State) (i : Nat) (v : Validator) (b : Nat) : Prop :=
  s.validators[i]? = some v ∧ s.balances[i]? = some b

/-- The deposits queued by the upgrade: first those of the validators not activated, by the order
of the activation queue; then the excess of the others, by index. -/
structure Requeued (E : Env) (s : State) (q : List PendingBalanceDeposit) : Prop where
  split : ∃ q₁ q₂, q = q₁ ++ q₂ ∧
    q₁.Pairwise (fun a b => Before s a.index b.index) ∧
    (∀ d, d ∈ q₁ ↔ ∃ v, Entry s d.index v d.amount ∧ NotActivated v) ∧
    q₂.Pairwise (fun a b => a.index < b.index) ∧
    (∀ d, d ∈ q₂ ↔ ∃ v b, Entry s d.index v b ∧ ¬ NotActivated v ∧ Compounding v ∧
      E.min_activation_balance < b ∧ d.amount = b - E.min_activation_balance)

/-- `e` is the first epoch after every exit already scheduled, or after the current one. -/
def AfterLastExit (E : Env) (s : State) (e : Nat) : Prop :=
  if ∀ v ∈ s.validators, v.exit_epoch = FAR_FUTURE_EPOCH then e = epochOf E s.slot + 1
  else (∃ v ∈ s.validators, v.exit_epoch ≠ FAR_FUTURE_EPOCH ∧ e = v.exit_epoch + 1) ∧
    ∀ v ∈ s.validators, v.exit_epoch ≠ FAR_FUTURE_EPOCH → v.exit_epoch < e

structure IntoElectra (E : Env) (s s' : State) : Prop where
  header : s'.latest_execution_payload_header = { s.latest_execution_payload_header with
    deposit_receipts_root := zeroBytes 32, withdrawal_requests_root := zeroBytes 32 }
  validators : s'.validators = s.validators.map resetValidator
  balances_length : s'.balances.length = s.balances.length
  balances : ∀ i v b, Entry s i v b → s'.balances[i]? = some (b - excess E v b)
  queue : Requeued E s s'.pending_balance_deposits
  exit_epoch : AfterLastExit E s s'.earliest_exit_epoch
  exit_balance : s'.exit_balance_to_consume = exitChurn E s
  consolidation_epoch : s'.earliest_consolidation_epoch = nextFreeEpoch E s
  consolidation_balance : s'.consolidation_balance_to_consume = consolidationChurn E s
  receipts : s'.deposit_receipts_start_index = 2 ^ 64 - 1
  deposit_balance : s'.deposit_balance_to_consume = 0
  withdrawals : s'.pending_partial_withdrawals = []
  consolidations : s'.pending_consolidations = []

end Verif.Spec
