import Verif.Model.Types

/-! # Specification: which parts of the state a computation may change -/

namespace Verif.Spec

/-- The fields of the state, one name each. -/
inductive Field
  | genesis_time
  | genesis_validators_root
  | slot
  | fork
  | latest_block_header
  | block_roots
  | state_roots
  | historical_roots
  | eth1_data
  | eth1_data_votes
  | eth1_deposit_index
  | validators
  | balances
  | randao_mixes
  | slashings
  | previous_epoch_attestations
  | current_epoch_attestations
  | previous_epoch_participation
  | current_epoch_participation
  | justification_bits
  | previous_justified_checkpoint
  | current_justified_checkpoint
  | finalized_checkpoint
  | inactivity_scores
  | current_sync_committee
  | next_sync_committee
  | latest_execution_payload_header
  | next_withdrawal_index
  | next_withdrawal_validator_index
  | historical_summaries
  | deposit_receipts_start_index
  | deposit_balance_to_consume
  | exit_balance_to_consume
  | earliest_exit_epoch
  | consolidation_balance_to_consume
  | earliest_consolidation_epoch
  | pending_balance_deposits
  | pending_partial_withdrawals
  | pending_consolidations
  deriving DecidableEq

/-- The field has the same value in both states. -/
def Field.same (f : Field) (s s' : State) : Prop :=
  match f with
  | .genesis_time => s'.genesis_time = s.genesis_time
  | .genesis_validators_root => s'.genesis_validators_root = s.genesis_validators_root
  | .slot => s'.slot = s.slot
  | .fork => s'.fork = s.fork
  | .latest_block_header => s'.latest_block_header = s.latest_block_header
  | .block_roots => s'.block_roots = s.block_roots
  | .state_roots => s'.state_roots = s.state_roots
  | .historical_roots => s'.historical_roots = s.historical_roots
  | .eth1_data => s'.eth1_data = s.eth1_data
  | .eth1_data_votes => s'.eth1_data_votes = s.eth1_data_votes
  | .eth1_deposit_index => s'.eth1_deposit_index = s.eth1_deposit_index
  | .validators => s'.validators = s.validators
  | .balances => s'.balances = s.balances
  | .randao_mixes => s'.randao_mixes = s.randao_mixes
  | .slashings => s'.slashings = s.slashings
  | .previous_epoch_attestations => s'.previous_epoch_attestations = s.previous_epoch_attestations
  | .current_epoch_attestations => s'.current_epoch_attestations = s.current_epoch_attestations
  | .previous_epoch_participation => s'.previous_epoch_participation = s.previous_epoch_participation
  | .current_epoch_participation => s'.current_epoch_participation = s.current_epoch_participation
  | .justification_bits => s'.justification_bits = s.justification_bits
  | .previous_justified_checkpoint => s'.previous_justified_checkpoint = s.previous_justified_checkpoint
  | .current_justified_checkpoint => s'.current_justified_checkpoint = s.current_justified_checkpoint
  | .finalized_checkpoint => s'.finalized_checkpoint = s.finalized_checkpoint
  | .inactivity_scores => s'.inactivity_scores = s.inactivity_scores
  | .current_sync_committee => s'.current_sync_committee = s.current_sync_committee
  | .next_sync_committee => s'.next_sync_committee = s.next_sync_committee
  | .latest_execution_payload_header => s'.latest_execution_payload_header = s.latest_execution_payload_header
  | .next_withdrawal_index => s'.next_withdrawal_index = s.next_withdrawal_index
  | .next_withdrawal_validator_index => s'.next_withdrawal_validator_index = s.next_withdrawal_validator_index
  | .historical_summaries => s'.historical_summaries = s.historical_summaries
  | .deposit_receipts_start_index => s'.deposit_receipts_start_index = s.deposit_receipts_start_index
  | .deposit_balance_to_consume => s'.deposit_balance_to_consume = s.deposit_balance_to_consume
  | .exit_balance_to_consume => s'.exit_balance_to_consume = s.exit_balance_to_consume
  | .earliest_exit_epoch => s'.earliest_exit_epoch = s.earliest_exit_epoch
  | .consolidation_balance_to_consume => s'.consolidation_balance_to_consume = s.consolidation_balance_to_consume
  | .earliest_consolidation_epoch => s'.earliest_consolidation_epoch = s.earliest_consolidation_epoch
  | .pending_balance_deposits => s'.pending_balance_deposits = s.pending_balance_deposits
  | .pending_partial_withdrawals => s'.pending_partial_withdrawals = s.pending_partial_withdrawals
  | .pending_consolidations => s'.pending_consolidations = s.pending_consolidations

/-- `s` and `s'` agree except possibly on the fields `W`. -/
def ChangesOnly (W : List Field) (s s' : State) : Prop := ∀ f, f ∉ W → f.same s s'

end Verif.Spec
