import Verif.Model.Executor

/-! # Specification: the calls a client can make, and the states they lead to -/

namespace Verif.Spec

/-- The functions of fork `f` that mutate a state. -/
inductive EntryPoint (E : Env) (f : Fork) : M Unit → Prop
  | process_slots (slot : Nat) : EntryPoint E f (process_slots E f slot)
  | state_transition (b : SignedBeaconBlock) (v : Validation) :
      EntryPoint E f (state_transition E f b v)
  | state_transition_block_in_slot (b : SignedBeaconBlock) (v : Validation) :
      EntryPoint E f (state_transition_block_in_slot E f b v)
  | process_slot : EntryPoint E f (process_slot E f)
  | process_epoch : EntryPoint E f (process_epoch E f)
  | process_block (b : BeaconBlock) : EntryPoint E f (process_block E f b)
  | process_block_header (b : BeaconBlock) : EntryPoint E f (process_block_header E f b)
  | process_randao (b : BeaconBlockBody) : EntryPoint E f (process_randao E b)
  | process_eth1_data (b : BeaconBlockBody) : EntryPoint E f (process_eth1_data E b)
  | process_operations (b : BeaconBlockBody) : EntryPoint E f (process_operations E f b)
  | process_execution_payload (b : BeaconBlockBody) :
      EntryPoint E f (process_execution_payload E f b)
  | process_withdrawals (p : ExecutionPayload) : EntryPoint E f (process_withdrawals E f p)
  | process_sync_aggregate (a : SyncAggregate) : EntryPoint E f (process_sync_aggregate E a)
  | process_proposer_slashing (op : ProposerSlashing) :
      EntryPoint E f (process_proposer_slashing E f op)
  | process_attester_slashing (op : AttesterSlashing) :
      EntryPoint E f (process_attester_slashing E f op)
  | process_attestation (a : Attestation) : EntryPoint E f (process_attestation E f a)
  | process_deposit (d : Deposit) : EntryPoint E f (process_deposit E f d)
  | process_voluntary_exit (op : SignedVoluntaryExit) :
      EntryPoint E f (process_voluntary_exit E f op)
  | process_bls_to_execution_change (op : SignedBlsToExecutionChange) :
      EntryPoint E f (process_bls_to_execution_change E op)
  | process_execution_layer_withdrawal_request (r : ExecutionLayerWithdrawalRequest) :
      f = .Electra → EntryPoint E f (Electra.process_execution_layer_withdrawal_request E r)
  | process_deposit_receipt (r : DepositReceipt) :
      f = .Electra → EntryPoint E f (Electra.process_deposit_receipt E r)
  | process_consolidation (op : SignedConsolidation) :
      f = .Electra → EntryPoint E f (Electra.process_consolidation E op)
  | initiate_validator_exit (i : Nat) : EntryPoint E f (f.initiate_validator_exit E i)
  | slash_validator (i : Nat) (w : Option Nat) : EntryPoint E f (slash_validator E f i w)
  | increase_balance (i d : Nat) : EntryPoint E f (increase_balance i d)
  | decrease_balance (i d : Nat) : EntryPoint E f (decrease_balance i d)

/-- `History E f s s'`: some sequence of calls, each of which may succeed or fail, turns `s`
into `s'`. -/
inductive History (E : Env) (f : Fork) (s : State) : State → Prop
  | start : History E f s s
  | call {t : State} {m : M Unit} : History E f s t → EntryPoint E f m →
      History E f s (finalState m t)

/-- The states obtained from a genesis state by calls and fork upgrades. -/
inductive Reachable (E : Env) : Fork → State → Prop
  | genesis {f : Fork} {h : Bytes32} {t : Nat} {ds : List Deposit}
      {p : Option ExecutionPayloadHeader} {s : State} :
      initialize_beacon_state_from_eth1 E f h t ds p = .ok s → Reachable E f s
  | call {f : Fork} {s : State} {m : M Unit} : Reachable E f s → EntryPoint E f m →
      Reachable E f (finalState m s)
  | upgrade {f g : Fork} {s s' : State} : Reachable E f s → g.ord = f.ord + 1 →
      upgrade_to E g s = .ok s' → Reachable E g s'

/-- The functions a client that follows a chain calls. -/
inductive ChainCall (E : Env) (f : Fork) : M Unit → Prop
  | process_slots (slot : Nat) : ChainCall E f (process_slots E f slot)
  | process_block (b : BeaconBlock) : ChainCall E f (process_block E f b)
  | state_transition (b : SignedBeaconBlock) (v : Validation) :
      ChainCall E f (state_transition E f b v)
  | state_transition_block_in_slot (b : SignedBeaconBlock) (v : Validation) :
      ChainCall E f (state_transition_block_in_slot E f b v)

/-- The states such a client can have, from genesis on, through failed and successful calls and
through fork upgrades. -/
inductive OnChain (E : Env) : Fork → State → Prop
  | genesis {f : Fork} {h : Bytes32} {t : Nat} {ds : List Deposit}
      {p : Option ExecutionPayloadHeader} {s : State} :
      initialize_beacon_state_from_eth1 E f h t ds p = .ok s → OnChain E f s
  | call {f : Fork} {s : State} {m : M Unit} : OnChain E f s → ChainCall E f m →
      OnChain E f (finalState m s)
  | upgrade {f g : Fork} {s s' : State} : OnChain E f s → g.ord = f.ord + 1 →
      upgrade_to E g s = .ok s' → OnChain E g s'

end Verif.Spec
