import Verif.Spec.Slots
import Verif.Spec.History

/-! # Specification: the log of a chain, and what the history of a state commits to -/

namespace Verif.Spec

/-- The states of a client that follows a chain from genesis without a failed slot, through blocks,
valid or not, and fork upgrades. `log` has one entry for every slot that has been left, the first is
slot 0: the root of the latest block header and the root of the state at that time. -/
inductive ChainLog (E : Env) : Fork → State → List (Root × Root) → Prop
  | genesis {f : Fork} {h : Bytes32} {t : Nat} {ds : List Deposit}
      {p : Option ExecutionPayloadHeader} {s : State} :
      initialize_beacon_state_from_eth1 E f h t ds p = .ok s → ChainLog E f s []
  | slot {f : Fork} {s s' : State} {log : List (Root × Root)} : ChainLog E f s log →
      process_slots E f (s.slot + 1) s = .ok () s' →
      ChainLog E f s' (log ++ [(E.header_root (closedHeader E f s), E.state_root f s)])
  | block {f : Fork} {s : State} {log : List (Root × Root)} (b : BeaconBlock) :
      ChainLog E f s log → ChainLog E f (finalState (process_block E f b) s) log
  | upgrade {f g : Fork} {s s' : State} {log : List (Root × Root)} : ChainLog E f s log →
      g.ord = f.ord + 1 → upgrade_to E g s = .ok s' → ChainLog E g s' log

/-- The part of the log that belongs to the period `k` of `SLOTS_PER_HISTORICAL_ROOT` slots. -/
def periodOf {α : Type} (E : Env) (log : List α) (k : Nat) : List α :=
  (log.drop (k * E.slots_per_historical_root)).take E.slots_per_historical_root

/-- The summary of a period: the roots of its vectors of block and state roots. -/
def summaryOf (E : Env) (log : List (Root × Root)) (k : Nat) : HistoricalSummary :=
  ⟨E.roots_root ((periodOf E log k).map (·.1)), E.roots_root ((periodOf E log k).map (·.2))⟩

end Verif.Spec
