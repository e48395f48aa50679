import Verif.Proofs.SafetyBlock
import Verif.Examples.Blocks
import Verif.Props.Attestations
import Verif.Props.Deposits
import Verif.Props.Shuffling
import Verif.Props.Slashing

/-!
# C55: no input makes block processing panic

"On a well-formed state, the validity-checked operations return Ok or Err for every input and never
panic." One theorem for each operation, for every fork before Electra, and one for a whole block.
The inputs (`op`, `b`, ...) are arbitrary. What is assumed of the state is in `Verif/Spec/Safety.lean`.

The claim is false without the condition on deposit counts: `C55_deposit_count_panics`.
-/

namespace Verif.Props

open Spec

variable {E : Env} {s : State} {f : Fork}

/-- A proposer slashing never panics. -/
theorem C55_proposer_slashing (hE : SaneConfig E) (hq : SaneQuotients E) (hf : f ≠ .Electra)
    (h : Wellformed E s) (hr : Room 0 s) (op : ProposerSlashing) :
    NeverPanics (process_proposer_slashing E f op) s :=
  (proposer_slashing_calm hE hq hf h hr op).neverPanics

/-- An attester slashing never panics. -/
theorem C55_attester_slashing (hE : SaneConfig E) (hq : SaneQuotients E) (hf : f ≠ .Electra)
    (h : Wellformed E s) (hr : Room 0 s) (op : AttesterSlashing) :
    NeverPanics (process_attester_slashing E f op) s :=
  (attester_slashing_calm hE hq hf h hr op).neverPanics

/-- An attestation never panics. -/
theorem C55_attestation (hE : SaneConfig E) (hq : SaneQuotients E) (hf : f ≠ .Electra)
    (h : Wellformed E s) (hr : Room (effectiveSum s) s) (hp : Parallel f s)
    (hT : effectiveSum s ≤ 2 ^ 57) (a : Attestation) :
    NeverPanics (process_attestation E f a) s :=
  (attestation_calm hE hq hf (k := 0) h (by simpa using hr) hp hT a).neverPanics

/-- A voluntary exit never panics. -/
theorem C55_voluntary_exit (hE : SaneConfig E) (hq : SaneQuotients E) (hf : f ≠ .Electra)
    (h : Wellformed E s) (hr : Room 0 s) (op : SignedVoluntaryExit) :
    NeverPanics (process_voluntary_exit E f op) s :=
  (voluntary_exit_calm hE hq hf h hr op).neverPanics

/-- A block header never panics. -/
theorem C55_header (hE : SaneConfig E) (h : Wellformed E s) (hr : Room 0 s) (b : BeaconBlock) :
    NeverPanics (process_block_header E f b) s :=
  (header_calm hE h hr b).neverPanics

/-- A RANDAO reveal never panics. -/
theorem C55_randao (hE : SaneConfig E) (h : Wellformed E s) (hr : Room 0 s)
    (b : BeaconBlockBody) : NeverPanics (process_randao E b) s :=
  (randao_calm hE h hr b).neverPanics

/-- An eth1 vote never panics. -/
theorem C55_eth1_data (hE : SaneConfig E) (hq : SaneQuotients E) (h : Wellformed E s)
    (hr : Room 0 s) (hv : s.eth1_data_votes.length < 2 ^ 62) (b : BeaconBlockBody) :
    NeverPanics (process_eth1_data E b) s :=
  (eth1_calm hE hq h hr hv b).neverPanics

/-- A deposit never panics, if the balances have room for its amount. -/
theorem C55_deposit (hE : SaneConfig E) (hf : f ≠ .Electra) (h : Wellformed E s) (d : Deposit)
    (hr : Room (2 * d.data.amount) s) (hl : s.validators.length < 2 ^ 40)
    (hi : s.eth1_deposit_index + 1 < 2 ^ 64) :
    NeverPanics (process_deposit E f d) s :=
  (deposit_calm hE hf (k := 0) h (by simpa using hr) hl hi).neverPanics

/-- A sync aggregate never panics, at any slot but the genesis slot and with a committee of known
validators. -/
theorem C55_sync_aggregate (hE : SaneConfig E) (hq : SaneQuotients E) (h : Wellformed E s)
    (hr : Room (effectiveSum s + E.effective_balance_increment) s)
    (hT : effectiveSum s ≤ 2 ^ 61) (hs : 0 < s.slot)
    (hlen : s.current_sync_committee.public_keys.length ≤ E.sync_committee_size)
    (hk : ∀ k ∈ s.current_sync_committee.public_keys, ∃ v ∈ s.validators, v.public_key = k)
    (a : SyncAggregate) :
    NeverPanics (process_sync_aggregate E a) s :=
  (sync_aggregate_calm hE hq (k := 0) h (by simpa using hr) hT hs hlen hk a).neverPanics

/-- Withdrawals never panic. -/
theorem C55_withdrawals (hE : SaneConfig E) (hf : f ≠ .Electra) (h : Wellformed E s)
    (hr : Room 0 s) (hs : SweepReady E s) (p : ExecutionPayload) :
    NeverPanics (process_withdrawals E f p) s :=
  (withdrawals_calm hE hf h hr hs p).neverPanics

/-- An execution payload never panics. -/
theorem C55_execution_payload (hE : SaneConfig E) (h : Wellformed E s) (hr : Room 0 s)
    (hc : ClockFits E s) (b : BeaconBlockBody) :
    NeverPanics (process_execution_payload E f b) s :=
  (payload_calm hE h hr hc b).neverPanics

/-- A change of withdrawal credentials never panics. -/
theorem C55_bls_to_execution_change (h : Wellformed E s) (hr : Room 0 s)
    (op : SignedBlsToExecutionChange) :
    NeverPanics (process_bls_to_execution_change E op) s :=
  (bls_change_calm h hr op).neverPanics

/-- A whole block never panics, whatever it contains: any operations, in any number that the limits
of a block and of the supply allow. -/
theorem C55_block (hE : SaneConfig E) (hq : SaneQuotients E) (hf : f ≠ .Electra)
    (h : Wellformed E s) (b : BeaconBlock) (hb : BlockReady E f s b.body) :
    NeverPanics (process_block E f b) s :=
  (block_calm hE hq hf h hb).neverPanics

/-- And the state it leaves is well-formed again. -/
theorem C55_block_wellformed (hE : SaneConfig E) (hq : SaneQuotients E) (hf : f ≠ .Electra)
    (h : Wellformed E s) {b : BeaconBlock} (hb : BlockReady E f s b.body) {s' : State}
    (hok : process_block E f b s = .ok () s') : Wellformed E s' :=
  ((block_calm hE hq hf h hb).ok hok).1

/-! ## A vote that lowers the deposit count -/

/-- A block whose eth1 vote reaches the majority with a deposit count below the number of deposits
already processed makes `process_operations` subtract a larger number from a smaller one. -/
def lowVote : Eth1Data := ⟨Toy.root 1, 11, Toy.root 2⟩

/-- One vote short of the majority for `lowVote`; 12 deposits processed. -/
def nearlyLow : State :=
  { Toy.state 20 9 with eth1_data_votes := List.replicate 16 lowVote }

def lowBlock : BeaconBlock :=
  Toy.block nearlyLow { Toy.body nearlyLow with eth1_data := lowVote }

/-- The negation of C55 without the condition on deposit counts: a well-formed state and a block
with a valid header and reveal that panic. -/
theorem C55_deposit_count_panics :
    SaneConfig Toy.env ∧ SaneQuotients Toy.env ∧ Wellformed Toy.env nearlyLow ∧
      Toy.errorOf (process_block Toy.env .Phase0 lowBlock) nearlyLow =
        some (.panic .overflow) := by
  refine ⟨toy_sane, ?_, ?_, ?_⟩
  · constructor <;> decide +kernel
  · refine ⟨by constructor <;> decide, ?_, ?_, ?_, ?_, ?_⟩ <;> decide +kernel
  · decide +kernel

theorem C55_block_fails : ¬ NeverPanics (process_block Toy.env .Phase0 lowBlock) nearlyLow := by
  intro h
  have h1 := C55_deposit_count_panics.2.2.2
  unfold Toy.errorOf at h1
  split at h1
  · cases h1
  · rename_i e t he
    cases h1
    exact h _ _ he

/-! ## The hypotheses hold of a concrete state -/

theorem toy_quotients : SaneQuotients Toy.env := by constructor <;> decide +kernel

/-- The toy state in slot 20, with one deposit due. -/
def dueState : State := { Toy.state 20 20 with eth1_deposit_index := 11 }

/-- A body with a proposer slashing, an attester slashing, an attestation and a deposit. -/
def fullBody : BeaconBlockBody :=
  { Toy.body dueState with
    proposer_slashings := [equivocation]
    attester_slashings := [doubleVote]
    attestations := [ballot]
    deposits := [depositOf 20 Toy.goodSig] }

theorem due_wellformed : Wellformed Toy.env dueState := by
  refine ⟨by constructor <;> decide +kernel, ?_, ?_, ?_, ?_, ?_⟩ <;> decide +kernel

theorem due_ready : BlockReady Toy.env .Deneb dueState fullBody := by
  refine ⟨?_, ?_, ?_, ?_, ?_, ?_, ?_, ?_, ?_, ?_, ?_, ?_, ?_⟩
  case refine_10 => unfold Parallel; decide +kernel
  case refine_11 => intro _; unfold ClockFits; decide +kernel
  case refine_12 => intro _; constructor <;> decide +kernel
  all_goals decide +kernel

example : Room (effectiveSum dueState + Toy.env.effective_balance_increment) dueState := by
  constructor <;> decide +kernel

example : NeverPanics (process_block Toy.env .Deneb (Toy.block dueState fullBody)) dueState :=
  C55_block toy_sane toy_quotients (by decide) due_wellformed _ due_ready

/-- and that block is in fact accepted -/
example : Toy.succeeds (process_block Toy.env .Deneb (Toy.block dueState fullBody)) dueState =
    true := by decide +kernel

end Verif.Props
