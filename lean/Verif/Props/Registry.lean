import Verif.Proofs.History
import Verif.Examples.Toy
import Verif.Props.Shuffling

/-! # C11, C12: the validator registry over time -/

namespace Verif.Props

open Spec

/-! ## C11 -/

/-- **C11** After any sequence of calls to the functions that mutate a state (slot, epoch and
block processing, each operation, the state transition, ...), each of which may have
succeeded or failed at any point, every validator is still at its index, with the same key;
if it was slashed it still is; an eligibility, activation or exit epoch that had been set is
the same; and the withdrawable epoch of a leaving validator is not lower. -/
theorem C11_registry_moves_forward (E : Env) (hE : SaneConfig E) (f : Fork) (s s' : State)
    (h : History E f s s') (i : Nat) (v : Validator) (hv : s.validators[i]? = some v) :
    ∃ w, s'.validators[i]? = some w ∧
      w.public_key = v.public_key ∧
      (v.slashed = true → w.slashed = true) ∧
      (v.activation_eligibility_epoch ≠ FAR_FUTURE_EPOCH →
        w.activation_eligibility_epoch = v.activation_eligibility_epoch) ∧
      (v.activation_epoch ≠ FAR_FUTURE_EPOCH → w.activation_epoch = v.activation_epoch) ∧
      (v.exit_epoch ≠ FAR_FUTURE_EPOCH → w.exit_epoch = v.exit_epoch) ∧
      (v.exit_epoch ≠ FAR_FUTURE_EPOCH → v.withdrawable_epoch ≤ w.withdrawable_epoch) := by
  obtain ⟨w, hw, h1⟩ := (history_reg hE h).1 i v hv
  exact ⟨w, hw, h1.key, h1.slashed, h1.eligibility, h1.activation, h1.exit, h1.withdrawable⟩

/-- **C11** Hence in every state reachable from genesis a withdrawable epoch, once set, is
never lowered (a validator that is not leaving has none). -/
theorem C11_withdrawable_never_lowered (E : Env) (hE : SaneConfig E) (f : Fork) (s s' : State)
    (hr : Reachable E f s) (h : History E f s s') (i : Nat) (v : Validator)
    (hv : s.validators[i]? = some v) (hset : v.withdrawable_epoch ≠ FAR_FUTURE_EPOCH) :
    ∃ w, s'.validators[i]? = some w ∧ v.withdrawable_epoch ≤ w.withdrawable_epoch := by
  obtain ⟨w, hw, h1⟩ := (history_reg hE h).1 i v hv
  refine ⟨w, hw, h1.withdrawable fun hx => hset ?_⟩
  exact (reachable_inv hE hr).exits v (List.mem_of_getElem? hv) hx

/-- **C11** Withdrawal credentials that name an execution address keep it for ever. -/
theorem C11_withdrawal_address_is_fixed (E : Env) (hE : SaneConfig E) (f : Fork) (s s' : State)
    (h : History E f s s') (i : Nat) (v : Validator) (hv : s.validators[i]? = some v)
    (hc : v.withdrawal_credentials[0] ≠ 0) :
    ∃ w, s'.validators[i]? = some w ∧ w.withdrawal_credentials[0] ≠ 0 ∧
      w.withdrawal_credentials.toList.drop 1 = v.withdrawal_credentials.toList.drop 1 := by
  obtain ⟨w, hw, h1⟩ := (history_reg hE h).1 i v hv
  exact ⟨w, hw, h1.credentials hc⟩

/-- The calls really do something: slash a validator, then process two epochs. -/
example :
    let s₁ := finalState (slash_validator Toy.env .Deneb 3 none) (Toy.state 8 9)
    let s₂ := finalState (process_slots Toy.env .Deneb 24) s₁
    (s₁.validators[3]?.map fun v => (v.slashed, v.exit_epoch, v.withdrawable_epoch)) =
      some (true, 6, 262) ∧
    (s₂.slot, s₂.validators[3]?.map fun v => (v.slashed, v.exit_epoch, v.withdrawable_epoch)) =
      (24, some (true, 6, 262)) := by
  decide +kernel

/-- Such a sequence is a history. -/
example : History Toy.env .Deneb (Toy.state 8 9)
    (finalState (process_slots Toy.env .Deneb 24)
      (finalState (slash_validator Toy.env .Deneb 3 none) (Toy.state 8 9))) :=
  .call (.call .start (.slash_validator 3 none)) (.process_slots 24)

example : SaneConfig Toy.env := toy_sane

/-- A genesis with four deposits, three of which activate a validator. -/
def genesisEnv : Env := { Toy.env with is_valid_merkle_branch := fun _ _ _ _ _ => true }

def genesisDeposits : List Deposit :=
  (List.range 4).map fun i =>
    ⟨[], ⟨Toy.pk i, zeroBytes 32, if i = 2 then 31000000000 else 32000000000, Toy.goodSig⟩⟩

def genesisState : R State :=
  initialize_beacon_state_from_eth1 genesisEnv .Altair (Toy.root 1) 1000 genesisDeposits none

example : (genesisState.toOption.map fun s => s.validators.map (·.activation_epoch)) =
    some [0, 0, FAR_FUTURE_EPOCH, 0] := by decide +kernel

/-- States reachable from it: process a block-less epoch, then upgrade to bellatrix. -/
example (s s' : State) (h : genesisState = .ok s)
    (h' : upgrade_to genesisEnv .Bellatrix
      (finalState (process_slots genesisEnv .Altair 8) s) = .ok s') :
    Reachable genesisEnv .Bellatrix s' :=
  .upgrade (.call (.genesis h) (.process_slots 8)) rfl h'

/-! ## C12 -/

/-- **C12** In every state reachable from genesis by any sequence of successful or failing
calls and fork upgrades, there is one balance per validator, from altair on also one entry of
both participation lists and of the inactivity scores; and the history vectors have their
configured length. -/
theorem C12_reachable_states_are_parallel (E : Env) (hE : SaneConfig E) (f : Fork) (s : State)
    (h : Reachable E f s) :
    s.balances.length = s.validators.length ∧
    (f ≠ .Phase0 →
      s.previous_epoch_participation.length = s.validators.length ∧
      s.current_epoch_participation.length = s.validators.length ∧
      s.inactivity_scores.length = s.validators.length) ∧
    s.block_roots.length = E.slots_per_historical_root ∧
    s.state_roots.length = E.slots_per_historical_root ∧
    s.randao_mixes.length = E.epochs_per_historical_vector ∧
    s.slashings.length = E.epochs_per_slashings_vector ∧
    s.justification_bits.length = 4 := by
  have := reachable_inv hE h
  exact ⟨this.parallel.1, this.parallel.2, this.sized⟩

/-- **C12** The same from any state on: calls keep the lists parallel and the vectors at
their length, and the registry never shrinks. -/
theorem C12_calls_keep_lengths (E : Env) (f : Fork) (s s' : State) (h : History E f s s') :
    s.validators.length ≤ s'.validators.length ∧
    (Parallel f s → Parallel f s') ∧
    SameSizes s s' :=
  ⟨(history_len h).grow, (history_len h).parallel, (history_len h).sizes⟩

/-- A deposit appends to every list. -/
def growState : State :=
  { Toy.state 8 9 with eth1_deposit_index := 3, eth1_data := ⟨Toy.root 32000000000, 12, Toy.root 2⟩ }

def growDeposit : Deposit where
  proof := []
  data := ⟨Toy.pk 77, zeroBytes 32, 32000000000, Toy.goodSig⟩

example :
    let s' := finalState (process_deposit Toy.env .Altair growDeposit) growState
    (s'.validators.length, s'.balances.length, s'.previous_epoch_participation.length,
      s'.current_epoch_participation.length, s'.inactivity_scores.length) = (9, 9, 9, 9, 9) := by
  decide +kernel

/-- In phase0 only the first two grow. -/
example :
    let s' := finalState (process_deposit Toy.env .Phase0 growDeposit) growState
    (s'.validators.length, s'.balances.length, s'.inactivity_scores.length) = (9, 9, 8) := by
  decide +kernel

end Verif.Props
