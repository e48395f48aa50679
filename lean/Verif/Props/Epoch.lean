import Verif.Proofs.Effective
import Verif.Props.Shuffling
import Verif.Examples.Blocks

/-! # C20, C22, C31: effective balances, slashing penalties, inactivity scores -/

namespace Verif.Props

open Spec

/-! ## C20 -/

/-- **C20** The update leaves an effective balance whose balance is in the hysteresis band, and
otherwise sets it to the largest multiple of the increment that exceeds neither the balance nor the
limit; nothing else changes. -/
theorem C20_update (E : Env) (hB : SaneBalances E) (f : Fork) (s s' : State)
    (h : process_effective_balance_updates E f s = .ok () s') :
    ∃ vs, s' = { s with validators := vs } ∧ vs.length = s.validators.length ∧
      ∀ (i : Nat) v, s.validators[i]? = some v → ∃ b e, s.balances[i]? = some b ∧
        vs[i]? = some { v with effective_balance := e } ∧
        (InBand E v.effective_balance b → e = v.effective_balance) ∧
        (¬ InBand E v.effective_balance b →
          LargestMultiple E.effective_balance_increment (min b (effectiveLimit E f v)) e) :=
  effective_updates_ok hB h

/-- **C20** In every state reachable from genesis by any calls, successful or not, and any upgrades,
no effective balance exceeds its limit, and all are multiples of the increment. -/
theorem C20_capped (E : Env) (hB : SaneBalances E) (f : Fork) (s : State) (h : Reachable E f s)
    (v : Validator) (hv : v ∈ s.validators) :
    v.effective_balance ≤ effectiveLimit E f v ∧
    E.effective_balance_increment ∣ v.effective_balance :=
  reachable_fits hB h v hv

theorem toy_balances : SaneBalances Toy.env :=
  ⟨by decide, by decide, by decide, by decide, by decide⟩

/-- Balances in the band, above it, below it, above the limit, and far below. -/
def drifting : State := { Toy.state 5 15 with
  balances := [31750000000, 33250000000, 31749999999, 99000000000, 7] }

example :
    Toy.succeeds (process_effective_balance_updates Toy.env .Deneb) drifting = true ∧
    (finalState (process_effective_balance_updates Toy.env .Deneb) drifting).validators.map
      (·.effective_balance) = [32000000000, 32000000000, 31000000000, 32000000000, 0] := by
  decide +kernel

def compounding (v : Validator) : Validator :=
  { v with withdrawal_credentials := v.withdrawal_credentials.set 0 2 }

/-- A validator that may compound has the higher limit in electra, others have not. -/
example :
    let s := { drifting with validators := drifting.validators.modify 3 compounding }
    Toy.succeeds (process_effective_balance_updates Toy.env .Electra) s = true ∧
    (finalState (process_effective_balance_updates Toy.env .Electra) s).validators.map
      (·.effective_balance) = [32000000000, 32000000000, 31000000000, 99000000000, 0] := by
  decide +kernel

/-! ## C22 -/

/-- **C22** Exactly the slashed validators halfway to their withdrawable epoch pay, and they pay the
proportional penalty, or all they have; no other balance and nothing else changes. -/
theorem C22_penalties (E : Env) (f : Fork) (s s' : State)
    (h : process_slashings E f s = .ok () s') :
    ∃ bs, s' = { s with balances := bs } ∧ bs.length = s.balances.length ∧
      ∀ i : Nat, bs[i]? = match s.validators[i]? with
        | some v => if PenaltyDue E s v
          then s.balances[i]?.map (· - correlationPenalty E f s v)
          else s.balances[i]?
        | none => s.balances[i]? :=
  process_slashings_ok h

/-- **C22** No penalty exceeds the effective balance rounded down to increments. -/
theorem C22_bound (E : Env) (f : Fork) (s : State) (v : Validator) :
    correlationPenalty E f s v ≤
      v.effective_balance / E.effective_balance_increment * E.effective_balance_increment :=
  correlationPenalty_le

def guilty (withdrawable : Nat) (v : Validator) : Validator :=
  { v with slashed := true, withdrawable_epoch := withdrawable, exit_epoch := 5 }

/-- Validators 1 and 2 are slashed, and only 1 is halfway to its withdrawable epoch. -/
def convicted : State := { Toy.state 8 15 with
  slashings := (List.replicate 64 0).set 1 64000000000
  validators := ((Toy.state 8 15).validators.modify 1 (guilty 33)).modify 2 (guilty 34) }

/-- A quarter of the balance was slashed: with multiplier 2 (altair) half is due, with multiplier 3
(bellatrix) three quarters, and with a larger sum everything. -/
example :
    let b := fun f => (finalState (process_slashings Toy.env f) convicted).balances
    Toy.succeeds (process_slashings Toy.env .Altair) convicted = true ∧
    Toy.succeeds (process_slashings Toy.env .Deneb) convicted = true ∧
    b .Altair = (List.replicate 8 32000000000).set 1 16000000000 ∧
    b .Deneb = (List.replicate 8 32000000000).set 1 8000000000 ∧
    (finalState (process_slashings Toy.env .Deneb) { convicted with
      slashings := List.replicate 64 64000000000 }).balances =
      (List.replicate 8 32000000000).set 1 0 := by
  decide +kernel

/-! ## C31 -/

/-- **C31** In the genesis epoch the scores stay; later each eligible validator that voted for the
target of the previous epoch, and is not slashed, goes down by one and each other eligible one up by
the bias, then, unless finality is overdue, down by the recovery rate, all this not below zero; no
other score and nothing else changes. -/
theorem C31_scores (E : Env) (f : Fork) (hf : f ≠ .Phase0) (s s' : State)
    (h : process_inactivity_updates E s = .ok () s') :
    epochOf E s.slot = 0 ∧ s' = s ∨ epochOf E s.slot ≠ 0 ∧
    ∃ scores, s' = { s with inactivity_scores := scores } ∧
      scores.length = s.inactivity_scores.length ∧
      ∀ i : Nat, (∀ v, s.validators[i]? = some v → Eligible E s v →
        ∃ x, s.inactivity_scores[i]? = some x ∧
          ∃ a, (VotedTarget E f s (previousEpoch E s) i → a = x - 1) ∧
            (¬ VotedTarget E f s (previousEpoch E s) i → a = x + E.inactivity_score_bias) ∧
            scores[i]? = some (if Leaking E s then a else a - E.inactivity_score_recovery_rate)) ∧
      ((∀ v, s.validators[i]? = some v → ¬ Eligible E s v) →
        scores[i]? = s.inactivity_scores[i]?) :=
  inactivity_ok hf h

def waiting (v : Validator) : Validator := { v with activation_epoch := 20 }

/-- Validators with various scores; 0 and 2 voted, 4 is slashed, 5 not active. -/
def idle (finalized : Nat) : State := { Toy.state 6 (8 * 9 + 7) with
  finalized_checkpoint := ⟨finalized, zeroBytes 32⟩
  inactivity_scores := [0, 0, 100, 100, 100, 100]
  previous_epoch_participation := [2, 0, 2, 0, 2, 0]
  validators := (((Toy.state 6 15).validators.modify 4 (guilty 33)).modify 5 waiting) }

/-- In a leak and outside. -/
example :
    Toy.succeeds (process_inactivity_updates Toy.env) (idle 1) = true ∧
    Leaking Toy.env (idle 1) ∧ ¬ Leaking Toy.env (idle 7) ∧
    (finalState (process_inactivity_updates Toy.env) (idle 1)).inactivity_scores =
      [0, 4, 99, 104, 104, 100] ∧
    (finalState (process_inactivity_updates Toy.env) (idle 7)).inactivity_scores =
      [0, 0, 83, 88, 88, 100] := by
  decide +kernel

end Verif.Props
