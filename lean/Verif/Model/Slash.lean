import Verif.Model.Electra.Helpers

/-! # `initiate_validator_exit` and `slash_validator`, by fork -/

namespace Verif

/-- The fork's `initiate_validator_exit`: `phase0/helpers.rs:1035-1086`;
`electra/helpers.rs:361-410` -/
def Fork.initiate_validator_exit (E : Env) (f : Fork) (index : Nat) : M Unit :=
  match f with
  | .Electra => Electra.initiate_validator_exit E index
  | _ => Verif.initiate_validator_exit E index

/-- The fork's `min_slashing_penalty_quotient`: `phase0/helpers.rs:1124`,
`altair/helpers.rs:397`, `bellatrix/helpers.rs:102`, `electra/helpers.rs:698`. -/
def min_slashing_penalty_quotient_of (E : Env) : Fork → Nat
  | .Phase0 => E.min_slashing_penalty_quotient
  | .Altair => E.min_slashing_penalty_quotient_altair
  | .Bellatrix | .Capella | .Deneb => E.min_slashing_penalty_quotient_bellatrix
  | .Electra => E.min_slashing_penalty_quotient_electra

/-- The fork's `whistleblower_reward_quotient`: `phase0/helpers.rs:1132`,
`altair/helpers.rs:405`, `bellatrix/helpers.rs:107`, `electra/helpers.rs:703`. -/
def whistleblower_reward_quotient_of (E : Env) : Fork → Nat
  | .Electra => E.whistleblower_reward_quotient_electra
  | _ => E.whistleblower_reward_quotient

/-- The proposer's share of the whistleblower reward: `phase0/helpers.rs:1133`
divides by `proposer_reward_quotient`; `altair/helpers.rs:406-407`,
`bellatrix/helpers.rs:108-109`, `electra/helpers.rs:704-705` multiply by
`PROPOSER_WEIGHT / WEIGHT_DENOMINATOR`, an integer division. -/
def slashing_proposer_reward (E : Env) (f : Fork) (whistleblower_reward : Nat) : R Nat :=
  match f with
  | .Phase0 => whistleblower_reward /? E.proposer_reward_quotient
  | _ => do
    let factor ← PROPOSER_WEIGHT /? WEIGHT_DENOMINATOR
    whistleblower_reward *? factor

/-- `phase0/helpers.rs:1088-1137`, `altair/helpers.rs:360-411`,
`bellatrix/helpers.rs:61-113`, `electra/helpers.rs:651-709`: the same code up to
the quotients, the reward split and the fork's `initiate_validator_exit`. -/
def slash_validator (E : Env) (f : Fork) (slashed_index : Nat)
    (whistleblower_index : Option Nat) : M Unit := do
  let s ← get
  let epoch ← get_current_epoch E s
  Fork.initiate_validator_exit E f slashed_index
  updValidator slashed_index fun v => { v with slashed := true }
  let w ← epoch +? E.epochs_per_slashings_vector
  updValidator slashed_index fun v =>
    { v with withdrawable_epoch := max v.withdrawable_epoch w }
  let slashings_index ← epoch %? E.epochs_per_slashings_vector
  let s ← get
  let v ← idx s.validators slashed_index
  let old ← idx s.slashings slashings_index
  let new ← old +? v.effective_balance
  upd fun s => { s with slashings := s.slashings.set slashings_index new }
  let penalty ← v.effective_balance /? min_slashing_penalty_quotient_of E f
  decrease_balance slashed_index penalty
  let s ← get
  let proposer_index ← get_beacon_proposer_index E s
  let whistleblower_index := whistleblower_index.getD proposer_index
  let whistleblower_reward ← v.effective_balance /? whistleblower_reward_quotient_of E f
  let proposer_reward ← slashing_proposer_reward E f whistleblower_reward
  increase_balance proposer_index proposer_reward
  let rest ← whistleblower_reward -? proposer_reward
  increase_balance whistleblower_index rest

end Verif
