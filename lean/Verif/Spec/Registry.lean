import Verif.Model.Types

/-! # Specification: how registry entries evolve -/

namespace Verif.Spec

/-- What may happen to a registry entry: the key stays; `slashed` is never cleared; the
eligibility, activation and exit epoch are set once; the withdrawable epoch is never lowered
once there is an exit epoch (before that there is none: `ExitBeforeWithdrawal`); credentials
that are not BLS credentials keep everything but their prefix, and never become BLS
credentials again. -/
structure ValidatorStep (v w : Validator) : Prop where
  key : w.public_key = v.public_key
  slashed : v.slashed = true → w.slashed = true
  eligibility : v.activation_eligibility_epoch ≠ FAR_FUTURE_EPOCH →
    w.activation_eligibility_epoch = v.activation_eligibility_epoch
  activation : v.activation_epoch ≠ FAR_FUTURE_EPOCH → w.activation_epoch = v.activation_epoch
  exit : v.exit_epoch ≠ FAR_FUTURE_EPOCH → w.exit_epoch = v.exit_epoch
  withdrawable : v.exit_epoch ≠ FAR_FUTURE_EPOCH →
    v.withdrawable_epoch ≤ w.withdrawable_epoch
  credentials : v.withdrawal_credentials[0] ≠ 0 →
    w.withdrawal_credentials[0] ≠ 0 ∧
      w.withdrawal_credentials.toList.drop 1 = v.withdrawal_credentials.toList.drop 1

/-- Every entry stays in its place and evolves as above; entries may be appended. -/
def RegistryStep (vs ws : List Validator) : Prop :=
  ∀ (i : Nat) v, vs[i]? = some v → ∃ w, ws[i]? = some w ∧ ValidatorStep v w

/-- A validator that is not leaving has no withdrawable epoch. -/
def ExitBeforeWithdrawal (s : State) : Prop :=
  ∀ v ∈ s.validators, v.exit_epoch = FAR_FUTURE_EPOCH → v.withdrawable_epoch = FAR_FUTURE_EPOCH

/-- The lists with one entry per validator have equal length; the participation lists and
the inactivity scores exist from altair on. -/
def Parallel (f : Fork) (s : State) : Prop :=
  s.balances.length = s.validators.length ∧
    (f ≠ .Phase0 →
      s.previous_epoch_participation.length = s.validators.length ∧
      s.current_epoch_participation.length = s.validators.length ∧
      s.inactivity_scores.length = s.validators.length)

/-- The fixed-size vectors have the same length in both states. -/
def SameSizes (s s' : State) : Prop :=
  s'.block_roots.length = s.block_roots.length ∧
  s'.state_roots.length = s.state_roots.length ∧
  s'.randao_mixes.length = s.randao_mixes.length ∧
  s'.slashings.length = s.slashings.length ∧
  (s.justification_bits.length = 4 → s'.justification_bits.length = 4)

end Verif.Spec
