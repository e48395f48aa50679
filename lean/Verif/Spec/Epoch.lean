import Verif.Spec.Config
import Verif.Spec.Casper

/-! # Specification: the per-validator steps of epoch processing -/

namespace Verif.Spec

/-! ## Effective balances -/

/-- The highest effective balance of a validator: one constant up to deneb; in electra it
depends on whether the credentials (prefix 2) let the validator compound. -/
def effectiveLimit (E : Env) (f : Fork) (v : Validator) : Nat :=
  if f = .Electra then
    if v.withdrawal_credentials[0] = 2 then E.max_effective_balance_electra
    else E.min_activation_balance
  else E.max_effective_balance

/-- One hysteresis step. -/
def hysteresis (E : Env) : Nat := E.effective_balance_increment / E.hysteresis_quotient

/-- The balance is so close to the effective balance that the latter stays. -/
def InBand (E : Env) (effective balance : Nat) : Prop :=
  effective ≤ balance + hysteresis E * E.hysteresis_downward_multiplier ∧
  balance ≤ effective + hysteresis E * E.hysteresis_upward_multiplier

instance (E : Env) (a b : Nat) : Decidable (InBand E a b) := inferInstanceAs (Decidable (_ ∧ _))

/-- `x` is the largest multiple of `n` not above `b`. -/
def LargestMultiple (n b x : Nat) : Prop :=
  n ∣ x ∧ x ≤ b ∧ ∀ y, n ∣ y → y ≤ b → y ≤ x

/-- What happens to the effective balance of `v` when its balance is `b`. -/
def EffectiveStep (E : Env) (f : Fork) (v : Validator) (b e : Nat) : Prop :=
  (InBand E v.effective_balance b → e = v.effective_balance) ∧
  (¬ InBand E v.effective_balance b →
    LargestMultiple E.effective_balance_increment (min b (effectiveLimit E f v)) e)

/-- The limits are multiples of the increment, and electra's are not lower. -/
structure SaneBalances (E : Env) : Prop where
  max : E.effective_balance_increment ∣ E.max_effective_balance
  activation : E.effective_balance_increment ∣ E.min_activation_balance
  electra : E.effective_balance_increment ∣ E.max_effective_balance_electra
  le_activation : E.max_effective_balance ≤ E.min_activation_balance
  le_electra : E.min_activation_balance ≤ E.max_effective_balance_electra

/-! ## Slashing penalties -/

/-- The multiplier in force in a fork. -/
def slashingMultiplier (E : Env) : Fork → Nat
  | .Phase0 => E.proportional_slashing_multiplier
  | .Altair => E.proportional_slashing_multiplier_altair
  | .Bellatrix | .Capella | .Deneb | .Electra => E.proportional_slashing_multiplier_bellatrix

/-- The validator is slashed and halfway to its withdrawable epoch. -/
def PenaltyDue (E : Env) (s : State) (v : Validator) : Prop :=
  v.slashed = true ∧
    v.withdrawable_epoch = epochOf E s.slot + E.epochs_per_slashings_vector / 2

instance (E : Env) (s : State) (v : Validator) : Decidable (PenaltyDue E s v) :=
  inferInstanceAs (Decidable (_ ∧ _))

/-- The penalty: the effective balance, counted in increments, times the slashed share of the
active balance (multiplied, but at most one), rounded down to increments. -/
def correlationPenalty (E : Env) (f : Fork) (s : State) (v : Validator) : Nat :=
  v.effective_balance / E.effective_balance_increment *
    min (s.slashings.sum * slashingMultiplier E f) (activeBalance E s) / activeBalance E s *
    E.effective_balance_increment

/-! ## Inactivity scores -/

/-- The epoch before, and genesis before genesis. -/
def previousEpoch (E : Env) (s : State) : Nat := epochOf E s.slot - 1

/-- Finality is overdue. -/
def Leaking (E : Env) (s : State) : Prop :=
  E.min_epochs_to_inactivity_penalty < previousEpoch E s - s.finalized_checkpoint.epoch

instance (E : Env) (s : State) : Decidable (Leaking E s) := inferInstanceAs (Decidable (_ < _))

/-- Validators whose duties of the previous epoch count: the active ones, and the slashed ones until
they can withdraw. -/
def Eligible (E : Env) (s : State) (v : Validator) : Prop :=
  ActiveAt v (previousEpoch E s) ∨
    v.slashed = true ∧ previousEpoch E s + 1 < v.withdrawable_epoch

instance (E : Env) (s : State) (v : Validator) : Decidable (Eligible E s v) :=
  inferInstanceAs (Decidable (_ ∨ _))

end Verif.Spec
