import Verif.Spec.Casper

/-! # Specification: balance churn in electra -/

namespace Verif.Spec

/-- The balance that may move per epoch: a fraction of the active balance, at least the configured
minimum, rounded down to whole increments. -/
def balanceChurn (E : Env) (s : State) : Nat :=
  let c := max E.min_per_epoch_churn_limit_electra (activeBalance E s / E.churn_limit_quotient)
  c - c % E.effective_balance_increment

/-- The share of it for activations and exits. -/
def exitChurn (E : Env) (s : State) : Nat :=
  min E.max_per_epoch_activation_exit_churn_limit (balanceChurn E s)

/-- What is left for consolidations. -/
def consolidationChurn (E : Env) (s : State) : Nat := balanceChurn E s - exitChurn E s

/-- The credentials that let the effective balance grow beyond the activation balance. -/
def Compounding (v : Validator) : Prop := v.withdrawal_credentials[0] = 0x02

instance (v : Validator) : Decidable (Compounding v) := inferInstanceAs (Decidable (_ = _))

end Verif.Spec
