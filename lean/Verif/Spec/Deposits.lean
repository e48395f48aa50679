import Verif.Spec.Domain
import Verif.Model.Block

/-! # Specification: deposits -/

namespace Verif.Spec

/-- The deposit is leaf number `eth1_deposit_index` of the deposit tree whose root the
state has adopted. -/
def DepositProven (E : Env) (s : State) (d : Deposit) : Prop :=
  E.is_valid_merkle_branch (E.deposit_data_root d.data) d.proof 33 s.eth1_deposit_index
    s.eth1_data.deposit_root = true

/-- The depositor signed the deposit, for the genesis fork and any chain. -/
def DepositSigned (E : Env) (d : DepositData) : Prop :=
  E.verify_signature d.public_key
    (E.signing_data_root
      (E.deposit_message_root ⟨d.public_key, d.withdrawal_credentials, d.amount⟩)
      (domainOf E .Deposit E.genesis_fork_version (zeroBytes 32)))
    d.signature = true

/-- No validator has this key. -/
def UnknownKey (s : State) (key : PublicKey) : Prop := ∀ v ∈ s.validators, v.public_key ≠ key

/-- `i` is the first validator with this key. -/
def FirstWithKey (s : State) (key : PublicKey) (i : Nat) : Prop :=
  (∃ v, s.validators[i]? = some v ∧ v.public_key = key) ∧
    ∀ j < i, ∀ v, s.validators[j]? = some v → v.public_key ≠ key

/-- The registry entry of a new validator. -/
def newValidator (d : DepositData) (effective_balance : Nat) : Validator where
  public_key := d.public_key
  withdrawal_credentials := d.withdrawal_credentials
  effective_balance := effective_balance
  slashed := false
  activation_eligibility_epoch := FAR_FUTURE_EPOCH
  activation_epoch := FAR_FUTURE_EPOCH
  exit_epoch := FAR_FUTURE_EPOCH
  withdrawable_epoch := FAR_FUTURE_EPOCH

/-- The effective balance of a deposit: rounded down to increments and capped. -/
def depositEffective (E : Env) (amount : Nat) : Nat :=
  min (amount - amount % E.effective_balance_increment) E.max_effective_balance

/-- The state with one more validator, in every list that runs parallel to the registry:
phase0 has only the balances. -/
def withValidator (f : Fork) (s : State) (v : Validator) (balance : Nat) : State :=
  if f = .Phase0 then
    { s with
      validators := s.validators ++ [v]
      balances := s.balances ++ [balance] }
  else
    { s with
      validators := s.validators ++ [v]
      balances := s.balances ++ [balance]
      previous_epoch_participation := s.previous_epoch_participation ++ [0]
      current_epoch_participation := s.current_epoch_participation ++ [0]
      inactivity_scores := s.inactivity_scores ++ [0] }

/-- What applying a deposit does before electra. -/
inductive DepositEffect (E : Env) (f : Fork) (d : DepositData) (s : State) : State → Prop
  /-- a known key: top up, whatever the signature -/
  | topUp (i b : Nat) (known : FirstWithKey s d.public_key i) (balance : s.balances[i]? = some b)
      (fits : b + d.amount < 2 ^ 64) :
      DepositEffect E f d s { s with balances := s.balances.set i (b + d.amount) }
  /-- a new key with a valid signature: a new validator -/
  | added (new : UnknownKey s d.public_key) (signed : DepositSigned E d) :
      DepositEffect E f d s
        (withValidator f s (newValidator d (depositEffective E d.amount)) d.amount)
  /-- a new key with an invalid signature: nothing -/
  | ignored (new : UnknownKey s d.public_key) (unsigned : ¬ DepositSigned E d) :
      DepositEffect E f d s s

/-- In electra a validator with `0x01` credentials becomes a compounding one: prefix
`0x02`, and the balance above the minimum is queued as a deposit. -/
def compounding (E : Env) (s : State) (i b : Nat) (v : Validator) : State :=
  { s with
    validators := s.validators.set i
      { v with withdrawal_credentials := v.withdrawal_credentials.set 0 2 }
    balances := if b > E.min_activation_balance then s.balances.set i E.min_activation_balance
      else s.balances
    pending_balance_deposits :=
      if b > E.min_activation_balance then
        s.pending_balance_deposits ++ [⟨i, b - E.min_activation_balance⟩]
      else s.pending_balance_deposits }

/-- What applying a deposit does in electra: the amount is queued; the signature must
always be valid. -/
inductive ElectraDepositEffect (E : Env) (d : DepositData) (s : State) : State → Prop
  | topUp (i : Nat) (v : Validator) (known : FirstWithKey s d.public_key i)
      (val : s.validators[i]? = some v) (signed : DepositSigned E d)
      (no_switch : ¬ (d.withdrawal_credentials[0] = 2 ∧ v.withdrawal_credentials[0] = 1)) :
      ElectraDepositEffect E d s { s with
        pending_balance_deposits := s.pending_balance_deposits ++ [⟨i, d.amount⟩] }
  | switch (i b : Nat) (v : Validator) (known : FirstWithKey s d.public_key i)
      (val : s.validators[i]? = some v) (signed : DepositSigned E d)
      (switch : d.withdrawal_credentials[0] = 2 ∧ v.withdrawal_credentials[0] = 1)
      (balance : s.balances[i]? = some b) :
      ElectraDepositEffect E d s (compounding E { s with
        pending_balance_deposits := s.pending_balance_deposits ++ [⟨i, d.amount⟩] } i b v)
  | added (new : UnknownKey s d.public_key) (signed : DepositSigned E d) :
      ElectraDepositEffect E d s { withValidator .Electra s (newValidator d 0) 0 with
        pending_balance_deposits :=
          s.pending_balance_deposits ++ [⟨s.validators.length, d.amount⟩] }

/-- Each validator has its own key. -/
def DistinctKeys (s : State) : Prop := (s.validators.map (·.public_key)).Nodup

end Verif.Spec
