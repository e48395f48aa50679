import Verif.Spec.Deposits
import Verif.Spec.Committee

/-! # Specification: genesis -/

namespace Verif.Spec

instance (E : Env) (d : DepositData) : Decidable (DepositSigned E d) :=
  inferInstanceAs (Decidable (_ = _))

/-- Deposit number `j` opens a registry entry: it is signed, and no signed deposit before it has the
same key. -/
def Opens (E : Env) (ds : List DepositData) (j : Nat) : Prop :=
  ∃ d ∈ ds[j]?, DepositSigned E d ∧
    ∀ d' ∈ ds.take j, d'.public_key = d.public_key → ¬ DepositSigned E d'

instance (E : Env) (ds : List DepositData) (j : Nat) : Decidable (Opens E ds j) :=
  inferInstanceAs (Decidable (∃ d ∈ ds[j]?, _))

/-- The deposits that open entries, in order. -/
def openers (E : Env) (ds : List DepositData) : List Nat :=
  (List.range ds.length).filter (Opens E ds ·)

/-- All that is deposited for the key from deposit number `j` on. -/
def deposited (ds : List DepositData) (j : Nat) (key : PublicKey) : Nat :=
  (((ds.drop j).filter (·.public_key = key)).map (·.amount)).sum

/-- The credentials of an entry opened by deposit number `j`. In electra a later deposit for the same
key can make credentials that name an execution address compounding. -/
def openedCredentials (f : Fork) (ds : List DepositData) (j : Nat) (d : DepositData) : Bytes32 :=
  if f = .Electra ∧ d.withdrawal_credentials[0] = 0x01 ∧
      (ds.drop (j + 1)).any fun d' =>
        d'.public_key = d.public_key ∧ d'.withdrawal_credentials[0] = 0x02
  then d.withdrawal_credentials.set 0 0x02 else d.withdrawal_credentials

/-- The registry entry opened by deposit number `j`, which is `d`: its effective balance is the whole
deposit, rounded down to increments and capped, and it is active from the start if that is the
maximum. -/
def genesisValidator (E : Env) (f : Fork) (ds : List DepositData) (j : Nat) (d : DepositData) :
    Validator :=
  let effective := depositEffective E (deposited ds j d.public_key)
  let start := if effective = E.max_effective_balance then 0 else FAR_FUTURE_EPOCH
  { public_key := d.public_key
    withdrawal_credentials := openedCredentials f ds j d
    effective_balance := effective
    slashed := false
    activation_eligibility_epoch := start
    activation_epoch := start
    exit_epoch := FAR_FUTURE_EPOCH
    withdrawable_epoch := FAR_FUTURE_EPOCH }

/-- The registry and the balances hold one entry for each deposit that opens one, in order. -/
structure GenesisRegistry (E : Env) (f : Fork) (ds : List DepositData) (s : State) : Prop where
  validators : s.validators.length = (openers E ds).length
  balances : s.balances.length = (openers E ds).length
  entry : ∀ (i j : Nat) (d : DepositData), (openers E ds)[i]? = some j → ds[j]? = some d →
    s.validators[i]? = some (genesisValidator E f ds j d) ∧
    s.balances[i]? = some (deposited ds j d.public_key)

end Verif.Spec
