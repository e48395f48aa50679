import Verif.Spec.Parts
import Verif.Spec.Genesis
import Verif.Spec.Slash
import Verif.Spec.Sync

/-! # Specification: the books of a block

What an accepted block does to the money of the validators, entry by entry, in terms of the state
before it and of the block alone. -/

namespace Verif.Spec

/-- The account of a validator: its key, the kind of its withdrawal credentials (the first byte)
and its balance. -/
structure Account where
  key : PublicKey
  kind : UInt8
  balance : Nat
deriving DecidableEq

/-- The accounts, and the deposits that are queued (electra). -/
structure Book where
  accounts : List Account
  queue : List PendingBalanceDeposit
deriving DecidableEq

/-- The books of a state. -/
def bookOf (s : State) : Book where
  accounts := List.zipWith
    (fun v b => ⟨v.public_key, v.withdrawal_credentials[0], b⟩) s.validators s.balances
  queue := s.pending_balance_deposits

/-- Pay `x` to account `i`. -/
def Book.credit (B : Book) (i x : Nat) : Book :=
  { B with accounts := B.accounts.modify i fun a => { a with balance := a.balance + x } }

/-- Charge `x` to account `i`, as far as there is that much. -/
def Book.debit (B : Book) (i x : Nat) : Book :=
  { B with accounts := B.accounts.modify i fun a => { a with balance := a.balance - x } }

/-- Charge `i` the penalty for being slashed, and pay the proposer `p` the reward for reporting. -/
def Book.slash (E : Env) (f : Fork) (s : State) (p : Nat) (B : Book) (i : Nat) : Book :=
  (B.debit i (effectiveBalance s i / slashPenaltyQuotient E f)).credit p
    (effectiveBalance s i / whistleblowerQuotient E f)

/-- Account `i` switches to compounding; what it has above the minimum is queued. -/
def Book.compound (E : Env) (B : Book) (i : Nat) (a : Account) : Book where
  accounts := B.accounts.set i { a with kind := 2, balance := min a.balance E.min_activation_balance }
  queue := B.queue ++
    if a.balance > E.min_activation_balance then [⟨i, a.balance - E.min_activation_balance⟩] else []

/-- A deposit: to the first account with the key; a signed one for a new key opens an account. In
electra the amount is queued, and a deposit with compounding credentials makes an account with
`0x01` credentials compounding. -/
def Book.deposit (E : Env) (f : Fork) (B : Book) (d : DepositData) : Book :=
  match B.accounts.findIdx? (·.key = d.public_key) with
  | none =>
    if ¬ DepositSigned E d then B
    else if f = .Electra then
      ⟨B.accounts ++ [⟨d.public_key, d.withdrawal_credentials[0], 0⟩],
       B.queue ++ [⟨B.accounts.length, d.amount⟩]⟩
    else { B with
      accounts := B.accounts ++ [⟨d.public_key, d.withdrawal_credentials[0], d.amount⟩] }
  | some i =>
    if f = .Electra then
      let queued : Book := { B with queue := B.queue ++ [⟨i, d.amount⟩] }
      match B.accounts[i]? with
      | some a =>
        if d.withdrawal_credentials[0] = 2 ∧ a.kind = 1 then queued.compound E i a else queued
      | none => queued
    else B.credit i d.amount

/-- Account `i` gets the address of an execution account to withdraw to. -/
def Book.toExecution (B : Book) (i : Nat) : Book :=
  { B with accounts := B.accounts.modify i fun a => { a with kind := 1 } }

/-- A seat of the sync committee: whoever took part gets `r`, and the proposer `p` gets `q`; whoever
did not pays `r`. -/
def Book.seat (r q p : Nat) (B : Book) : Nat × Bool → Book
  | (i, true) => (B.credit i r).credit p q
  | (i, false) => B.debit i r

/-- The validators a block slashes, in order: the proposers that equivocated, then, for each attester
slashing, the common signers that could be slashed before the block and have not been slashed by an
earlier operation of the block. -/
def offenders (E : Env) (s : State) (body : BeaconBlockBody) : List Nat :=
  body.attester_slashings.foldl
    (fun done op =>
      done ++ (culprits E s op.attestation_1 op.attestation_2).filter fun i => decide (i ∉ done))
    (body.proposer_slashings.map fun op => op.signed_header_1.message.proposer_index)

/-- Validator `v` has flag `j` for the epoch of `d`: it had it before the block, or one of the
attestations `earlier` of the block for the same epoch has earned it. -/
def AlreadyEarned (E : Env) (f : Fork) (s : State) (earlier : List Attestation)
    (d : AttestationData) (v j : Nat) : Prop :=
  FlagSet ((flagsFor E s d).getD v 0) j ∨
  ∃ a ∈ earlier, (a.data.target.epoch = epochOf E s.slot ↔ d.target.epoch = epochOf E s.slot) ∧
    EarnsFlag E f s a v j

open Classical in
/-- What the flags `fl` are worth to `v` that it has not earned already. -/
noncomputable def newWeight (E : Env) (f : Fork) (s : State) (earlier : List Attestation)
    (d : AttestationData) (fl : List Nat) (v : Nat) : Nat :=
  (([0, 1, 2].filter fun j => decide (j ∈ fl ∧ ¬ AlreadyEarned E f s earlier d v j)).map
    flagWeight).sum

/-- `r` is the reward of the proposer for including `a` after the attestations `earlier`: an eighth
of what the voters earn by the flags that are new. -/
def InclusionReward (E : Env) (f : Fork) (s : State) (earlier : List Attestation)
    (a : Attestation) (r : Nat) : Prop :=
  ∃ l fl, AttestedBy E f s a l ∧ EarnedFlags E f s a.data fl ∧
    r = (l.map fun v => baseReward E s v * newWeight E f s earlier a.data fl v).sum /
      ((64 - 8) * 64 / 8)

/-- The rewards of the attestations of a block, one by one. -/
def InclusionRewards (E : Env) (f : Fork) (s : State) (as : List Attestation) (rs : List Nat) :
    Prop :=
  rs.length = as.length ∧ ∀ k a r, as[k]? = some a → rs[k]? = some r →
    InclusionReward E f s (as.take k) a r

/-- The books after a block, given the rewards for its attestations and the validators in the seats
of the sync committee. -/
def ledger (E : Env) (f : Fork) (s : State) (b : BeaconBlock) (rewards seats : List Nat) : Book :=
  let B := bookOf s
  let B := if Fork.withdraws f then
      b.body.execution_payload.withdrawals.foldl (fun B w => B.debit w.validator_index w.amount) B
    else B
  let B := (offenders E s b.body).foldl (Book.slash E f s b.proposer_index) B
  let B := if f = .Phase0 then B else rewards.foldl (fun B r => B.credit b.proposer_index r) B
  let B := (b.body.deposits.map (·.data)).foldl (Book.deposit E f) B
  let B := if Fork.withdraws f then
      b.body.bls_to_execution_changes.foldl (fun B c => B.toExecution c.message.validator_index) B
    else B
  let B := if f = .Electra then
      (b.body.execution_payload.deposit_receipts.map fun r =>
        (⟨r.public_key, r.withdrawal_credentials, r.amount, r.signature⟩ : DepositData)).foldl
        (Book.deposit E f) B
    else B
  if f = .Phase0 then B else
    (seats.zip b.body.sync_aggregate.sync_committee_bits).foldl
      (Book.seat (syncReward E s) (syncProposerReward E s) b.proposer_index) B

/-- All the money in the books. -/
def Book.total (B : Book) : Nat :=
  (B.accounts.map (·.balance)).sum + (B.queue.map (·.amount)).sum

end Verif.Spec
