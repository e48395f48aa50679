import Verif.Proofs.Deposits
import Verif.Props.Operations

/-! # C25, C26: deposits -/

namespace Verif.Props

open Spec

/-! ## C25 -/

/-- **C25** Before electra, `process_deposit` succeeds exactly when the deposit is proven to
be the next one of the adopted deposit tree and its effect is one of: top up the known key
(whatever the signature), add one validator (new key, valid signature), nothing (new key,
invalid signature); in each case the deposit index advances by one. -/
theorem C25_process_deposit_iff (E : Env) (hE : SaneConfig E) (f : Fork) (hf : f ≠ .Electra)
    (d : Deposit) (s s' : State) (hs : s.eth1_deposit_index < 2 ^ 63) :
    process_deposit E f d s = .ok () s' ↔
      DepositProven E s d ∧
      DepositEffect E f d.data { s with eth1_deposit_index := s.eth1_deposit_index + 1 } s' := by
  rw [process_deposit_ok_iff, apply_deposit_eq_ok hf (Nat.ne_of_gt hE.effective_balance_increment)]
  have : s.eth1_deposit_index + 1 < U64_BOUND := by unfold U64_BOUND; omega
  simp [this]

/-- **C25** In electra the amount is queued instead of credited, and the code demands a
valid signature also for known keys. -/
theorem C25_electra_process_deposit_iff (E : Env) (d : Deposit) (s s' : State)
    (hs : s.eth1_deposit_index < 2 ^ 63) :
    process_deposit E .Electra d s = .ok () s' ↔
      DepositProven E s d ∧
      ElectraDepositEffect E d.data { s with eth1_deposit_index := s.eth1_deposit_index + 1 } s' := by
  rw [process_deposit_ok_iff, electra_apply_deposit_eq_ok]
  have : s.eth1_deposit_index + 1 < U64_BOUND := by unfold U64_BOUND; omega
  simp [this]

/-- **C25** The effect of a deposit is determined: at most one of the cases applies. -/
theorem C25_effect_unique (E : Env) (f : Fork) (d : DepositData) (s t u : State)
    (h1 : DepositEffect E f d s t) (h2 : DepositEffect E f d s u) : t = u := by
  cases h1 with
  | topUp i b k hb =>
    cases h2 with
    | topUp j b' k' hb' =>
      cases firstWithKey_unique k k'
      rw [hb] at hb'; cases hb'; rfl
    | added n => exact (not_both k n).elim
    | ignored n => exact (not_both k n).elim
  | added n sg =>
    cases h2 with
    | topUp j b' k' => exact (not_both k' n).elim
    | added => rfl
    | ignored _ h => exact (h sg).elim
  | ignored n sg =>
    cases h2 with
    | topUp j b' k' => exact (not_both k' n).elim
    | added _ h => exact (sg h).elim
    | ignored => rfl

/-- **C25** A sequence of deposits is consumed in order and each exactly once: the `k`-th is
proven at index `eth1_deposit_index + k` of the same tree, the index advances by the number
of deposits, the registry keeps its validators and is only appended to, and no key ever
gets a second validator. -/
theorem C25_deposits_in_order (E : Env) (hE : SaneConfig E) (f : Fork) (ds : List Deposit)
    (s s' : State) (h : forEach ds (process_deposit E f) s = .ok () s') :
    (∀ k d, ds[k]? = some d →
      DepositProven E { s with eth1_deposit_index := s.eth1_deposit_index + k } d) ∧
    s'.eth1_deposit_index = s.eth1_deposit_index + ds.length ∧
    s'.eth1_data = s.eth1_data ∧
    (∃ l, s'.validators.map (·.public_key) = s.validators.map (·.public_key) ++ l) ∧
    (DistinctKeys s → DistinctKeys s') := by
  obtain ⟨h1, h2⟩ := process_deposits_frame (Nat.ne_of_gt hE.effective_balance_increment) h
  exact ⟨h1, h2.index, h2.eth1, h2.keys, h2.distinct⟩

/-- A deposit by `pk n`; the toy deposit tree proves deposits of `2` (the toy root). -/
def depositOf (n : Nat) (sig : Signature) : Deposit where
  proof := []
  data := {
    public_key := Toy.pk n
    withdrawal_credentials := zeroBytes 32
    amount := 1
    signature := sig }

/-- top up, new validator, and ignored deposit all succeed, with the index advancing -/
example :
    let s := Toy.state 8 20
    (finalState (process_deposit Toy.env .Phase0 (depositOf 3 Toy.badSig)) s).balances[3]? =
      some 32000000001 ∧
    (finalState (process_deposit Toy.env .Altair (depositOf 9 Toy.goodSig)) s).validators.length =
      9 ∧
    (finalState (process_deposit Toy.env .Altair (depositOf 9 Toy.badSig)) s).validators.length =
      8 ∧
    Toy.succeeds (forEach [depositOf 9 Toy.badSig, depositOf 9 Toy.goodSig, depositOf 9 Toy.badSig]
      (process_deposit Toy.env .Capella)) s = true := by
  decide +kernel

/-- In electra a top-up without a valid signature fails (`invalidSignature`), with the index
already advanced and the amount already queued. -/
example :
    let s := Toy.state 8 20
    Toy.succeeds (process_deposit Toy.env .Electra (depositOf 3 Toy.badSig)) s = false ∧
    (finalState (process_deposit Toy.env .Electra (depositOf 3 Toy.badSig)) s).eth1_deposit_index
      = 13 ∧
    Toy.succeeds (process_deposit Toy.env .Electra (depositOf 3 Toy.goodSig)) s = true := by
  decide +kernel

/-! ## C26 -/

/-- **C26** (partial: not electra, see below) A block is accepted only with exactly the due
deposits, and never when the deposit index is past the deposit count. -/
theorem C26_due_deposits_partial (E : Env) (f : Fork) (hf : f ≠ .Electra) (body : BeaconBlockBody)
    (s s' : State) (h : process_operations E f body s = .ok () s') :
    s.eth1_deposit_index ≤ s.eth1_data.deposit_count ∧
    body.deposits.length =
      min E.max_deposits (s.eth1_data.deposit_count - s.eth1_deposit_index) := by
  unfold process_operations at h
  rw [M_bind_unit_eq_ok] at h
  obtain ⟨t, h1, -⟩ := h
  have : check_deposit_count E f s body = .ok () := by
    simp only [run] at h1; exact h1.1
  unfold check_deposit_count at this
  cases f <;> first
    | exact absurd rfl hf
    | (simp only [run] at this
       obtain ⟨_, ⟨rfl, h2⟩, h3⟩ := this
       exact ⟨h2, Decidable.not_not.1 (of_decide_eq_false h3)⟩)

/-- **C26** With a wrong number of deposits (before electra), operations fail and change
nothing. -/
theorem C26_wrong_count_rejected_partial (E : Env) (f : Fork) (hf : f ≠ .Electra)
    (body : BeaconBlockBody) (s : State)
    (hi : s.eth1_deposit_index ≤ s.eth1_data.deposit_count)
    (hc : body.deposits.length ≠
      min E.max_deposits (s.eth1_data.deposit_count - s.eth1_deposit_index)) :
    process_operations E f body s = .error .depositIncorrectCount s := by
  have : check_deposit_count E f s body = .error .depositIncorrectCount := by
    unfold check_deposit_count
    cases f <;> first
      | exact absurd rfl hf
      | simp [sub_ok hi, rejectIf, hc]
  unfold process_operations
  show (rd _ >>= _) s = _
  simp [rd, this, Bind.bind, EStateM.bind]

/-- The code's electra check is not the intended one: whenever a deposit is due, *every*
block is rejected. -/
theorem C26_electra_due_deposits_reject_everything (E : Env) (body : BeaconBlockBody)
    (s : State) (hmax : 0 < E.max_deposits)
    (hdue : s.eth1_deposit_index <
      min s.eth1_data.deposit_count s.deposit_receipts_start_index) :
    process_operations E .Electra body s = .error .depositIncorrectCount s := by
  have : check_deposit_count E .Electra s body = .error .depositIncorrectCount := by
    unfold check_deposit_count
    simp only [hdue, if_true, sub_ok (Nat.le_of_lt hdue)]
    by_cases hc : body.deposits.length = min E.max_deposits
        (min s.eth1_data.deposit_count s.deposit_receipts_start_index - s.eth1_deposit_index)
    · have h0 : body.deposits ≠ [] := by
        intro h; rw [h] at hc; simp only [List.length_nil] at hc; omega
      have : body.deposits.isEmpty = false := by simpa using h0
      simp [hc, rejectIf, this, Bind.bind, Except.bind]
    · simp [hc, Bind.bind, Except.bind]
  unfold process_operations
  show (rd _ >>= _) s = _
  simp [rd, this, Bind.bind, EStateM.bind]

/-- … and when none is due, electra does not require the deposit list to be empty. -/
theorem C26_electra_no_due_deposits_no_check (E : Env) (body : BeaconBlockBody) (s : State)
    (hdue : ¬ s.eth1_deposit_index <
      min s.eth1_data.deposit_count s.deposit_receipts_start_index) :
    check_deposit_count E .Electra s body = .ok () := by
  unfold check_deposit_count
  simp [hdue]

/-- with two deposits outstanding, the block must carry two -/
example :
    let s := { Toy.state 8 20 with eth1_deposit_index := 10 }
    let body := { header.body with deposits := [depositOf 3 Toy.badSig, depositOf 9 Toy.goodSig] }
    Toy.succeeds (process_operations Toy.env .Altair body) s = true ∧
    Toy.succeeds (process_operations Toy.env .Altair header.body) s = false := by
  decide +kernel

/-- electra with a due deposit: no block is accepted, even with exactly the due deposit -/
example :
    let s := { Toy.state 8 20 with eth1_deposit_index := 11, deposit_receipts_start_index := 12 }
    let body := { header.body with deposits := [depositOf 9 Toy.goodSig] }
    s.eth1_deposit_index < min s.eth1_data.deposit_count s.deposit_receipts_start_index ∧
    Toy.errorOf (process_operations Toy.env .Electra body) s = some .depositIncorrectCount := by
  decide +kernel

end Verif.Props
