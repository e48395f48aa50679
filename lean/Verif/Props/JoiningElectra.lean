import Verif.Proofs.Funded
import Verif.Proofs.Newcomers
import Verif.Props.Credit
import Verif.Props.Joining
import Verif.Props.Parts

/-! # C102: a deposit leads to an active validator, in electra -/

namespace Verif.Props

open Spec

variable {E : Env} {t u : State}

/-- **C102** In electra, whoever has the stake gets their turn: if in some state `s` a validator `i` that
is not on the activation queue has an effective balance of at least the minimum for an activation,
however its deposits came, then it is on the queue as soon as the chain has left the epoch `e` of `s`,
since epoch `e + 1`. Once that epoch is final, in a state `t`, it is activated with the next end of an
epoch, after the usual delay, whatever blocks and slots follow: nobody waits for others. -/
theorem C102_electra_stake {s : State} (ho : Orderly E .Electra s) {i : Nat} {v : Validator}
    (hv : s.validators[i]? = some v) (hel : v.activation_eligibility_epoch = FAR_FUTURE_EPOCH)
    (hact : v.activation_epoch = FAR_FUTURE_EPOCH)
    (hstake : E.min_activation_balance ≤ v.effective_balance) :
    ∀ t, Follows E .Electra s t → nextFreeEpoch E t < FAR_FUTURE_EPOCH →
      (∃ w, t.validators[i]? = some w ∧ w.public_key = v.public_key) ∧
      (epochOf E s.slot < epochOf E t.slot →
        ∃ w, t.validators[i]? = some w ∧ w.activation_eligibility_epoch = epochOf E s.slot + 1) ∧
      (epochOf E s.slot < t.finalized_checkpoint.epoch → ∀ u, Follows E .Electra t u →
        epochOf E t.slot < epochOf E u.slot → nextFreeEpoch E u < FAR_FUTURE_EPOCH →
        ∃ w, u.validators[i]? = some w ∧ w.public_key = v.public_key ∧
          w.activation_epoch ≤ epochOf E t.slot + 1 + E.max_seed_lookahead) := by
  intro t ht hfar
  have hot := follows_orderly ho ht
  have hslots := follows_slot ht
  have hmono : epochOf E s.slot ≤ epochOf E t.slot := Nat.div_le_div_right hslots
  have hb : epochOf E s.slot + 1 < FAR_FUTURE_EPOCH := by
    unfold nextFreeEpoch at hfar; omega
  obtain ⟨w, hw, hkey, hst⟩ := follows_rising hb ho
    ⟨v, hv, rfl, ⟨hel, by rw [if_pos rfl]; exact hstake⟩, hact⟩ ht
  refine ⟨⟨w, hw, hkey⟩, fun hlt => ?_, fun hfin u hu hlate hfar' => ?_⟩
  · rcases hst with ⟨r, -⟩ | ⟨-, r, -⟩
    · omega
    · exact ⟨w, hw, r⟩
  · have hle := (orderly_proper hot).finalized
    obtain ⟨x, hx, hstep⟩ := (follows_reg ho.config hu).1 i w hw
    have h0 : turn E .Electra t i = 0 := if_pos rfl
    rcases hst with ⟨r, -⟩ | ⟨-, r, r' | r'⟩
    · omega
    · obtain ⟨x', hx', ha⟩ := C93_in_time hot (fun h => by cases h) ⟨w, hw, by omega, r'⟩ hu
        (by rw [h0]; exact hlate) hfar'
      rw [hx] at hx'; cases hx'
      rw [h0] at ha
      exact ⟨x, hx, hstep.key.trans hkey, ha⟩
    · refine ⟨x, hx, hstep.key.trans hkey, ?_⟩
      rw [hstep.activation (by omega)]
      unfold nextFreeEpoch at r'
      omega

/-- **C102** In electra every deposit of an accepted block, and every deposit receipt of its payload,
that names a key nobody has yet enrols a validator with that key: without stake, with no place on the
activation queue, and with the amount of the deposit in the queue of deposits. -/
theorem C102_electra_enrols (hE : SaneConfig E) (hmax : 0 < E.max_deposits) {s : State}
    {b : BeaconBlock} (h : process_block E .Electra b s = .ok () u) {d : DepositData}
    (hd : d ∈ depositsOf .Electra b.body) (hnew : ∀ v ∈ s.validators, v.public_key ≠ d.public_key) :
    ∃ i v, u.validators[i]? = some v ∧ v.public_key = d.public_key ∧ v.effective_balance = 0 ∧
      v.activation_eligibility_epoch = FAR_FUTURE_EPOCH ∧ v.activation_epoch = FAR_FUTURE_EPOCH ∧
      (⟨i, d.amount⟩ : PendingBalanceDeposit) ∈ u.pending_balance_deposits := by
  obtain ⟨i, ⟨w, hw, hk⟩, hm⟩ := block_queues hE hmax h hd
  have hn : s.validators[i]? = none := by
    cases hs : s.validators[i]? with
    | none => rfl
    | some v =>
      obtain ⟨x, hx, e⟩ := ((block_reg hE).toOk.ok h).1 i v hs
      rw [hw] at hx; cases hx
      exact absurd (e.key.symm.trans hk) (hnew v (List.mem_of_getElem? hs))
  have h1 := (block_still.ok h).2 i w hw hn
  exact ⟨i, w, hw, hk, (block_bare.ok h).2 i w hw hn, h1.1, h1.2, hm⟩

/-- **C102** In electra a deposit is credited when its turn comes (C103), and the credit counts at once:
if the deposits that are credited to a validator `i` at the end of an epoch reach the minimum for an
activation, together with what it has, and the validator was not on the activation queue before, then
its effective balance at the beginning of the next epoch reaches the minimum, and it is where
`C102_electra_stake` starts. So it does not matter in how many parts the stake is deposited. -/
theorem C102_electra (ho : Orderly E .Electra t)
    (h : process_slots E .Electra (t.slot + 1) t = .ok () u) {k : Nat} (hc : CreditedAt E t u k)
    (hfar : epochOf E u.slot + 1 < FAR_FUTURE_EPOCH)
    {i : Nat} {v : Validator} (hv : t.validators[i]? = some v)
    (hel : v.activation_eligibility_epoch = FAR_FUTURE_EPOCH)
    (hact : v.activation_epoch = FAR_FUTURE_EPOCH) (hwd : v.withdrawable_epoch = FAR_FUTURE_EPOCH)
    (hlow : v.effective_balance + hysteresis E * E.hysteresis_upward_multiplier <
      E.min_activation_balance)
    (hns : v.slashed = false) {b : Nat} (hb : t.balances[i]? = some b)
    (hamt : E.min_activation_balance ≤ b + depositedTo (t.pending_balance_deposits.take k) i) :
    Orderly E .Electra u ∧ ∃ w, u.validators[i]? = some w ∧ w.public_key = v.public_key ∧
      w.activation_eligibility_epoch = FAR_FUTURE_EPOCH ∧ w.activation_epoch = FAR_FUTURE_EPOCH ∧
      E.min_activation_balance ≤ w.effective_balance := by
  have hbt : epochOf E t.slot + 1 < FAR_FUTURE_EPOCH := by
    have h0 : u.slot = t.slot + 1 := by
      obtain ⟨_, _, _, u₀, -, -, -, -, rfl⟩ := hc
      rfl
    have : epochOf E t.slot ≤ epochOf E u.slot := Nat.div_le_div_right (by omega)
    omega
  obtain ⟨w, hw, hk, ⟨h1, h2⟩, h3⟩ := credited_counts ho hc hbt hv hel hact hwd hlow hns hb hamt
  rw [if_pos rfl] at h2
  exact ⟨(slot_turn ho h).1, w, hw, hk, h1, h3, h2⟩

/-! ## The hypotheses hold of a concrete run -/

/-- Short epochs, validators with one increment of stake, and a fine hysteresis. -/
def fundEnv : Env := { joinEnv with hysteresis_quotient := 32 }

/-- The end of epoch 10: validator 1 has 5 ether, and another 27 for it are the first in the queue. -/
def fundStart : State := { Toy.state 2 21 with
  validators := [Toy.validator 0, { Toy.validator 1 with
    effective_balance := 0
    activation_eligibility_epoch := FAR_FUTURE_EPOCH
    activation_epoch := FAR_FUTURE_EPOCH }]
  balances := [32000000000, 5000000000]
  pending_balance_deposits := [⟨1, 27000000000⟩, ⟨0, 40000000000⟩] }

/-- `n` slots later. -/
def funded : Nat → State
  | 0 => fundStart
  | n + 1 => finalState (process_slots fundEnv .Electra ((funded n).slot + 1)) (funded n)

theorem fund_orderly : Orderly fundEnv .Electra fundStart := by
  refine ⟨by constructor <;> decide +kernel, by constructor <;> decide +kernel, by decide,
    ⟨by decide, fun _ => by decide⟩,
    by decide, by decide, Or.inl (by decide), by decide, ?_, trivial, trivial, trivial⟩
  intro j hj
  match j with
  | 0 => cases hj
  | 1 => cases hj
  | 2 => cases hj
  | 3 => cases hj
  | k + 4 => simp [fundStart, Toy.state] at hj

theorem fund_slot (n : Nat) (hn : n < 9) :
    process_slots fundEnv .Electra ((funded n).slot + 1) (funded n) = .ok () (funded (n + 1)) := by
  have h : ∀ n, n < 9 → Toy.succeeds (process_slots fundEnv .Electra ((funded n).slot + 1))
      (funded n) = true := by decide +kernel
  exact Toy.ok_of_succeeds (h n hn)

theorem fund_follows : ∀ n m, n + m ≤ 9 → Follows fundEnv .Electra (funded n) (funded (n + m)) := by
  intro n m
  induction m with
  | zero => exact fun _ => .start
  | succ m ih => exact fun hm => (ih (by omega)).slot (fund_slot _ (by omega))

/-- The deposit of validator 1 is credited with the next slot, which begins epoch 11. Six slots later
epoch 12 is final, and the validator, on the queue since then, is on its way. -/
example : (funded 1).balances[1]? = some 32000000000 ∧
    (funded 1).pending_balance_deposits = [⟨0, 40000000000⟩] ∧
    epochOf fundEnv (funded 1).slot = 11 ∧ (funded 7).finalized_checkpoint.epoch = 12 ∧
    (funded 9).validators.map (·.activation_eligibility_epoch) = [0, 12] ∧
    (funded 9).validators.map (·.activation_epoch) = [0, 18] := by decide +kernel

/-- The theorems, of this run. -/
example : ∃ w, (funded 9).validators[1]? = some w ∧ w.public_key = Toy.pk 1 ∧
    w.activation_epoch ≤ 19 := by
  obtain ⟨k, hc, hk⟩ : ∃ k, CreditedAt fundEnv (funded 0) (funded 1) k ∧ 0 < k := by
    rcases slot_credits fund_orderly.config (fund_slot 0 (by decide)) with ⟨q, -⟩ | ⟨q, k, r⟩
    · exact absurd q (by decide +kernel)
    · have := C103_in_time fund_orderly.config (j := 0)
        (Credits.start.epoch (fund_slot 0 (by decide)) q r) (by decide) (by decide +kernel)
        (by decide +kernel)
      exact ⟨k, r, by omega⟩
  have hamt : fundEnv.min_activation_balance ≤ 5000000000 +
      depositedTo (fundStart.pending_balance_deposits.take k) 1 := by
    rcases Nat.lt_or_ge k 2 with h | h
    · rw [show k = 1 by omega]; decide
    · rw [List.take_of_length_le (show fundStart.pending_balance_deposits.length ≤ k from h)]
      decide
  obtain ⟨ho, v, hv, hkey, g1, g2, g3⟩ := C102_electra fund_orderly (fund_slot 0 (by decide)) hc
    (by decide +kernel) (i := 1)
    (v := { Toy.validator 1 with
      effective_balance := 0
      activation_eligibility_epoch := FAR_FUTURE_EPOCH
      activation_epoch := FAR_FUTURE_EPOCH }) rfl rfl rfl rfl (by decide) rfl rfl hamt
  obtain ⟨-, -, h⟩ := C102_electra_stake ho hv g1 g2 g3 (funded 7) (fund_follows 1 6 (by decide))
    (by decide +kernel)
  obtain ⟨w, h1, h2, h3⟩ := h (by decide +kernel) (funded 9) (fund_follows 7 2 (by decide))
    (by decide +kernel) (by decide +kernel)
  have h0 : epochOf fundEnv (funded 7).slot = 14 := by decide +kernel
  rw [h0] at h3
  exact ⟨w, h1, h2.trans hkey, h3⟩

/-- A block whose payload carries the receipt of a deposit of 32 ether for a new key. -/
example : ∃ i v, (after .Electra askingState requestBody).validators[i]? = some v ∧
    v.public_key = Toy.pk 17 ∧ v.effective_balance = 0 ∧
    v.activation_eligibility_epoch = FAR_FUTURE_EPOCH ∧ v.activation_epoch = FAR_FUTURE_EPOCH ∧
    (⟨i, 32000000000⟩ : PendingBalanceDeposit) ∈
      (after .Electra askingState requestBody).pending_balance_deposits :=
  C102_electra_enrols toy_sane toy_far.2 toy_request
    (d := ⟨Toy.pk 17, zeroBytes 32, 32000000000, Toy.goodSig⟩) (.tail _ (.head _))
    (by decide +kernel)

end Verif.Props
