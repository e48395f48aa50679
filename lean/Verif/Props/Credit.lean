import Verif.Proofs.Credit

/-! # C103: in electra a deposit is credited in its turn and in time -/

namespace Verif.Props

open Spec

variable {E : Env} {s t u : State}

/-- **C103** Whatever blocks and slots follow, a number `n` of deposits are credited on the way: at each
end of an epoch those at the front of the queue. -/
theorem C103_credits (hE : SaneConfig E) (h : Follows E .Electra s t) : ∃ n, Credits E s t n :=
  follows_credits hE h

/-- **C103** The queue of deposits is served from the front: when `n` deposits have been credited since
`s`, the deposits queued in `s` that are left, all but the first `n`, are at the front of the queue,
in their order, before all those that came later. -/
theorem C103_in_order (hE : SaneConfig E) {n : Nat} (h : Credits E s t n) : InLine s t n :=
  (credits_pace hE h).1

/-- **C103** And in time: a deposit is among those credited after as many ends of epochs as the slowest
service takes for it and those before it, whatever blocks and slots follow and whoever deposits after
it. -/
theorem C103_in_time (hE : SaneConfig E) {n : Nat} (h : Credits E s t n) {j : Nat}
    (hj : j < s.pending_balance_deposits.length) (hlater : epochOf E s.slot < epochOf E t.slot)
    (hlate : depositSum (s.pending_balance_deposits.take (j + 1)) ≤
      (epochOf E t.slot - epochOf E s.slot) * slowestCredit E) : j < n := by
  obtain ⟨-, -, hp⟩ := credits_pace hE h
  by_contra hn
  obtain ⟨h1, h2⟩ := hp (by omega)
  have h2 := h2 hlater
  have := depositSum_take (l := s.pending_balance_deposits) (show n + 1 ≤ j + 1 by omega)
  omega

/-- **C103** A slot that ends no epoch changes neither the queue nor the balances. -/
theorem C103_other_slots (hE : SaneConfig E)
    (h : process_slots E .Electra (t.slot + 1) t = .ok () u)
    (he : epochOf E u.slot = epochOf E t.slot) :
    u.pending_balance_deposits = t.pending_balance_deposits ∧ u.balances = t.balances := by
  rcases slot_credits hE h with ⟨-, q2, q3, -⟩ | ⟨q, -⟩
  · exact ⟨q2, q3⟩
  · omega

/-- **C103** Blocks only add to the queue, at its end. -/
theorem C103_blocks {b : BeaconBlock} {f : Fork} (h : process_block E f b t = .ok () u) :
    t.pending_balance_deposits <+: u.pending_balance_deposits :=
  (block_lines.ok h : Lines t u)

/-! ## A run -/

/-- Short epochs. -/
def creditEnv : Env := { Toy.env with slots_per_epoch := 2 }

theorem credit_sane : SaneConfig creditEnv := by constructor <;> decide +kernel

/-- The end of epoch 10, with four deposits queued. -/
def creditStart : State := { Toy.state 4 21 with
  pending_balance_deposits := [⟨1, 30000000000⟩, ⟨2, 20000000000⟩, ⟨1, 10000000000⟩,
    ⟨3, 5000000000⟩] }

/-- `n` slots later. -/
def creditAfter : Nat → State
  | 0 => creditStart
  | n + 1 => finalState (process_slots creditEnv .Electra ((creditAfter n).slot + 1)) (creditAfter n)

theorem credit_follows : Follows creditEnv .Electra creditStart (creditAfter 3) := by
  have h : ∀ n, n < 3 → Toy.succeeds (process_slots creditEnv .Electra ((creditAfter n).slot + 1))
      (creditAfter n) = true := by decide +kernel
  exact ((Follows.start.slot (Toy.ok_of_succeeds (h 0 (by decide)))).slot
    (Toy.ok_of_succeeds (h 1 (by decide)))).slot (Toy.ok_of_succeeds (h 2 (by decide)))

/-- Three of the deposits, 60 of the 64 ether, are credited at the end of epoch 10; the last one at the
end of epoch 11. -/
example : slowestCredit creditEnv = 64000000000 ∧
    (creditAfter 1).pending_balance_deposits = [⟨3, 5000000000⟩] ∧
    (creditAfter 1).deposit_balance_to_consume = 4000000000 ∧
    (creditAfter 3).pending_balance_deposits = [] := by decide +kernel

example : ∃ n, Credits creditEnv creditStart (creditAfter 3) n ∧ 3 < n := by
  obtain ⟨n, hn⟩ := C103_credits credit_sane credit_follows
  exact ⟨n, hn, C103_in_time credit_sane hn (by decide) (by decide +kernel) (by decide +kernel)⟩

end Verif.Props
