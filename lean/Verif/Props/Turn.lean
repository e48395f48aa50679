import Verif.Proofs.Turn
import Verif.Props.Supply

/-! # C93: a place in the activation queue is honoured in time -/

namespace Verif.Props

open Spec

variable {E : Env} {f : Fork} {s s' : State} {i j : Nat}

/-- **C93** Every state of a client that follows a chain from genesis meets the assumptions below. -/
theorem C93_assumptions (hE : SaneConfig E) (hB : SaneBalances E)
    (hI : E.effective_balance_increment < 2 ^ 64) (h : Followed E f s) : Orderly E f s :=
  (followed_orderly hE hB hI h).1

/-- **C93** The end of an epoch puts every new validator with enough stake on the queue. -/
theorem C93_joins (ho : Orderly E f s) (h : process_slots E f (s.slot + 1) s = .ok () s')
    (he : epochOf E s'.slot ≠ epochOf E s.slot) {v : Validator} (hv : s.validators[i]? = some v)
    (hJ : JoinsQueue E f v) :
    ∃ w, s'.validators[i]? = some w ∧ w.activation_eligibility_epoch = epochOf E s'.slot := by
  rcases (slot_turn ho h).2.2 with ⟨q, -⟩ | ⟨j, A, q⟩
  · exact absurd q he
  · obtain ⟨w, hw, h1, -⟩ := q.entries i v hv
    exact ⟨w, hw, by rw [h1, if_pos hJ, q.epoch]⟩

/-- **C93** A validator whose place on the queue is final is activated in time, whatever blocks and
slots follow and whoever joins after it: its activation epoch is at most the number of epochs that the
slowest service takes for those before it, plus the usual delay. -/
theorem C93_in_time (ho : Orderly E f s) (hk : f = .Deneb → 0 < E.max_per_epoch_activation_churn_limit)
    (hw : WaitsInQueue s i) (h : Follows E f s s')
    (hlate : epochOf E s.slot + turn E f s i < epochOf E s'.slot)
    (hfar : nextFreeEpoch E s' < FAR_FUTURE_EPOCH) :
    ∃ v, s'.validators[i]? = some v ∧
      v.activation_epoch ≤ epochOf E s.slot + turn E f s i + 1 + E.max_seed_lookahead := by
  have hc := ho.config.min_per_epoch_churn_limit
  have hk' : f ≠ .Electra → 0 < slowest E f := fun _ => by
    unfold slowest
    split
    · rename_i h; have := hk h; omega
    · exact hc
  unfold nextFreeEpoch at hfar
  obtain ⟨-, -, h1 | ⟨-, h1, -⟩⟩ := follows_onTime ho hk' (by omega) hw h
  · exact h1
  · omega

/-- **C93** Nobody overtakes: if `i` is on the queue, and `j` is behind it or not even registered,
then `j` is not activated before `i`. Whether the places are final does not matter. -/
theorem C93_in_order (ho : Orderly E f s) {v : Validator} (hv : s.validators[i]? = some v)
    (hjoined : v.activation_eligibility_epoch ≤ epochOf E s.slot)
    (hwaits : v.activation_epoch = FAR_FUTURE_EPOCH)
    (hj : s.validators[j]? = none ∨ Before s i j ∧
      ∃ w, s.validators[j]? = some w ∧ w.activation_epoch = FAR_FUTURE_EPOCH)
    (h : Follows E f s s') (hfar : nextFreeEpoch E s' < FAR_FUTURE_EPOCH) {w' : Validator}
    (hw' : s'.validators[j]? = some w') (hact : w'.activation_epoch ≠ FAR_FUTURE_EPOCH) :
    ∃ v', s'.validators[i]? = some v' ∧ v'.activation_epoch ≤ w'.activation_epoch := by
  have h0 : InOrder E v.activation_eligibility_epoch i j s := by
    refine ⟨v, hv, rfl, hjoined, Or.inl hwaits, fun w hw => ?_⟩
    rcases hj with hj | ⟨⟨a, b, ha, hb, hab⟩, x, hx, hx1⟩
    · rw [hw] at hj; cases hj
    · rw [hv] at ha; cases ha
      rw [hw] at hx hb; cases hx; cases hb
      exact Or.inl ⟨hx1, hab⟩
  obtain ⟨-, v', hv', -, -, -, h1⟩ := follows_inOrder ho h0 h hfar
  refine ⟨v', hv', ?_⟩
  rcases h1 w' hw' with h1 | h1
  · exact absurd h1.1 hact
  · exact h1.1

/-- The end of epoch 9, with three on the queue where two are activated per epoch, and the last
validator about to join. -/
def queued : State := { busyEnd with
  validators := ((busyEnd.validators.modify 6 fun v => { v with
      activation_eligibility_epoch := 6, activation_epoch := FAR_FUTURE_EPOCH }).modify 7 fun v => { v
    with
      activation_eligibility_epoch := 5, activation_epoch := FAR_FUTURE_EPOCH
      exit_epoch := FAR_FUTURE_EPOCH, withdrawable_epoch := FAR_FUTURE_EPOCH })
  pending_consolidations := [] }

/-- `n` slots later. -/
def queuedAfter (f : Fork) : Nat → State
  | 0 => queued
  | n + 1 => finalState (process_slots Toy.env f ((queuedAfter f n).slot + 1)) (queuedAfter f n)

/-- The assumptions hold, and 6 waits behind 7 and 8, so its turn comes one epoch later. -/
theorem toy_orderly {f : Fork} : Orderly Toy.env f queued := by
  refine ⟨toy_sane, toy_balances, by decide, ⟨by decide, fun _ => by decide⟩,
    by decide, by decide, Or.inl (by decide), by decide, ?_, trivial, trivial, trivial⟩
  intro j hj
  refine ⟨by decide, ?_⟩
  match j with
  | 0 => exact ⟨8, by decide, trivial⟩
  | 1 => exact ⟨7, by decide, trivial⟩
  | 2 => exact ⟨6, by decide, trivial⟩
  | 3 => exact ⟨5, by decide, trivial⟩
  | k + 4 => simp [queued, busyEnd] at hj

example : WaitsInQueue queued 6 ∧ ahead queued 6 = [7, 8] ∧ turn Toy.env .Deneb queued 6 = 1 ∧
    turn Toy.env .Deneb queued 8 = 0 ∧ turn Toy.env .Electra queued 6 = 0 := by decide +kernel

/-- The run of nine slots, over the ends of two epochs. -/
theorem toy_follows : Follows Toy.env .Deneb queued (queuedAfter .Deneb 9) := by
  have h : ∀ n, n < 9 → Toy.succeeds (process_slots Toy.env .Deneb ((queuedAfter .Deneb n).slot + 1))
      (queuedAfter .Deneb n) = true := by decide +kernel
  exact ((((((((Follows.start.slot (Toy.ok_of_succeeds (h 0 (by decide)))).slot
    (Toy.ok_of_succeeds (h 1 (by decide)))).slot (Toy.ok_of_succeeds (h 2 (by decide)))).slot
    (Toy.ok_of_succeeds (h 3 (by decide)))).slot (Toy.ok_of_succeeds (h 4 (by decide)))).slot
    (Toy.ok_of_succeeds (h 5 (by decide)))).slot (Toy.ok_of_succeeds (h 6 (by decide)))).slot
    (Toy.ok_of_succeeds (h 7 (by decide)))).slot (Toy.ok_of_succeeds (h 8 (by decide)))

/-- 7 and 8 are activated at the end of epoch 9, and 6 at the end of epoch 10; 9 has joined. -/
example :
    ((queuedAfter .Deneb 9).validators.map (·.activation_epoch)).drop 6 =
      [15, 14, 14, FAR_FUTURE_EPOCH] ∧
    ((queuedAfter .Deneb 9).validators.map (·.activation_eligibility_epoch)).drop 6 =
      [6, 5, 5, 10] ∧
    epochOf Toy.env queued.slot + turn Toy.env .Deneb queued 6 <
      epochOf Toy.env (queuedAfter .Deneb 9).slot ∧
    nextFreeEpoch Toy.env (queuedAfter .Deneb 9) < FAR_FUTURE_EPOCH := by
  decide +kernel

example : ∃ v, (queuedAfter .Deneb 9).validators[6]? = some v ∧ v.activation_epoch ≤ 9 + 1 + 1 + 4 :=
  C93_in_time toy_orderly (by decide) (by decide +kernel) toy_follows
    (by decide +kernel) (by decide +kernel)

/-- 6 is behind 8 and not activated before it. -/
example : Before queued 8 6 ∧ ∃ v w, (queuedAfter .Deneb 9).validators[6]? = some w ∧
    w.activation_epoch ≠ FAR_FUTURE_EPOCH ∧ (queuedAfter .Deneb 9).validators[8]? = some v ∧
    v.activation_epoch ≤ w.activation_epoch := by
  have hB : Before queued 8 6 := by decide +kernel
  have h1 : ∃ w, (queuedAfter .Deneb 9).validators[6]? = some w ∧ w.activation_epoch = 15 := by
    decide +kernel
  obtain ⟨w, hw, h15⟩ := h1
  have h15' : w.activation_epoch ≠ FAR_FUTURE_EPOCH := by rw [h15]; decide
  obtain ⟨v, hv, h⟩ := C93_in_order (i := 8) (j := 6) (v := queued.validators[8])
    toy_orderly (by decide +kernel) (by decide +kernel) (by decide +kernel)
    (Or.inr ⟨hB, queued.validators[6], by decide +kernel, by decide +kernel⟩) toy_follows
    (by decide +kernel) hw h15'
  exact ⟨hB, v, w, hw, h15', hv, h⟩

/-- 9 joins at the end of epoch 9. -/
example : ∃ w, (queuedAfter .Deneb 1).validators[9]? = some w ∧
    w.activation_eligibility_epoch = 10 := by
  have h0 : epochOf Toy.env (queuedAfter .Deneb 1).slot = 10 := by decide +kernel
  rw [← h0]
  exact C93_joins (v := queued.validators[9]) toy_orderly (Toy.ok_of_succeeds (by decide +kernel))
    (by rw [h0]; decide)
    (by decide +kernel) (by decide +kernel)

end Verif.Props
