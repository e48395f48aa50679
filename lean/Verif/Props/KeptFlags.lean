import Verif.Proofs.KeptFlags
import Verif.Props.Keep
import Verif.Props.Joining

/-! # C29: flags are kept until they have been paid for -/

namespace Verif.Props

open Spec

variable {E : Env} {f : Fork} {s t : State}

/-- **C29** A flag that a validator has for an epoch `e`, the current or the previous one, is there in
every later state, whatever slots and blocks follow, until the end of epoch `e + 1`, at which rewards
are booked for `e`. -/
theorem C29_kept (hf : f ≠ .Phase0) {e : Nat} (hlo : e ≤ epochOf E s.slot)
    (h : Follows E f s t) (hhi : epochOf E t.slot ≤ e + 1) {i : Nat} {x : UInt8}
    (hx : (if e = epochOf E s.slot then s.current_epoch_participation
      else s.previous_epoch_participation)[i]? = some x) :
    ∃ y, (if e = epochOf E t.slot then t.current_epoch_participation
        else t.previous_epoch_participation)[i]? = some y ∧
      ∀ j < 8, FlagSet x j → FlagSet y j := by
  change (flagsOf E s e)[i]? = some x at hx
  change ∃ y, (flagsOf E t e)[i]? = some y ∧ _
  induction h with
  | start => exact ⟨x, hx, fun _ _ h => h⟩
  | @slot t u ht hs ih =>
    have hslot := slot_step_slot (process_slots_one hs)
    have hmono : epochOf E s.slot ≤ epochOf E t.slot := Nat.div_le_div_right (follows_slot ht)
    have hle : epochOf E t.slot ≤ epochOf E u.slot := Nat.div_le_div_right (by omega)
    obtain ⟨y, hy, hj⟩ := ih (by omega)
    refine ⟨y, ?_, hj⟩
    rw [← hy]
    congr 1
    unfold flagsOf
    rw [hslot] at hhi ⊢
    rcases epoch_next (E := E) (n := t.slot) with ⟨h1, h2⟩ | ⟨h1, h2⟩
    · obtain ⟨-, k⟩ := C62_epoch_end E f t u h1 hs
      rw [if_neg (by omega), if_pos (by omega)]
      exact (k hf).1
    · obtain ⟨-, -, k3, k4⟩ := C62_within_epoch E f t u h1 hs
      rw [h2, k3, k4]
  | @block t u b ht hb ih =>
    have hslot : u.slot = t.slot := block_mod.toOk.ok hb .slot (by decide)
    obtain ⟨y, hy, hj⟩ := ih (by rw [hslot] at hhi; exact hhi)
    obtain ⟨h1, h2⟩ := block_keptFlags.ok hb
    have : FlagsIn (flagsOf E t e) (flagsOf E u e) := by
      unfold flagsOf
      rw [hslot]
      split <;> assumption
    obtain ⟨z, hz, hk⟩ := this i y hy
    exact ⟨z, hz, fun j h8 hf => hk j h8 (hj j h8 hf)⟩

/-- Flags of epoch 10, in its first slot. -/
def flagStart : State := { Toy.state 2 20 with
  current_epoch_participation := [7, 3]
  previous_epoch_participation := [1, 0] }

/-- `n` slots later. -/
def flagLater : Nat → State
  | 0 => flagStart
  | n + 1 => finalState (process_slots joinEnv .Deneb ((flagLater n).slot + 1)) (flagLater n)

theorem flag_follows (n : Nat) (hn : n ≤ 3) : Follows joinEnv .Deneb flagStart (flagLater n) := by
  induction n with
  | zero => exact .start
  | succ n ih =>
    have h : ∀ n, n < 3 → Toy.succeeds (process_slots joinEnv .Deneb ((flagLater n).slot + 1))
      (flagLater n) = true := by decide +kernel
    exact (ih (by omega)).slot (Toy.ok_of_succeeds (h n hn))

/-- In the last slot of epoch 11 the flags are those of the previous epoch. -/
example : ∃ y, (flagLater 3).previous_epoch_participation[1]? = some y ∧ FlagSet y 0 := by
  have h0 : epochOf joinEnv (flagLater 3).slot = 11 := by decide +kernel
  obtain ⟨y, hy, hj⟩ := C29_kept (E := joinEnv) (by decide) (e := 10) (by decide) (flag_follows 3 (by decide))
    (by rw [h0]) (i := 1) (x := 3) (by decide)
  rw [if_neg (by rw [h0]; decide)] at hy
  exact ⟨y, hy, hj 0 (by decide) (by decide)⟩

end Verif.Props
