import Verif.Proofs.Supply
import Verif.Props.Epoch
import Verif.Props.Rewards

/-! # C90: how fast the supply of money grows -/

namespace Verif.Props

open Spec

variable {E : Env} {f : Fork} {s s' : State} {b : Nat → Nat} {n d : Nat}

theorem proper_call {m : M Unit} {t u : State} (hm : EntryPoint E f m) (hp : Proper E t)
    (hpar : Parallel f t) (h : m t = .ok () u) : Proper E u ∧ Parallel f u := by
  have h1 := (entry_len hm).ok h
  have h2 := ((entry_past hm).ok h).2 ⟨hp.previous, hp.current, hp.finalized⟩
  have h3 := h1.parallel hpar
  exact ⟨⟨hp.config, hp.balances, hp.increment, h1.sizes.2.2.2.2 hp.bits, h2.1, h2.2.1, h2.2.2,
    h3.1⟩, h3⟩

theorem stretch_slot (h : Stretch E f b n s d s') : s.slot ≤ s'.slot := by
  induction h with
  | start => exact Nat.le_refl _
  | slot _ _ _ h ih =>
    have := (slot_step_roots (process_slots_one h)).1
    omega
  | block _ _ _ h ih =>
    exact ih.trans (Nat.le_of_eq (block_mod.ok h .slot (by decide) : _ = _).symm)

/-- What there is and what is open, over a stretch. -/
theorem stretch_pot (hf : f ≠ .Phase0) (hmax : 0 < E.max_deposits)
    (hV : E.min_seed_lookahead + 3 < E.epochs_per_historical_vector)
    (hp : Proper E s) (hpar : Parallel f s) (hn : n ≤ 2 ^ 40)
    (h : Stretch E f b n s d s') (hslot : s'.slot < 2 ^ 63) :
    (Proper E s' ∧ Parallel f s') ∧
    pot E b n s' ≤ pot E b n s + 448 * E.slots_per_epoch * d +
      16 * together b n * (s'.slot - s.slot) +
      432 * together b n * E.slots_per_epoch * (epochOf E s'.slot - epochOf E s.slot) := by
  induction h with
  | start => exact ⟨⟨hp, hpar⟩, by omega⟩
  | @slot d t u h0 hR hT h ih =>
    have hs0 := stretch_slot h0
    have hs := (slot_step_roots (process_slots_one h)).1
    obtain ⟨⟨i1, i2⟩, i3⟩ := ih (by omega)
    obtain ⟨k1, k2⟩ := pot_slot hp.config hf i1 hR hT h
    refine ⟨proper_call (.process_slots _) i1 i2 h, ?_⟩
    have m1 : epochOf E s.slot ≤ epochOf E t.slot := Nat.div_le_div_right hs0
    have m2 : epochOf E t.slot ≤ epochOf E u.slot := Nat.div_le_div_right (by omega)
    have e1 : u.slot - s.slot = (t.slot - s.slot) + 1 := by omega
    have e2 : epochOf E u.slot - epochOf E s.slot =
      (epochOf E t.slot - epochOf E s.slot) + (epochOf E u.slot - epochOf E t.slot) := by omega
    rw [e1, e2, Nat.mul_add, Nat.mul_add, Nat.mul_one]
    omega
  | @block d t u blk h0 hR hb h ih =>
    have hs : u.slot = t.slot := block_mod.ok h .slot (by decide)
    obtain ⟨⟨i1, i2⟩, i3⟩ := ih (hs ▸ hslot)
    have k := pot_block hp.config hmax hV (hs ▸ hslot) (hR.registry.trans hn) hf i2 hR hb h
    refine ⟨proper_call (.process_block _) i1 i2 h, ?_⟩
    rw [hs, Nat.mul_add]
    omega

/-- **C90** The supply of money, balances and queued deposits together, grows over any stretch of a
chain by no more than what blocks bring from elsewhere and, for each epoch that ends, one base reward
of every validator; and, once, 124 of 448 parts of these for what was already open at the start. -/
theorem C90_issuance (hf : f ≠ .Phase0) (hmax : 0 < E.max_deposits)
    (hV : E.min_seed_lookahead + 3 < E.epochs_per_historical_vector)
    (hp : Proper E s) (hpar : Parallel f s) (hn : n ≤ 2 ^ 40)
    (h : Stretch E f b n s d s') (hslot : s'.slot < 2 ^ 63) :
    448 * supply s' ≤ 448 * (supply s + d) +
      together b n * (448 * (epochOf E s'.slot - epochOf E s.slot) + 124) := by
  obtain ⟨-, k⟩ := stretch_pot hf hmax hV hp hpar hn h hslot
  have hpos := hp.config.slots_per_epoch.1
  have hle := stretch_slot h
  have o1 := open_le b n s.current_epoch_participation
  have o2 := open_le b n s.previous_epoch_participation
  have k1 : pot E b n s ≤ 448 * E.slots_per_epoch * supply s +
      E.slots_per_epoch * (108 * together b n) + 16 * together b n := by
    have := Nat.mul_le_mul_left E.slots_per_epoch
      (show openOf b n s.current_epoch_participation +
        openOf b n s.previous_epoch_participation ≤ 108 * together b n by omega)
    unfold pot
    split <;> omega
  have k2 : 448 * E.slots_per_epoch * supply s' ≤ pot E b n s' := by unfold pot; omega
  set B := together b n
  set p := E.slots_per_epoch
  have k3 : s'.slot - s.slot + 1 ≤ p * (epochOf E s'.slot - epochOf E s.slot + 1) := by
    have m1 : s'.slot < p * (epochOf E s'.slot + 1) := Nat.lt_mul_div_succ _ hpos
    have m2 : p * epochOf E s.slot ≤ s.slot := Nat.mul_div_le _ _
    have m3 : epochOf E s.slot ≤ epochOf E s'.slot := Nat.div_le_div_right hle
    have m4 : epochOf E s'.slot - epochOf E s.slot + 1 = epochOf E s'.slot + 1 - epochOf E s.slot := by
      omega
    rw [m4, Nat.mul_sub]
    omega
  have k4 := Nat.mul_le_mul_left (16 * B) k3
  refine Nat.le_of_mul_le_mul_left ?_ hpos
  set e := epochOf E s'.slot - epochOf E s.slot
  have r1 : p * (448 * supply s') = 448 * p * supply s' := by ring
  have r2 : p * (448 * (supply s + d) + B * (448 * e + 124)) =
      448 * p * supply s + 448 * p * d + p * (108 * B) + 16 * B * (p * (e + 1)) +
        432 * B * p * e := by ring
  rw [r1, r2]
  rw [Nat.mul_add, Nat.mul_one] at k4
  omega

/-- **C90** In particular by at most one base reward of every validator for each epoch the stretch
touches. -/
theorem C90_per_epoch (hf : f ≠ .Phase0) (hmax : 0 < E.max_deposits)
    (hV : E.min_seed_lookahead + 3 < E.epochs_per_historical_vector)
    (hp : Proper E s) (hpar : Parallel f s) (hn : n ≤ 2 ^ 40)
    (h : Stretch E f b n s d s') (hslot : s'.slot < 2 ^ 63) :
    supply s' ≤ supply s + d + (epochOf E s'.slot - epochOf E s.slot + 1) * together b n := by
  have k := C90_issuance hf hmax hV hp hpar hn h hslot
  refine Nat.le_of_mul_le_mul_left (k.trans ?_) (show 0 < 448 by decide)
  set e := epochOf E s'.slot - epochOf E s.slot
  calc 448 * (supply s + d) + together b n * (448 * e + 124)
      ≤ 448 * (supply s + d) + together b n * (448 * e + 448) := by gcongr; decide
    _ = _ := by ring

/-- **C90** Every state reachable from genesis meets the assumptions on the start. -/
theorem C90_assumptions (hE : SaneConfig E) (hB : SaneBalances E)
    (hI : E.effective_balance_increment < 2 ^ 64) (h : Reachable E f s) :
    Proper E s ∧ Parallel f s :=
  ⟨C87_proper hE hB hI h, (reachable_inv hE h).parallel⟩

/-- **C90** All base rewards of an epoch together grow only like the square root of the stake. -/
theorem C90_sqrt (hE : SaneConfig E) :
    totalBase E s ≤ E.base_reward_factor * (Nat.sqrt (activeBalance E s) + 2) := by
  unfold totalBase
  set A := activeBalance E s
  set i := E.effective_balance_increment
  have hi : 0 < i := hE.effective_balance_increment
  have hA : i ≤ A := Nat.le_max_right _ _
  have hr : 0 < Nat.sqrt A := Nat.sqrt_pos.2 (by omega)
  refine Nat.le_of_mul_le_mul_left ?_ hr
  calc Nat.sqrt A * (i * E.base_reward_factor / Nat.sqrt A * (A / i))
      = (Nat.sqrt A * (i * E.base_reward_factor / Nat.sqrt A)) * (A / i) := by ring
    _ ≤ (i * E.base_reward_factor) * (A / i) := Nat.mul_le_mul_right _ (Nat.mul_div_le _ _)
    _ = E.base_reward_factor * (i * (A / i)) := by ring
    _ ≤ E.base_reward_factor * A := Nat.mul_le_mul_left _ (Nat.mul_div_le _ _)
    _ ≤ E.base_reward_factor * (Nat.sqrt A * Nat.sqrt A + 2 * Nat.sqrt A) := by
        refine Nat.mul_le_mul_left _ ?_
        have := Nat.sqrt_le_add A
        omega
    _ = Nat.sqrt A * (E.base_reward_factor * (Nat.sqrt A + 2)) := by ring

/-- **C90** If effective balances are multiples of the increment, as they are in every state
reachable from genesis, and somebody with one is active, then the base rewards of the validators
bound those of the whole. -/
theorem C90_rated (hE : SaneConfig E)
    (hm : ∀ v ∈ s.validators, E.effective_balance_increment ∣ v.effective_balance)
    (ha : E.effective_balance_increment ≤ totalEffective s (activeIndices s (epochOf E s.slot))) :
    Rated E (baseReward E s) s.validators.length s := by
  refine ⟨Nat.le_refl _, fun _ _ _ _ => Nat.le_refl _, ?_⟩
  set i := E.effective_balance_increment with hi0
  have hi : 0 < i := hE.effective_balance_increment
  set r := i * E.base_reward_factor / Nat.sqrt (activeBalance E s) with hr
  have hA : activeBalance E s = totalEffective s (activeIndices s (epochOf E s.slot)) :=
    Nat.max_eq_left ha
  have hd : ∀ l : List Nat, totalEffective s l / i = (l.map fun j => effectiveBalance s j / i).sum := by
    intro l
    induction l with
    | nil => simp [totalEffective]
    | cons j l ih =>
      have hj : i ∣ effectiveBalance s j := by
        unfold effectiveBalance
        split
        · rename_i v hv; exact hm v (List.mem_of_getElem? hv)
        · exact Nat.dvd_zero _
      unfold totalEffective at ih ⊢
      rw [List.map_cons, List.sum_cons, List.map_cons, List.sum_cons, ← ih]
      obtain ⟨k, hk⟩ := hj
      rw [hk, Nat.mul_add_div hi, Nat.mul_div_cancel_left _ hi]
  have hb : ∀ j, baseReward E s j = effectiveBalance s j / i * r := fun _ => rfl
  unfold totalBase together
  rw [← hi0, ← hr, hA, hd]
  have hs : ((activeIndices s (epochOf E s.slot)).map fun j => effectiveBalance s j / i).sum ≤
      ((List.range s.validators.length).map fun j => effectiveBalance s j / i).sum :=
    ((List.filter_sublist).map _).sum_le_sum (by simp)
  calc r * ((activeIndices s (epochOf E s.slot)).map fun j => effectiveBalance s j / i).sum
      ≤ r * ((List.range s.validators.length).map fun j => effectiveBalance s j / i).sum :=
        Nat.mul_le_mul_left _ hs
    _ = ((List.range s.validators.length).map (baseReward E s)).sum := by
        rw [← List.sum_map_mul_left]
        exact congrArg List.sum (List.map_congr_left fun j _ => by rw [hb, Nat.mul_comm])

/-- **C90** While nobody leaves, those who voted have no more than the active balance. -/
theorem C90_turnout (h : AllStay E s) : Turnout E s := fun _ _ => flag_balance_le h

/-! ## The hypotheses hold of a concrete stretch -/

theorem rated_all {m A r : Nat} (h1 : s.validators.length ≤ n)
    (h2 : ∀ v ∈ s.validators, v.effective_balance ≤ m) (h3 : activeBalance E s = A)
    (h4 : m / E.effective_balance_increment *
      (E.effective_balance_increment * E.base_reward_factor / Nat.sqrt A) ≤ r)
    (h5 : E.effective_balance_increment * E.base_reward_factor / Nat.sqrt A *
      (A / E.effective_balance_increment) ≤ together (fun _ => r) n) :
    Rated E (fun _ => r) n s := by
  refine ⟨h1, fun i v hv _ => ?_, by unfold totalBase; rw [h3]; exact h5⟩
  have he : effectiveBalance s i ≤ m := by
    unfold effectiveBalance; rw [hv]; exact h2 v (List.mem_of_getElem? hv)
  refine le_trans ?_ h4
  unfold baseReward
  rw [show max (totalEffective s (activeIndices s (epochOf E s.slot)))
    E.effective_balance_increment = A from h3]
  exact Nat.mul_le_mul_right _ (Nat.div_le_div_right he)

/-- The state after `k` more slots. -/
def slotsOn (f : Fork) (k : Nat) (s : State) : State :=
  finalState (process_slots Toy.env f (s.slot + k)) s

theorem due_rated : Rated Toy.env (fun _ => 2600000) 21 dueState :=
  rated_all (m := 32000000000) (A := 640000000000) (by decide +kernel) (by decide +kernel)
    (by decide +kernel) (by decide +kernel) (by decide +kernel)

/-- A block with slashings, an attestation and a deposit. -/
theorem due_stretch : Stretch Toy.env .Deneb (fun _ => 2600000) 21 dueState
    (0 + brought Toy.env .Deneb dueState (Toy.block dueState fullBody))
    (after .Deneb dueState fullBody) :=
  Stretch.block Stretch.start due_rated (by decide +kernel) toy_due

example : 448 * supply (after .Deneb dueState fullBody) ≤ 448 * (supply dueState +
    (0 + brought Toy.env .Deneb dueState (Toy.block dueState fullBody))) +
    together (fun _ => 2600000) 21 *
      (448 * (epochOf Toy.env (after .Deneb dueState fullBody).slot -
        epochOf Toy.env dueState.slot) + 124) :=
  C90_issuance (by decide) toy_far.2 toy_far.1
    ⟨toy_sane, toy_balances, by decide, by decide +kernel, by decide +kernel, by decide +kernel,
      by decide +kernel, by decide +kernel⟩
    (by unfold Parallel; decide +kernel) (by decide) due_stretch
    (Nat.lt_of_le_of_lt (Nat.le_of_eq (block_mod.ok toy_due .slot (by decide) : _ = _))
      (by decide : dueState.slot < 2 ^ 63))

/-- All have voted well in the previous epoch, and epoch 2 ends: the rewards are 54 of 64 parts of
what is allowed, as no proposer included the votes and there is no sync aggregate. -/
def keen : State := { Toy.state 8 23 with previous_epoch_participation := List.replicate 8 7 }

theorem keen_rated : Rated Toy.env (baseReward Toy.env keen) 8 keen :=
  C90_rated toy_sane (by decide +kernel) (by decide +kernel)

theorem keen_stretch :
    Stretch Toy.env .Deneb (baseReward Toy.env keen) 8 keen 0 (slotsOn .Deneb 1 keen) :=
  Stretch.slot Stretch.start keen_rated (fun _ => C90_turnout (by decide +kernel))
    (Toy.ok_of_succeeds (by decide +kernel))

example : together (baseReward Toy.env keen) 8 = 32381696 ∧ totalBase Toy.env keen = 32381696 ∧
    (slotsOn .Deneb 1 keen).slot = 24 ∧
    supply (slotsOn .Deneb 1 keen) = supply keen + 27322056 := by decide +kernel

/-- All but one leave at the end of epoch 1. -/
def goners : State :=
  let s := Toy.state 8 23
  { s with
    validators := Toy.validator 0 :: (s.validators.drop 1).map fun v => { v with exit_epoch := 2 }
    previous_epoch_participation := List.replicate 8 7 }

/-- **C90** The condition on those who voted is needed: when all but one leave, the votes of the epoch
before are paid by the share of the voters in the balance that is left, which is eight times as
much. -/
theorem C90_exceeds : ∃ (s u : State) (b : Nat → Nat) (n : Nat),
    Proper Toy.env s ∧ Parallel .Deneb s ∧ Rated Toy.env b n s ∧ ¬ Turnout Toy.env s ∧
    process_slots Toy.env .Deneb (s.slot + 1) s = .ok () u ∧
    epochOf Toy.env u.slot = epochOf Toy.env s.slot + 1 ∧
    supply s + 6 * together b n < supply u :=
  ⟨goners, slotsOn .Deneb 1 goners, baseReward Toy.env goners, 8,
    ⟨toy_sane, toy_balances, by decide, by decide +kernel, by decide +kernel, by decide +kernel,
      by decide +kernel, by decide +kernel⟩,
    by unfold Parallel; decide +kernel,
    C90_rated toy_sane (by decide +kernel) (by decide +kernel), by decide +kernel,
    Toy.ok_of_succeeds (by decide +kernel), by decide +kernel, by decide +kernel⟩

end Verif.Props
