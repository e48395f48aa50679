import Verif.Proofs.Slots
import Verif.Props.Shuffling
import Verif.Examples.Toy

/-! # C16, C17: slot processing and recent roots -/

namespace Verif.Props

open Spec

/-! ## C16 -/

/-- **C16** A target that is not after the current slot is rejected, and nothing changes. -/
theorem C16_rejects_past_targets (E : Env) (f : Fork) (t : Nat) (s : State) (h : t ≤ s.slot) :
    process_slots E f t s = .error .transitionToPreviousSlot s := by
  rw [process_slots_eq, if_neg (by omega)]

/-- **C16** For a later target, `process_slots` succeeds with state `s'` exactly when `s'` is at
the target slot and results from processing the slots one by one, running epoch processing in
exactly those slots that are the last slot of their epoch. -/
theorem C16_process_slots_iff (E : Env) (hE : SaneConfig E) (f : Fork) (t : Nat)
    (ht : t < 2 ^ 64) (s s' : State) (hs : s.slot < t) :
    process_slots E f t s = .ok () s' ↔
      s'.slot = t ∧ Advance E f s (epochEnds E s.slot t) s' := by
  rw [process_slots_eq, if_pos hs]
  exact slots_loop_eq_ok (by omega) ht (Nat.ne_of_gt hE.slots_per_epoch.1)

/-- **C16** The slots in which epoch processing runs, in order and each once, are the last
slots of the epochs that are left. -/
theorem C16_epoch_ends (E : Env) (hE : SaneConfig E) (a b : Nat) :
    (epochEnds E a b).Pairwise (· < ·) ∧
    ∀ k, k ∈ epochEnds E a b ↔
      (a ≤ k ∧ k < b) ∧ epochOf E (k + 1) = epochOf E k + 1 := by
  constructor
  · exact List.Pairwise.filter _ (List.pairwise_lt_range' ..)
  · intro k
    unfold epochEnds epochOf
    rw [List.mem_filter, List.mem_range'_1, decide_eq_true_eq]
    have hp := hE.slots_per_epoch.1
    have hdvd : (k + 1) % E.slots_per_epoch = 0 ↔
        (k + 1) / E.slots_per_epoch = k / E.slots_per_epoch + 1 := by
      rw [← Nat.dvd_iff_mod_eq_zero, Nat.succ_div]
      split <;> simp [*]
    rw [hdvd]
    constructor
    · rintro ⟨⟨h1, h2⟩, h3⟩; exact ⟨⟨h1, by omega⟩, h3⟩
    · rintro ⟨⟨h1, h2⟩, h3⟩; exact ⟨⟨h1, by omega⟩, h3⟩

/-- **C16** So epoch processing runs once per epoch boundary crossed. -/
theorem C16_epoch_count (E : Env) (hE : SaneConfig E) (a b : Nat) (h : a ≤ b) :
    (epochEnds E a b).length = epochOf E b - epochOf E a := by
  have hp := hE.slots_per_epoch.1
  obtain ⟨n, rfl⟩ : ∃ n, b = a + n := ⟨b - a, by omega⟩
  induction n with
  | zero => simp [epochEnds]
  | succ n ih =>
    have ih := ih (by omega)
    have hsplit : epochEnds E a (a + (n + 1)) =
        epochEnds E a (a + n) ++ [a + n].filter fun k => (k + 1) % E.slots_per_epoch = 0 := by
      unfold epochEnds
      rw [← List.filter_append, Nat.add_sub_cancel_left, Nat.add_sub_cancel_left,
        List.range'_1_concat]
    have hmono : epochOf E a ≤ epochOf E (a + n) := Nat.div_le_div_right (by omega)
    rw [hsplit, List.length_append, ih, List.filter_cons]
    unfold epochOf at *
    have h2 : (a + n + 1) / E.slots_per_epoch =
        (a + n) / E.slots_per_epoch + if E.slots_per_epoch ∣ a + n + 1 then 1 else 0 :=
      Nat.succ_div
    rw [← Nat.add_assoc, h2]
    by_cases hc : (a + n + 1) % E.slots_per_epoch = 0
    · rw [if_pos (Nat.dvd_of_mod_eq_zero hc)]
      simp only [hc, decide_true, if_true, List.filter_nil, List.length_singleton]
      omega
    · rw [if_neg (fun hd => hc (Nat.mod_eq_zero_of_dvd hd))]
      simp only [hc, decide_false, Bool.false_eq_true, if_false, List.filter_nil, List.length_nil]
      omega

/-- **C16** Advancing to `a` and then to `b` is the same as advancing to `b`: same state, same
error. -/
theorem C16_stages (E : Env) (f : Fork) (a b : Nat) (s : State) (ha : s.slot < a) (hb : a < b) :
    (do process_slots E f a; process_slots E f b) s = process_slots E f b s :=
  process_slots_split ha hb

/-- From the last slot of epoch 1 to the first slot of epoch 3: two epoch transitions. -/
example : epochEnds Toy.env 15 24 = [15, 23] ∧
    Toy.succeeds (process_slots Toy.env .Deneb 24) (Toy.state 8 15) = true ∧
    (finalState (process_slots Toy.env .Deneb 24) (Toy.state 8 15)).slot = 24 ∧
    Toy.errorOf (process_slots Toy.env .Deneb 15) (Toy.state 8 15) =
      some .transitionToPreviousSlot := by
  decide +kernel

/-! ## C17 -/

/-- **C17** Run the chain for any number of slots, processing any blocks in between. Then
`get_block_root_at_slot` returns for each of the last `SLOTS_PER_HISTORICAL_ROOT` slots the
root of the latest block header as it was when that slot was left. -/
theorem C17_block_roots_remembered (E : Env) (hE : SaneConfig E) (f : Fork) (s₀ s : State)
    (h₀ : Shaped E s₀) (log : List (Nat × Root × Root)) (h : ChainRun E f s₀ s log)
    (hs : s.slot < 2 ^ 63) (k : Nat) (stateRoot blockRoot : Root)
    (hk : (k, stateRoot, blockRoot) ∈ log)
    (hw : s.slot ≤ k + E.slots_per_historical_root) :
    get_block_root_at_slot E s k = .ok blockRoot := by
  have hP := hE.slots_per_historical_root
  have hi := chainRun_inv (by omega) h₀.state_roots h₀.block_roots h
  rw [block_root_at_slot_eq_ok]
  have hlt : k < s.slot := by
    have : k ∈ log.map (·.1) := List.mem_map.2 ⟨_, hk, rfl⟩
    rw [hi.slots, List.mem_range'_1] at this
    rw [hi.slot]; exact this.2
  have := U64_BOUND_eq
  exact ⟨hlt, hw, by omega, by omega, (hi.roots k _ _ hk hw).2⟩

/-- **C17** Likewise the state roots. -/
theorem C17_state_roots_remembered (E : Env) (hE : SaneConfig E) (f : Fork) (s₀ s : State)
    (h₀ : Shaped E s₀) (log : List (Nat × Root × Root)) (h : ChainRun E f s₀ s log)
    (k : Nat) (stateRoot blockRoot : Root) (hk : (k, stateRoot, blockRoot) ∈ log)
    (hw : s.slot ≤ k + E.slots_per_historical_root) :
    s.state_roots[k % E.slots_per_historical_root]? = some stateRoot := by
  have hP := hE.slots_per_historical_root
  exact ((chainRun_inv (by omega) h₀.state_roots h₀.block_roots h).roots k _ _ hk hw).1

/-- **C17** The log has one entry for every slot since the start of the run. -/
theorem C17_log_is_complete (E : Env) (hE : SaneConfig E) (f : Fork) (s₀ s : State)
    (h₀ : Shaped E s₀) (log : List (Nat × Root × Root)) (h : ChainRun E f s₀ s log) (k : Nat) :
    (s₀.slot ≤ k ∧ k < s.slot) ↔ ∃ stateRoot blockRoot, (k, stateRoot, blockRoot) ∈ log := by
  have hP := hE.slots_per_historical_root
  have hi := chainRun_inv (by omega) h₀.state_roots h₀.block_roots h
  have : k ∈ log.map (·.1) ↔ s₀.slot ≤ k ∧ k < s.slot := by
    rw [hi.slots, List.mem_range'_1, hi.slot]
  rw [← this, List.mem_map]
  constructor
  · rintro ⟨⟨_, sr, br⟩, h, rfl⟩; exact ⟨sr, br, h⟩
  · rintro ⟨sr, br, h⟩; exact ⟨_, h, rfl⟩

/-- **C17** For any other slot there is an error. -/
theorem C17_other_slots_are_errors (E : Env) (s : State) (k : Nat)
    (h : s.slot ≤ k ∨ k + E.slots_per_historical_root < s.slot) :
    ∃ e, get_block_root_at_slot E s k = .error e := by
  cases hr : get_block_root_at_slot E s k with
  | error e => exact ⟨e, rfl⟩
  | ok r =>
    obtain ⟨h1, h2, _⟩ := block_root_at_slot_eq_ok.1 hr
    omega

/-- **C17** It is a regular error, unless the state is at slot 0, where the code computes
`slot - 1`. -/
theorem C17_slot_out_of_range (E : Env) (hE : SaneConfig E) (s : State) (k : Nat)
    (hs : 0 < s.slot) (hs' : s.slot < 2 ^ 63)
    (h : s.slot ≤ k ∨ k + E.slots_per_historical_root < s.slot) :
    get_block_root_at_slot E s k = .error .slotOutOfRange := by
  have hP := hE.slots_per_historical_root
  have hU := U64_BOUND_eq
  have h1 : s.slot -? 1 = .ok (s.slot - 1) := sub_ok hs
  have h2 : s.slot +? E.slots_per_historical_root =
      .ok (s.slot + E.slots_per_historical_root) := add_ok (by omega)
  unfold get_block_root_at_slot
  by_cases hk : k ≥ s.slot
  · rw [if_pos hk]
    simp only [R_pure, R_bind_ok, if_true, h1, h2]
  · rw [if_neg hk, add_ok (a := k) (b := E.slots_per_historical_root) (by omega)]
    simp only [R_pure, R_bind_ok]
    rw [if_pos (decide_eq_true (by omega))]
    simp only [R_bind_ok, h1, h2]

example : get_block_root_at_slot Toy.env (Toy.state 8 0) 5 = .error (.panic .overflow) := by
  decide +kernel

/-- Two slots and the roots remembered for them. -/
example :
    let s := finalState (process_slots Toy.env .Deneb 11) (Toy.state 8 9)
    get_block_root_at_slot Toy.env s 9 =
      .ok (Toy.env.header_root (closedHeader Toy.env .Deneb (Toy.state 8 9))) ∧
    get_block_root_at_slot Toy.env s 10 = get_block_root_at_slot Toy.env s 9 ∧
    get_block_root_at_slot Toy.env s 11 = .error .slotOutOfRange := by
  decide +kernel

end Verif.Props
