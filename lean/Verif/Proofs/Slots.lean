import Verif.Spec.Slots
import Verif.Spec.Config
import Verif.Proofs.Modifies

/-! # Slot processing -/

namespace Verif

open Spec

theorem process_slot_eq_ok {E : Env} {f : Fork} {s s' : State} :
    process_slot E f s = .ok () s' ↔
      E.slots_per_historical_root ≠ 0 ∧
      s.slot % E.slots_per_historical_root < s.state_roots.length ∧
      s.slot % E.slots_per_historical_root < s.block_roots.length ∧
      s' = { s with
        state_roots := s.state_roots.set (s.slot % E.slots_per_historical_root) (E.state_root f s)
        latest_block_header := closedHeader E f s
        block_roots := s.block_roots.set (s.slot % E.slots_per_historical_root)
          (E.header_root (closedHeader E f s)) } := by
  unfold process_slot
  simp only [run]
  constructor
  · rintro ⟨_, ⟨rfl, h1⟩, _, ⟨h2, rfl⟩, _, ⟨rfl, _⟩, _, ⟨h3, rfl⟩, rfl⟩
    exact ⟨h1, h2, h3, rfl⟩
  · rintro ⟨h1, h2, h3, rfl⟩
    exact ⟨_, ⟨rfl, h1⟩, _, ⟨h2, rfl⟩, _, ⟨rfl, h1⟩, _, ⟨h3, rfl⟩, rfl⟩

theorem process_slot_slot {E : Env} {f : Fork} {s s' : State}
    (h : process_slot E f s = .ok () s') : s'.slot = s.slot :=
  (slot_mod.ok h) .slot (by decide)

theorem process_epoch_slot {E : Env} {f : Fork} {s s' : State}
    (h : process_epoch E f s = .ok () s') : s'.slot = s.slot :=
  (epoch_mod.ok h) .slot (by decide)

/-- One iteration. -/
theorem slot_step_eq_ok {E : Env} {f : Fork} {s s' : State} :
    slot_step E f s = .ok () s' ↔
      ∃ s₁ s₂, process_slot E f s = .ok () s₁ ∧ s.slot + 1 < U64_BOUND ∧ E.slots_per_epoch ≠ 0 ∧
        ((s.slot + 1) % E.slots_per_epoch = 0 ∧ process_epoch E f s₁ = .ok () s₂ ∨
          (s.slot + 1) % E.slots_per_epoch ≠ 0 ∧ s₂ = s₁) ∧
        s' = { s₂ with slot := s.slot + 1 } := by
  unfold slot_step process_epoch_if_due
  simp only [run]
  constructor
  · rintro ⟨s₁, h1, s₂, ⟨_, ⟨rfl, h2⟩, _, ⟨rfl, h3⟩, h4⟩, _, ⟨rfl, h5⟩, rfl⟩
    have e1 := process_slot_slot h1
    rw [e1] at h2 h4
    rcases h4 with ⟨h4, h6⟩ | ⟨h4, -, rfl⟩
    · have e2 := process_epoch_slot h6
      exact ⟨s₁, s₂, h1, h2, h3, Or.inl ⟨h4, h6⟩, by rw [e2, e1]⟩
    · exact ⟨s₁, s₁, h1, h2, h3, Or.inr ⟨h4, rfl⟩, by rw [e1]⟩
  · rintro ⟨s₁, s₂, h1, h2, h3, h4, rfl⟩
    have e1 := process_slot_slot h1
    refine ⟨s₁, h1, s₂, ⟨_, ⟨rfl, by rw [e1]; exact h2⟩, _, ⟨rfl, h3⟩, ?_⟩, ?_⟩
    · rw [e1]
      rcases h4 with ⟨h4, h6⟩ | ⟨h4, rfl⟩
      · exact Or.inl ⟨h4, h6⟩
      · exact Or.inr ⟨h4, trivial, rfl⟩
    · have : s₂.slot = s.slot := by
        rcases h4 with ⟨_, h6⟩ | ⟨_, rfl⟩
        · rw [process_epoch_slot h6, e1]
        · exact e1
      exact ⟨_, ⟨by rw [this], by rw [this]; exact h2⟩, rfl⟩

theorem slot_step_slot {E : Env} {f : Fork} {s s' : State} (h : slot_step E f s = .ok () s') :
    s'.slot = s.slot + 1 := by
  obtain ⟨_, _, _, _, _, _, rfl⟩ := slot_step_eq_ok.1 h
  rfl

theorem slots_loop_zero {E : Env} {f : Fork} {t : Nat} {s s' : State} :
    slots_loop E f t 0 s = .ok () s' ↔ t ≤ s.slot ∧ s' = s := by
  unfold slots_loop
  simp only [run, decide_eq_false_iff_not, Nat.not_lt]
  exact ⟨fun ⟨h, h'⟩ => ⟨h, h'.symm⟩, fun ⟨h, h'⟩ => ⟨h, h'.symm⟩⟩

theorem slots_loop_succ {E : Env} {f : Fork} {t n : Nat} {s s' : State} :
    slots_loop E f t (n + 1) s = .ok () s' ↔
      (s.slot < t ∧ ∃ s₁, slot_step E f s = .ok () s₁ ∧ slots_loop E f t n s₁ = .ok () s') ∨
      (t ≤ s.slot ∧ s' = s) := by
  rw [slots_loop]
  simp only [run, Nat.not_lt, true_and, eq_comm (a := s)]

theorem slots_loop_eq_ok {E : Env} {f : Fork} {t n : Nat} {s s' : State}
    (hn : s.slot + n = t) (ht : t < U64_BOUND) (hE : E.slots_per_epoch ≠ 0) :
    slots_loop E f t n s = .ok () s' ↔
      s'.slot = t ∧ Advance E f s (epochEnds E s.slot t) s' := by
  induction n generalizing s with
  | zero =>
    rw [slots_loop_zero]
    have hnil : epochEnds E s.slot t = [] := by
      unfold epochEnds; rw [show t - s.slot = 0 by omega]; rfl
    rw [hnil]
    constructor
    · rintro ⟨_, rfl⟩; exact ⟨by omega, .done _⟩
    · rintro ⟨h1, h2⟩
      refine ⟨by omega, ?_⟩
      have key : ∀ {a : State} {r : List Nat} {b : State}, Advance E f a r b →
          b = a ∨ a.slot < b.slot := by
        intro a r b h
        induction h with
        | done => exact Or.inl rfl
        | slot h h' ih =>
          right
          rcases ih with ih | ih
          · rw [ih]; exact Nat.lt_succ_self _
          · exact Nat.lt_of_succ_lt ih
        | slotAndEpoch h h' _ ih =>
          right
          rcases ih with ih | ih
          · rw [ih]; exact Nat.lt_succ_self _
          · exact Nat.lt_of_succ_lt ih
      rcases key h2 with h | h
      · exact h
      · omega
  | succ n ih =>
    rw [slots_loop_succ]
    have hr : List.range' s.slot (t - s.slot) = s.slot :: List.range' (s.slot + 1) n := by
      rw [show t - s.slot = n + 1 by omega]; rfl
    have hends : epochEnds E s.slot t =
        if (s.slot + 1) % E.slots_per_epoch = 0 then s.slot :: epochEnds E (s.slot + 1) t
        else epochEnds E (s.slot + 1) t := by
      unfold epochEnds
      rw [hr, List.filter_cons, show t - (s.slot + 1) = n by omega]
      simp only [decide_eq_true_eq]
    constructor
    · rintro (⟨_, s₁, h1, h2⟩ | ⟨h, _⟩)
      · have hs1 := slot_step_slot h1
        rw [ih (by omega)] at h2
        obtain ⟨h2, h3⟩ := h2
        refine ⟨h2, ?_⟩
        obtain ⟨u, w, h4, h5, h6, h7, rfl⟩ := slot_step_eq_ok.1 h1
        rw [hends]
        rcases h7 with ⟨h7, h8⟩ | ⟨h7, rfl⟩
        · rw [if_pos h7]; exact .slotAndEpoch h4 h8 h3
        · rw [if_neg h7]; exact .slot h4 h3
      · omega
    · rintro ⟨h1, h2⟩
      refine Or.inl ⟨by omega, ?_⟩
      rw [hends] at h2
      split at h2
      · rename_i hc
        cases h2 with
        | slot h h' =>
          exfalso
          -- the list would have to start with a later slot
          have key : ∀ {a : State} {r : List Nat} {b : State}, Advance E f a r b →
              ∀ x ∈ r, a.slot ≤ x := by
            intro a r b h
            induction h with
            | done => intro x hx; cases hx
            | slot h h' ih => intro x hx; exact Nat.le_of_succ_le (ih x hx)
            | slotAndEpoch h h' _ ih =>
              intro x hx
              rcases List.mem_cons.1 hx with rfl | hx
              · exact Nat.le_refl _
              · exact Nat.le_of_succ_le (ih x hx)
          have := key h' s.slot List.mem_cons_self
          exact absurd this (Nat.not_succ_le_self _)
        | slotAndEpoch h h' h'' =>
          refine ⟨_, slot_step_eq_ok.2 ⟨_, _, h, by omega, hE, Or.inl ⟨hc, h'⟩, rfl⟩, ?_⟩
          rw [ih (by show s.slot + 1 + n = t; omega)]
          exact ⟨h1, h''⟩
      · rename_i hc
        have hmem : ∀ x ∈ epochEnds E (s.slot + 1) t, s.slot < x := by
          intro x hx
          unfold epochEnds at hx
          have := (List.mem_range'_1.1 (List.mem_filter.1 hx).1).1
          omega
        generalize hl : epochEnds E (s.slot + 1) t = l at h2 hmem
        cases h2 with
        | done => omega
        | slot h h' =>
          refine ⟨_, slot_step_eq_ok.2 ⟨_, _, h, by omega, hE, Or.inr ⟨hc, rfl⟩, rfl⟩, ?_⟩
          rw [ih (by show s.slot + 1 + n = t; omega)]
          refine ⟨h1, ?_⟩
          show Advance E f _ (epochEnds E (s.slot + 1) t) s'
          rw [hl]; exact h'
        | slotAndEpoch h h' h'' =>
          exact absurd (hmem _ List.mem_cons_self) (Nat.lt_irrefl _)

theorem process_slots_eq {E : Env} {f : Fork} {t : Nat} {s : State} :
    process_slots E f t s =
      if s.slot < t then slots_loop E f t (t - s.slot) s
      else .error .transitionToPreviousSlot s := by
  unfold process_slots
  show EStateM.bind _ _ _ = _
  simp only [EStateM.bind, get, getThe, MonadStateOf.get, EStateM.get]
  split
  · rename_i h
    have : decide (s.slot ≥ t) = false := decide_eq_false (by omega)
    rw [this]; rfl
  · rename_i h
    have : decide (s.slot ≥ t) = true := decide_eq_true (by omega)
    rw [this]; rfl

/-- Advancing in two stages is advancing in one. -/
theorem slots_loop_split {E : Env} {f : Fork} {a b n m : Nat} {s : State}
    (ha : s.slot + n = a) (hb : a + m = b) :
    slots_loop E f b (n + m) s = (slots_loop E f a n >>= fun _ => slots_loop E f b m) s := by
  induction n generalizing s with
  | zero =>
    have : slots_loop E f a 0 s = .ok () s := slots_loop_zero.2 ⟨by omega, rfl⟩
    rw [M_bind_of_ok this, Nat.zero_add]
  | succ n ih =>
    have h1 : slots_loop E f b (n + 1 + m) s =
        (slot_step E f >>= fun _ => slots_loop E f b (n + m)) s := by
      rw [show n + 1 + m = (n + m) + 1 by omega, slots_loop]
      show (if s.slot < b then _ else _ : M Unit) s = _
      rw [if_pos (by omega)]
    have h2 : slots_loop E f a (n + 1) s = (slot_step E f >>= fun _ => slots_loop E f a n) s := by
      rw [slots_loop]
      show (if s.slot < a then _ else _ : M Unit) s = _
      rw [if_pos (by omega)]
    rw [h1]
    cases hs : slot_step E f s with
    | error e s₁ =>
      rw [M_bind_of_error hs, M_bind_of_error (by rw [h2, M_bind_of_error hs])]
    | ok u s₁ =>
      have := slot_step_slot hs
      rw [M_bind_of_ok hs, ih (by omega)]
      cases hl : slots_loop E f a n s₁ with
      | error e s₂ =>
        rw [M_bind_of_error hl, M_bind_of_error (by rw [h2, M_bind_of_ok hs, hl])]
      | ok u s₂ =>
        rw [M_bind_of_ok hl, M_bind_of_ok (by rw [h2, M_bind_of_ok hs, hl])]

theorem slots_loop_slot {E : Env} {f : Fork} {t n : Nat} {s s' : State} (hn : s.slot + n = t)
    (h : slots_loop E f t n s = .ok () s') : s'.slot = t := by
  induction n generalizing s with
  | zero =>
    obtain ⟨_, rfl⟩ := slots_loop_zero.1 h
    omega
  | succ n ih =>
    rcases slots_loop_succ.1 h with ⟨_, s₁, h1, h2⟩ | ⟨h1, _⟩
    · exact ih (by rw [slot_step_slot h1]; omega) h2
    · omega

theorem process_slots_split {E : Env} {f : Fork} {a b : Nat} {s : State} (ha : s.slot < a)
    (hb : a < b) :
    (do process_slots E f a; process_slots E f b) s = process_slots E f b s := by
  rw [process_slots_eq (t := b), if_pos (by omega),
    show b - s.slot = (a - s.slot) + (b - a) by omega,
    slots_loop_split (a := a) (by omega) (by omega)]
  have h1 : process_slots E f a s = slots_loop E f a (a - s.slot) s := by
    rw [process_slots_eq, if_pos ha]
  cases hl : slots_loop E f a (a - s.slot) s with
  | error e s₁ => rw [M_bind_of_error hl, M_bind_of_error (h1.trans hl)]
  | ok u s₁ =>
    have := slots_loop_slot (by omega) hl
    rw [M_bind_of_ok hl, M_bind_of_ok (h1.trans hl), process_slots_eq, if_pos (by omega), this]

/-! ## Recent roots -/

theorem process_slots_one {E : Env} {f : Fork} {s s' : State}
    (h : process_slots E f (s.slot + 1) s = .ok () s') : slot_step E f s = .ok () s' := by
  rw [process_slots_eq, if_pos (Nat.lt_succ_self _), Nat.add_sub_cancel_left,
    slots_loop_succ] at h
  rcases h with ⟨_, s₁, h1, h2⟩ | ⟨h, _⟩
  · obtain ⟨_, rfl⟩ := slots_loop_zero.1 h2
    exact h1
  · exact absurd h (Nat.not_succ_le_self _)

theorem slot_step_roots {E : Env} {f : Fork} {s s' : State} (h : slot_step E f s = .ok () s') :
    s'.slot = s.slot + 1 ∧
    s'.state_roots = s.state_roots.set (s.slot % E.slots_per_historical_root) (E.state_root f s) ∧
    s'.block_roots = s.block_roots.set (s.slot % E.slots_per_historical_root)
      (E.header_root (closedHeader E f s)) ∧
    s'.latest_block_header = closedHeader E f s := by
  obtain ⟨s₁, s₂, h1, h2, h3, h4, rfl⟩ := slot_step_eq_ok.1 h
  obtain ⟨_, _, _, rfl⟩ := process_slot_eq_ok.1 h1
  rcases h4 with ⟨_, h4⟩ | ⟨_, rfl⟩
  · have := epoch_mod.ok h4
    exact ⟨rfl, this .state_roots (by decide), this .block_roots (by decide),
      this .latest_block_header (by decide)⟩
  · exact ⟨rfl, rfl, rfl, rfl⟩

/-- What is known after a run of the chain. -/
structure RunInv (E : Env) (s₀ s : State) (log : List (Nat × Root × Root)) : Prop where
  slots : log.map (·.1) = List.range' s₀.slot log.length
  slot : s.slot = s₀.slot + log.length
  state_len : s.state_roots.length = E.slots_per_historical_root
  block_len : s.block_roots.length = E.slots_per_historical_root
  roots : ∀ k sr br, (k, sr, br) ∈ log → s.slot ≤ k + E.slots_per_historical_root →
    s.state_roots[k % E.slots_per_historical_root]? = some sr ∧
    s.block_roots[k % E.slots_per_historical_root]? = some br

theorem mod_ne_of_window {k n P : Nat} (h : k < n) (h' : n < k + P) : n % P ≠ k % P := by
  intro hc
  obtain ⟨d, rfl⟩ : ∃ d, n = k + d := ⟨n - k, by omega⟩
  have := Nat.sub_mod_eq_zero_of_mod_eq hc
  rw [Nat.add_sub_cancel_left, Nat.mod_eq_of_lt (by omega)] at this
  omega

theorem chainRun_inv {E : Env} (hP : 0 < E.slots_per_historical_root) {f : Fork} {s₀ s : State}
    {log : List (Nat × Root × Root)}
    (h1 : s₀.state_roots.length = E.slots_per_historical_root)
    (h2 : s₀.block_roots.length = E.slots_per_historical_root)
    (h : ChainRun E f s₀ s log) : RunInv E s₀ s log := by
  induction h with
  | start =>
    refine ⟨rfl, rfl, h1, h2, ?_⟩
    intro k sr br h
    cases h
  | @block s log b _ ih =>
    have hb := (block_mod (E := E) (f := f) (b := b)).final s
    have e1 : (finalState (process_block E f b) s).slot = s.slot := hb .slot (by decide)
    have e2 : (finalState (process_block E f b) s).state_roots = s.state_roots :=
      hb .state_roots (by decide)
    have e3 : (finalState (process_block E f b) s).block_roots = s.block_roots :=
      hb .block_roots (by decide)
    refine ⟨ih.slots, e1.trans ih.slot, by rw [e2]; exact ih.state_len,
      by rw [e3]; exact ih.block_len, ?_⟩
    rw [e1, e2, e3]
    exact ih.roots
  | @slot s s' log _ h ih =>
    obtain ⟨e1, e2, e3, _⟩ := slot_step_roots (process_slots_one h)
    refine ⟨?_, ?_, ?_, ?_, ?_⟩
    · rw [List.map_append, ih.slots, List.length_append, List.length_singleton,
        List.range'_1_concat]
      simp [ih.slot]
    · rw [e1, ih.slot, List.length_append, List.length_singleton]; omega
    · rw [e2, List.length_set, ih.state_len]
    · rw [e3, List.length_set, ih.block_len]
    · intro k sr br hk hw
      rw [e1] at hw
      rw [e2, e3]
      rcases List.mem_append.1 hk with hk | hk
      · have hlt : k < s.slot := by
          have : k ∈ log.map (·.1) := List.mem_map.2 ⟨_, hk, rfl⟩
          rw [ih.slots, List.mem_range'_1] at this
          rw [ih.slot]; exact this.2
        have hne := mod_ne_of_window (P := E.slots_per_historical_root) hlt (by omega)
        rw [List.getElem?_set_ne hne, List.getElem?_set_ne hne]
        exact ih.roots k sr br hk (by omega)
      · rw [List.mem_singleton] at hk
        cases hk
        have hm := Nat.mod_lt s.slot hP
        exact ⟨List.getElem?_set_self (by rw [ih.state_len]; exact hm),
          List.getElem?_set_self (by rw [ih.block_len]; exact hm)⟩

theorem block_root_at_slot_eq_ok {E : Env} {s : State} {k : Nat} {r : Root} :
    get_block_root_at_slot E s k = .ok r ↔
      k < s.slot ∧ s.slot ≤ k + E.slots_per_historical_root ∧
      k + E.slots_per_historical_root < U64_BOUND ∧ E.slots_per_historical_root ≠ 0 ∧
      s.block_roots[k % E.slots_per_historical_root]? = some r := by
  unfold get_block_root_at_slot
  by_cases h : k ≥ s.slot
  · rw [if_pos h]
    simp only [run, R_pure, R_bind_ok, if_true]
    constructor
    · rintro ⟨_, _, _, _, h⟩; cases h
    · rintro ⟨h, _⟩; omega
  · rw [if_neg h]
    simp only [run, R_pure]
    constructor
    · rintro ⟨bad, ⟨_, ⟨rfl, hb⟩, rfl⟩, h'⟩
      rcases h' with ⟨_, _, _, _, _, h'⟩ | ⟨h1, _, ⟨rfl, h2⟩, h3⟩
      · cases h'
      · simp only [decide_eq_true_eq] at h1
        exact ⟨by omega, by omega, hb, h2, h3⟩
    · rintro ⟨h1, h2, h3, h4, h5⟩
      refine ⟨_, ⟨_, ⟨rfl, h3⟩, rfl⟩, Or.inr ⟨?_, _, ⟨rfl, h4⟩, h5⟩⟩
      simp only [decide_eq_true_eq]; omega

end Verif
