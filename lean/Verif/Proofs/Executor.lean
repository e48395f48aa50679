import Verif.Spec.Executor
import Verif.Proofs.Upgrade
import Verif.Proofs.Slots
import Verif.Proofs.Modifies

/-! # Fork schedules and the executor -/

namespace Verif

open Spec

/-! ## The transition -/

theorem process_slots_slot {E : Env} {f : Fork} {t : Nat} {s s' : State}
    (h : process_slots E f t s = .ok () s') : s.slot < t ∧ s'.slot = t := by
  rw [process_slots_eq] at h
  split at h
  · rename_i hlt
    exact ⟨hlt, slots_loop_slot (by omega) h⟩
  · cases h

theorem slots_loop_bound {E : Env} {f : Fork} {t n : Nat} {s s' : State} (hn : s.slot + n = t)
    (hs : n ≠ 0) (h : slots_loop E f t n s = .ok () s') : t < U64_BOUND := by
  induction n generalizing s with
  | zero => exact absurd rfl hs
  | succ n ih =>
    rcases slots_loop_succ.1 h with ⟨_, s₁, h1, h2⟩ | ⟨h1, _⟩
    · have hsl := slot_step_slot h1
      by_cases hn0 : n = 0
      · subst hn0
        simp only [slot_step, run] at h1
        obtain ⟨u, _, w, _, y, ⟨rfl, hb⟩, rfl⟩ := h1
        dsimp only at hsl
        omega
      · exact ih (by omega) hn0 h2
    · omega

theorem process_slots_bound {E : Env} {f : Fork} {t : Nat} {s s' : State}
    (h : process_slots E f t s = .ok () s') : t < U64_BOUND := by
  rw [process_slots_eq] at h
  split at h
  · rename_i hlt
    exact slots_loop_bound (by omega) (by omega) h
  · cases h

theorem get_domain_none {E : Env} {s : State} {t : DomainType} {d : Domain} :
    get_domain E s t none = .ok d ↔
      d = domainAt E s t (epochOf E s.slot) ∧ E.slots_per_epoch ≠ 0 := by
  simp only [get_domain, run, current_epoch_eq_ok]
  constructor
  · rintro ⟨_, ⟨rfl, h⟩, rfl⟩
    exact ⟨rfl, h⟩
  · rintro ⟨rfl, h⟩
    exact ⟨_, ⟨rfl, h⟩, rfl⟩

theorem verify_block_signature_ok {E : Env} {f : Fork} {s : State} {b : SignedBeaconBlock}
    (hE : E.slots_per_epoch ≠ 0) :
    verify_block_signature E f s b = .ok () ↔ SignedByProposer E f s b := by
  simp only [verify_block_signature, verify_signed_data, SignedByProposer, run, get_domain_none,
    compute_signing_root]
  constructor
  · rintro ⟨v, hv, _, ⟨rfl, _⟩, h⟩
    exact ⟨v, hv, by simpa using h⟩
  · rintro ⟨v, hv, h⟩
    exact ⟨v, hv, _, ⟨rfl, hE⟩, by simpa using h⟩

theorem block_in_slot_disabled {E : Env} {f : Fork} {b : SignedBeaconBlock} {s s' : State} :
    state_transition_block_in_slot E f b .Disabled s = .ok () s' ↔
      process_block E f b.message s = .ok () s' := by
  simp only [state_transition_block_in_slot, verify_block_signature_if, run]
  constructor
  · rintro ⟨_, ⟨-, rfl⟩, t, h, -, rfl⟩
    exact h
  · intro h
    exact ⟨s, ⟨trivial, rfl⟩, s', h, by simp, rfl⟩

theorem block_in_slot_enabled {E : Env} (hE : E.slots_per_epoch ≠ 0) {f : Fork}
    {b : SignedBeaconBlock} {s s' : State} :
    state_transition_block_in_slot E f b .Enabled s = .ok () s' ↔
      SignedByProposer E f s b ∧ process_block E f b.message s = .ok () s' ∧
        E.state_root f s' = b.message.state_root := by
  simp only [state_transition_block_in_slot, verify_block_signature_if, run,
    verify_block_signature_ok hE]
  constructor
  · rintro ⟨_, ⟨h1, rfl⟩, t, h2, h3, rfl⟩
    refine ⟨h1, h2, ?_⟩
    simp only [decide_true, Bool.true_and, decide_eq_false_iff_not, ne_eq, Decidable.not_not] at h3
    exact h3.symm
  · rintro ⟨h1, h2, h3⟩
    exact ⟨s, ⟨h1, rfl⟩, s', h2, by simp [h3], rfl⟩

theorem block_in_slot_slot {E : Env} {f : Fork} {b : SignedBeaconBlock} {v : Validation}
    {s s' : State} (h : state_transition_block_in_slot E f b v s = .ok () s') :
    s'.slot = s.slot ∧ s'.fork = s.fork :=
  ⟨block_in_slot_mod.ok h .slot (by decide), block_in_slot_mod.ok h .fork (by decide)⟩

theorem transition_eq_ok {E : Env} {f : Fork} {b : SignedBeaconBlock} {v : Validation}
    {s s' : State} : state_transition E f b v s = .ok () s' ↔
      ∃ s₁, process_slots E f b.message.slot s = .ok () s₁ ∧
        state_transition_block_in_slot E f b v s₁ = .ok () s' := by
  simp only [state_transition, run]

theorem transition_slot {E : Env} {f : Fork} {b : SignedBeaconBlock} {v : Validation}
    {s s' : State} (h : state_transition E f b v s = .ok () s') :
    s.slot < b.message.slot ∧ s'.slot = b.message.slot ∧ s'.fork = s.fork := by
  obtain ⟨s₁, h1, h2⟩ := transition_eq_ok.1 h
  obtain ⟨h3, h4⟩ := process_slots_slot h1
  obtain ⟨h5, h6⟩ := block_in_slot_slot h2
  exact ⟨h3, h5.trans h4, h6.trans (slots_mod.ok h1 .fork (by decide))⟩

/-! ## The executor -/

theorem fork_slot_eq_ok {E : Env} {f : Fork} {x : Nat} : fork_slot E f = .ok x ↔
    x = scheduled E.toContext f * E.slots_per_epoch ∧
      scheduled E.toContext f * E.slots_per_epoch < U64_BOUND := by
  have : fork_epoch_of E.toContext f = scheduled E.toContext f := by cases f <;> rfl
  simp only [fork_slot, run, this, eq_comm (b := x)]

/-- A list of consecutive forks. -/
inductive Path : Fork → List Fork → Fork → Prop
  | nil (f : Fork) : Path f [] f
  | cons {f g h : Fork} {l : List Fork} : nextFork f = some g → Path g l h → Path f (g :: l) h

theorem fork_path_path {f g : Fork} (h : ¬ Older g f) (hg : g ≠ .Electra) :
    Path f (fork_path f g) g := by
  cases f <;> cases g <;> first
    | exact absurd (by decide) h
    | exact absurd rfl hg
    | (simp only [fork_path, Fork.ord]
       repeat' first
         | exact Path.nil _
         | refine Path.cons rfl ?_)

theorem next_ord {f g : Fork} (h : nextFork f = some g) : g.ord = f.ord + 1 := by
  cases f <;> simp only [nextFork, reduceCtorEq, Option.some.injEq] at h <;> subst h <;> rfl

theorem path_unique {f h : Fork} {l l' : List Fork} (p : Path f l h) (p' : Path f l' h) :
    l = l' := by
  have hord : ∀ {f h : Fork} {l : List Fork}, Path f l h → f.ord + l.length = h.ord := by
    intro f h l p
    induction p with
    | nil => rfl
    | @cons f g h l hn _ ih =>
      have := next_ord hn
      simp only [List.length_cons]; omega
  induction p generalizing l' with
  | nil f =>
    have := hord p'
    cases l' with
    | nil => rfl
    | cons _ _ => simp only [List.length_cons] at this; omega
  | @cons f g h l hn hp ih =>
    cases p' with
    | nil =>
      have := hord (Path.cons hn hp)
      simp only [List.length_cons] at this; omega
    | cons hn' hp' =>
      rw [hn] at hn'
      cases hn'
      rw [ih hp']

theorem crosses_ord {E : Env} {f h : Fork} {s s' : State} (c : Crosses E f s h s') :
    f.ord ≤ h.ord ∧ (f = h → s = s') := by
  induction c with
  | stay => exact ⟨Nat.le_refl _, fun _ => rfl⟩
  | @step f g h s s₁ s₂ s' hn _ _ _ ih =>
    have := next_ord hn
    refine ⟨by omega, ?_⟩
    rintro rfl
    omega

theorem climb_iff {E : Env} {f h : Fork} {l : List Fork} (p : Path f l h) {s s' : State} :
    climb E f l s = .ok s' ↔ Crosses E f s h s' := by
  induction p generalizing s with
  | nil f =>
    simp only [climb, Except.ok.injEq]
    constructor
    · rintro rfl; exact .stay ..
    · intro h
      exact (crosses_ord h).2 rfl
  | @cons f g h l hn hp ih =>
    simp only [climb, run, fork_slot_eq_ok, runLocal_eq_ok]
    constructor
    · rintro ⟨_, ⟨rfl, _⟩, s₁, h1, s₂, h2, h3⟩
      exact .step hn h1 h2 (ih.1 h3)
    · intro c
      cases c with
      | stay => exact absurd (path_unique (Path.cons hn hp) (Path.nil _)) (by simp)
      | step hn' h1 h2 h3 =>
        rw [hn] at hn'
        cases hn'
        exact ⟨_, ⟨rfl, process_slots_bound h1⟩, _, h1, _, h2, ih.2 h3⟩

theorem apply_same {E : Env} {b : SignedBeaconBlock} {v : Validation} {t t' : TaggedState} :
    apply_block_with_validation E t.version b v t = .ok () t' ↔
      t'.version = t.version ∧ state_transition E t.version b v t.state = .ok () t'.state := by
  unfold apply_block_with_validation
  rw [if_pos rfl]
  cases h : state_transition E t.version b v t.state with
  | ok u s =>
    constructor
    · rintro ⟨⟩; exact ⟨rfl, rfl⟩
    · rintro ⟨h1, h2⟩
      cases t'
      cases h2
      subst h1
      rfl
  | error e s =>
    constructor
    · rintro ⟨⟩
    · rintro ⟨_, ⟨⟩⟩

theorem apply_newer {E : Env} {target : Fork} {b : SignedBeaconBlock} {v : Validation}
    {t : TaggedState} (h : Older target t.version) :
    apply_block_with_validation E target b v t = .error .invalidForkTransition t := by
  obtain ⟨f, s⟩ := t
  have h : Older target f := h
  have h1 : f ≠ target := by rintro rfl; exact absurd h (Nat.lt_irrefl _)
  have h2 : fork_path f target = [] := by
    cases f <;> cases target <;> first
      | decide
      | exact absurd h (by decide)
  unfold apply_block_with_validation
  simp only [h1, if_false, h2]

theorem apply_older {E : Env} {target : Fork} (ht : target ≠ .Electra) {b : SignedBeaconBlock}
    {v : Validation} {t t' : TaggedState} (h : Older t.version target) :
    apply_block_with_validation E target b v t = .ok () t' ↔
      t'.version = target ∧ ∃ s, Crosses E t.version t.state target s ∧
        (b.message.slot = s.slot ∧
            state_transition_block_in_slot E target b v s = .ok () t'.state ∨
          b.message.slot ≠ s.slot ∧ state_transition E target b v s = .ok () t'.state) := by
  obtain ⟨f, s⟩ := t
  have h1 : f ≠ target := by rintro rfl; exact absurd h (Nat.lt_irrefl _)
  have hp := fork_path_path (f := f) (g := target) (fun h' => Nat.lt_asymm h h') ht
  have hc := fun s' => climb_iff (E := E) hp (s := s) (s' := s')
  unfold apply_block_with_validation
  simp only [h1, if_false]
  cases hl : fork_path f target with
  | nil =>
    rw [hl] at hp
    cases hp
    exact absurd rfl h1
  | cons g rest =>
    rw [hl] at hc
    dsimp only
    have hc' : ∀ s', Crosses E f s target s' ↔ ∃ s₁, (do
          let slot ← fork_slot E g
          process_slots E f slot : M Unit) s = .ok () s₁ ∧
        ∃ s₂, upgrade_to E g s₁ = .ok s₂ ∧ climb E g rest s₂ = .ok s' := by
      intro s'
      rw [← hc]
      simp only [climb, run, runLocal_eq_ok]
      constructor
      · rintro ⟨x, hx, s₁, h1, h2⟩; exact ⟨s₁, ⟨x, hx, h1⟩, h2⟩
      · rintro ⟨s₁, ⟨x, hx, h1⟩, h2⟩; exact ⟨x, hx, s₁, h1, h2⟩
    constructor
    · intro h
      split at h
      · cases h
      · rename_i u s₁ h2
        split at h
        · cases h
        · rename_i s'' h3
          cases h
          simp only [upgrade_and_apply, transition_after_upgrade, run, runLocal_eq_ok] at h3
          obtain ⟨s₂, h4, s₃, h5, h6⟩ := h3
          exact ⟨rfl, s₃, (hc' s₃).2 ⟨s₁, h2, s₂, h4, h5⟩, h6⟩
    · rintro ⟨hv, s₃, h2, h3⟩
      obtain ⟨s₁, h4, s₂, h5, h6⟩ := (hc' s₃).1 h2
      rw [h4]
      dsimp only
      have : upgrade_and_apply E g rest target b v s₁ = .ok t'.state := by
        simp only [upgrade_and_apply, transition_after_upgrade, run, runLocal_eq_ok]
        exact ⟨s₂, h5, s₃, h6, h3⟩
      rw [this]
      dsimp only
      rw [← hv]

/-- A failing call changes neither the fork nor anything but the position. -/
theorem apply_error {E : Env} {target : Fork} {b : SignedBeaconBlock}
    {v : Validation} {t t' : TaggedState} {e : Err}
    (h : apply_block_with_validation E target b v t = .error e t') : t'.version = t.version := by
  unfold apply_block_with_validation at h
  split at h
  · rename_i hv
    split at h
    · cases h
    · cases h; exact hv.symm
  · split at h
    · cases h; rfl
    · split at h
      · cases h; rfl
      · split at h
        · cases h; rfl
        · cases h

theorem upgrade_carried {E : Env} {g : Fork} {s s' : State} (h : upgrade_to E g s = .ok s') :
    s'.slot = s.slot ∧ s'.fork = upgradedFork E g s := by
  cases g with
  | Phase0 => cases h
  | Altair => exact ⟨(altair_carried h).1 .slot (by decide), (altair_carried h).2⟩
  | Bellatrix => exact ⟨(into_bellatrix h).2.2 .slot (by decide), (into_bellatrix h).2.1⟩
  | Capella => exact ⟨(into_capella h).2.2 .slot (by decide), (into_capella h).2.1⟩
  | Deneb => exact ⟨(into_deneb h).2.2 .slot (by decide), (into_deneb h).2.1⟩
  | Electra => exact ⟨(into_electra h).2.2.1 .slot (by decide), (into_electra h).2.1⟩

theorem crosses_fork {E : Env} (hE : E.slots_per_epoch ≠ 0) {f g : Fork} {s s' : State}
    (c : Crosses E f s g s') (h : f ≠ g) :
    s'.fork.current_version = versionOf E.toContext g ∧ s'.fork.epoch = scheduled E.toContext g ∧
      s'.slot = scheduled E.toContext g * E.slots_per_epoch ∧ s.slot < s'.slot := by
  induction c with
  | stay => exact absurd rfl h
  | @step f g k s s₁ s₂ s' hn h1 h2 h3 ih =>
    obtain ⟨hlt, hsl⟩ := process_slots_slot h1
    have hcar := upgrade_carried h2
    have hsl2 : s₂.slot = scheduled E.toContext g * E.slots_per_epoch := hcar.1.trans hsl
    by_cases hgh : g = k
    · subst hgh
      obtain rfl := (crosses_ord h3).2 rfl
      rw [hcar.2]
      refine ⟨rfl, ?_, hsl2, by omega⟩
      show epochOf E s₁.slot = _
      unfold epochOf
      rw [hsl]
      exact Nat.mul_div_cancel _ (by omega)
    · obtain ⟨a, b, c, d⟩ := ih hgh
      exact ⟨a, b, c, by omega⟩

/-! ## The schedule -/

theorem fork_for_eq_ok {C : Context} {slot : Nat} {g : Fork} (h : fork_for C slot = .ok g) :
    scheduled C g ≤ slot / C.slots_per_epoch ∧
      ∀ h, Older g h → slot / C.slots_per_epoch < scheduled C h := by
  simp only [fork_for, run] at h
  obtain ⟨_, ⟨rfl, -⟩, h⟩ := h
  rcases h with ⟨h1, rfl⟩ | ⟨h1, ⟨h2, rfl⟩ | ⟨h2, ⟨h3, rfl⟩ | ⟨h3, ⟨h4, rfl⟩ | ⟨h4, ⟨h5, rfl⟩ | ⟨h5, rfl⟩⟩⟩⟩⟩ <;>
    refine ⟨by first | assumption | exact Nat.zero_le _, fun h hh => ?_⟩ <;>
    cases h <;> first
      | exact absurd hh (by decide)
      | exact Nat.lt_of_not_le (by assumption)

theorem fork_for_total {C : Context} (hC : C.slots_per_epoch ≠ 0) (slot : Nat) :
    ∃ g, fork_for C slot = .ok g := by
  have h : slot /? C.slots_per_epoch = .ok (slot / C.slots_per_epoch) := by
    rw [div_eq_ok]; exact ⟨rfl, hC⟩
  unfold fork_for
  rw [h]
  dsimp only [bind, Except.bind]
  repeat' split
  all_goals exact ⟨_, rfl⟩

end Verif
