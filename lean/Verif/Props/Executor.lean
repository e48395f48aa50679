import Verif.Proofs.Executor
import Verif.Props.Shuffling
import Verif.Examples.Blocks

/-! # C35, C36, C48: applying blocks, fork schedules, validation -/

namespace Verif.Props

open Spec

/-! ## C36 -/

/-- **C36** The fork of a slot has been reached by the slot's epoch, and no later fork has. -/
theorem C36_latest_reached (C : Context) (slot : Nat) (g : Fork) (h : fork_for C slot = .ok g) :
    scheduled C g ≤ slot / C.slots_per_epoch ∧
      ∀ k, Older g k → slot / C.slots_per_epoch < scheduled C k :=
  fork_for_eq_ok h

/-- **C36** There is one for every slot. -/
theorem C36_total (C : Context) (hC : 0 < C.slots_per_epoch) (slot : Nat) :
    ∃ g, fork_for C slot = .ok g :=
  fork_for_total (Nat.ne_of_gt hC) slot

/-- **C36** Later slots have later forks, or the same. -/
theorem C36_monotone (C : Context) (a b : Nat) (h : a ≤ b) (f g : Fork)
    (hf : fork_for C a = .ok f) (hg : fork_for C b = .ok g) : ¬ Older g f := by
  intro ho
  have h1 := (fork_for_eq_ok hf).1
  have h2 := (fork_for_eq_ok hg).2 f ho
  have := Nat.div_le_div_right (c := C.slots_per_epoch) h
  omega

/-- **C36** The version of a fork is the configured one. -/
theorem C36_version (C : Context) (g : Fork) : fork_version_for C g = versionOf C g := by
  cases g <;> rfl

/-- On mainnet, altair starts with slot 74240 × 32. -/
example : fork_for Context.mainnet (74240 * 32) = .ok .Altair ∧
    fork_for Context.mainnet (74240 * 32 - 1) = .ok .Phase0 ∧
    fork_for Context.mainnet (269568 * 32 + 5) = .ok .Deneb ∧ Older .Altair .Deneb := by
  decide

/-! ## C35 -/

/-- **C35** A block of a later fork than the state is applied by crossing the boundaries of all
forks in between, each once and in order, and then applying the block by the rules of its own fork:
in its slot if that is the first slot of the fork, and otherwise after processing slots. -/
theorem C35_crossing (E : Env) (target : Fork) (ht : target ≠ .Electra) (b : SignedBeaconBlock)
    (v : Validation) (t t' : TaggedState) (h : Older t.version target) :
    apply_block_with_validation E target b v t = .ok () t' ↔
      t'.version = target ∧ ∃ s, Crosses E t.version t.state target s ∧
        (b.message.slot = s.slot ∧
            state_transition_block_in_slot E target b v s = .ok () t'.state ∨
          b.message.slot ≠ s.slot ∧ state_transition E target b v s = .ok () t'.state) :=
  apply_older ht h

/-- **C35** Crossing puts the state at the first slot of the epoch scheduled for the fork, and
records that epoch and the version configured for the fork. -/
theorem C35_boundary (E : Env) (hE : SaneConfig E) (f g : Fork) (h : f ≠ g) (s s' : State)
    (c : Crosses E f s g s') :
    s'.slot = scheduled E.toContext g * E.slots_per_epoch ∧ s.slot < s'.slot ∧
      s'.fork.current_version = versionOf E.toContext g ∧
      s'.fork.epoch = scheduled E.toContext g := by
  obtain ⟨h1, h2, h3, h4⟩ := crosses_fork (Nat.ne_of_gt hE.slots_per_epoch.1) c h
  exact ⟨h3, h4, h1, h2⟩

/-- **C35** A block of the fork of the state is applied by that fork's transition. -/
theorem C35_same_fork (E : Env) (b : SignedBeaconBlock) (v : Validation) (t t' : TaggedState) :
    apply_block_with_validation E t.version b v t = .ok () t' ↔
      t'.version = t.version ∧ state_transition E t.version b v t.state = .ok () t'.state :=
  apply_same

/-- **C35** A block of an older fork is rejected and nothing changes. -/
theorem C35_no_downgrade (E : Env) (target : Fork) (b : SignedBeaconBlock) (v : Validation)
    (t : TaggedState) (h : Older target t.version) :
    apply_block_with_validation E target b v t = .error .invalidForkTransition t :=
  apply_newer h

/-- **C35** On success the state has the fork and the slot of the block, and time has passed. -/
theorem C35_result (E : Env) (hE : SaneConfig E) (target : Fork) (ht : target ≠ .Electra)
    (b : SignedBeaconBlock) (v : Validation) (t t' : TaggedState)
    (h : apply_block_with_validation E target b v t = .ok () t') :
    t'.version = target ∧ t'.state.slot = b.message.slot ∧ t.state.slot < t'.state.slot ∧
      (t.version ≠ target → t'.state.fork.current_version = versionOf E.toContext target ∧
        t'.state.fork.epoch = scheduled E.toContext target) := by
  obtain ⟨f, s⟩ := t
  by_cases hv : f = target
  · subst hv
    obtain ⟨h1, h2⟩ := (apply_same (t := ⟨f, s⟩)).1 h
    obtain ⟨h3, h4, -⟩ := transition_slot h2
    exact ⟨h1, h4, by rw [h4]; exact h3, fun h => absurd rfl h⟩
  · by_cases ho : Older f target
    · obtain ⟨h1, s₁, h2, h3⟩ := (apply_older ht (t := ⟨f, s⟩) ho).1 h
      obtain ⟨h4, h5, h6, h7⟩ := crosses_fork (Nat.ne_of_gt hE.slots_per_epoch.1) h2 hv
      rcases h3 with ⟨h8, h9⟩ | ⟨h8, h9⟩
      · obtain ⟨h10, h11⟩ := block_in_slot_slot h9
        refine ⟨h1, h10.trans h8.symm, by rw [h10]; exact h7, fun _ => ?_⟩
        rw [h11]; exact ⟨h4, h5⟩
      · obtain ⟨h10, h11, h12⟩ := transition_slot h9
        refine ⟨h1, h11, ?_, fun _ => ?_⟩
        · rw [h11]; exact Nat.lt_trans h7 h10
        · rw [h12]; exact ⟨h4, h5⟩
    · have : Older target f := by
        cases f <;> cases target <;> first
          | decide
          | exact absurd rfl hv
          | exact absurd (by decide) ho
      rw [apply_newer (t := ⟨f, s⟩) this] at h
      cases h

/-- **C35** If the call fails the state keeps its fork. -/
theorem C35_failure (E : Env) (target : Fork) (b : SignedBeaconBlock)
    (v : Validation) (t t' : TaggedState) (e : Err)
    (h : apply_block_with_validation E target b v t = .error e t') : t'.version = t.version :=
  apply_error h

/-- **C35** (deviation) A state that is already at the boundary of the next fork, but has not been
upgraded, can never be upgraded: every block of a later fork is refused. -/
theorem C35_stuck (E : Env) (target next : Fork) (ht : target ≠ .Electra) (b : SignedBeaconBlock)
    (v : Validation) (t : TaggedState) (h : Older t.version target)
    (hn : nextFork t.version = some next)
    (hs : scheduled E.toContext next * E.slots_per_epoch ≤ t.state.slot) :
    ¬ ∃ t', apply_block_with_validation E target b v t = .ok () t' := by
  rintro ⟨t', h1⟩
  obtain ⟨-, s, h2, -⟩ := (apply_older ht h).1 h1
  cases h2 with
  | stay => exact absurd h (Nat.lt_irrefl _)
  | step hn' h3 _ _ =>
    rw [hn] at hn'
    cases hn'
    have := (process_slots_slot h3).1
    omega

/-- A schedule with capella in epoch 2. -/
def soonEnv : Env := { Toy.env with capella_fork_epoch := 2 }

/-- The state the block builds on: just across the boundary. -/
def soonParent : State :=
  match climb soonEnv .Bellatrix [.Capella] (Toy.state 4 15) with
  | .ok s => s
  | .error _ => Toy.state 4 15

def soonBlock : SignedBeaconBlock := ⟨Toy.block soonParent (Toy.body soonParent), Toy.goodSig⟩

/-- The executor takes a bellatrix state in slot 15 to a capella state in slot 16. -/
example :
    (match apply_block soonEnv .Capella soonBlock ⟨.Bellatrix, Toy.state 4 15⟩ with
    | .ok _ t => decide (t.version = .Capella ∧ t.state.slot = 16 ∧ t.state.fork.epoch = 2)
    | .error _ _ => false) = true := by
  decide +kernel

/-- In a capella state it refuses a bellatrix block. -/
example :
    (match apply_block soonEnv .Bellatrix soonBlock ⟨.Capella, Toy.state 4 17⟩ with
    | .ok _ _ => false
    | .error e _ => decide (e = .invalidForkTransition)) = true := by
  decide +kernel

/-- An invalid block at the boundary leaves the state in this situation: the slots have been
processed, the upgrade has not been kept. The valid block is refused afterwards. -/
example :
    (match apply_block soonEnv .Capella { soonBlock with signature := Toy.badSig }
        ⟨.Bellatrix, Toy.state 4 15⟩ with
    | .ok _ _ => false
    | .error _ t => decide (t.version = .Bellatrix ∧ t.state.slot = 16) &&
        (match apply_block soonEnv .Capella soonBlock t with
        | .ok _ _ => false
        | .error e _ => decide (e = .transitionToPreviousSlot))) = true := by
  decide +kernel

/-! ## C48 -/

/-- **C48** With validation, the transition succeeds exactly if it succeeds without, with the same
resulting state, the proposer has signed the block, and the block names the root of that state. -/
theorem C48_validated (E : Env) (hE : SaneConfig E) (f : Fork) (b : SignedBeaconBlock)
    (s s' : State) :
    state_transition E f b .Enabled s = .ok () s' ↔
      state_transition E f b .Disabled s = .ok () s' ∧
      (∃ s₁, process_slots E f b.message.slot s = .ok () s₁ ∧ SignedByProposer E f s₁ b) ∧
      E.state_root f s' = b.message.state_root := by
  simp only [transition_eq_ok, block_in_slot_enabled (Nat.ne_of_gt hE.slots_per_epoch.1),
    block_in_slot_disabled]
  constructor
  · rintro ⟨s₁, h1, h2, h3, h4⟩
    exact ⟨⟨s₁, h1, h3⟩, ⟨s₁, h1, h2⟩, h4⟩
  · rintro ⟨⟨s₁, h1, h3⟩, ⟨s₂, h1', h2⟩, h4⟩
    rw [h1] at h1'
    cases h1'
    exact ⟨s₁, h1, h2, h3, h4⟩

/-- **C48** Without validation, the transition is slot processing followed by block processing. -/
theorem C48_unvalidated (E : Env) (f : Fork) (b : SignedBeaconBlock) (s s' : State) :
    state_transition E f b .Disabled s = .ok () s' ↔
      ∃ s₁, process_slots E f b.message.slot s = .ok () s₁ ∧
        process_block E f b.message s₁ = .ok () s' := by
  simp only [transition_eq_ok, block_in_slot_disabled]

/-- **C48** Hence both agree on the resulting state. -/
theorem C48_same_state (E : Env) (hE : SaneConfig E) (f : Fork) (b : SignedBeaconBlock)
    (s s₁ s₂ : State) (h1 : state_transition E f b .Enabled s = .ok () s₁)
    (h2 : state_transition E f b .Disabled s = .ok () s₂) : s₁ = s₂ := by
  have h3 := ((C48_validated E hE f b s s₁).1 h1).1
  rw [h2] at h3
  cases h3
  rfl

/-- **C48** The proposer whose signature is checked is the one elected for the slot. -/
theorem C48_proposer (E : Env) (hE : SaneConfig E) (f : Fork) (b : SignedBeaconBlock) (v : Validation)
    (s s' : State) (h : state_transition E f b v s = .ok () s') :
    ∃ s₁, process_slots E f b.message.slot s = .ok () s₁ ∧
      get_beacon_proposer_index E s₁ = .ok b.message.proposer_index := by
  obtain ⟨s₁, h1, h2⟩ := transition_eq_ok.1 h
  refine ⟨s₁, h1, ?_⟩
  have hb : process_block E f b.message s₁ = .ok () s' := by
    cases v with
    | Disabled => exact block_in_slot_disabled.1 h2
    | Enabled => exact ((block_in_slot_enabled (Nat.ne_of_gt hE.slots_per_epoch.1)).1 h2).2.1
  unfold process_block at hb
  rw [M_bind_unit_eq_ok] at hb
  obtain ⟨s₂, h3, -⟩ := hb
  exact (process_block_header_eq_ok.1 h3).1.proposer

/-- **C48** An executor validates blocks unless it is told not to: a block is applied only if the
proposer has signed it and it names the root of the resulting state. -/
theorem C48_apply_block (E : Env) (hE : SaneConfig E) (target : Fork) (ht : target ≠ .Electra)
    (b : SignedBeaconBlock) (t t' : TaggedState) (h : apply_block E target b t = .ok () t') :
    (∃ s₁, s₁.slot = b.message.slot ∧ SignedByProposer E target s₁ b) ∧
      E.state_root target t'.state = b.message.state_root := by
  have hz := Nat.ne_of_gt hE.slots_per_epoch.1
  have step : ∀ s s', state_transition E target b .Enabled s = .ok () s' →
      (∃ s₁, s₁.slot = b.message.slot ∧ SignedByProposer E target s₁ b) ∧
        E.state_root target s' = b.message.state_root := by
    intro s s' h
    obtain ⟨-, ⟨s₁, h1, h2⟩, h3⟩ := (C48_validated E hE target b s s').1 h
    exact ⟨⟨s₁, (process_slots_slot h1).2, h2⟩, h3⟩
  unfold apply_block at h
  obtain ⟨f, s⟩ := t
  by_cases hv : f = target
  · subst hv
    exact step _ _ ((apply_same (t := ⟨f, s⟩)).1 h).2
  · by_cases ho : Older f target
    · obtain ⟨-, s₁, -, h1 | h1⟩ := (apply_older (t := ⟨f, s⟩) ht ho).1 h
      · obtain ⟨h2, -, h3⟩ := (block_in_slot_enabled hz).1 h1.2
        exact ⟨⟨s₁, h1.1.symm, h2⟩, h3⟩
      · exact step _ _ h1.2
    · have : Older target f := by
        unfold Older at *
        cases f <;> cases target <;> first | exact absurd rfl hv | (revert ho; decide)
      rw [apply_newer (t := ⟨f, s⟩) this] at h
      cases h

def parent : State := finalState (process_slots Toy.env .Deneb 10) (Toy.state 4 9)

def nextBlock : SignedBeaconBlock := ⟨Toy.block parent (Toy.body parent), Toy.goodSig⟩

/-- A valid block; one with a bad signature and one with a wrong state root, which are accepted
without validation only. -/
example :
    let bad := { nextBlock with signature := Toy.badSig }
    let wrong := { nextBlock with message := { nextBlock.message with state_root := Toy.root 3 } }
    Toy.succeeds (state_transition Toy.env .Deneb nextBlock .Enabled) (Toy.state 4 9) = true ∧
    Toy.errorOf (state_transition Toy.env .Deneb bad .Enabled) (Toy.state 4 9) = some .bls ∧
    Toy.errorOf (state_transition Toy.env .Deneb wrong .Enabled) (Toy.state 4 9) =
      some .invalidStateRoot ∧
    Toy.succeeds (state_transition Toy.env .Deneb bad .Disabled) (Toy.state 4 9) = true ∧
    Toy.succeeds (state_transition Toy.env .Deneb wrong .Disabled) (Toy.state 4 9) = true := by
  decide +kernel

end Verif.Props
