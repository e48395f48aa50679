import Verif.Spec.Parts
import Verif.Proofs.Slashings
import Verif.Proofs.Duties
import Verif.Proofs.Operations
import Verif.Proofs.Withdrawals
import Verif.Proofs.Sync

/-! # The parts of a block and of the end of an epoch -/

namespace Verif

open Spec

/-! ## Runs -/

theorem runs_nil {s s' : State} : Runs [] s s' ↔ s' = s := Iff.rfl

theorem runs_cons {m : M Unit} {ms : List (M Unit)} {s s' : State} :
    Runs (m :: ms) s s' ↔ ∃ t, m s = .ok () t ∧ Runs ms t s' := Iff.rfl

theorem runs_append {l r : List (M Unit)} {s s' : State} :
    Runs (l ++ r) s s' ↔ ∃ t, Runs l s t ∧ Runs r t s' := by
  induction l generalizing s with
  | nil => simp [runs_nil]
  | cons m l ih =>
    simp only [List.cons_append, runs_cons, ih]
    constructor
    · rintro ⟨t, h1, u, h2, h3⟩; exact ⟨u, ⟨t, h1, h2⟩, h3⟩
    · rintro ⟨u, ⟨t, h1, h2⟩, h3⟩; exact ⟨t, h1, u, h2, h3⟩

theorem runs_single {m : M Unit} {s s' : State} : Runs [m] s s' ↔ m s = .ok () s' := by
  simp [runs_cons, runs_nil]

theorem runs_map {α : Type} {g : α → M Unit} {l : List α} {s s' : State} :
    Runs (l.map g) s s' ↔ forEach l g s = .ok () s' := by
  induction l generalizing s with
  | nil => rw [forEach_nil]; rfl
  | cons x l ih => simp only [List.map_cons, runs_cons, forEach_cons, ih]

/-- What all parts preserve. -/
theorem runs_pres {r : State → State → Prop} (hr : Preorder' r) {ms : List (M Unit)}
    (h : ∀ m ∈ ms, PresOk r m) {s s' : State} (hs : Runs ms s s') : r s s' := by
  induction ms generalizing s with
  | nil => rw [runs_nil] at hs; subst hs; exact hr.refl _
  | cons m ms ih =>
    obtain ⟨t, h1, h2⟩ := hs
    exact hr.trans ((h m (by simp)).ok h1) (ih (fun m' hm => h m' (by simp [hm])) h2)

/-- Each part ran at some point. -/
theorem runs_mem {ms : List (M Unit)} {m : M Unit} (hm : m ∈ ms) {s s' : State}
    (hs : Runs ms s s') :
    ∃ l r t u, ms = l ++ m :: r ∧ Runs l s t ∧ m t = .ok () u ∧ Runs r u s' := by
  obtain ⟨l, r, rfl⟩ := List.append_of_mem hm
  obtain ⟨t, h1, u, h2, h3⟩ := runs_append.1 hs
  exact ⟨l, r, t, u, rfl, h1, h2, h3⟩

theorem runs_history {E : Env} {f : Fork} {ms : List (M Unit)}
    (h : ∀ m ∈ ms, EntryPoint E f m) {s₀ s s' : State} (h₀ : History E f s₀ s)
    (hs : Runs ms s s') : History E f s₀ s' := by
  induction ms generalizing s with
  | nil => rw [runs_nil] at hs; subst hs; exact h₀
  | cons m ms ih =>
    obtain ⟨t, h1, h2⟩ := hs
    refine ih (fun m' hm => h m' (by simp [hm])) (?_ : History E f s₀ t) h2
    have := History.call h₀ (h m (by simp))
    unfold finalState at this
    rw [h1] at this
    exact this

/-! ## Blocks -/

theorem check_deposit_count_eq_ok {E : Env} (hmax : 0 < E.max_deposits) {f : Fork} {s : State}
    {body : BeaconBlockBody} :
    check_deposit_count E f s body = .ok () ↔ RightCount E f s body := by
  cases f
  case Electra =>
    unfold check_deposit_count RightCount
    dsimp only
    split
    · rename_i h
      constructor
      · intro h'
        simp only [run] at h'
        obtain ⟨due, ⟨rfl, h1⟩, h2⟩ := h'
        rcases h2 with ⟨-, h2⟩ | ⟨h3, h2⟩
        · cases h2
        · have h3 := Decidable.not_not.1 h3
          exfalso
          have h4 : body.deposits.isEmpty = false := by
            cases hb : body.deposits with
            | nil => rw [hb] at h3; simp at h3; omega
            | cons => rfl
          simp [h4] at h2
      · intro h'; exfalso; omega
    · constructor
      · intro; omega
      · intro; rfl
  all_goals
    unfold check_deposit_count RightCount
    simp only [run]
    constructor
    · rintro ⟨due, ⟨rfl, h1⟩, h2⟩
      exact ⟨h1, by simpa using h2⟩
    · rintro ⟨h1, h2⟩
      exact ⟨_, ⟨rfl, h1⟩, by simpa using h2⟩

theorem operations_parts {E : Env} (hmax : 0 < E.max_deposits) {f : Fork} {body : BeaconBlockBody}
    {s s' : State} :
    process_operations E f body s = .ok () s' ↔
      RightCount E f s body ∧ Runs (operationParts E f body) s s' := by
  unfold process_operations
  simp only [M_bind_unit_eq_ok, operationParts, runs_append, runs_map]
  have hrd : ∀ t, (rd fun s => check_deposit_count E f s body) s = .ok () t ↔
      RightCount E f s body ∧ t = s := by
    intro t
    rw [← check_deposit_count_eq_ok hmax]
    simp only [run]
    exact ⟨fun h => ⟨h.1, h.2.symm⟩, fun h => ⟨h.1, h.2.symm⟩⟩
  simp only [hrd]
  constructor
  · rintro ⟨t0, ⟨h0, rfl⟩, t1, h1, t2, h2, t3, h3, t4, h4, t5, h5, h6⟩
    refine ⟨h0, ?_⟩
    cases f <;> dsimp only at h6
    case Capella | Deneb =>
      exact ⟨s', ⟨t5, ⟨t4, ⟨t3, ⟨t2, ⟨t1, h1, h2⟩, h3⟩, h4⟩, h5⟩, runs_map.2 h6⟩, rfl⟩
    case Electra =>
      simp only [M_bind_unit_eq_ok] at h6
      obtain ⟨u1, g1, u2, g2, u3, g3, g4⟩ := h6
      refine ⟨u1, ⟨t5, ⟨t4, ⟨t3, ⟨t2, ⟨t1, h1, h2⟩, h3⟩, h4⟩, h5⟩, runs_map.2 g1⟩, ?_⟩
      rw [if_pos rfl, runs_append, ]
      exact ⟨u3, runs_append.2 ⟨u2, runs_map.2 g2, runs_map.2 g3⟩, runs_map.2 g4⟩
    all_goals
      have : s' = t5 := by simp only [run] at h6; exact h6.2.symm
      subst this
      exact ⟨s', ⟨s', ⟨t4, ⟨t3, ⟨t2, ⟨t1, h1, h2⟩, h3⟩, h4⟩, h5⟩, rfl⟩, rfl⟩
  · rintro ⟨h0, u, ⟨t5, ⟨t4, ⟨t3, ⟨t2, ⟨t1, h1, h2⟩, h3⟩, h4⟩, h5⟩, h6⟩, h7⟩
    refine ⟨s, ⟨h0, rfl⟩, t1, h1, t2, h2, t3, h3, t4, h4, t5, h5, ?_⟩
    cases f <;> dsimp only
    case Capella | Deneb =>
      have : s' = u := h7
      subst this
      exact runs_map.1 h6
    case Electra =>
      rw [if_pos rfl, runs_append, ] at h7
      obtain ⟨u3, g1, g2⟩ := h7
      obtain ⟨u2, g3, g4⟩ := runs_append.1 g1
      simp only [M_bind_unit_eq_ok]
      exact ⟨u, runs_map.1 h6, u2, runs_map.1 g3, u3, runs_map.1 g4, runs_map.1 g2⟩
    all_goals
      have h6 : u = t5 := h6
      have h7 : s' = u := h7
      rw [h7, h6]
      rfl

theorem payload_parts {E : Env} {f : Fork} {b : BeaconBlock} {s₀ s s' : State}
    (h₀ : s.latest_execution_payload_header = s₀.latest_execution_payload_header) :
    process_block_payload E f b s = .ok () s' ↔
      Runs ((if Fork.withdraws f then [process_withdrawals E f b.body.execution_payload] else []) ++
        (if HasPayload f s₀ b.body then [process_execution_payload E f b.body] else [])) s s' := by
  have he : is_execution_enabled s b.body = decide (HasPayload .Bellatrix s₀ b.body) := by
    unfold is_execution_enabled is_merge_transition_block is_merge_transition_complete HasPayload
      MergeComplete
    rw [h₀]
    by_cases h1 : s₀.latest_execution_payload_header.bellatrixPart = defaultPayloadHeader <;>
      by_cases h2 : b.body.execution_payload.bellatrixPart = defaultPayload <;> simp [h1, h2]
  unfold process_block_payload
  cases f <;> dsimp only
  case Phase0 | Altair =>
    simp only [Fork.withdraws, HasPayload, if_false, Bool.false_eq_true,
      run, true_and]
    exact eq_comm
  case Bellatrix =>
    simp only [run, Fork.withdraws, Bool.false_eq_true, if_false, List.nil_append, he,
      decide_eq_true_eq]
    by_cases hp : HasPayload .Bellatrix s₀ b.body
    · simp [hp, runs_single]
    · simp only [hp, if_false, runs_nil]
      simp
      exact eq_comm
  all_goals
    simp only [Fork.withdraws, HasPayload, if_true, M_bind_unit_eq_ok, List.cons_append,
      List.nil_append, runs_cons]
    constructor
    · rintro ⟨t, h1, h2⟩; exact ⟨t, h1, s', h2, rfl⟩
    · rintro ⟨t, h1, u, h2, rfl⟩; exact ⟨t, h1, h2⟩

theorem block_parts {E : Env} (hmax : 0 < E.max_deposits) {f : Fork} {b : BeaconBlock}
    {s s' : State} :
    process_block E f b s = .ok () s' ↔
      ∃ t u, Runs (openingParts E f s b) s t ∧ RightCount E f t b.body ∧
        Runs (operationParts E f b.body) t u ∧ Runs (closingParts E f b.body) u s' := by
  unfold process_block
  have hc : ∀ t, (match f with
      | .Phase0 => pure ()
      | _ => process_sync_aggregate E b.body.sync_aggregate : M Unit) t = .ok () s' ↔
      Runs (closingParts E f b.body) t s' := by
    intro t
    unfold closingParts
    cases f <;> dsimp only
    case Phase0 => rw [if_pos rfl, runs_nil]; simp only [run, true_and]; exact eq_comm
    all_goals rw [if_neg (by decide), runs_single]
  have ho : ∀ t₁ t₂, process_block_header E f b s = .ok () t₁ →
      (process_block_payload E f b t₁ = .ok () t₂ ↔ _) := fun t₁ t₂ h =>
    payload_parts (s₀ := s) (by rw [(process_block_header_eq_ok.1 h).2])
  simp only [M_bind_unit_eq_ok, operations_parts hmax, openingParts, runs_append,
    List.append_assoc, runs_cons, runs_nil]
  constructor
  · rintro ⟨t1, h1, t2, h2, t3, h3, t4, h4, t5, ⟨h5, h6⟩, h7⟩
    obtain ⟨x, h8, h9⟩ := runs_append.1 ((ho t1 t2 h1).1 h2)
    exact ⟨t4, t5, ⟨t1, ⟨_, h1, rfl⟩, x, h8, t2, h9, t3, h3, t4, h4, rfl⟩, h5, h6, (hc t5).1 h7⟩
  · rintro ⟨t4, t5, ⟨t1, ⟨_, h1, rfl⟩, x, h8, t2, h9, t3, h3, _, h4, rfl⟩, h5, h6, h7⟩
    exact ⟨t1, h1, t2, (ho t1 t2 h1).2 (runs_append.2 ⟨x, h8, h9⟩), t3, h3, t4, h4, t5,
      ⟨h5, h6⟩, (hc t5).2 h7⟩

/-! ## Epochs -/

theorem epoch_parts {E : Env} {f : Fork} {s s' : State} :
    process_epoch E f s = .ok () s' ↔ Runs (epochParts E f) s s' := by
  have hp : ∀ {t u : State}, (pure () : M Unit) t = .ok () u → u = t := by
    intro t u h; simp only [run, true_and] at h; exact h.symm
  unfold process_epoch process_epoch_first
  cases f <;> simp only [epochParts, M_bind_unit_eq_ok, runs_cons, runs_nil]
  case Phase0 =>
    constructor
    · rintro ⟨t, ⟨a, h1, b, hb, c, h2, d, h3, e, h4, g, h5, hg⟩, i, h6, j, h7, k, h8, l, h9, h10⟩
      cases hp hb; cases hp hg
      exact ⟨_, h1, _, h2, _, h3, _, h4, _, h5, _, h6, _, h7, _, h8, _, h9, _, h10, rfl⟩
    · rintro ⟨_, h1, _, h2, _, h3, _, h4, _, h5, _, h6, _, h7, _, h8, _, h9, _, h10, rfl⟩
      exact ⟨_, ⟨_, h1, _, rfl, _, h2, _, h3, _, h4, _, h5, rfl⟩, _, h6, _, h7, _, h8, _, h9, h10⟩
  case Electra =>
    constructor
    · rintro ⟨t, ⟨_, h1, _, h2, _, h3, _, h4, _, h5, _, h6, _, h7, h8⟩, _, h9, _, h10, _, h11, _,
        h12, _, h13, h14⟩
      exact ⟨_, h1, _, h2, _, h3, _, h4, _, h5, _, h6, _, h7, _, h8, _, h9, _, h10, _, h11, _, h12,
        _, h13, _, h14, rfl⟩
    · rintro ⟨_, h1, _, h2, _, h3, _, h4, _, h5, _, h6, _, h7, _, h8, _, h9, _, h10, _, h11, _, h12,
        _, h13, _, h14, rfl⟩
      exact ⟨_, ⟨_, h1, _, h2, _, h3, _, h4, _, h5, _, h6, _, h7, h8⟩, _, h9, _, h10, _, h11, _,
        h12, _, h13, h14⟩
  all_goals
    constructor
    · rintro ⟨t, ⟨_, h1, _, h2, _, h3, _, h4, _, h5, _, h6, h⟩, _, h7, _, h8, _, h9, _,
        h10, _, h11, h12⟩
      cases hp h
      exact ⟨_, h1, _, h2, _, h3, _, h4, _, h5, _, h6, _, h7, _, h8, _, h9, _, h10, _, h11, _, h12,
        rfl⟩
    · rintro ⟨_, h1, _, h2, _, h3, _, h4, _, h5, _, h6, _, h7, _, h8, _, h9, _, h10, _, h11, _, h12,
        rfl⟩
      exact ⟨_, ⟨_, h1, _, h2, _, h3, _, h4, _, h5, _, h6, rfl⟩, _, h7, _, h8, _, h9, _,
        h10, _, h11, h12⟩

/-! ## All parts are calls a client can make -/

theorem operationParts_entry {E : Env} {f : Fork} {body : BeaconBlockBody} {m : M Unit}
    (h : m ∈ operationParts E f body) : EntryPoint E f m := by
  simp only [operationParts, List.mem_append, List.mem_map] at h
  rcases h with (((((⟨_, -, rfl⟩ | ⟨_, -, rfl⟩) | ⟨_, -, rfl⟩) | ⟨_, -, rfl⟩) | ⟨_, -, rfl⟩) | h) | h
  · exact .process_proposer_slashing _
  · exact .process_attester_slashing _
  · exact .process_attestation _
  · exact .process_deposit _
  · exact .process_voluntary_exit _
  · split at h
    · obtain ⟨_, -, rfl⟩ := List.mem_map.1 h
      exact .process_bls_to_execution_change _
    · cases h
  · split at h
    · rename_i hf
      simp only [List.mem_append, List.mem_map] at h
      rcases h with (⟨_, -, rfl⟩ | ⟨_, -, rfl⟩) | ⟨_, -, rfl⟩
      · exact .process_execution_layer_withdrawal_request _ hf
      · exact .process_deposit_receipt _ hf
      · exact .process_consolidation _ hf
    · cases h

theorem openingParts_entry {E : Env} {f : Fork} {s : State} {b : BeaconBlock} {m : M Unit}
    (h : m ∈ openingParts E f s b) : EntryPoint E f m := by
  simp only [openingParts, List.mem_append, List.mem_cons, List.not_mem_nil, or_false] at h
  rcases h with ((rfl | h) | h) | rfl | rfl
  · exact .process_block_header _
  · split at h
    · rw [List.mem_singleton] at h; subst h; exact .process_withdrawals _
    · cases h
  · split at h
    · rw [List.mem_singleton] at h; subst h; exact .process_execution_payload _
    · cases h
  · exact .process_randao _
  · exact .process_eth1_data _

theorem closingParts_entry {E : Env} {f : Fork} {body : BeaconBlockBody} {m : M Unit}
    (h : m ∈ closingParts E f body) : EntryPoint E f m := by
  unfold closingParts at h
  split at h
  · cases h
  · rw [List.mem_singleton] at h; subst h; exact .process_sync_aggregate _

/-- What an operation of an accepted block did, and what is left of it at the end. -/
theorem operation_ran {E : Env} (hmax : 0 < E.max_deposits) {f : Fork} {b : BeaconBlock}
    {s s' : State} (h : process_block E f b s = .ok () s') {m : M Unit}
    (hm : m ∈ operationParts E f b.body) :
    ∃ t u, History E f s t ∧ m t = .ok () u ∧ History E f u s' := by
  obtain ⟨t, u, h1, -, h2, h3⟩ := (block_parts hmax).1 h
  obtain ⟨l, r, x, y, he, g1, g2, g3⟩ := runs_mem hm h2
  refine ⟨x, y, ?_, g2, ?_⟩
  · refine runs_history (fun m hm => operationParts_entry (body := b.body) ?_)
      (runs_history (fun m hm => openingParts_entry hm) .start h1) g1
    rw [he]; exact List.mem_append_left _ hm
  · refine runs_history (fun m hm => closingParts_entry hm)
      (runs_history (fun m hm => operationParts_entry (body := b.body) ?_) .start g3) h3
    rw [he]; exact List.mem_append_right _ (List.mem_cons_of_mem _ hm)

end Verif
