import Verif.Proofs.Modifies

/-! # The steps of a successful epoch transition -/

namespace Verif

open Spec

/-- The states between the steps of epoch processing. -/
structure EpochSteps (E : Env) (f : Fork) (s s' : State) where
  s₁ : State
  s₂ : State
  s₃ : State
  s₄ : State
  s₅ : State
  s₆ : State
  s₇ : State
  s₈ : State
  s₉ : State
  s₁₀ : State
  s₁₁ : State
  s₁₂ : State
  s₁₃ : State
  justification : process_justification_and_finalization E f s = .ok () s₁
  inactivity : if f = .Phase0 then s₂ = s₁ else process_inactivity_updates E s₁ = .ok () s₂
  rewards : process_rewards_and_penalties E f s₂ = .ok () s₃
  registry : process_registry_updates E f s₃ = .ok () s₄
  slashings : process_slashings E f s₄ = .ok () s₅
  eth1 : process_eth1_data_reset E s₅ = .ok () s₆
  deposits : if f = .Electra then Electra.process_pending_balance_deposits E s₆ = .ok () s₇
    else s₇ = s₆
  consolidations : if f = .Electra then Electra.process_pending_consolidations E s₇ = .ok () s₈
    else s₈ = s₇
  effective : process_effective_balance_updates E f s₈ = .ok () s₉
  slashings_reset : process_slashings_reset E s₉ = .ok () s₁₀
  randao : process_randao_mixes_reset E s₁₀ = .ok () s₁₁
  historical : process_historical_update E f s₁₁ = .ok () s₁₂
  participation : if f = .Phase0 then process_participation_record_updates s₁₂ = .ok () s₁₃
    else process_participation_flag_updates s₁₂ = .ok () s₁₃
  sync : if f = .Phase0 then s' = s₁₃ else process_sync_committee_updates E s₁₃ = .ok () s'

theorem epoch_steps {E : Env} {f : Fork} {s s' : State} (h : process_epoch E f s = .ok () s') :
    Nonempty (EpochSteps E f s s') := by
  unfold process_epoch process_epoch_first at h
  cases f <;> simp only [run] at h
  case Phase0 =>
    obtain ⟨_, ⟨s1, h1, _, ⟨-, rfl⟩, s3, h3, s4, h4, s5, h5, s6, h6, -, rfl⟩, s9, h9, s10, h10, s11, h11,
      s12, h12, h13⟩ := h
    exact ⟨⟨_, _, _, _, _, _, _, _, _, _, _, _, _, h1, rfl, h3, h4, h5, h6, rfl, rfl, h9, h10, h11,
      h12, h13, rfl⟩⟩
  case Electra =>
    obtain ⟨_, ⟨s1, h1, s2, h2, s3, h3, s4, h4, s5, h5, s6, h6, s7, h7, h8⟩, s9, h9, s10, h10, s11,
      h11, s12, h12, s13, h13, h14⟩ := h
    exact ⟨⟨_, _, _, _, _, _, _, _, _, _, _, _, _, h1, h2, h3, h4, h5, h6, h7, h8, h9, h10, h11,
      h12, h13, h14⟩⟩
  all_goals
    obtain ⟨_, ⟨s1, h1, s2, h2, s3, h3, s4, h4, s5, h5, s6, h6, -, rfl⟩, s9, h9, s10, h10, s11,
      h11, s12, h12, s13, h13, h14⟩ := h
    exact ⟨⟨_, _, _, _, _, _, _, _, _, _, _, _, _, h1, h2, h3, h4, h5, h6, rfl, rfl, h9, h10, h11,
      h12, h13, h14⟩⟩

/-! ## Which fields the steps write -/

theorem changes_then {V W : List Field} {a b c : State} (h : ChangesOnly V a b)
    (h' : ChangesOnly W b c) : ChangesOnly (V ++ W) a c := fun x hx =>
  Field.same_trans x (h x fun hv => hx (List.mem_append_left _ hv))
    (h' x fun hw => hx (List.mem_append_right _ hw))

namespace EpochSteps

variable {E : Env} {f : Fork} {s s' : State}

/-- The fields step 1 writes. -/
def w1 : List Field :=
  [.previous_justified_checkpoint, .current_justified_checkpoint, .justification_bits, .finalized_checkpoint]

theorem m1 (e : EpochSteps E f s s') : ChangesOnly w1 s e.s₁ := by
  have h := e.justification
  exact justification_mod.ok h

/-- The fields step 2 writes. -/
def w2 : List Field :=
  [.inactivity_scores]

theorem m2 (e : EpochSteps E f s s') : ChangesOnly w2 e.s₁ e.s₂ := by
  have h := e.inactivity
  split at h
  · exact h ▸ (changesPre _).refl _
  · exact inactivity_mod.ok h

/-- The fields step 3 writes. -/
def w3 : List Field :=
  [.balances]

theorem m3 (e : EpochSteps E f s s') : ChangesOnly w3 e.s₂ e.s₃ := by
  have h := e.rewards
  exact rewards_mod.ok h

/-- The fields step 4 writes. -/
def w4 : List Field :=
  [.validators, .exit_balance_to_consume, .earliest_exit_epoch]

theorem m4 (e : EpochSteps E f s s') : ChangesOnly w4 e.s₃ e.s₄ := by
  have h := e.registry
  exact registry_mod.ok h

/-- The fields step 5 writes. -/
def w5 : List Field :=
  [.balances]

theorem m5 (e : EpochSteps E f s s') : ChangesOnly w5 e.s₄ e.s₅ := by
  have h := e.slashings
  exact slashings_mod.ok h

/-- The fields step 6 writes. -/
def w6 : List Field :=
  [.eth1_data_votes]

theorem m6 (e : EpochSteps E f s s') : ChangesOnly w6 e.s₅ e.s₆ := by
  have h := e.eth1
  exact eth1_reset_mod.ok h

/-- The fields step 7 writes. -/
def w7 : List Field :=
  [.balances, .pending_balance_deposits, .deposit_balance_to_consume]

theorem m7 (e : EpochSteps E f s s') : ChangesOnly w7 e.s₆ e.s₇ := by
  have h := e.deposits
  split at h
  · exact pending_deposits_mod.ok h
  · rw [h]; exact (changesPre _).refl _

/-- The fields step 8 writes. -/
def w8 : List Field :=
  [.validators, .balances, .pending_balance_deposits, .pending_consolidations]

theorem m8 (e : EpochSteps E f s s') : ChangesOnly w8 e.s₇ e.s₈ := by
  have h := e.consolidations
  split at h
  · exact pending_consolidations_mod.ok h
  · rw [h]; exact (changesPre _).refl _

/-- The fields step 9 writes. -/
def w9 : List Field :=
  [.validators]

theorem m9 (e : EpochSteps E f s s') : ChangesOnly w9 e.s₈ e.s₉ := by
  have h := e.effective
  exact effective_mod.ok h

/-- The fields step 10 writes. -/
def w10 : List Field :=
  [.slashings]

theorem m10 (e : EpochSteps E f s s') : ChangesOnly w10 e.s₉ e.s₁₀ := by
  have h := e.slashings_reset
  exact slashings_reset_mod.ok h

/-- The fields step 11 writes. -/
def w11 : List Field :=
  [.randao_mixes]

theorem m11 (e : EpochSteps E f s s') : ChangesOnly w11 e.s₁₀ e.s₁₁ := by
  have h := e.randao
  exact randao_reset_mod.ok h

/-- The fields step 12 writes. -/
def w12 : List Field :=
  [.historical_roots, .historical_summaries]

theorem m12 (e : EpochSteps E f s s') : ChangesOnly w12 e.s₁₁ e.s₁₂ := by
  have h := e.historical
  exact historical_mod.ok h

/-- The fields step 13 writes. -/
def w13 : List Field :=
  [.previous_epoch_attestations, .current_epoch_attestations, .previous_epoch_participation, .current_epoch_participation]

theorem m13 (e : EpochSteps E f s s') : ChangesOnly w13 e.s₁₂ e.s₁₃ := by
  have h := e.participation
  split at h
  · exact (Modifies.mono record_updates_mod (by decide)).ok h
  · exact (Modifies.mono flag_updates_mod (by decide)).ok h

/-- The fields step 14 writes. -/
def w14 : List Field :=
  [.current_sync_committee, .next_sync_committee]

theorem m14 (e : EpochSteps E f s s') : ChangesOnly w14 e.s₁₃ s' := by
  have h := e.sync
  split at h
  · exact h ▸ (changesPre _).refl _
  · exact sync_committees_mod.ok h

/-! From the start to step `k`, and from there to the end. -/

def t1 : List Field := w1
theorem to1 (e : EpochSteps E f s s') : ChangesOnly t1 s e.s₁ := e.m1

def t2 : List Field := t1 ++ w2
theorem to2 (e : EpochSteps E f s s') : ChangesOnly t2 s e.s₂ := changes_then e.to1 e.m2

def t3 : List Field := t2 ++ w3
theorem to3 (e : EpochSteps E f s s') : ChangesOnly t3 s e.s₃ := changes_then e.to2 e.m3

def t4 : List Field := t3 ++ w4
theorem to4 (e : EpochSteps E f s s') : ChangesOnly t4 s e.s₄ := changes_then e.to3 e.m4

def t5 : List Field := t4 ++ w5
theorem to5 (e : EpochSteps E f s s') : ChangesOnly t5 s e.s₅ := changes_then e.to4 e.m5

def t6 : List Field := t5 ++ w6
theorem to6 (e : EpochSteps E f s s') : ChangesOnly t6 s e.s₆ := changes_then e.to5 e.m6

def t7 : List Field := t6 ++ w7
theorem to7 (e : EpochSteps E f s s') : ChangesOnly t7 s e.s₇ := changes_then e.to6 e.m7

def t8 : List Field := t7 ++ w8
theorem to8 (e : EpochSteps E f s s') : ChangesOnly t8 s e.s₈ := changes_then e.to7 e.m8

def t9 : List Field := t8 ++ w9
theorem to9 (e : EpochSteps E f s s') : ChangesOnly t9 s e.s₉ := changes_then e.to8 e.m9

def t10 : List Field := t9 ++ w10
theorem to10 (e : EpochSteps E f s s') : ChangesOnly t10 s e.s₁₀ := changes_then e.to9 e.m10

def t11 : List Field := t10 ++ w11
theorem to11 (e : EpochSteps E f s s') : ChangesOnly t11 s e.s₁₁ := changes_then e.to10 e.m11

def t12 : List Field := t11 ++ w12
theorem to12 (e : EpochSteps E f s s') : ChangesOnly t12 s e.s₁₂ := changes_then e.to11 e.m12

def t13 : List Field := t12 ++ w13
theorem to13 (e : EpochSteps E f s s') : ChangesOnly t13 s e.s₁₃ := changes_then e.to12 e.m13

def t14 : List Field := t13 ++ w14
theorem to14 (e : EpochSteps E f s s') : ChangesOnly t14 s s' := changes_then e.to13 e.m14

def r13 : List Field := w14
theorem from13 (e : EpochSteps E f s s') : ChangesOnly r13 e.s₁₃ s' := e.m14

def r12 : List Field := w13 ++ r13
theorem from12 (e : EpochSteps E f s s') : ChangesOnly r12 e.s₁₂ s' := changes_then e.m13 e.from13

def r11 : List Field := w12 ++ r12
theorem from11 (e : EpochSteps E f s s') : ChangesOnly r11 e.s₁₁ s' := changes_then e.m12 e.from12

def r10 : List Field := w11 ++ r11
theorem from10 (e : EpochSteps E f s s') : ChangesOnly r10 e.s₁₀ s' := changes_then e.m11 e.from11

def r9 : List Field := w10 ++ r10
theorem from9 (e : EpochSteps E f s s') : ChangesOnly r9 e.s₉ s' := changes_then e.m10 e.from10

def r8 : List Field := w9 ++ r9
theorem from8 (e : EpochSteps E f s s') : ChangesOnly r8 e.s₈ s' := changes_then e.m9 e.from9

def r7 : List Field := w8 ++ r8
theorem from7 (e : EpochSteps E f s s') : ChangesOnly r7 e.s₇ s' := changes_then e.m8 e.from8

def r6 : List Field := w7 ++ r7
theorem from6 (e : EpochSteps E f s s') : ChangesOnly r6 e.s₆ s' := changes_then e.m7 e.from7

def r5 : List Field := w6 ++ r6
theorem from5 (e : EpochSteps E f s s') : ChangesOnly r5 e.s₅ s' := changes_then e.m6 e.from6

def r4 : List Field := w5 ++ r5
theorem from4 (e : EpochSteps E f s s') : ChangesOnly r4 e.s₄ s' := changes_then e.m5 e.from5

def r3 : List Field := w4 ++ r4
theorem from3 (e : EpochSteps E f s s') : ChangesOnly r3 e.s₃ s' := changes_then e.m4 e.from4

def r2 : List Field := w3 ++ r3
theorem from2 (e : EpochSteps E f s s') : ChangesOnly r2 e.s₂ s' := changes_then e.m3 e.from3

def r1 : List Field := w2 ++ r2
theorem from1 (e : EpochSteps E f s s') : ChangesOnly r1 e.s₁ s' := changes_then e.m2 e.from2

end EpochSteps

end Verif
