import Verif.Proofs.AdvancePhase0

/-! # Epoch processing and slot processing succeed -/

namespace Verif

open Spec Props

variable {T : Err → Prop} {E : Env} {f : Fork} {s : State}

theorem countable_votes {t : State} (h : CountableVotes E s)
    (h1 : t.previous_epoch_attestations = s.previous_epoch_attestations)
    (h2 : t.current_epoch_attestations = s.current_epoch_attestations)
    (h3 : ∀ k i, get_beacon_committee E t k i = get_beacon_committee E s k i)
    (h4 : epochOf E t.slot = epochOf E s.slot) : CountableVotes E t := by
  constructor
  · rw [h1, h2]; intro a ha; rw [h3]; exact h.committee a ha
  · rw [h1, h4]; exact h.previous
  · rw [h2, h4]; exact h.current

theorem balances_firm (hE : SaneConfig E) (hk : SaneClock E) (hw : Wellformed E s)
    (he : EpochReady E f s) (hc : Countable E f s) (h1 : s.slot % E.slots_per_epoch ≠ 0) :
    Firm T (justification_balances E f s) := by
  have hT : effectiveSum s < 2 ^ 64 := by have := he.stake; omega
  by_cases hf : f = .Phase0
  · subst hf
    exact phase0_balances_firm hE hk hw hT (he.records rfl) (hc.votes rfl) h1
  · exact altair_balances_firm hf hT

theorem scored_firm (hE : SaneConfig E) (hk : SaneClock E) (hw : Wellformed E s)
    (he : EpochReady E f s) (hc : Countable E f s) (h1 : s.slot % E.slots_per_epoch ≠ 0) :
    FirmM T (scored E f) s := by
  unfold scored
  refine FirmM_bind (justification_firm (balances_firm hE hk hw he hc h1) h1 hk.history)
    fun _ t _ => ?_
  cases f <;> first | exact FirmM_pure | exact inactivity_updates_firm

theorem epoch_first_firm (hE : SaneConfig E) (hq : SaneQuotients E) (hx : SaneEpochs E)
    (hk : SaneClock E) (hf : f ≠ .Electra) (h : Wellformed E s) (he : EpochReady E f s)
    (hc : Countable E f s) (h1 : s.slot % E.slots_per_epoch ≠ 0) :
    FirmM T (process_epoch_first E f) s := by
  have hU : U64_BOUND = 2 ^ 64 := rfl
  have hep := epochOf_le E s.slot
  have hs := scored_calm hE hx h (balances_calm hE hq hx h he) he.justified he.finalized he.parallel
    he.scores (Nat.le_refl _)
  have hT : effectiveSum s < 2 ^ 64 := by have := he.stake; omega
  have key : FirmM T (do
      scored E f
      process_rewards_and_penalties E f
      process_registry_updates E f
      process_slashings E f
      process_eth1_data_reset E : M Unit) s := by
    refine FirmM_bind (scored_firm hE hk h he hc h1) fun _ t ht => ?_
    obtain ⟨a, b, c, bits, sc, rfl, hw, hfc, hsc⟩ := hs.ok ht
    have hrec : f = .Phase0 → Recorded E { s with
          previous_justified_checkpoint := a
          current_justified_checkpoint := b
          finalized_checkpoint := c
          justification_bits := bits
          inactivity_scores := sc } := by
      intro hf
      subst hf
      exact fun a ha => ⟨(he.records rfl a ha).1, (he.records rfl a ha).2, (he.records rfl a ha).3,
        (he.records rfl a ha).4⟩
    have hrew := rewards_calm hE hq hx hw he.stake he.effective hfc ⟨he.parallel.1, fun hf =>
      ⟨(he.parallel.2 hf).1, (he.parallel.2 hf).2.1, ((hsc hf).1).trans (he.parallel.2 hf).2.2⟩⟩
      (fun hf x hx => by have := (hsc hf).2 x hx; omega) hrec he.delay he.balances
    refine FirmM_bind ?_ fun _ t ht => ?_
    · by_cases h0 : f = .Phase0
      · subst h0
        exact phase0_rewards_firm hE hk hw hT (hrec rfl)
          (countable_votes (hc.votes rfl) rfl rfl (fun _ _ => rfl) rfl) h1
      · exact altair_rewards_firm h0 hT
    obtain ⟨l, rfl, l1, l2⟩ := hrew.ok ht
    have hreg := registry_calm hE hx hf (wf_balances hw l1) hfc
    refine FirmM_bind (registry_firm hf (B := 2 ^ 62) hc.exits ?_ ?_) fun _ t ht => ?_
    · have := h.slot
      have := hE.max_seed_lookahead
      show epochOf E s.slot + 1 + E.max_seed_lookahead ≤ 2 ^ 62
      omega
    · have := h.shaped.registry
      have := hE.withdrawability_delay.2
      show 2 ^ 62 + s.validators.length + 1 + E.min_validator_withdrawability_delay < U64_BOUND
      omega
    have ht' := hreg.ok ht
    refine FirmM_bind (slashings_firm ?_) fun _ _ _ => eth1_reset_firm
    unfold effectiveSum
    rw [ht'.effective]
    exact hT
  unfold process_epoch_first
  unfold scored at key
  intro e t het
  refine key e t ?_
  rw [← het]
  cases f <;> first | exact absurd rfl hf | simp only [bind_assoc, pure_bind, bind_pure_unit]

/-- Drawing the next sync committee is all that can go wrong. -/
def EpochStop (E : Env) (f : Fork) (s : State) (e : Err) : Prop :=
  f ≠ .Phase0 ∧ (epochOf E s.slot + 1) % E.epochs_per_sync_committee_period = 0 ∧ DrawFails e

theorem epoch_firm (hE : SaneConfig E) (hq : SaneQuotients E) (hx : SaneEpochs E)
    (hk : SaneClock E) (hf : f ≠ .Electra) (h : Wellformed E s) (he : EpochReady E f s)
    (hc : Countable E f s) (h1 : s.slot % E.slots_per_epoch ≠ 0) :
    FirmM (EpochStop E f s) (process_epoch E f) s := by
  unfold process_epoch
  refine FirmM_bind (epoch_first_firm hE hq hx hk hf h he hc h1) fun _ s1 h1 => ?_
  obtain ⟨w1, e1, b1, a1⟩ := (epoch_first_calm hE hq hx hf h he).ok h1
  refine FirmM_bind effective_firm fun _ s2 h2 => ?_
  obtain ⟨w2, ⟨vs, hs2⟩, a2⟩ := (effective_calm hE hx (limit_le hx hf) w1 b1).ok h2
  have e2 : s2.slot = s.slot := by rw [hs2]; exact e1
  refine FirmM_bind slashings_reset_firm fun _ s3 h3 => ?_
  obtain ⟨w3, l3, rfl⟩ := (slashings_reset_calm hE w2).ok h3
  refine FirmM_bind randao_reset_firm fun _ s4 h4 => ?_
  obtain ⟨w4, l4, rfl⟩ := (randao_reset_calm hE w3).ok h4
  refine FirmM_bind historical_firm fun _ s5 h5 => ?_
  obtain ⟨w5, l5, m5, rfl⟩ := (historical_calm hE w4).ok h5
  by_cases h0 : f = .Phase0
  · subst h0
    exact FirmM_upd
  have key : FirmM (EpochStop E f s) (do
      process_participation_flag_updates
      process_sync_committee_updates E) { s2 with
        slashings := l3
        randao_mixes := l4
        historical_roots := l5
        historical_summaries := m5 } := by
    unfold process_participation_flag_updates
    refine FirmM_upd_bind ?_
    intro e t het
    rcases sync_updates_firm e t het with g | ⟨g1, g2⟩
    · exact .inl g
    · refine .inr ⟨h0, ?_, g2⟩
      rw [← e2]
      exact g1
  cases f <;> first | exact absurd rfl h0 | exact key

/-- What an epoch transition needs. -/
def Ready (E : Env) (f : Fork) (s : State) : Prop := EpochReady E f s ∧ Countable E f s

theorem steady_ready (hE : SaneConfig E) (hq : SaneQuotients E) (hx : SaneEpochs E)
    (hf : f ≠ .Electra) : Steady E f (Wellformed E) (Ready E f) := by
  have st := steady hE hq hx hf
  refine ⟨st.wf, st.tick, st.move, fun s h he => st.epoch s h he.1, ?_, ?_⟩
  · intro s t h ht
    refine ⟨st.tickR s t h.1 ht, ?_⟩
    obtain ⟨a, b, c, rfl⟩ := ht
    exact ⟨h.2.exits, fun hf => countable_votes (h.2.votes hf) rfl rfl (fun _ _ => rfl) rfl⟩
  · intro s n h hn
    exact ⟨st.moveR s n h.1 hn, h.2.exits, fun hf => countable_votes (h.2.votes hf) rfl rfl
      (fun _ _ => rfl) hn⟩

theorem slot_firm : FirmM T (process_slot E f) s := by
  unfold process_slot; firm []

/-- Drawing a sync committee on the way is all that can go wrong. -/
def SlotsStop (E : Env) (f : Fork) (a b : Nat) (e : Err) : Prop :=
  f ≠ .Phase0 ∧ (∃ n, a < n ∧ n ≤ b ∧ DrawSlot E n) ∧ DrawFails e

theorem draw_slot (h1 : (s.slot + 1) % E.slots_per_epoch = 0)
    (h2 : (epochOf E s.slot + 1) % E.epochs_per_sync_committee_period = 0) :
    DrawSlot E (s.slot + 1) := by
  unfold DrawSlot
  have h3 : (s.slot + 1) / E.slots_per_epoch = epochOf E s.slot + 1 := by
    rw [Nat.succ_div, if_pos (Nat.dvd_of_mod_eq_zero h1)]; rfl
  rw [Nat.mod_mul, h1, h3, h2]
  simp

/-- A fork whose epoch processing succeeds in the states `W` that are ready (`R`). -/
structure Driven (E : Env) (f : Fork) (W R : State → Prop) : Prop extends Steady E f W R where
  firm : ∀ s, W s → R s → s.slot % E.slots_per_epoch ≠ 0 →
    FirmM (EpochStop E f s) (process_epoch E f) s

theorem driven (hE : SaneConfig E) (hq : SaneQuotients E) (hx : SaneEpochs E) (hk : SaneClock E)
    (hf : f ≠ .Electra) : Driven E f (Wellformed E) (Ready E f) :=
  ⟨steady_ready hE hq hx hf, fun _ h he h1 => epoch_firm hE hq hx hk hf h he.1 he.2 h1⟩

variable {W R : State → Prop}

theorem step_firm (hE : SaneConfig E) (hk : SaneClock E) (dr : Driven E f W R) (h : W s)
    (he : (s.slot + 1) % E.slots_per_epoch = 0 → R s) :
    FirmM (SlotsStop E f s.slot (s.slot + 1)) (slot_step E f) s := by
  have hkk := hk.epoch
  unfold slot_step
  refine FirmM_bind slot_firm fun _ t ht => ?_
  obtain ⟨wt, htk⟩ := (slot_calm hE (dr.wf s h)).ok ht
  have hWt := dr.tick s t h htk wt
  have hts : t.slot = s.slot := by obtain ⟨a, b, c, rfl⟩ := htk; rfl
  refine FirmM_bind ?_ fun _ u _ => by firm []
  unfold process_epoch_if_due
  refine FirmM_get_bind (FirmM_lift_bind (by firm []) fun n hn => ?_)
  obtain ⟨rfl, -⟩ := add_eq_ok.1 hn
  refine FirmM_lift_bind (by firm []) fun r hr => ?_
  obtain ⟨rfl, -⟩ := mod_eq_ok.1 hr
  split
  · rename_i h0
    rw [hts] at h0
    have hr := dr.tickR s t (he h0) htk
    have hm : t.slot % E.slots_per_epoch ≠ 0 := by
      intro hz
      rw [hts] at hz
      have := Nat.add_mod s.slot 1 E.slots_per_epoch
      rw [hz, h0, Nat.mod_eq_of_lt (show 1 < E.slots_per_epoch by omega),
        Nat.mod_eq_of_lt (by omega)] at this
      omega
    intro e v hv
    rcases dr.firm t hWt hr hm e v hv with g | ⟨g1, g2, g3⟩
    · exact .inl g
    · rw [hts] at g2
      exact .inr ⟨g1, ⟨s.slot + 1, by omega, by omega, draw_slot h0 g2⟩, g3⟩
  · exact FirmM_pure

theorem slots_loop_firm (hE : SaneConfig E) (hk : SaneClock E) (dr : Driven E f W R)
    {slot n : Nat} (h : W s)
    (hn : s.slot + n = slot) (hs : slot < 2 ^ 48)
    (he : ∀ m t, m < n → slots_loop E f (s.slot + m) m s = .ok () t →
      (t.slot + 1) % E.slots_per_epoch = 0 → R t) :
    FirmM (SlotsStop E f s.slot slot) (slots_loop E f slot n) s := by
  induction n generalizing s with
  | zero =>
    unfold slots_loop
    refine FirmM_get_bind ?_
    rw [show (decide (s.slot < slot)) = false by simp; omega]
    exact FirmM_pure
  | succ n ih =>
    rw [slots_loop]
    refine FirmM_get_bind ?_
    rw [if_pos (by omega)]
    have hst := fun h0 => he 0 s (by omega) (slots_loop_zero.2 ⟨by omega, rfl⟩) h0
    refine FirmM_bind (fun e t het => ?_) fun _ t ht => ?_
    · rcases step_firm hE hk dr h hst e t het with g | ⟨g1, ⟨k, k1, k2, k3⟩, g3⟩
      · exact .inl g
      · exact .inr ⟨g1, ⟨k, k1, by omega, k3⟩, g3⟩
    have wt := ((step_calm hE dr.toSteady h (by omega) hst).ok ht).1
    have hts := slot_step_slot ht
    intro e v hv
    rcases ih wt (by omega) (fun m u hm hu => he (m + 1) u (by omega)
      (slots_loop_succ.2 (.inl ⟨by omega, t, ht, by
        rw [hts] at hu
        rw [← hu]
        congr 1
        omega⟩))) e v hv with g | ⟨g1, ⟨k, k1, k2, k3⟩, g3⟩
    · exact .inl g
    · exact .inr ⟨g1, ⟨k, by omega, k2, k3⟩, g3⟩

theorem slots_sure (hE : SaneConfig E) (hk : SaneClock E) (dr : Driven E f W R) {slot : Nat}
    (h : W s)
    (hlt : s.slot < slot) (hs : slot < 2 ^ 48)
    (he : ∀ t, (t = s ∨ ∃ k < slot, process_slots E f k s = .ok () t) →
      (t.slot + 1) % E.slots_per_epoch = 0 → R t) :
    SureM (SlotsStop E f s.slot slot) (process_slots E f slot)
      (fun _ s' => W s' ∧ s'.slot = slot) s := by
  refine (slots_calm hE dr.toSteady h hs he).sure ?_
  unfold process_slots
  refine FirmM_get_bind ?_
  rw [show (decide (s.slot ≥ slot)) = false by simp; omega]
  refine FirmM_bind (FirmM_pure (a := ())) fun _ t ht => ?_
  simp only [run] at ht
  obtain ⟨-, rfl⟩ := ht
  refine slots_loop_firm hE hk dr h (by omega) hs fun m t hm ht => he t ?_
  by_cases h0 : m = 0
  · subst h0
    exact .inl (slots_loop_zero.1 ht).2
  · refine .inr ⟨s.slot + m, by omega, ?_⟩
    rw [process_slots_eq, if_pos (by omega), show s.slot + m - s.slot = m by omega]
    exact ht

theorem next_epoch_sure (hE : SaneConfig E) (hk : SaneClock E) (dr : Driven E f W R) {slot : Nat}
    (h : W s) (he : R s)
    (hlt : s.slot < slot) (hs : slot < 2 ^ 48) (hn : epochOf E slot ≤ epochOf E s.slot + 1) :
    SureM (SlotsStop E f s.slot slot) (process_slots E f slot)
      (fun _ s' => W s' ∧ s'.slot = slot) s := by
  have hpos := hE.slots_per_epoch
  refine slots_sure hE hk dr h hlt hs ?_
  rintro t (rfl | ⟨k, hk', ht⟩) h0
  · exact he
  obtain ⟨hlt, hts⟩ := process_slots_slot ht
  rw [process_slots_eq, if_pos hlt] at ht
  have hsum : s.slot + (k - s.slot) = k := by omega
  rw [hts] at h0
  refine ready_carried (m := k - s.slot) hE dr.toSteady h (by omega) he ?_
    (by rw [hsum]; exact ht)
  rw [hsum]
  have a1 : (k + 1) / E.slots_per_epoch ≤ slot / E.slots_per_epoch :=
    Nat.div_le_div_right (by omega)
  have a2 : s.slot / E.slots_per_epoch ≤ k / E.slots_per_epoch :=
    Nat.div_le_div_right (by omega)
  have a3 : k / E.slots_per_epoch + 1 = (k + 1) / E.slots_per_epoch := by
    rw [Nat.succ_div, if_pos (Nat.dvd_of_mod_eq_zero h0)]
  unfold epochOf at *
  omega

end Verif
