import Verif.Proofs.SafetyPhase0
import Verif.Proofs.SafetyBlock
import Verif.Proofs.Executor

/-! # Epoch processing, slot processing and the state transition do not panic -/

namespace Verif

open Spec Props

variable {E : Env} {s s' : State} {f : Fork}

theorem wf_scores (h : Wellformed E s) (l : List Nat) :
    Wellformed E { s with inactivity_scores := l } :=
  ⟨⟨h.shaped.1, h.shaped.2, h.shaped.3, h.shaped.4, h.shaped.5, h.shaped.6⟩, h.2, h.3, h.4, h.5,
    h.6⟩

theorem wf_balances (h : Wellformed E s) {l : List Nat} (hl : l.length = s.balances.length) :
    Wellformed E (withBalances s l) :=
  ⟨⟨h.shaped.1, h.shaped.2, h.shaped.3, h.shaped.4, h.shaped.5, h.shaped.6⟩, hl.trans h.2, h.3, h.4,
    h.5, h.6⟩

theorem wf_votes (h : Wellformed E s) (l : List Eth1Data) :
    Wellformed E { s with eth1_data_votes := l } :=
  ⟨⟨h.shaped.1, h.shaped.2, h.shaped.3, h.shaped.4, h.shaped.5, h.shaped.6⟩, h.2, h.3, h.4, h.5,
    h.6⟩

theorem ready_recorded (he : EpochReady E .Phase0 s) : Recorded E s := he.records rfl

theorem balances_calm (hE : SaneConfig E) (hq : SaneQuotients E) (hx : SaneEpochs E)
    (h : Wellformed E s) (he : EpochReady E f s) (h0 : epochOf E s.slot ≠ 0) :
    Calm (justification_balances E f s) fun b =>
      b.1 ≤ 2 ^ 56 ∧ b.2.1 ≤ 2 ^ 56 ∧ b.2.2 ≤ 2 ^ 56 := by
  have hep := epochOf_le E s.slot
  by_cases hf : f = .Phase0
  · subst hf
    exact phase0_balances_calm hE hq hx h he.stake (he.records rfl) (by omega)
  · exact altair_balances_calm hE hq hx hf he.stake he.parallel

/-- Justification and, from altair on, inactivity scores: the beginning of `process_epoch`. -/
def scored (E : Env) (f : Fork) : M Unit := do
  process_justification_and_finalization E f
  (match f with
    | .Phase0 => pure ()
    | _ => process_inactivity_updates E)

theorem scored_calm (hE : SaneConfig E) (hx : SaneEpochs E) (h : Wellformed E s)
    (hbal : epochOf E s.slot ≠ 0 → Calm (justification_balances E f s) fun b =>
      b.1 ≤ 2 ^ 56 ∧ b.2.1 ≤ 2 ^ 56 ∧ b.2.2 ≤ 2 ^ 56)
    (hj : s.previous_justified_checkpoint.epoch < 2 ^ 63 ∧
      s.current_justified_checkpoint.epoch < 2 ^ 63)
    (hfin : s.finalized_checkpoint.epoch ≤ epochOf E s.slot - 1) (hpar : Parallel f s) {B : Nat}
    (hsc : f ≠ .Phase0 → ∀ x ∈ s.inactivity_scores, x ≤ B) (hB : B ≤ 2 ^ 23) :
    CalmM (scored E f)
      (fun _ s' => ∃ a b c bits sc, s' = { s with
          previous_justified_checkpoint := a
          current_justified_checkpoint := b
          finalized_checkpoint := c
          justification_bits := bits
          inactivity_scores := sc } ∧ Wellformed E s' ∧ c.epoch ≤ epochOf E s.slot - 1 ∧
        (f ≠ .Phase0 → sc.length = s.inactivity_scores.length ∧ ∀ x ∈ sc, x ≤ B + 2 ^ 10)) s := by
  unfold scored
  simp only [calm]
  refine (justification_calm hE h hbal hj.1 hj.2 hfin).mono ?_
  rintro - - ⟨a, b, c, bits, rfl, hb, hc⟩
  have hw := wf_checkpoints (a := a) (b := b) (c := c) h hb
  by_cases hf : f = .Phase0
  · subst hf
    simp only [calm]
    exact ⟨a, b, c, bits, s.inactivity_scores, rfl, hw, hc, fun h => absurd rfl h⟩
  · have key := (inactivity_updates_calm hE hx hf hw hc hpar (hsc hf) hB).mono
      (Q' := fun _ s' => ∃ a b c bits sc, s' = { s with
          previous_justified_checkpoint := a
          current_justified_checkpoint := b
          finalized_checkpoint := c
          justification_bits := bits
          inactivity_scores := sc } ∧ Wellformed E s' ∧ c.epoch ≤ epochOf E s.slot - 1 ∧
        (f ≠ .Phase0 → sc.length = s.inactivity_scores.length ∧ ∀ x ∈ sc, x ≤ B + 2 ^ 10)) (by
        rintro - - ⟨l, rfl, l1, l2⟩
        exact ⟨a, b, c, bits, l, rfl, wf_scores hw l, hc, fun _ => ⟨l1, l2⟩⟩)
    cases f <;> first | exact absurd rfl hf | exact key

/-- Rewards and penalties of every fork. -/
theorem rewards_calm (hE : SaneConfig E) (hq : SaneQuotients E) (hx : SaneEpochs E)
    (h : Wellformed E s) (hT : effectiveSum s ≤ 2 ^ 56)
    (heff : ∀ v ∈ s.validators, v.effective_balance ≤ 2 ^ 7 * E.effective_balance_increment)
    (hfin : s.finalized_checkpoint.epoch ≤ epochOf E s.slot - 1)
    (hpar : Parallel f s) (hsc : f ≠ .Phase0 → ∀ x ∈ s.inactivity_scores, x ≤ 2 ^ 24)
    (hr : f = .Phase0 → Recorded E s) (hd : f = .Phase0 → epochOf E s.slot ≤ 2 ^ 26)
    (hK : ∀ b ∈ s.balances, b ≤ 2 ^ 61) :
    CalmM (process_rewards_and_penalties E f)
      (fun _ s' => ∃ l, s' = withBalances s l ∧ l.length = s.balances.length ∧
        ∀ b ∈ l, b ≤ 2 ^ 61 + 4 * 2 ^ 60) s := by
  by_cases hf : f = .Phase0
  · subst hf
    exact phase0_rewards_calm hE hq hx h hT heff hfin (hr rfl) (hd rfl) hK
  · have hinc := hx.increment
    refine altair_rewards_calm hE hq hx hf h hT (fun v hv => by have := heff v hv; omega) hfin hpar
      (fun v hv x hx => ?_) hK
    have : v.effective_balance * x ≤ 2 ^ 37 * 2 ^ 24 :=
      Nat.mul_le_mul (by have := heff v hv; omega) (hsc hf x hx)
    exact ⟨by omega, Nat.le_trans (Nat.div_le_self _ _) (by omega)⟩

theorem epoch_first_calm (hE : SaneConfig E) (hq : SaneQuotients E) (hx : SaneEpochs E)
    (hf : f ≠ .Electra) (h : Wellformed E s) (he : EpochReady E f s) :
    CalmM (process_epoch_first E f) (fun _ s' => Wellformed E s' ∧ s'.slot = s.slot ∧
      (∀ b ∈ s'.balances, b ≤ 2 ^ 63) ∧ (f ≠ .Phase0 →
        ∃ v ∈ s'.validators, ActiveAt v (epochOf E s.slot + 1))) s := by
  have hs := scored_calm hE hx h (balances_calm hE hq hx h he) he.justified he.finalized he.parallel
    he.scores (Nat.le_refl _)
  have key : CalmM (do
      scored E f
      process_rewards_and_penalties E f
      process_registry_updates E f
      process_slashings E f
      process_eth1_data_reset E : M Unit) (fun _ s' => Wellformed E s' ∧ s'.slot = s.slot ∧
      (∀ b ∈ s'.balances, b ≤ 2 ^ 63) ∧ (f ≠ .Phase0 →
        ∃ v ∈ s'.validators, ActiveAt v (epochOf E s.slot + 1))) s := by
    rw [CalmM_bind]
    refine hs.mono ?_
    rintro - - ⟨a, b, c, bits, sc, rfl, hw, hc, hsc⟩
    simp only [CalmM_bind]
    refine (rewards_calm hE hq hx hw he.stake he.effective hc ⟨he.parallel.1, fun hf =>
      ⟨(he.parallel.2 hf).1, (he.parallel.2 hf).2.1, ((hsc hf).1).trans (he.parallel.2 hf).2.2⟩⟩
      (fun hf x hx => by have := (hsc hf).2 x hx; omega) (fun hf => ?_) he.delay he.balances).mono ?_
    · subst hf
      exact fun a ha => ⟨(he.records rfl a ha).1, (he.records rfl a ha).2, (he.records rfl a ha).3,
        (he.records rfl a ha).4⟩
    rintro - - ⟨l, rfl, l1, l2⟩
    refine (registry_calm hE hx hf (wf_balances hw l1) hc).mono ?_
    rintro - t ht
    have hslot := ht.slot
    have heffs := ht.effective
    have hwt := ht.wf
    have hact := ht.active
    obtain ⟨vs, xe, xr, rfl⟩ := ht.only
    have heffs : vs.map Validator.effective_balance =
      s.validators.map Validator.effective_balance := heffs
    have hsum : (vs.map Validator.effective_balance).sum ≤ 2 ^ 56 := by
      rw [heffs]
      exact he.stake
    refine (slashings_calm hE hq hx hwt hsum (penalties_fit he.effective heffs _) he.slashings
      l2).mono ?_
    rintro - - ⟨m, rfl, m1, m2⟩
    have hwm := wf_balances hwt m1
    refine (eth1_reset_calm hE hx hwm).mono ?_
    rintro - - ⟨vt, rfl⟩
    exact ⟨wf_votes hwm vt, rfl, fun b hb => by have := m2 b hb; omega, fun hf => hact (he.active hf)⟩
  unfold process_epoch_first
  cases f <;> first | exact absurd rfl hf | (unfold scored at key; simp only [calm] at key ⊢; exact key)

theorem flags_then_sync_calm (hE : SaneConfig E) (hx : SaneEpochs E) (h : Wellformed E s)
    (ha : ∃ v ∈ s.validators, ActiveAt v (epochOf E s.slot + 1)) :
    CalmM (do
      process_participation_flag_updates
      process_sync_committee_updates E) (fun _ s' => Wellformed E s' ∧ s'.slot = s.slot) s := by
  simp only [process_participation_flag_updates, calm]
  have hw : Wellformed E { s with
      previous_epoch_participation := s.current_epoch_participation
      current_epoch_participation := List.replicate s.validators.length 0 } :=
    ⟨⟨h.shaped.1, h.shaped.2, h.shaped.3, h.shaped.4, h.shaped.5, h.shaped.6⟩, h.balances, h.slot,
      h.effective, h.exit, h.eligible⟩
  exact sync_updates_calm hE hx hw ha

/-- Epoch processing does not panic and leaves a well-formed state. -/
theorem epoch_calm (hE : SaneConfig E) (hq : SaneQuotients E) (hx : SaneEpochs E)
    (hf : f ≠ .Electra) (h : Wellformed E s) (he : EpochReady E f s) :
    CalmM (process_epoch E f) (fun _ s' => Wellformed E s' ∧ s'.slot = s.slot) s := by
  unfold process_epoch
  simp only [CalmM_bind]
  refine (epoch_first_calm hE hq hx hf h he).mono ?_
  rintro - s1 ⟨w1, e1, b1, a1⟩
  refine (effective_calm hE hx (limit_le hx hf) w1 b1).mono ?_
  rintro - s2 ⟨w2, ⟨vs, hs2⟩, a2⟩
  have e2 : s2.slot = s.slot := by rw [hs2]; exact e1
  rw [e1] at a2
  have a2' := fun hf => a2 (a1 hf)
  clear hs2
  refine (slashings_reset_calm hE w2).mono ?_
  rintro - - ⟨w3, l3, rfl⟩
  refine (randao_reset_calm hE w3).mono ?_
  rintro - - ⟨w4, l4, rfl⟩
  refine (historical_calm hE w4).mono ?_
  rintro - - ⟨w5, l5, m5, rfl⟩
  by_cases h0 : f = .Phase0
  · subst h0
    simp only [process_participation_record_updates, calm]
    exact ⟨⟨⟨w5.shaped.1, w5.shaped.2, w5.shaped.3, w5.shaped.4, w5.shaped.5, w5.shaped.6⟩,
      w5.balances, w5.slot, w5.effective, w5.exit, w5.eligible⟩, e2⟩
  · have hact := a2' h0
    rw [← e2] at hact ⊢
    have key := flags_then_sync_calm hE hx w5 hact
    cases f <;> first | exact absurd rfl h0 | exact key

/-! ## Slots -/

/-- The same state except for what `process_slot` records. -/
def Ticked (s t : State) : Prop := ∃ a b c, t = { s with
  state_roots := a
  latest_block_header := b
  block_roots := c }

theorem slot_calm (hE : SaneConfig E) (h : Wellformed E s) :
    CalmM (process_slot E f) (fun _ s' => Wellformed E s' ∧ Ticked s s') s := by
  have hm := Nat.mod_lt s.slot (show 0 < E.slots_per_historical_root by
    have := hE.slots_per_historical_root; omega)
  have h1 := h.shaped.block_roots
  have h2 := h.shaped.state_roots
  have hpos := hE.slots_per_historical_root
  unfold process_slot
  simp only [calm]
  refine ⟨by omega, by omega, by omega, by omega, ⟨⟨?_, ?_, h.shaped.3, h.shaped.4, h.shaped.5,
    h.shaped.6⟩, h.balances, h.slot, h.effective, h.exit, h.eligible⟩, ⟨_, _, _, rfl⟩⟩
  · simpa using h1
  · simpa using h2

/-- `W`: a state epoch processing never leaves for the worse; `R`: it is ready for epoch
processing. -/
structure Steady (E : Env) (f : Fork) (W R : State → Prop) : Prop where
  wf : ∀ s, W s → Wellformed E s
  tick : ∀ s t, W s → Ticked s t → Wellformed E t → W t
  move : ∀ s n, W s → n < 2 ^ 48 → W { s with slot := n }
  epoch : ∀ s, W s → R s → CalmM (process_epoch E f) (fun _ s' => W s' ∧ s'.slot = s.slot) s
  tickR : ∀ s t, R s → Ticked s t → R t
  moveR : ∀ s n, R s → epochOf E n = epochOf E s.slot → R { s with slot := n }

theorem Ticked.ready {t : State} (h : Ticked s t) (he : EpochReady E f s) : EpochReady E f t := by
  obtain ⟨a, b, c, rfl⟩ := h
  exact ⟨he.1, he.2, he.3, he.4, he.5, he.6, he.7, he.8, he.9, fun hf a ha =>
    ⟨(he.records hf a ha).1, (he.records hf a ha).2, (he.records hf a ha).3,
      (he.records hf a ha).4⟩, he.11⟩

theorem wf_move (h : Wellformed E s) {n : Nat} (hn : n < 2 ^ 48) :
    Wellformed E { s with slot := n } :=
  ⟨⟨h.shaped.1, h.shaped.2, h.shaped.3, h.shaped.4, h.shaped.5, h.shaped.6⟩, h.balances, hn,
    h.effective, h.exit, h.eligible⟩

theorem steady (hE : SaneConfig E) (hq : SaneQuotients E) (hx : SaneEpochs E)
    (hf : f ≠ .Electra) : Steady E f (Wellformed E) (EpochReady E f) := by
  refine ⟨fun _ h => h, fun _ _ _ _ h => h, fun _ _ h hn => wf_move h hn,
    fun _ h he => epoch_calm hE hq hx hf h he, fun _ _ he ht => ht.ready he, fun s n he hn => ?_⟩
  refine ⟨he.1, he.2, he.3, he.4, ?_, he.6, he.7, he.8, fun hf => ?_, fun hf a ha =>
    ⟨(he.records hf a ha).1, (he.records hf a ha).2, (he.records hf a ha).3,
      (he.records hf a ha).4⟩, fun hf => ?_⟩
  · have := he.5; rwa [← hn] at this
  · have := he.9 hf; rwa [← hn] at this
  · have := he.11 hf; rwa [← hn] at this

variable {W R : State → Prop}

/-- One slot. Unless it is the last of its epoch, only the slot number and what `process_slot`
records change. -/
theorem step_calm (hE : SaneConfig E) (st : Steady E f W R) (h : W s) (hs : s.slot + 1 < 2 ^ 48)
    (he : (s.slot + 1) % E.slots_per_epoch = 0 → R s) :
    CalmM (slot_step E f) (fun _ s' => W s' ∧
      ((s.slot + 1) % E.slots_per_epoch ≠ 0 → ∃ t, Ticked s t ∧
        s' = { t with slot := s.slot + 1 })) s := by
  have hU : U64_BOUND = 2 ^ 64 := rfl
  have hpos := hE.slots_per_epoch
  unfold slot_step
  simp only [CalmM_bind]
  refine (slot_calm hE (st.wf s h)).mono ?_
  rintro - t ⟨wt, ht⟩
  have hts : t.slot = s.slot := by obtain ⟨a, b, c, rfl⟩ := ht; rfl
  have hW := st.tick s t h ht wt
  unfold process_epoch_if_due
  simp only [calm]
  refine ⟨by omega, by omega, fun h0 => ?_, fun h0 => ⟨by omega, st.move t _ hW (by omega),
    fun _ => ⟨t, ht, ?_⟩⟩⟩
  · rw [hts] at h0
    refine (st.epoch t hW (st.tickR s t (he h0) ht)).mono ?_
    rintro - u ⟨wu, hu⟩
    exact ⟨by omega, st.move u _ wu (by omega), fun hn => absurd h0 hn⟩
  · rw [hts]

theorem slots_loop_calm (hE : SaneConfig E) (st : Steady E f W R) {slot n : Nat} (h : W s)
    (hn : s.slot + n = slot) (hs : slot < 2 ^ 48)
    (he : ∀ m t, m < n → slots_loop E f (s.slot + m) m s = .ok () t →
      (t.slot + 1) % E.slots_per_epoch = 0 → R t) :
    CalmM (slots_loop E f slot n) (fun _ s' => W s') s := by
  induction n generalizing s with
  | zero =>
    unfold slots_loop
    simp only [calm]
    exact ⟨fun _ => rfl, fun _ => h⟩
  | succ n ih =>
    rw [slots_loop]
    simp only [calm]
    refine ⟨fun hlt => ?_, fun _ => h⟩
    refine (step_calm hE st h (by omega) fun h0 => he 0 s (by omega)
      (slots_loop_zero.2 ⟨by omega, rfl⟩) h0).mono' ?_
    rintro ⟨⟩ t ht ⟨wt, -⟩
    have hts := slot_step_slot ht
    refine ih wt (by omega) fun m u hm hu => he (m + 1) u (by omega)
      (slots_loop_succ.2 (.inl ⟨by omega, t, ht, ?_⟩))
    rw [hts] at hu
    rw [← hu]
    congr 1
    omega

theorem slots_calm (hE : SaneConfig E) (st : Steady E f W R) {slot : Nat} (h : W s)
    (hs : slot < 2 ^ 48)
    (he : ∀ t, (t = s ∨ ∃ k < slot, process_slots E f k s = .ok () t) →
      (t.slot + 1) % E.slots_per_epoch = 0 → R t) :
    CalmM (process_slots E f slot) (fun _ s' => W s' ∧ s'.slot = slot) s := by
  have key : CalmM (process_slots E f slot) (fun _ s' => W s') s := by
    unfold process_slots
    simp only [calm]
    refine ⟨fun _ => rfl, fun hlt => slots_loop_calm hE st h (by simp at hlt; omega) hs
      fun m t hm ht => he t ?_⟩
    by_cases h0 : m = 0
    · subst h0
      exact .inl (slots_loop_zero.1 ht).2
    · refine .inr ⟨s.slot + m, by omega, ?_⟩
      rw [process_slots_eq, if_pos (by omega), show s.slot + m - s.slot = m by omega]
      exact ht
  exact key.mono' fun _ t ht hw => ⟨hw, (process_slots_slot ht).2⟩

/-- Within an epoch nothing changes that epoch processing depends on. -/
theorem ready_carried (hE : SaneConfig E) (st : Steady E f W R) {m : Nat} {t : State} (h : W s)
    (hs : s.slot + m < 2 ^ 48) (he : R s) (hm : epochOf E (s.slot + m) = epochOf E s.slot)
    (hok : slots_loop E f (s.slot + m) m s = .ok () t) : R t := by
  have hpos := hE.slots_per_epoch
  induction m generalizing s with
  | zero => obtain ⟨_, rfl⟩ := slots_loop_zero.1 hok; exact he
  | succ m ih =>
    rcases slots_loop_succ.1 hok with ⟨_, u, h1, h2⟩ | ⟨h1, _⟩
    swap
    · omega
    have hlow : epochOf E (s.slot + 1) = epochOf E s.slot := by
      have a1 : s.slot / E.slots_per_epoch ≤ (s.slot + 1) / E.slots_per_epoch :=
        Nat.div_le_div_right (by omega)
      have a2 : (s.slot + 1) / E.slots_per_epoch ≤ (s.slot + (m + 1)) / E.slots_per_epoch :=
        Nat.div_le_div_right (by omega)
      unfold epochOf at *
      omega
    have hne : (s.slot + 1) % E.slots_per_epoch ≠ 0 := by
      intro h0
      have b1 := Nat.div_add_mod (s.slot + 1) E.slots_per_epoch
      have b2 := Nat.div_add_mod s.slot E.slots_per_epoch
      unfold epochOf at hlow
      rw [hlow] at b1
      omega
    obtain ⟨wu, hu⟩ := (step_calm hE st h (by omega) fun _ => he).ok h1
    obtain ⟨v, hv, rfl⟩ := hu hne
    have hev := st.tickR _ _ he hv
    have hvs : v.slot = s.slot := by obtain ⟨a, b, c, rfl⟩ := hv; rfl
    refine ih wu (by simp only; omega) (st.moveR v _ hev (by rw [hvs, hlow])) ?_ ?_
    · simp only
      rw [show s.slot + 1 + m = s.slot + (m + 1) by omega, hm, hlow]
    · rw [← h2]
      congr 1
      simp only
      omega

/-- To a slot of this epoch or of the next, one readiness condition suffices. -/
theorem next_epoch_calm (hE : SaneConfig E) (st : Steady E f W R) {slot : Nat} (h : W s) (he : R s)
    (hs : slot < 2 ^ 48) (hn : epochOf E slot ≤ epochOf E s.slot + 1) :
    CalmM (process_slots E f slot) (fun _ s' => W s' ∧ s'.slot = slot) s := by
  have hpos := hE.slots_per_epoch
  refine slots_calm hE st h hs ?_
  rintro t (rfl | ⟨k, hk, ht⟩) h0
  · exact he
  obtain ⟨hlt, hts⟩ := process_slots_slot ht
  rw [process_slots_eq, if_pos hlt] at ht
  have hsum : s.slot + (k - s.slot) = k := by omega
  rw [hts] at h0
  refine ready_carried (m := k - s.slot) hE st h (by omega) he ?_ (by rw [hsum]; exact ht)
  rw [hsum]
  have a1 : (k + 1) / E.slots_per_epoch ≤ slot / E.slots_per_epoch :=
    Nat.div_le_div_right (by omega)
  have a2 : s.slot / E.slots_per_epoch ≤ k / E.slots_per_epoch :=
    Nat.div_le_div_right (by omega)
  have a3 : k / E.slots_per_epoch + 1 = (k + 1) / E.slots_per_epoch := by
    rw [Nat.succ_div, if_pos (Nat.dvd_of_mod_eq_zero h0)]
  unfold epochOf at *
  omega

theorem transition_calm (hE : SaneConfig E) {b : SignedBeaconBlock} {v : Validation}
    (hslots : CalmM (process_slots E f b.message.slot)
      (fun _ s' => W s' ∧ s'.slot = b.message.slot) s)
    (hb : ∀ t, process_slots E f b.message.slot s = .ok () t → W t →
      CalmM (process_block E f b.message) (fun _ s' => W s' ∧ s'.slot = t.slot) t) :
    CalmM (state_transition E f b v) (fun _ s' => W s') s := by
  unfold state_transition state_transition_block_in_slot
  simp only [CalmM_bind]
  refine hslots.mono' ?_
  rintro ⟨⟩ t ht ⟨wt, -⟩
  have hsig : CalmM (verify_block_signature_if E f v b) (fun _ s' => s' = t) t := by
    unfold verify_block_signature_if
    cases v
    · unfold verify_block_signature
      simp only [calm]
      refine ⟨fun _ _ => (get_domain_calm hE).mono fun _ _ => ?_, fun _ => rfl⟩
      unfold verify_signed_data
      simp only [calm]
      exact ⟨fun _ => rfl, fun _ => trivial⟩
    · rfl
  refine hsig.mono ?_
  rintro - _ rfl
  refine (hb _ ht wt).mono ?_
  rintro - u ⟨wu, -⟩
  simp only [calm]
  exact ⟨fun _ => rfl, fun _ => wu⟩

end Verif
