import Verif.Proofs.AdvanceBlock
import Verif.Props.Progress
import Verif.Props.Rotation

/-! # C96: the chain is never stuck

C55 and C66 say that processing does not panic; C96 says when it succeeds. Epoch processing and slot
processing always do, but for the draw of a sync committee; a block without operations does exactly
when it fits the state; and whoever is elected can always make one. -/

namespace Verif.Props

open Spec

variable {E : Env} {f : Fork} {s : State}

theorem signers_none (keys : List PublicKey) (n : Nat) :
    signers keys (List.replicate n false) = [] := by
  induction n generalizing keys with
  | zero => cases keys <;> rfl
  | succ n ih =>
    cases keys with
    | nil => rfl
    | cons k ks => rw [List.replicate_succ, signers, if_neg (by simp), ih]

/-- **C96** Epoch processing succeeds. When a period of sync committees ends with the epoch, the
draw of the next one may run out of fuel or meet a key that is no point of the curve. -/
theorem C96_epoch (hE : SaneConfig E) (hq : SaneQuotients E) (hx : SaneEpochs E) (hk : SaneClock E)
    (hf : f ≠ .Electra) (h : Wellformed E s) (he : EpochReady E f s) (hc : Countable E f s)
    (hs : (s.slot + 1) % E.slots_per_epoch = 0) :
    (∃ s', process_epoch E f s = .ok () s') ∨
      f ≠ .Phase0 ∧ DrawSlot E (s.slot + 1) ∧
        ∃ e s', process_epoch E f s = .error e s' ∧ (e = .diverged ∨ e = .bls) := by
  have h1 : s.slot % E.slots_per_epoch ≠ 0 := by
    have h2 := hk.epoch
    intro h0
    rw [Nat.add_mod, h0, Nat.zero_add, Nat.mod_mod, Nat.mod_eq_of_lt (by omega)] at hs
    cases hs
  rcases ((epoch_calm hE hq hx hf h he).sure (epoch_firm hE hq hx hk hf h he hc h1)).cases with
    ⟨s', h2, -⟩ | ⟨e, s', h2, h3, h4, h5⟩
  · exact .inl ⟨s', h2⟩
  · exact .inr ⟨h3, draw_slot hs h4, e, s', h2, h5⟩

/-- **C96** The state can be advanced to any slot of its epoch and of the next, with the same
exception. -/
theorem C96_slots (hE : SaneConfig E) (hq : SaneQuotients E) (hx : SaneEpochs E) (hk : SaneClock E)
    (hf : f ≠ .Electra) (h : Wellformed E s) (he : EpochReady E f s) (hc : Countable E f s)
    {slot : Nat} (hlt : s.slot < slot) (hs : slot < 2 ^ 48)
    (hn : epochOf E slot ≤ epochOf E s.slot + 1) :
    (∃ s', process_slots E f slot s = .ok () s' ∧ Wellformed E s' ∧ s'.slot = slot) ∨
      f ≠ .Phase0 ∧ (∃ n, s.slot < n ∧ n ≤ slot ∧ DrawSlot E n) ∧
        ∃ e s', process_slots E f slot s = .error e s' ∧ (e = .diverged ∨ e = .bls) := by
  rcases (next_epoch_sure hE hk (driven hE hq hx hk hf) h ⟨he, hc⟩ hlt hs hn).cases with
    h | ⟨e, s', h, h1, h2, h3⟩
  · exact .inl h
  · exact .inr ⟨h1, h2, e, s', h, h3⟩

/-- **C96** So it is certain in phase0, and later if no committee is drawn on the way. -/
theorem C96_slots_certain (hE : SaneConfig E) (hq : SaneQuotients E) (hx : SaneEpochs E)
    (hk : SaneClock E) (hf : f ≠ .Electra) (h : Wellformed E s) (he : EpochReady E f s)
    (hc : Countable E f s) {slot : Nat} (hlt : s.slot < slot) (hs : slot < 2 ^ 48)
    (hn : epochOf E slot ≤ epochOf E s.slot + 1)
    (hd : f = .Phase0 ∨ ∀ n, s.slot < n → n ≤ slot → ¬ DrawSlot E n) :
    ∃ s', process_slots E f slot s = .ok () s' ∧ Wellformed E s' ∧ s'.slot = slot := by
  rcases C96_slots hE hq hx hk hf h he hc hlt hs hn with h | ⟨h1, ⟨n, h2, h3, h4⟩, -⟩
  · exact h
  · rcases hd with hd | hd
    · exact absurd hd h1
    · exact absurd h4 (hd n h2 h3)

/-- Committees of this epoch and the one before are the same in the next slot. -/
theorem next_committee {s' : State} (hslot : s.slot < 2 ^ 63)
    (hV : E.min_seed_lookahead + 3 < E.epochs_per_historical_vector) (h : History E f s s')
    {slot : Nat} (hl : epochOf E slot ≤ epochOf E s.slot)
    (hr : epochOf E s'.slot ≤ epochOf E slot + 1) (index : Nat) :
    get_beacon_committee E s' slot index = get_beacon_committee E s slot index := by
  have h0 : epochOf E s.slot ≤ s.slot := Nat.div_le_self _ _
  refine committee_decided (history_pres (dutyPre E) (fun _ => entry_duty) h)
    (history_pres (mixPre E) (fun _ => entry_mix) h) ?_ ?_ ?_ ?_
  · unfold decided; omega
  · unfold FAR_FUTURE_EPOCH; omega
  · omega
  · omega

/-- **C96** What phase0 needs of the recorded votes always holds: blocks record only such votes. -/
theorem C96_votes_block (hE : SaneConfig E) (hmax : 0 < E.max_deposits)
    (hV : E.min_seed_lookahead + 3 < E.epochs_per_historical_vector) (hslot : s.slot < 2 ^ 63)
    (hreg : s.validators.length ≤ 2 ^ 40) (hc : CountableVotes E s) {b : BeaconBlock} {s' : State}
    (h : process_block E .Phase0 b s = .ok () s') : CountableVotes E s' := by
  obtain ⟨k1, k2, k3⟩ := C86_attestations_phase0 hE hmax hV hslot hreg h
  have hh : History E .Phase0 s s' := by
    have := History.call (.start (E := E) (f := .Phase0) (s := s)) (.process_block b)
    unfold finalState at this
    rw [h] at this
    exact this
  have hs : s'.slot = s.slot := block_mod.toOk.ok h .slot (by decide)
  have hcom : ∀ {slot : Nat}, epochOf E slot ≤ epochOf E s.slot →
      epochOf E s.slot ≤ epochOf E slot + 1 → ∀ i,
      get_beacon_committee E s' slot i = get_beacon_committee E s slot i := fun h1 h2 i =>
    next_committee hslot hV hh h1 (by rw [hs]; exact h2) i
  have new : ∀ a ∈ b.body.attestations, ∃ c,
      get_beacon_committee E s' a.data.slot a.data.index = .ok c ∧
        a.aggregation_bits.length = c.length := by
    intro a ha
    obtain ⟨ht, l, hl⟩ := k1 a ha
    obtain ⟨c, h1, h2, -⟩ := hl.members
    have h3 := ht.slot
    have h4 := ht.target
    exact ⟨c, (hcom (by omega) (by omega) _).trans h1, h2⟩
  refine ⟨fun a ha => ?_, fun a ha => ?_, fun a ha => ?_⟩
  · rw [k2, k3] at ha
    simp only [List.mem_append, List.mem_map, List.mem_filter] at ha
    rcases ha with (ha | ⟨x, hx, rfl⟩) | ha | ⟨x, hx, rfl⟩
    · obtain ⟨c, h1, h2⟩ := hc.committee a (List.mem_append_left _ ha)
      have := hc.previous a ha
      exact ⟨c, (hcom (by omega) (by omega) _).trans h1, h2⟩
    · exact new x hx.1
    · obtain ⟨c, h1, h2⟩ := hc.committee a (List.mem_append_right _ ha)
      have := hc.current a ha
      exact ⟨c, (hcom (by omega) (by omega) _).trans h1, h2⟩
    · exact new x hx.1
  · rw [k3] at ha
    rw [hs]
    simp only [List.mem_append, List.mem_map, List.mem_filter] at ha
    rcases ha with ha | ⟨x, ⟨hx, hne⟩, rfl⟩
    · exact hc.previous a ha
    · obtain ⟨ht, -⟩ := k1 x hx
      rcases ht.target with h1 | h1
      · simp [h1] at hne
      · exact ht.slot.trans h1
  · rw [k2] at ha
    rw [hs]
    simp only [List.mem_append, List.mem_map, List.mem_filter] at ha
    rcases ha with ha | ⟨x, ⟨hx, heq⟩, rfl⟩
    · exact hc.current a ha
    · exact (k1 x hx).1.slot.trans (by simpa using heq)

theorem votes_slot (hE : SaneConfig E)
    (hV : E.min_seed_lookahead + 3 < E.epochs_per_historical_vector) (hslot : s.slot < 2 ^ 63)
    (hc : CountableVotes E s) {s' : State}
    (h : process_slots E .Phase0 (s.slot + 1) s = .ok () s') : CountableVotes E s' := by
  have hpos := hE.slots_per_epoch.1
  have hh : History E .Phase0 s s' := by
    have := History.call (.start (E := E) (f := .Phase0) (s := s)) (.process_slots (s.slot + 1))
    unfold finalState at this
    rw [h] at this
    exact this
  have hs : s'.slot = s.slot + 1 := (process_slots_slot h).2
  by_cases hl : (s.slot + 1) % E.slots_per_epoch = 0
  · have he : epochOf E s'.slot = epochOf E s.slot + 1 := by
      unfold epochOf
      rw [hs, Nat.succ_div, if_pos (Nat.dvd_of_mod_eq_zero hl)]
    obtain ⟨k1, k2⟩ := (C62_epoch_end E .Phase0 s s' hl h).1 rfl
    refine ⟨fun a ha => ?_, fun a ha => ?_, fun a ha => ?_⟩
    · rw [k1, k2, List.append_nil] at ha
      obtain ⟨c, h1, h2⟩ := hc.committee a (List.mem_append_right _ ha)
      have := hc.current a ha
      exact ⟨c, (next_committee hslot hV hh (by omega) (by omega) _).trans h1, h2⟩
    · rw [k1] at ha
      have := hc.current a ha
      omega
    · rw [k2] at ha; cases ha
  · have he : epochOf E s'.slot = epochOf E s.slot := by
      unfold epochOf
      rw [hs, Nat.succ_div, if_neg (fun hd => hl (Nat.mod_eq_zero_of_dvd hd))]
      rfl
    obtain ⟨k1, k2, -⟩ := C62_within_epoch E .Phase0 s s' hl h
    refine ⟨fun a ha => ?_, fun a ha => ?_, fun a ha => ?_⟩
    · rw [k1, k2] at ha
      obtain ⟨c, h1, h2⟩ := hc.committee a ha
      have : epochOf E a.data.slot ≤ epochOf E s.slot ∧
          epochOf E s.slot ≤ epochOf E a.data.slot + 1 := by
        rcases List.mem_append.1 ha with ha | ha
        · have := hc.previous a ha; omega
        · have := hc.current a ha; omega
      exact ⟨c, (next_committee hslot hV hh (by omega) (by omega) _).trans h1, h2⟩
    · rw [k1] at ha; rw [he]; exact hc.previous a ha
    · rw [k2] at ha; rw [he]; exact hc.current a ha

/-- **C96** And however many slots pass. -/
theorem C96_votes_slots (hE : SaneConfig E)
    (hV : E.min_seed_lookahead + 3 < E.epochs_per_historical_vector) {slot : Nat}
    (hslot : slot < 2 ^ 63) (hc : CountableVotes E s) {s' : State}
    (h : process_slots E .Phase0 slot s = .ok () s') : CountableVotes E s' := by
  have hlt := (process_slots_slot h).1
  obtain ⟨n, rfl⟩ : ∃ n, slot = s.slot + 1 + n := ⟨slot - s.slot - 1, by omega⟩
  induction n generalizing s with
  | zero => exact votes_slot hE hV (by omega) hc h
  | succ n ih =>
    rw [← process_slots_split (a := s.slot + 1) (by omega) (by omega)] at h
    simp only [run] at h
    obtain ⟨t, h1, h2⟩ := h
    have ht := (process_slots_slot h1).2
    have e : s.slot + 1 + (n + 1) = t.slot + 1 + n := by omega
    rw [e] at h2
    exact ih (votes_slot hE hV (by omega) hc h1) (by omega) h2 (by omega)

/-- **C96** A block without operations is accepted exactly when it fits the state. -/
theorem C96_block (hE : SaneConfig E) (hq : SaneQuotients E) (hmax : 0 < E.max_deposits)
    (hV : E.min_seed_lookahead + 2 < E.epochs_per_historical_vector) (hf : f ≠ .Electra)
    (h : Wellformed E s) (b : BeaconBlock) (hb : BlockReady E f s b.body)
    (hn : NoOperations b.body) :
    (∃ s', process_block E f b s = .ok () s') ↔ Acceptable E f s b := by
  constructor
  · rintro ⟨s', hok⟩
    refine ⟨(C86_header hmax hok).1, (C86_reveal hE hmax hok).1,
      fun hp => ((C86_payload hE hmax hok).1 hp).1, fun hw => ?_, ?_, fun h0 => C86_sync hmax h0 hok⟩
    · have hf' : f = .Capella ∨ f = .Deneb := by
        revert hw hf; cases f <;> simp [Fork.withdraws]
      exact (C86_withdrawals hE hmax hf' (hb.sweep (by rcases hf' with rfl | rfl <;> decide)) hok).1
    · obtain ⟨-, -, hc⟩ := C86_deposits hE hmax hok
      have hv := (C86_vote hmax hok).2
      have : eth1After E s b.body = s'.eth1_data := hv.symm
      rw [this]
      unfold RightCount at hc
      rw [hn.deposits] at hc
      have key : s.eth1_deposit_index ≤ s'.eth1_data.deposit_count ∧
          ([] : List Deposit).length =
            min E.max_deposits (s'.eth1_data.deposit_count - s.eth1_deposit_index) := by
        revert hc hf; cases f <;> simp
      simp only [List.length_nil] at key
      omega
  · intro ha
    obtain ⟨s', h1, -⟩ := plain_block hE hq hmax hV hf h hb hn ha
    exact ⟨s', h1⟩

/-- **C96** In every state somebody can propose in, there is a block that is accepted, with all
checks: the proposer signs the epoch and the block, and the engine builds the payload. -/
theorem C96_block_exists (hE : SaneConfig E) (hq : SaneQuotients E) (hmax : 0 < E.max_deposits)
    (hV : E.min_seed_lookahead + 2 < E.epochs_per_historical_vector) (hf : f ≠ .Electra)
    (h : Wellformed E s) (he : Fork.Bellatrix.ord ≤ f.ord → EngineBuilds E f) {p : Nat}
    (hp : CanPropose E s p) (hb : BlockReady E f s (quietBody E s (zeroBytes 96) defaultPayload)) :
    ∃ b : SignedBeaconBlock, b.message.slot = s.slot ∧ b.message.proposer_index = p ∧
      NoOperations b.message.body ∧
      ∃ s', state_transition_block_in_slot E f b .Enabled s = .ok () s' ∧ Wellformed E s' := by
  obtain ⟨hfresh, hel, ⟨v, hv, hsl, hsign⟩, hdep⟩ := hp
  have hpos := hE.slots_per_epoch
  obtain ⟨mix, hmix⟩ := mixAt_exists (e := epochOf E s.slot) hE h
  obtain ⟨reveal, hrev⟩ := hsign (E.signing_data_root (E.u64_root (epochOf E s.slot))
    (domainAt E s .Randao (epochOf E s.slot)))
  obtain ⟨ws, hws⟩ : ∃ ws, Fork.withdraws f = true →
      Pays E f s ((creditors E f s).take E.max_withdrawals_per_payload) s.next_withdrawal_index
        ws := by
    by_cases hw : Fork.withdraws f = true
    · obtain ⟨ws, -, h2⟩ := expected_eq hE hf (hb.sweep (by revert hw; cases f <;> decide))
      exact ⟨ws, fun _ => h2⟩
    · exact ⟨[], fun h => absurd h hw⟩
  obtain ⟨pl, hpw, hpl⟩ : ∃ pl : ExecutionPayload,
      (Fork.withdraws f = true → pl.withdrawals = ws) ∧
      (Fork.Bellatrix.ord ≤ f.ord →
        pl.parent_hash = s.latest_execution_payload_header.block_hash ∧ pl.prev_randao = mix ∧
        pl.timestamp = s.genesis_time + s.slot * E.seconds_per_slot ∧
        ∀ t body, t.latest_block_header.parent_root = E.header_root s.latest_block_header →
          body.execution_payload = pl → body.blob_kzg_commitments = [] →
          E.engine_accepts (payload_request E f t body) = true) := by
    by_cases ho : Fork.Bellatrix.ord ≤ f.ord
    · obtain ⟨pl, h1, h2, h3, h4, h5⟩ := he ho s.latest_execution_payload_header.block_hash mix
        (s.genesis_time + s.slot * E.seconds_per_slot) ws (E.header_root s.latest_block_header)
      exact ⟨pl, fun _ => h4, fun _ => ⟨h1, h2, h3, h5⟩⟩
    · exact ⟨defaultPayload, fun hw => absurd (by revert hw; cases f <;> decide) ho,
        fun h => absurd h ho⟩
  let body := quietBody E s reveal pl
  let blk : Root → BeaconBlock := fun r =>
    ⟨s.slot, p, E.header_root s.latest_block_header, r, body⟩
  have hready : BlockReady E f s body :=
    ⟨hb.1, hb.2, hb.3, hb.4, hb.5, hb.6, hb.7, hb.8, hb.9, hb.10, hb.11, hb.12, hb.13⟩
  have hno : NoOperations body := ⟨rfl, rfl, rfl, rfl, rfl, rfl⟩
  have hacc : Acceptable E f s (blk (zeroBytes 32)) := by
    refine ⟨⟨rfl, hfresh, hel, rfl, v, hv, hsl⟩, ⟨p, v, hel, hv, hrev⟩, fun hp => ?_, fun hw => ?_,
      ?_, fun h0 => ?_⟩
    · have ho : Fork.Bellatrix.ord ≤ f.ord := by
        revert hp; cases f <;> simp [HasPayload, Fork.ord]
      obtain ⟨k1, k2, k3, k4⟩ := hpl ho
      refine ⟨fun _ => k1, ?_, k3, ?_, fun _ => Nat.zero_le _, k4 _ _ rfl rfl rfl⟩
      · show mixAt E s (epochOf E s.slot) = some pl.prev_randao
        rw [k2]; exact hmix
      · exact hb.clock ho
    · show Pays E f s _ _ pl.withdrawals
      rw [hpw hw]; exact hws hw
    · show (eth1After E s body).deposit_count = s.eth1_deposit_index
      unfold eth1After
      rw [show body.eth1_data = s.eth1_data from rfl, ite_self]
      exact hdep
    · have hr : ∃ r, get_block_root_at_slot E s (s.slot - 1) = .ok r := by
        have hh := hE.slots_per_historical_root
        have hl := h.shaped.block_roots
        have hm := Nat.mod_lt (s.slot - 1) (show 0 < E.slots_per_historical_root by omega)
        have hslot := h.slot
        refine ⟨_, block_root_at_slot_eq_ok.2 ⟨by omega, by omega, by unfold U64_BOUND; omega,
          by omega, List.getElem?_eq_getElem (by rw [hl]; exact hm)⟩⟩
      obtain ⟨r, hr⟩ := hr
      exact ⟨r, hr, .inl ⟨signers_none _ _, rfl⟩⟩
  obtain ⟨s', hok, hwf, -⟩ := plain_block hE hq hmax hV hf h hready hno hacc
  obtain ⟨sig, hsig⟩ := hsign (E.signing_data_root (E.block_root f (blk (E.state_root f s')))
    (domainAt E s .BeaconProposer (epochOf E s.slot)))
  refine ⟨⟨blk (E.state_root f s'), sig⟩, rfl, rfl, hno, s', ?_, hwf⟩
  exact (block_in_slot_enabled (Nat.ne_of_gt hpos.1)).2 ⟨⟨v, hv, hsig⟩, hok, rfl⟩

/-- **C96** The chain goes on: from any state a block can be put into any slot of this epoch and of
the next, if somebody can propose there. -/
theorem C96_goes_on (hE : SaneConfig E) (hq : SaneQuotients E) (hx : SaneEpochs E)
    (hk : SaneClock E) (hmax : 0 < E.max_deposits)
    (hV : E.min_seed_lookahead + 2 < E.epochs_per_historical_vector) (hf : f ≠ .Electra)
    (h : Wellformed E s) (hr : EpochReady E f s) (hc : Countable E f s)
    {slot : Nat} (hlt : s.slot < slot) (hs : slot < 2 ^ 48)
    (hn : epochOf E slot ≤ epochOf E s.slot + 1)
    (hd : f = .Phase0 ∨ ∀ n, s.slot < n → n ≤ slot → ¬ DrawSlot E n)
    (he : Fork.Bellatrix.ord ≤ f.ord → EngineBuilds E f)
    (hp : ∀ t, process_slots E f slot s = .ok () t →
      (∃ p, CanPropose E t p) ∧ BlockReady E f t (quietBody E t (zeroBytes 96) defaultPayload)) :
    ∃ b : SignedBeaconBlock, b.message.slot = slot ∧
      ∃ s', state_transition E f b .Enabled s = .ok () s' ∧ Wellformed E s' := by
  obtain ⟨t, ht, hwt, hts⟩ := C96_slots_certain hE hq hx hk hf h hr hc hlt hs hn hd
  obtain ⟨⟨p, hp⟩, hb⟩ := hp t ht
  obtain ⟨b, h1, -, -, s', h2, h3⟩ := C96_block_exists hE hq hmax hV hf hwt he hp hb
  exact ⟨b, h1.trans hts, s', transition_eq_ok.2 ⟨t, by rw [h1, hts]; exact ht, h2⟩, h3⟩

/-! ## The hypotheses hold of concrete states -/

theorem toy_clock : SaneClock Toy.env := by constructor <;> decide +kernel

/-- In phase0, with attestations of every validator recorded. -/
theorem diligent_countable : Countable Toy.env .Phase0 diligent := by
  refine ⟨by decide +kernel, fun _ => ⟨?_, by decide +kernel, by decide +kernel⟩⟩
  have key : ∀ a ∈ diligent.previous_epoch_attestations ++ diligent.current_epoch_attestations,
      (match get_beacon_committee Toy.env diligent a.data.slot a.data.index with
        | .ok c => decide (a.aggregation_bits.length = c.length)
        | .error _ => false) = true := by decide +kernel
  intro a ha
  have := key a ha
  split at this
  · rename_i c hc
    exact ⟨c, hc, by simpa using this⟩
  · cases this

example : diligent.previous_epoch_attestations.length = 8 ∧
    (diligent.slot + 1) % Toy.env.slots_per_epoch = 0 := by decide +kernel

example : ∃ s', process_slots Toy.env .Phase0 24 diligent = .ok () s' ∧ Wellformed Toy.env s' ∧
    s'.slot = 24 :=
  C96_slots_certain toy_sane toy_quotients toy_epochs toy_clock (by decide) diligent_wellformed
    diligent_ready diligent_countable (by decide) (by decide) (by decide) (.inl rfl)

/-- A vote recorded by a block can be counted, and can still be when the next epoch has begun. -/
example :
    let b := Toy.block (Toy.state 20 20) { Toy.body (Toy.state 20 20) with attestations := [ballot] }
    let s := finalState (process_block Toy.env .Phase0 b) (Toy.state 20 20)
    let t := finalState (process_slots Toy.env .Phase0 25) s
    s.current_epoch_attestations.length = 1 ∧ t.previous_epoch_attestations.length = 1 ∧
      CountableVotes Toy.env s ∧ CountableVotes Toy.env t := by
  intro b s t
  have h1 : process_block Toy.env .Phase0 b (Toy.state 20 20) = .ok () s :=
    Toy.ok_of_succeeds (by decide +kernel)
  have h2 : process_slots Toy.env .Phase0 25 s = .ok () t :=
    Toy.ok_of_succeeds (by decide +kernel)
  have k1 := C96_votes_block toy_sane (by decide) (by decide) (by decide) (by decide)
    ⟨by simp [Toy.state], by simp [Toy.state], by simp [Toy.state]⟩ h1
  exact ⟨by decide +kernel, by decide +kernel, k1,
    C96_votes_slots toy_sane (by decide) (by decide) k1 h2⟩

/-- In deneb, at the end of a period of sync committees. -/
theorem busyEpoch_countable : Countable Toy.env .Deneb busyEpoch :=
  ⟨by decide +kernel, fun h => absurd h (by decide)⟩

example : DrawSlot Toy.env (busyEpoch.slot + 1) ∧ Toy.succeeds (process_epoch Toy.env .Deneb) busyEpoch = true := by
  unfold DrawSlot; decide +kernel

example := C96_epoch toy_sane toy_quotients toy_epochs toy_clock (f := .Deneb) (by decide)
  busyEpoch_wellformed busyEpoch_ready busyEpoch_countable (by decide)

/-- The exception is real: with no fuel at all, no committee can be drawn. -/
example : Toy.errorOf (process_epoch { Toy.env with fuel := 0 } .Deneb) busyEpoch =
    some .diverged := by decide +kernel

theorem lastSlot_countable : Countable Toy.env .Deneb lastSlot :=
  ⟨by decide +kernel, fun h => absurd h (by decide)⟩

theorem nextEpoch_eq {t : State} (ht : process_slots Toy.env .Deneb 16 lastSlot = .ok () t) :
    t = nextEpoch := by
  unfold nextEpoch finalState; rw [ht]

theorem nextEpoch_wellformed : Wellformed Toy.env nextEpoch := by
  obtain ⟨t, ht, hw, -⟩ := C96_slots_certain toy_sane toy_quotients toy_epochs toy_clock
    (f := .Deneb) (by decide) lastSlot_wellformed lastSlot_ready lastSlot_countable (slot := 16)
    (by decide) (by decide) (by decide) (.inr fun n h1 h2 => by
      have : n = 16 := by have : lastSlot.slot = 15 := rfl; omega
      subst this; unfold DrawSlot; decide)
  rw [← nextEpoch_eq ht]; exact hw

theorem quiet_ready {b : BeaconBlockBody} (h : BlockReady E f s b) (r : Signature)
    (p : ExecutionPayload) : BlockReady E f s (quietBody E s r p) := by
  have h6 := h.registry
  exact ⟨h.1, h.2, h.3, by simp [quietBody, Spec.depositTotal], by simp [quietBody],
    by simp only [quietBody, List.length_nil]; omega, h.7, ⟨h.8.1, h.8.1⟩, ⟨h.9.1, h.9.1⟩, h.10,
    h.11, h.12, h.13⟩

theorem nextEpoch_quiet : BlockReady Toy.env .Deneb nextEpoch
    (quietBody Toy.env nextEpoch (zeroBytes 96) defaultPayload) := quiet_ready nextEpoch_ready _ _

theorem toy_builds (f : Fork) : EngineBuilds Toy.env f := by
  intro parent mix time ws root
  refine ⟨{ defaultPayload with
    parent_hash := parent, prev_randao := mix, timestamp := time, withdrawals := ws },
    rfl, rfl, rfl, rfl, fun s body _ h _ => ?_⟩
  cases f <;> simp only [payload_request, h] <;> rfl

theorem toy_signs (key : PublicKey) : CanSign Toy.env key := fun _ => ⟨Toy.goodSig, rfl⟩

theorem nextEpoch_proposer : ∃ p, CanPropose Toy.env nextEpoch p := by
  have key : (match get_beacon_proposer_index Toy.env nextEpoch with
      | .ok p => match nextEpoch.validators[p]? with
        | some v => !v.slashed
        | none => false
      | .error _ => false) = true := by decide +kernel
  split at key
  · rename_i p hp
    split at key
    · rename_i v hv
      exact ⟨p, by decide +kernel, hp, ⟨v, hv, by simpa using key, toy_signs _⟩, by decide +kernel⟩
    · cases key
  · cases key

/-- A block can be put into the first slot of the next epoch. -/
example : ∃ b : SignedBeaconBlock, b.message.slot = 16 ∧
    ∃ s', state_transition Toy.env .Deneb b .Enabled lastSlot = .ok () s' ∧ Wellformed Toy.env s' :=
  C96_goes_on toy_sane toy_quotients toy_epochs toy_clock (by decide) (by decide) (by decide)
    lastSlot_wellformed lastSlot_ready lastSlot_countable (by decide) (by decide) (by decide)
    (.inr fun n h1 h2 => by
      have : n = 16 := by have : lastSlot.slot = 15 := rfl; omega
      subst this; unfold DrawSlot; decide)
    (fun _ => toy_builds _)
    fun t ht => by rw [nextEpoch_eq ht]; exact ⟨nextEpoch_proposer, nextEpoch_quiet⟩

/-- The toy state in slot 20. -/
def dueBlock : State := Toy.state 20 20

theorem dueBlock_wellformed : Wellformed Toy.env dueBlock := by
  refine ⟨by constructor <;> decide +kernel, ?_, ?_, ?_, ?_, ?_⟩ <;> decide +kernel

theorem dueBlock_ready : BlockReady Toy.env .Deneb dueBlock (Toy.body dueBlock) := by
  refine ⟨?_, ?_, ?_, ?_, ?_, ?_, ?_, ?_, ?_, ?_, ?_, ?_, ?_⟩
  case refine_10 => unfold Parallel; decide +kernel
  case refine_11 => intro _; unfold ClockFits; decide +kernel
  case refine_12 => intro _; constructor <;> decide +kernel
  all_goals decide +kernel

/-- A block without operations, signed by the whole sync committee, that fits the state. -/
example : Acceptable Toy.env .Deneb dueBlock (Toy.block dueBlock (Toy.body dueBlock)) :=
  (C96_block toy_sane toy_quotients (by decide) (by decide) (by decide) dueBlock_wellformed _
    dueBlock_ready ⟨rfl, rfl, rfl, rfl, rfl, rfl⟩).1
    ⟨_, Toy.ok_of_succeeds (by decide +kernel)⟩

end Verif.Props
