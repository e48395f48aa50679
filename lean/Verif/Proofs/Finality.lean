import Verif.Proofs.Ballots

/-! # Justified and finalized checkpoints are backed by signatures -/

namespace Verif

open Spec

/-! ## Longer logs -/

theorem Spec.Justified.append {E : Env} {f₀ : Fork} {s₀ : State} {hs : List BeaconBlockHeader}
    {C : Checkpoint} (h : Justified E f₀ s₀ hs C) (hs' : List BeaconBlockHeader) :
    Justified E f₀ s₀ (hs ++ hs') C := by
  induction h with
  | genesis => exact .genesis
  | link _ h1 h2 h3 h4 ih =>
    exact .link ih h1 (h2.trans (List.prefix_append _ _)) h3 (rootAt_append h4)

theorem Spec.Finalized.append {E : Env} {f₀ : Fork} {s₀ : State} {hs : List BeaconBlockHeader}
    {C : Checkpoint} (h : Finalized E f₀ s₀ hs C) (hs' : List BeaconBlockHeader) :
    Finalized E f₀ s₀ (hs ++ hs') C := by
  rcases h with h | ⟨h1, f, t, past, Q, G, h2, h3, h4, h5⟩
  · exact Or.inl h
  · refine Or.inr ⟨h1.append hs', f, t, past, Q, G, h2, h3.trans (List.prefix_append _ _), h4, ?_⟩
    rcases h5 with h5 | ⟨h5, C, h6, h7⟩
    · exact Or.inl h5
    · exact Or.inr ⟨h5, C, h6, h7.append hs'⟩

theorem chain_length {E : Env} (hE : SaneConfig E)
    (hd : E.slots_per_epoch ∣ E.slots_per_historical_root) {f₀ f : Fork} {s₀ s : State}
    {hs : List BeaconBlockHeader} (hg : IsGenesis E f₀ s₀) (h : Chain E f₀ s₀ f s hs) :
    s.slot = hs.length := by
  obtain ⟨log, h1, h2⟩ := h.log hg
  have h3 := (chainLog_inv hE hd h1).slot
  have h4 := congrArg List.length h2
  simp only [List.length_map] at h4
  omega

theorem duty_length {E : Env} {s s' : State} (h : Duty E s s') :
    s.validators.length ≤ s'.validators.length := by
  rcases Nat.lt_or_ge s'.validators.length s.validators.length with h1 | h1
  · obtain ⟨w, hw, -⟩ := h.2.1 _ _ (List.getElem?_eq_getElem h1)
    have := (List.getElem?_eq_some_iff.1 hw).1
    omega
  · exact h1

theorem chain_genesis {E : Env} {f₀ f : Fork} {s₀ s : State} {hs : List BeaconBlockHeader}
    (h : Chain E f₀ s₀ f s hs) : s.genesis_validators_root = s₀.genesis_validators_root := by
  induction h with
  | start => rfl
  | slot _ h ih => exact (slots_mod.ok h .genesis_validators_root (by decide)).trans ih
  | block b _ ih => exact (block_mod.final _ .genesis_validators_root (by decide)).trans ih
  | upgrade _ _ h ih => exact (upgrade_duty h).2.2.trans ih

/-! ## Counting the votes -/

/-- What is known about the checkpoints of a chain. -/
structure FinalityInv (E : Env) (f₀ : Fork) (s₀ : State) (f : Fork) (s : State)
    (hs : List BeaconBlockHeader) : Prop where
  ballots : Ballots E f s hs
  current_early : s.current_justified_checkpoint.epoch + 1 ≤ epochOf E s.slot ∨
    s.current_justified_checkpoint.epoch = 0
  previous_early : s.previous_justified_checkpoint.epoch + 2 ≤ epochOf E s.slot ∨
    s.previous_justified_checkpoint.epoch = 0
  start : epochOf E s.slot ≤ 2 → s.current_justified_checkpoint = s.previous_justified_checkpoint
  current : Justified E f₀ s₀ hs s.current_justified_checkpoint
  previous : Justified E f₀ s₀ hs s.previous_justified_checkpoint
  length : s.justification_bits.length = 4
  bits : ∀ j : Nat, s.justification_bits[j]? = some true →
    1 < epochOf E s.slot ∧ ∃ C, C.epoch + j + 1 = epochOf E s.slot ∧ Justified E f₀ s₀ hs C
  last : s.justification_bits[0]? = some true → ∃ f t past Q C, Chain E f₀ s₀ f t past ∧
    past <+: hs ∧ Link E t Q s.previous_justified_checkpoint C ∧ C.epoch + 1 = epochOf E s.slot
  finalized : Finalized E f₀ s₀ hs s.finalized_checkpoint

/-- A supermajority at the end of an epoch is a link. -/
theorem supermajority_link {E : Env} (hS : SaneConfig E) {f : Fork} {s s₁ : State}
    {hs hs' : List BeaconBlockHeader} {e : Nat} (b : Ballots E f s hs)
    (h1 : process_slot E f s = .ok () s₁) (hreg : s.validators.length ≤ 2 ^ 40)
    (hroots : ∀ r, get_block_root E s₁ e = .ok r →
      rootAt E (hs ++ hs') (e * E.slots_per_epoch) = some r)
    {S : Checkpoint} (he : e = epochOf E s.slot ∧ S = s.current_justified_checkpoint ∨
      e + 1 = epochOf E s.slot ∧ S = s.previous_justified_checkpoint) (hfw : S.epoch < e)
    (hsup : Supermajority E f s₁ e) {r : Root}
    (hr : rootAt E (hs ++ hs') (e * E.slots_per_epoch) = some r) :
    ∃ Q, Link E s Q S ⟨e, r⟩ := by
  obtain ⟨_, ⟨Q, hn, hQ, rfl⟩, hb⟩ := hsup
  obtain ⟨-, -, -, hs₁⟩ := process_slot_eq_ok.1 h1
  have e1 : s₁.slot = s.slot := by rw [hs₁]
  have e2 : s₁.validators = s.validators := by rw [hs₁]
  have e3 : activeBalance E s₁ = activeBalance E s := by rw [hs₁]; rfl
  have e4 : totalEffective s₁ Q = totalEffective s Q := by rw [hs₁]; rfl
  have e5 : ∀ a i, Attested E s₁ a i → Attested E s a i := by
    intro a i h; rw [hs₁] at h; exact h
  have e6 : s₁.current_epoch_attestations = s.current_epoch_attestations := by rw [hs₁]
  have e7 : s₁.previous_epoch_attestations = s.previous_epoch_attestations := by rw [hs₁]
  have e8 : s₁.current_epoch_participation = s.current_epoch_participation := by rw [hs₁]
  have e9 : s₁.previous_epoch_participation = s.previous_epoch_participation := by rw [hs₁]
  rw [e3, e4] at hb
  have key : ∀ i ∈ Q, ∃ v, s.validators[i]? = some v ∧ v.slashed = false ∧ ActiveAt v e ∧
      Voted E s S ⟨e, r⟩ i := by
    intro i hi
    obtain ⟨v, hv, hsl, h⟩ := (hQ i).1 hi
    rw [e1, e6, e7, e8, e9] at h
    rw [e2] at hv
    by_cases hf : f = .Phase0
    · rw [if_pos hf] at h
      obtain ⟨a, ha, hra, hat⟩ := h
      have hat := e5 a i hat
      have hbk : Backed E s S e a := by
        rcases he with ⟨rfl, rfl⟩ | ⟨he, rfl⟩
        · rw [if_pos rfl] at ha
          exact b.current_records hf a ha
        · rw [if_neg (by omega)] at ha
          have := b.previous_records hf a ha
          rwa [← he, Nat.add_sub_cancel] at this
      have hroot := hroots _ hra
      rw [hr] at hroot; cases hroot
      have hT : a.data.target = ⟨e, a.data.target.root⟩ := by rw [← hbk.target]
      refine ⟨v, hv, hsl, ?_, by rw [← hT]; exact hbk.signed i hat⟩
      obtain ⟨c, hc, k, hk, -⟩ := hat
      obtain ⟨w, hw, hact⟩ := committee_active hS.shuffle_round_count hreg hc
        (List.mem_of_getElem? hk)
      rw [hv] at hw; cases hw
      rw [← hbk.slot]; exact hact
    · rw [if_neg hf] at h
      obtain ⟨hact, fl, hfl, hj⟩ := h
      have hcast : Cast E s hs S e i := by
        rcases he with ⟨rfl, rfl⟩ | ⟨he, rfl⟩
        · rw [if_pos rfl] at hfl
          exact b.current_flags hf i fl hfl hj
        · rw [if_neg (by omega)] at hfl
          have := b.previous_flags hf i fl hfl hj
          rwa [← he, Nat.add_sub_cancel] at this
      obtain ⟨r', hr', hvote⟩ := hcast
      have := rootAt_append (hs' := hs') hr'
      rw [hr] at this; cases this
      exact ⟨v, hv, hsl, hact, hvote⟩
  refine ⟨Q, hfw, hn, hb, fun i hi => ?_, fun i hi => ?_⟩
  · obtain ⟨v, h1, h2, h3, -⟩ := key i hi
    exact ⟨v, h1, h2, h3⟩
  · obtain ⟨v, -, -, -, h⟩ := key i hi
    exact h

/-! ## Slots -/

theorem slot_finality {E : Env} (hS : SaneConfig E) (hE : VotesRemembered E) {f₀ f : Fork}
    {s₀ s s' : State} {hs : List BeaconBlockHeader} (hg : IsGenesis E f₀ s₀)
    (hc : Chain E f₀ s₀ f s hs) (hp : process_slots E f (s.slot + 1) s = .ok () s')
    (hreg : s.validators.length ≤ 2 ^ 40) (inv : FinalityInv E f₀ s₀ f s hs) :
    FinalityInv E f₀ s₀ f s' (hs ++ [closedHeader E f s]) := by
  have hc' : Chain E f₀ s₀ f s' (hs ++ [closedHeader E f s]) := .slot hc hp
  have hpre : hs <+: hs ++ [closedHeader E f s] := List.prefix_append _ _
  have hlen := chain_length hS hE.aligned hg hc
  have hroots' := fun n r => block_root_rootAt hS hE.aligned hg hc' (n := n) (r := r)
  have hduty := slots_duty.ok hp
  have hmix := slots_mix.ok hp
  have hgvr : s'.genesis_validators_root = s.genesis_validators_root :=
    slots_mod.ok hp .genesis_validators_root (by decide)
  have b := inv.ballots
  have hbig := hE.epoch
  obtain ⟨s₁, s₂, h1, h2, h3, h4, hs'⟩ := slot_step_eq_ok.1 (process_slots_one hp)
  have n0 : s'.slot = s.slot + 1 := by rw [hs']
  have n1 : s'.current_epoch_attestations = s₂.current_epoch_attestations := by rw [hs']
  have n2 : s'.previous_epoch_attestations = s₂.previous_epoch_attestations := by rw [hs']
  have n3 : s'.current_epoch_participation = s₂.current_epoch_participation := by rw [hs']
  have n4 : s'.previous_epoch_participation = s₂.previous_epoch_participation := by rw [hs']
  have n5 : s'.block_roots = s₂.block_roots := by rw [hs']
  have n6 : s'.justification_bits = s₂.justification_bits := by rw [hs']
  have n7 : s'.previous_justified_checkpoint = s₂.previous_justified_checkpoint := by rw [hs']
  have n8 : s'.current_justified_checkpoint = s₂.current_justified_checkpoint := by rw [hs']
  have n9 : s'.finalized_checkpoint = s₂.finalized_checkpoint := by rw [hs']
  clear hs'
  have hd : epochOf E s'.slot =
      epochOf E s.slot + if E.slots_per_epoch ∣ s.slot + 1 then 1 else 0 := by
    rw [n0]; exact Nat.succ_div
  have hsmall : epochOf E s'.slot < FAR_FUTURE_EPOCH := by
    have : epochOf E s'.slot ≤ (s.slot + 1) / 2 := by
      rw [n0]; exact Nat.div_le_div_left hbig (by decide)
    unfold U64_BOUND at h2
    unfold FAR_FUTURE_EPOCH
    omega
  have m := slot_mod.ok h1
  have m1 : s₁.current_epoch_attestations = s.current_epoch_attestations :=
    m .current_epoch_attestations (by decide)
  have m2 : s₁.previous_epoch_attestations = s.previous_epoch_attestations :=
    m .previous_epoch_attestations (by decide)
  have m3 : s₁.current_epoch_participation = s.current_epoch_participation :=
    m .current_epoch_participation (by decide)
  have m4 : s₁.previous_epoch_participation = s.previous_epoch_participation :=
    m .previous_epoch_participation (by decide)
  obtain ⟨q1, q2, q3, q4⟩ : SameCheckpoints s s₁ := same_mod m (by decide)
  rcases h4 with ⟨hl, h4⟩ | ⟨hl, rfl⟩
  · -- the last slot of an epoch
    rw [if_pos (Nat.dvd_of_mod_eq_zero hl)] at hd
    have hslot : s.slot + 1 = (epochOf E s.slot + 1) * E.slots_per_epoch := by
      have := Nat.div_add_mod (s.slot + 1) E.slots_per_epoch
      rw [hl, Nat.add_zero] at this
      rw [← hd, n0, Nat.mul_comm]
      exact this.symm
    obtain ⟨e⟩ := epoch_steps h4
    obtain ⟨r1, r2⟩ := epoch_rotates h4
    have e1 : s₁.slot = s.slot := m .slot (by decide)
    have e2 : s₂.block_roots = s₁.block_roots := epoch_mod.ok h4 .block_roots (by decide)
    obtain ⟨p1, p2, p3, p4⟩ : SameCheckpoints e.s₁ s₂ := same_mod e.from1 (by decide)
    -- the block root of an epoch is the same in the log
    have hroots : ∀ x r, x ≤ epochOf E s.slot → epochOf E s.slot ≤ x + 1 →
        get_block_root E s₁ x = .ok r →
        rootAt E (hs ++ [closedHeader E f s]) (x * E.slots_per_epoch) = some r := by
      intro x r hx hx' h
      simp only [get_block_root, compute_start_slot_at_epoch, run] at h
      obtain ⟨_, ⟨rfl, -⟩, h⟩ := h
      apply hroots'
      rw [block_root_at_slot_eq_ok] at h ⊢
      rw [n5, e2]
      refine ⟨by rw [e1] at h; omega, ?_, h.2.2⟩
      have := hE.roots
      have h5 : (epochOf E s.slot + 1) * E.slots_per_epoch ≤ (x + 2) * E.slots_per_epoch :=
        Nat.mul_le_mul_right _ (by omega)
      have h6 : (x + 2) * E.slots_per_epoch = x * E.slots_per_epoch + 2 * E.slots_per_epoch :=
        Nat.add_mul _ _ _
      omega
    have hdef : ∀ x, x ≤ epochOf E s.slot → ∃ r,
        rootAt E (hs ++ [closedHeader E f s]) (x * E.slots_per_epoch) = some r := by
      intro x hx
      have h5 : x * E.slots_per_epoch ≤ epochOf E s.slot * E.slots_per_epoch :=
        Nat.mul_le_mul_right _ hx
      have h6 : (epochOf E s.slot + 1) * E.slots_per_epoch =
        epochOf E s.slot * E.slots_per_epoch + E.slots_per_epoch := Nat.succ_mul _ _
      have : x * E.slots_per_epoch < (hs ++ [closedHeader E f s]).length := by
        rw [List.length_append, List.length_singleton]; omega
      unfold rootAt
      rw [List.getElem?_eq_getElem this]
      exact ⟨_, rfl⟩
    -- the links
    have hlink : ∀ x S, x = epochOf E s.slot ∧ S = s.current_justified_checkpoint ∨
        x + 1 = epochOf E s.slot ∧ S = s.previous_justified_checkpoint →
        1 < epochOf E s.slot → Supermajority E f s₁ x → ∀ r,
        rootAt E (hs ++ [closedHeader E f s]) (x * E.slots_per_epoch) = some r →
        (∃ Q, Link E s Q S ⟨x, r⟩) ∧
          Justified E f₀ s₀ (hs ++ [closedHeader E f s]) ⟨x, r⟩ := by
      intro x S hx h2c hsup r hr
      have hfw : S.epoch < x := by
        have := inv.current_early
        have := inv.previous_early
        rcases hx with ⟨h, rfl⟩ | ⟨h, rfl⟩ <;> omega
      obtain ⟨Q, hQ⟩ := supermajority_link hS b h1 hreg
        (fun r h => hroots x r (by omega) (by omega) h) hx hfw hsup hr
      refine ⟨⟨Q, hQ⟩, .link ?_ hc hpre hQ hr⟩
      rcases hx with ⟨-, rfl⟩ | ⟨-, rfl⟩
      · exact inv.current.append _
      · exact inv.previous.append _
    -- the votes of the epoch become those of the previous epoch
    have hbal : s'.previous_justified_checkpoint = s.current_justified_checkpoint →
        Ballots E f s' (hs ++ [closedHeader E f s]) := by
      intro hP
      refine ⟨hsmall, hroots', fun hf a ha => ?_, fun hf a ha => ?_, fun hf i x hx hj => ?_,
        fun hf i x hx hj => ?_⟩
      · rw [n1, (r1 hf).2] at ha
        exact absurd ha List.not_mem_nil
      · rw [n2, (r1 hf).1, m1] at ha
        rw [hP, hd, Nat.add_sub_cancel]
        exact (b.current_records hf a ha).mono hE hduty hmix hgvr b.small (Nat.le_refl _) (by omega)
      · rw [n3, (r2 hf).2] at hx
        rw [List.eq_of_mem_replicate (List.mem_of_getElem? hx)] at hj
        exact absurd hj (by decide)
      · rw [n4, (r2 hf).1, m3] at hx
        rw [hP, hd, Nat.add_sub_cancel]
        exact (b.current_flags hf i x hx hj).mono hduty hgvr _
    rcases justification_ok (by rw [q1]; exact inv.length) e.justification with
      ⟨hlow, hsame⟩ | ⟨hhigh, jp, jc, w, hjp, hjc⟩
    · -- nothing is counted in the first two epochs
      rw [e1] at hlow
      rw [hsame] at p1 p2 p3 p4
      have hstart := inv.start (by omega)
      have he1 := inv.current_early
      have he2 := inv.previous_early
      have k1 : s'.justification_bits = s.justification_bits := n6.trans (p1.trans q1)
      have k2 : s'.previous_justified_checkpoint = s.previous_justified_checkpoint :=
        n7.trans (p2.trans q2)
      have k3 : s'.current_justified_checkpoint = s.current_justified_checkpoint :=
        n8.trans (p3.trans q3)
      have k4 : s'.finalized_checkpoint = s.finalized_checkpoint := n9.trans (p4.trans q4)
      refine ⟨hbal (k2.trans hstart.symm), by rw [k3]; omega, by rw [k2]; omega, fun _ => by rw [k2, k3]; exact hstart, ?_, ?_, ?_, ?_,
        ?_, ?_⟩
      · rw [k3]; exact inv.current.append _
      · rw [k2]; exact inv.previous.append _
      · rw [k1]; exact inv.length
      · intro j hj
        rw [k1] at hj
        have := (inv.bits j hj).1
        omega
      · intro hj
        rw [k1] at hj
        have := (inv.bits 0 hj).1
        omega
      · rw [k4]; exact inv.finalized.append _
    · -- the votes are counted
      rw [e1] at hhigh hjp hjc
      obtain ⟨w1, w2, w3, w4, w5, w6⟩ := w
      rw [q3] at w1 w5 w6
      rw [q1] at w2
      rw [q2, q4] at w6
      rw [e1] at w3 w4 w6
      rw [← p1, ← n6] at w2 w6
      rw [← p2, ← n7] at w1
      rw [← p3, ← n8] at w3 w4 w5
      rw [← p4, ← n9] at w6
      obtain ⟨rc, hrc⟩ := hdef (epochOf E s.slot) (Nat.le_refl _)
      obtain ⟨rp, hrp⟩ := hdef (epochOf E s.slot - 1) (by omega)
      have lc : jc = true → _ := fun h => hlink (epochOf E s.slot) _ (Or.inl ⟨rfl, rfl⟩) hhigh (hjc.1 h)
        rc hrc
      have lp : jp = true → _ := fun h => hlink (epochOf E s.slot - 1) _
        (Or.inr ⟨by omega, rfl⟩) hhigh (hjp.1 h) rp hrp
      have he1 := inv.current_early
      have he2 := inv.previous_early
      have hearly : s'.current_justified_checkpoint.epoch + 1 ≤ epochOf E s'.slot ∨
          s'.current_justified_checkpoint.epoch = 0 := by
        cases hjc' : jc with
        | true => have := (w3 hjc').2; omega
        | false =>
          cases hjp' : jp with
          | true => have := (w4 hjc' hjp').2; omega
          | false => rw [w5 hjc' hjp']; omega
      -- the justification bits
      have hbits : ∀ j : Nat, s'.justification_bits[j]? = some true → ∃ C : Checkpoint,
          C.epoch + j = epochOf E s.slot ∧
            Justified E f₀ s₀ (hs ++ [closedHeader E f s]) C := by
        intro j hj
        rw [w2] at hj
        match j with
        | 0 =>
          simp only [List.getElem?_cons_zero, Option.some.injEq] at hj
          exact ⟨⟨_, rc⟩, rfl, (lc hj).2⟩
        | 1 =>
          simp only [List.getElem?_cons_succ, List.getElem?_cons_zero, Option.some.injEq,
            Bool.or_eq_true] at hj
          rcases hj with hj | hj
          · exact ⟨⟨_, rp⟩, by dsimp only; omega, (lp hj).2⟩
          · obtain ⟨-, C, hC, hJ⟩ := inv.bits 0 (getD_true hj)
            exact ⟨C, by omega, hJ.append _⟩
        | 2 =>
          simp only [List.getElem?_cons_succ, List.getElem?_cons_zero, Option.some.injEq] at hj
          obtain ⟨-, C, hC, hJ⟩ := inv.bits 1 (getD_true hj)
          exact ⟨C, by omega, hJ.append _⟩
        | 3 =>
          simp only [List.getElem?_cons_succ, List.getElem?_cons_zero, Option.some.injEq] at hj
          obtain ⟨-, C, hC, hJ⟩ := inv.bits 2 (getD_true hj)
          exact ⟨C, by omega, hJ.append _⟩
        | k + 4 => simp at hj
      -- the link behind bit 0
      have hcur : s'.justification_bits[0]? = some true → ∃ Q C, Link E s Q
          s.current_justified_checkpoint C ∧ C.epoch = epochOf E s.slot := by
        intro hj
        rw [w2, List.getElem?_cons_zero, Option.some.injEq] at hj
        obtain ⟨⟨Q, hQ⟩, -⟩ := lc hj
        exact ⟨Q, _, hQ, rfl⟩
      -- and the one behind bit 1
      have hprev : s'.justification_bits[1]? = some true → ∃ f' t past Q C,
          Chain E f₀ s₀ f' t past ∧ past <+: hs ++ [closedHeader E f s] ∧
          Link E t Q s.previous_justified_checkpoint C ∧ C.epoch + 1 = epochOf E s.slot := by
        intro hj
        rw [w2] at hj
        simp only [List.getElem?_cons_succ, List.getElem?_cons_zero, Option.some.injEq,
          Bool.or_eq_true] at hj
        rcases hj with hj | hj
        · obtain ⟨⟨Q, hQ⟩, -⟩ := lp hj
          exact ⟨f, s, hs, Q, _, hc, hpre, hQ, by dsimp only; omega⟩
        · obtain ⟨f', t, past, Q, C, c1, c2, c3, c4⟩ := inv.last (getD_true hj)
          exact ⟨f', t, past, Q, C, c1, c2.trans hpre, c3, c4⟩
      refine ⟨hbal w1, hearly, by rw [w1]; omega, fun h => by omega, ?_, by rw [w1]; exact inv.current.append _,
        by rw [w2]; rfl, ?_, ?_, ?_⟩
      · cases hjc' : jc with
        | true =>
          obtain ⟨x1, x2⟩ := w3 hjc'
          have := hroots _ _ (Nat.le_refl _) (by omega) x1
          rw [hrc, Option.some.injEq] at this
          have hC : s'.current_justified_checkpoint = ⟨epochOf E s.slot, rc⟩ := by
            rw [← x2, this]
          rw [hC]
          exact (lc hjc').2
        | false =>
          cases hjp' : jp with
          | true =>
            obtain ⟨x1, x2⟩ := w4 hjc' hjp'
            have := hroots _ _ (by omega) (by omega) x1
            rw [hrp, Option.some.injEq] at this
            have hC : s'.current_justified_checkpoint = ⟨epochOf E s.slot - 1, rp⟩ := by
              rw [← x2, this]
            rw [hC]
            exact (lp hjp').2
          | false => rw [w5 hjc' hjp']; exact inv.current.append _
      · intro j hj
        obtain ⟨C, hC, hJ⟩ := hbits j hj
        exact ⟨by omega, C, by omega, hJ⟩
      · intro hj
        obtain ⟨Q, C, hQ, hC⟩ := hcur hj
        exact ⟨f, s, hs, Q, C, hc, hpre, by rw [w1]; exact hQ, by omega⟩
      · rw [w6]
        rcases finalizedBy_cases (b := s'.justification_bits)
          (P := s.previous_justified_checkpoint) (C := s.current_justified_checkpoint)
          (F := s.finalized_checkpoint) (cur := epochOf E s.slot) with
          ⟨h, b0, b1, h2⟩ | ⟨h, b1, b2, h2⟩ | h
        · rw [h]
          obtain ⟨Q, C, hQ, hC⟩ := hcur (getD_true b0)
          refine Or.inr ⟨inv.current.append _, f, s, hs, Q, C, hc, hpre, hQ, ?_⟩
          rcases h2 with h2 | ⟨b2, h2⟩
          · left; omega
          · obtain ⟨D, hD, hJ⟩ := hbits 1 (getD_true b1)
            exact Or.inr ⟨by omega, D, by omega, hJ⟩
        · rw [h]
          obtain ⟨f', t, past, Q, C, c1, c2, c3, c4⟩ := hprev (getD_true b1)
          refine Or.inr ⟨inv.previous.append _, f', t, past, Q, C, c1, c2, c3, ?_⟩
          rcases h2 with h2 | ⟨b3, h2⟩
          · left; omega
          · obtain ⟨D, hD, hJ⟩ := hbits 2 (getD_true b2)
            exact Or.inr ⟨by omega, D, by omega, hJ⟩
        · rw [h]; exact inv.finalized.append _
  · -- another slot
    rw [if_neg (fun h => hl (Nat.mod_eq_zero_of_dvd h))] at hd
    have hd : epochOf E s'.slot = epochOf E s.slot := hd
    refine ⟨⟨hsmall, hroots', fun hf a ha => ?_, fun hf a ha => ?_, fun hf i x hx hj => ?_,
      fun hf i x hx hj => ?_⟩, by rw [n8, q3, hd]; exact inv.current_early,
      by rw [n7, q2, hd]; exact inv.previous_early, ?_, ?_, ?_, ?_, ?_, ?_, ?_⟩
    · rw [n1, m1] at ha
      rw [n8, q3, hd]
      exact (b.current_records hf a ha).mono hE hduty hmix hgvr b.small (Nat.le_refl _) (by omega)
    · rw [n2, m2] at ha
      rw [n7, q2, hd]
      exact (b.previous_records hf a ha).mono hE hduty hmix hgvr b.small (by omega) (by omega)
    · rw [n3, m3] at hx
      rw [n8, q3, hd]
      exact (b.current_flags hf i x hx hj).mono hduty hgvr _
    · rw [n4, m4] at hx
      rw [n7, q2, hd]
      exact (b.previous_flags hf i x hx hj).mono hduty hgvr _
    · intro h
      rw [n8, n7, q3, q2]
      exact inv.start (by omega)
    · rw [n8, q3]; exact inv.current.append _
    · rw [n7, q2]; exact inv.previous.append _
    · rw [n6, q1]; exact inv.length
    · intro j hj
      rw [n6, q1] at hj
      obtain ⟨hj', C, hC, hC'⟩ := inv.bits j hj
      exact ⟨by omega, C, by omega, hC'.append _⟩
    · intro hj
      rw [n6, q1] at hj
      obtain ⟨f', t, past, Q, C, c1, c2, c3, c4⟩ := inv.last hj
      exact ⟨f', t, past, Q, C, c1, c2.trans hpre, by rw [n7, q2]; exact c3, by omega⟩
    · rw [n9, q4]; exact inv.finalized.append _

/-! ## Genesis -/

theorem genesis_votes {E : Env} {f : Fork} {h : Bytes32} {t : Nat} {ds : List Deposit}
    {p : Option ExecutionPayloadHeader} {s : State}
    (hs : initialize_beacon_state_from_eth1 E f h t ds p = .ok s) :
    s.previous_justified_checkpoint = genesisCheckpoint ∧
    s.current_justified_checkpoint = genesisCheckpoint ∧
    s.finalized_checkpoint = genesisCheckpoint ∧
    (∀ (i : Nat) x, s.current_epoch_participation[i]? = some x → ¬ FlagSet x 1) ∧
    ∀ (i : Nat) x, s.previous_epoch_participation[i]? = some x → ¬ FlagSet x 1 := by
  unfold initialize_beacon_state_from_eth1 genesis_candidate at hs
  simp only [run] at hs
  obtain ⟨_, ⟨gt, _, rfl⟩, hs⟩ := hs
  rw [runLocal_eq_ok] at hs
  have hdep : ∀ (ds : List Deposit) (l : List DepositData),
      Modifies [.eth1_data, .eth1_deposit_index, .validators, .balances,
        .previous_epoch_participation, .current_epoch_participation, .inactivity_scores,
        .pending_balance_deposits] (genesis_deposits E f l ds) := by
    intro ds
    induction ds with
    | nil => intro l; unfold genesis_deposits; mods
    | cons d ds ih => intro l; unfold genesis_deposits; mods [deposit_mod, ih _]
  have hm : Modifies [.eth1_data, .eth1_deposit_index, .validators, .balances,
      .previous_epoch_participation, .current_epoch_participation, .inactivity_scores,
      .pending_balance_deposits, .genesis_validators_root, .current_sync_committee,
      .next_sync_committee] (genesis_fill E f ds) := by
    unfold genesis_fill genesis_pending_deposits genesis_activate genesis_sync_committees
    mods [hdep _ _, increase_mod]
  have pre := blankPre
  have hdep' : ∀ (ds : List Deposit) (l : List DepositData),
      Pres Blank (genesis_deposits E f l ds) := by
    intro ds
    induction ds with
    | nil => intro l; unfold genesis_deposits; walk pre []
    | cons d ds ih => intro l; unfold genesis_deposits; walk pre [deposit_blank, ih, upd_blank]
  have hb : Pres Blank (genesis_fill E f ds) := by
    have act : ∀ i, Modifies [.validators] (genesis_activate E i) := by
      intro i; unfold genesis_activate; mods
    unfold genesis_fill genesis_pending_deposits genesis_sync_committees
    walk pre [hdep', upd_blank, blank_mod increase_mod (by decide),
      blank_mod (act _) (by decide)]
  have hm := hm.ok hs
  have hb := hb.ok hs
  refine ⟨hm .previous_justified_checkpoint (by decide),
    hm .current_justified_checkpoint (by decide), hm .finalized_checkpoint (by decide),
    fun i x hx hj => ?_, fun i x hx hj => ?_⟩
  · cases hb.1 i x hx hj
  · cases hb.2 i x hx hj

theorem genesis_finality {E : Env} {f : Fork} {s : State} (hg : IsGenesis E f s) :
    FinalityInv E f s f s [] := by
  obtain ⟨h, t, ds, p, hs⟩ := hg
  obtain ⟨c1, c2, c3, c4, c5⟩ := genesis_votes hs
  obtain ⟨d1, d2⟩ := genesis_pending hs
  obtain ⟨g1, -, -, g2, -⟩ := genesis_common hs
  have e : epochOf E s.slot = 0 := by rw [g1]; exact Nat.zero_div _
  have nobit : ∀ j : Nat, s.justification_bits[j]? = some true → False := by
    intro j hj
    rw [g2] at hj
    match j with
    | 0 | 1 | 2 | 3 => simp at hj
    | k + 4 => simp at hj
  refine ⟨⟨by rw [e]; decide, fun n r hr => ?_, fun _ a ha => ?_, fun _ a ha => ?_,
    fun _ i x hx hj => absurd hj (c4 i x hx), fun _ i x hx hj => absurd hj (c5 i x hx)⟩,
    by rw [c2]; exact Or.inr rfl, by rw [c1]; exact Or.inr rfl,
    fun _ => c2.trans c1.symm, by rw [c2]; exact .genesis, by rw [c1]; exact .genesis,
    by rw [g2]; rfl, fun j hj => (nobit j hj).elim, fun hj => (nobit 0 hj).elim, Or.inl c3⟩
  · rw [block_root_at_slot_eq_ok, g1] at hr
    exact absurd hr.1 (Nat.not_lt_zero _)
  · rw [d2] at ha; exact absurd ha List.not_mem_nil
  · rw [d1] at ha; exact absurd ha List.not_mem_nil

/-! ## Upgrades -/

theorem upgrade_ballots {E : Env} (hS : SaneConfig E) {f g : Fork} {s s' : State}
    {hs : List BeaconBlockHeader} (hfg : g.ord = f.ord + 1) (h : upgrade_to E g s = .ok s')
    (b : Ballots E f s hs) : Ballots E g s' hs := by
  obtain ⟨hd, -, hgvr⟩ := upgrade_duty h
  obtain ⟨e1, e2, -⟩ := upgrade_history h
  obtain ⟨-, -, -, -, e3, e4, -⟩ := upgrade_common h
  have hg : g ≠ .Phase0 := by rintro rfl; cases hfg
  have hroots : ∀ n r, get_block_root_at_slot E s' n = .ok r → rootAt E hs n = some r := by
    intro n r hr
    apply b.roots n r
    rw [block_root_at_slot_eq_ok] at hr ⊢
    rw [← e1, ← e2]; exact hr
  have cast : ∀ {S e i}, Cast E s hs S e i → Cast E s' hs S e i := by
    intro S e i h
    have := h.mono hd hgvr []
    rwa [List.append_nil] at this
  refine ⟨by rw [e1]; exact b.small, hroots, fun h => absurd h hg, fun h => absurd h hg,
    fun _ i x hx hj => ?_, fun _ i x hx hj => ?_⟩
  all_goals rw [e1]
  all_goals first | rw [e4] | rw [e3]
  all_goals apply cast
  all_goals cases g
  case refine_1.Phase0 => exact absurd rfl hg
  case refine_2.Phase0 => exact absurd rfl hg
  case refine_1.Altair =>
    rw [(into_altair hS h).current] at hx
    rw [List.eq_of_mem_replicate (List.mem_of_getElem? hx)] at hj
    exact absurd hj (by decide)
  case refine_2.Altair =>
    have hf : f = .Phase0 := by
      cases f <;> first | rfl | cases hfg
    obtain ⟨a, ha, hat, fl, hfl, h1⟩ := ((into_altair hS h).previous.2 i x hx 1 (by decide)).1 hj
    have hb := b.previous_records hf a ha
    have h1 := (hfl.target.1 h1).1
    simp only [get_block_root, compute_start_slot_at_epoch, run] at h1
    obtain ⟨_, ⟨rfl, -⟩, h1⟩ := h1
    have h1 := b.roots _ _ h1
    rw [hb.target] at h1
    refine ⟨_, h1, ?_⟩
    have := hb.signed i hat
    have hT : a.data.target = ⟨epochOf E s.slot - 1, a.data.target.root⟩ := by rw [← hb.target]
    rwa [hT] at this
  all_goals
    have hf : f ≠ .Phase0 := by rintro rfl; cases hfg
    first
      | have hc := (into_bellatrix h).2.2
      | have hc := (into_capella h).2.2
      | have hc := (into_deneb h).2.2
      | have hc := (into_electra h).2.2.1
    have k1 : s'.current_epoch_participation = s.current_epoch_participation :=
      hc .current_epoch_participation (by decide)
    have k2 : s'.previous_epoch_participation = s.previous_epoch_participation :=
      hc .previous_epoch_participation (by decide)
    first
      | exact b.current_flags hf i x (by rw [← k1]; exact hx) hj
      | exact b.previous_flags hf i x (by rw [← k2]; exact hx) hj

/-! ## Chains -/

theorem FinalityInv.same {E : Env} {f₀ f g : Fork} {s₀ s s' : State}
    {hs : List BeaconBlockHeader} (inv : FinalityInv E f₀ s₀ f s hs)
    (hb : Ballots E g s' hs) (h : SameCheckpoints s s') (hslot : s'.slot = s.slot) :
    FinalityInv E f₀ s₀ g s' hs := by
  obtain ⟨h1, h2, h3, h4⟩ := h
  refine ⟨hb, by rw [h3, hslot]; exact inv.current_early,
    by rw [h2, hslot]; exact inv.previous_early, ?_, ?_, ?_, ?_, ?_, ?_, ?_⟩
  · rw [h3, h2, hslot]; exact inv.start
  · rw [h3]; exact inv.current
  · rw [h2]; exact inv.previous
  · rw [h1]; exact inv.length
  · rw [h1, hslot]; exact inv.bits
  · rw [h1, h2, hslot]; exact inv.last
  · rw [h4]; exact inv.finalized

theorem chain_finality {E : Env} (hS : SaneConfig E) (hE : VotesRemembered E) {f₀ f : Fork}
    {s₀ s : State} {hs : List BeaconBlockHeader} (hg : IsGenesis E f₀ s₀)
    (h : Chain E f₀ s₀ f s hs) (hreg : s.validators.length ≤ 2 ^ 40) :
    FinalityInv E f₀ s₀ f s hs := by
  induction h with
  | start => exact genesis_finality hg
  | @slot f s s' hs hc hp ih =>
    have hl := duty_length (slots_duty.ok hp)
    exact slot_finality hS hE hg hc hp (by omega) (ih (by omega))
  | @block f s hs b hc ih =>
    have hl := duty_length ((block_duty (E := E) (f := f) (b := b)).final s)
    obtain ⟨h1, h2⟩ := final_same (E := E) (f := f) (b := b) (s := s)
    have inv := ih (by omega)
    exact inv.same ((block_keeps hS hE).final s inv.ballots) h1 h2
  | @upgrade f g s s' hs hc hfg h ih =>
    have hl := duty_length (upgrade_duty h).1
    obtain ⟨h1, -, -, h2, h3, h4, h5⟩ := upgrade_common h
    have inv := ih (by omega)
    exact inv.same (upgrade_ballots hS hfg h inv.ballots) ⟨h2, h3, h4, h5⟩ h1

/-! ## Conflicting checkpoints -/

theorem counted_signed {E : Env} {f₀ : Fork} {s₀ : State} {hs : List BeaconBlockHeader} {t : State}
    {Q : List Nat} {S T : Checkpoint} (h : Counted E f₀ s₀ hs t Q S T) {k : PublicKey}
    (hk : KeyOf t Q k) :
    ∃ d, Signed E s₀.genesis_validators_root k d ∧ d.source = S ∧ d.target = T := by
  obtain ⟨f, past, hc, -, hl⟩ := h
  obtain ⟨i, hi, v, hv, rfl⟩ := hk
  obtain ⟨w, d, hw, hs, h1⟩ := hl.voted i hi
  rw [hv] at hw; cases hw
  rw [chain_genesis hc] at hs
  exact ⟨d, hs, h1⟩

theorem Spec.Justified.counted {E : Env} {f₀ : Fork} {s₀ : State} {hs : List BeaconBlockHeader}
    {T : Checkpoint} (h : Justified E f₀ s₀ hs T) (hT : 0 < T.epoch) :
    ∃ t Q S, Counted E f₀ s₀ hs t Q S T := by
  cases h with
  | genesis => cases hT
  | link _ h1 h2 h3 _ => exact ⟨_, _, _, _, _, h1, h2, h3⟩

theorem Spec.Justified.root {E : Env} {f₀ : Fork} {s₀ : State} {hs : List BeaconBlockHeader}
    {T : Checkpoint} (h : Justified E f₀ s₀ hs T) (hT : 0 < T.epoch) :
    rootAt E hs (T.epoch * E.slots_per_epoch) = some T.root := by
  cases h with
  | genesis => cases hT
  | link _ _ _ _ h => exact h

/-- On the way to a justified checkpoint one link leads over every earlier epoch. -/
theorem Spec.Justified.over {E : Env} {f₀ : Fork} {s₀ : State} {hs : List BeaconBlockHeader}
    {C : Checkpoint} (h : Justified E f₀ s₀ hs C) {a : Nat} (ha : 0 < a) (hC : a ≤ C.epoch) :
    ∃ t Q S T, Counted E f₀ s₀ hs t Q S T ∧ S.epoch < a ∧ a ≤ T.epoch ∧
      Justified E f₀ s₀ hs T := by
  induction h with
  | genesis => exact absurd hC (by unfold genesisCheckpoint; dsimp only; omega)
  | @link f t past Q S T hS h1 h2 h3 h4 ih =>
    by_cases h : a ≤ S.epoch
    · exact ih h
    · exact ⟨t, Q, S, T, ⟨f, past, h1, h2, h3⟩, by omega, hC, .link hS h1 h2 h3 h4⟩

theorem conflict_links {E : Env} {f₀ fA fB : Fork} {s₀ sA sB : State}
    {hsA hsB : List BeaconBlockHeader} (hg : IsGenesis E f₀ s₀)
    (hA : Chain E f₀ s₀ fA sA hsA) (hB : Chain E f₀ s₀ fB sB hsB)
    (hh : HashesHold E (hsA ++ hsB)) {F C : Checkpoint} (hF : Finalized E f₀ s₀ hsA F)
    (hC : Justified E f₀ s₀ hsB C) (hpos : 0 < F.epoch) (hle : F.epoch ≤ C.epoch)
    (hne : rootAt E hsB (F.epoch * E.slots_per_epoch) ≠ some F.root) :
    ∃ tA QA SA TA tB QB SB TB, Counted E f₀ s₀ hsA tA QA SA TA ∧
      Counted E f₀ s₀ hsB tB QB SB TB ∧
      ∀ k, KeyOf tA QA k → KeyOf tB QB k → Guilty E s₀.genesis_validators_root k := by
  rcases hF with rfl | ⟨hJ, f, t, past, Q, G, g1, g2, g3, hG⟩
  · exact absurd hpos (Nat.lt_irrefl 0)
  obtain ⟨tB, QB, S, T, hST, hS, hT, hTJ⟩ := hC.over hpos hle
  have hTroot := hTJ.root (by omega)
  have hFroot := hJ.root hpos
  -- two links to the same epoch that differ
  have double : ∀ {tA QA SA TA}, Counted E f₀ s₀ hsA tA QA SA TA → TA.epoch = T.epoch →
      (SA ≠ S ∨ TA ≠ T) → ∀ k, KeyOf tA QA k → KeyOf tB QB k →
        Guilty E s₀.genesis_validators_root k := by
    intro tA QA SA TA hA he hd k hk hk'
    obtain ⟨d, h1, h2, h3⟩ := counted_signed hA hk
    obtain ⟨d', h1', h2', h3'⟩ := counted_signed hST hk'
    refine ⟨d, d', h1, h1', Or.inl ⟨?_, by rw [h3, h3', he]⟩⟩
    rintro rfl
    rcases hd with hd | hd
    · exact hd (h2.symm.trans h2')
    · exact hd (h3.symm.trans h3')
  have hFG : Counted E f₀ s₀ hsA t Q F G := ⟨f, past, g1, g2, g3⟩
  rcases Nat.lt_or_ge F.epoch T.epoch with hlt | hge
  · rcases Nat.lt_trichotomy T.epoch G.epoch with h | h | h
    · -- between the finalized checkpoint and the one it is finalized by
      obtain h | ⟨h1, D, hD, hDJ⟩ := hG
      · omega
      · have hTD : T.epoch = D.epoch := by omega
        obtain ⟨tA, QA, SA, hA'⟩ := hDJ.counted (by omega)
        refine ⟨tA, QA, SA, D, tB, QB, S, T, hA', hST, double hA' hTD.symm (Or.inr ?_)⟩
        rintro rfl
        have hDroot := hDJ.root (by omega)
        unfold rootAt at hDroot hTroot
        rw [Option.map_eq_some_iff] at hDroot hTroot
        obtain ⟨x, hx, hx'⟩ := hDroot
        obtain ⟨y, hy, hy'⟩ := hTroot
        have := logs_agree_at
          (chain_headers hg hA fun h m => hh.no_zero h (List.mem_append_left _ m))
          (chain_headers hg hB fun h m => hh.no_zero h (List.mem_append_right _ m))
          (fun h m h' m' => hh.no_collision h (List.mem_append_left _ m) h'
            (List.mem_append_right _ m')) hx hy (hx'.trans hy'.symm)
          (F.epoch * E.slots_per_epoch) (Nat.mul_le_mul_right _ (by omega))
        unfold rootAt at hne hFroot
        rw [← this] at hne
        exact hne hFroot
    · refine ⟨t, Q, F, G, tB, QB, S, T, hFG, hST, double hFG h.symm (Or.inl ?_)⟩
      rintro rfl
      omega
    · -- surrounded
      refine ⟨t, Q, F, G, tB, QB, S, T, hFG, hST, fun k hk hk' => ?_⟩
      obtain ⟨d, h1, h2, h3⟩ := counted_signed hFG hk
      obtain ⟨d', h1', h2', h3'⟩ := counted_signed hST hk'
      exact ⟨d, d', h1, h1', Or.inr (Or.inr ⟨by rw [h2, h2']; exact hS, by rw [h3, h3']; exact h⟩)⟩
  · have he : F.epoch = T.epoch := by omega
    obtain ⟨tA, QA, SA, hA'⟩ := hJ.counted hpos
    refine ⟨tA, QA, SA, F, tB, QB, S, T, hA', hST, double hA' he (Or.inr ?_)⟩
    rintro rfl
    exact hne hTroot

/-! ## How many they are -/

theorem sum_split {g : Nat → Nat} (P : Nat → Bool) (l : List Nat) :
    (l.map g).sum = ((l.filter P).map g).sum + ((l.filter fun i => !P i).map g).sum := by
  induction l with
  | nil => rfl
  | cons x l ih =>
    by_cases h : P x
    · simp only [List.map_cons, List.sum_cons, List.filter_cons, h, if_true, Bool.not_true,
        Bool.false_eq_true, if_false, ih]
      omega
    · simp only [List.map_cons, List.sum_cons, List.filter_cons, h, if_false, Bool.not_false,
        if_true, Bool.false_eq_true, ih]
      omega

/-- Two sets of validators overlap in what exceeds the total. -/
theorem overlap {s : State} {U A B : List Nat} (hA : A.Nodup) (hB : B.Nodup)
    (hAU : A ⊆ U) (hBU : B ⊆ U) :
    totalEffective s A + totalEffective s B ≤
      totalEffective s U + totalEffective s (A.filter (· ∈ B)) := by
  have h1 := sum_split (g := effectiveBalance s) (· ∈ B) A
  have h2 : totalEffective s (B ++ A.filter fun i => !decide (i ∈ B)) ≤ totalEffective s U := by
    apply totalEffective_mono
    · rw [List.nodup_append]
      refine ⟨hB, hA.filter _, fun x hx y hy => ?_⟩
      rw [List.mem_filter] at hy
      rintro rfl
      simp [hx] at hy
    · intro x hx
      rw [List.mem_append, List.mem_filter] at hx
      rcases hx with hx | hx
      · exact hBU hx
      · exact hAU hx.1
  unfold totalEffective at *
  rw [List.map_append, List.sum_append] at h2
  omega

end Verif
