import Verif.Proofs.SafetyElectraBlock

/-! # Electra's epochs, slots and transitions do not panic -/

namespace Verif

open Spec Props

variable {E : Env} {s s' : State}

/-! ## The queues of epoch processing -/

theorem pending_deposits_calm {A K : Nat} (hA : A ≤ 2 ^ 60) (hK : K ≤ 2 ^ 63)
    {l : List PendingBalanceDeposit} {p n : Nat} (hp : p ≤ A)
    (hl : ∀ d ∈ l, d.index < s.balances.length ∧ d.amount ≤ 2 ^ 62)
    (hb : ∀ b ∈ s.balances, b ≤ K + p) :
    CalmM (Electra.pending_deposits_loop A l p n) (fun r s' => r.1 ≤ A ∧
      ∃ bs, s' = withBalances s bs ∧ bs.length = s.balances.length ∧ ∀ b ∈ bs, b ≤ K + A) s := by
  have hU : U64_BOUND = 2 ^ 64 := rfl
  induction l generalizing s p n with
  | nil =>
    unfold Electra.pending_deposits_loop
    simp only [calm]
    exact ⟨hp, s.balances, rfl, rfl, fun b hx => by have := hb b hx; omega⟩
  | cons d l ih =>
    obtain ⟨h1, h2⟩ := hl d (List.mem_cons_self ..)
    unfold Electra.pending_deposits_loop
    simp only [calm]
    refine ⟨by omega, fun _ => ⟨hp, s.balances, rfl, rfl, fun b hx => by
      have := hb b hx; omega⟩, fun hle => ?_⟩
    have hv := List.getElem?_eq_getElem h1
    have hbd := hb _ (List.mem_of_getElem? hv)
    refine increase_balance_calm hv (by omega) ?_
    refine (ih (s := { s with balances := _ }) (by omega) (fun d hd => ?_) (fun b hx => ?_)).mono ?_
    · simpa using hl d (List.mem_cons_of_mem _ hd)
    · rcases mem_set_cases hx with hx | rfl
      · have := hb b hx; omega
      · omega
    · rintro r - ⟨g1, bs, rfl, g2, g3⟩
      exact ⟨g1, bs, rfl, by simpa using g2, g3⟩

theorem electra_deposit_queue_calm (hE : SaneConfig E) (hq : SaneQuotients E) (hz : SaneElectra E)
    {K : Nat} (hK : K ≤ 2 ^ 63) (h : Wellformed E s) (hs : Queues E s)
    (hd : s.deposit_balance_to_consume ≤ 2 ^ 59)
    (ha : ∀ d ∈ s.pending_balance_deposits, d.amount ≤ 2 ^ 62) (hb : ∀ b ∈ s.balances, b ≤ K) :
    CalmM (Electra.process_pending_balance_deposits E) (fun _ s' => Wellformed E s' ∧ Queues E s' ∧
      s'.slot = s.slot ∧ s'.validators = s.validators ∧
      s'.pending_consolidations = s.pending_consolidations ∧
      ∀ b ∈ s'.balances, b ≤ K + (2 ^ 59 + 2 ^ 56)) s := by
  have hU : U64_BOUND = 2 ^ 64 := rfl
  unfold Electra.process_pending_balance_deposits
  simp only [calm]
  refine (balance_churn_calm hE hq hz).mono fun c hc' => ?_
  have hc := hc'.2
  refine ⟨by omega, ?_⟩
  refine (pending_deposits_calm (by omega) hK (Nat.zero_le _)
    (fun d hx => ⟨by rw [h.balances]; exact hs.deposits d hx, ha d hx⟩) hb).mono ?_
  rintro r - ⟨g1, bs, rfl, g2, g3⟩
  have hw := wf_balances h g2
  have key : ∀ n left, Wellformed E { withBalances s bs with
        pending_balance_deposits := (withBalances s bs).pending_balance_deposits.drop n
        deposit_balance_to_consume := left } ∧
      Queues E { withBalances s bs with
        pending_balance_deposits := (withBalances s bs).pending_balance_deposits.drop n
        deposit_balance_to_consume := left } ∧ s.slot = s.slot ∧ s.validators = s.validators ∧
      s.pending_consolidations = s.pending_consolidations ∧
      ∀ b ∈ bs, b ≤ K + (2 ^ 59 + 2 ^ 56) := fun n left =>
    ⟨⟨⟨hw.shaped.1, hw.shaped.2, hw.shaped.3, hw.shaped.4, hw.shaped.5, hw.shaped.6⟩, hw.balances,
      hw.slot, hw.effective, hw.exit, hw.eligible⟩,
      ⟨fun d hx => hs.deposits d (List.mem_of_mem_drop hx), hs.withdrawals, hs.consolidations,
        hs.amounts⟩, rfl, rfl, rfl, fun b hx => by have := g3 b hx; omega⟩
  exact ⟨fun _ => key _ _, fun _ => ⟨g1, key _ _⟩⟩

/-- What the consolidation queue keeps. -/
structure Merged (E : Env) (K : Nat) (s s' : State) : Prop where
  wf : Wellformed E s'
  queues : Queues E s'
  slot : s'.slot = s.slot
  length : s'.validators.length = s.validators.length
  active : ∀ e, (∃ v ∈ s.validators, ActiveAt v e) → ∃ v ∈ s'.validators, ActiveAt v e
  balances : ∀ b ∈ s'.balances, b ≤ K

theorem pending_consolidations_calm (hE : SaneConfig E) (hx : SaneEpochs E) (hz : SaneElectra E)
    {K : Nat} {l : List PendingConsolidation} {n : Nat} (h : Wellformed E s) (hs : Queues E s)
    (hl : ∀ c ∈ l, c.source_index < s.validators.length ∧ c.target_index < s.validators.length)
    (hb : ∀ b ∈ s.balances, b ≤ K) (hK : K + l.length * 2 ^ 42 < 2 ^ 63) :
    CalmM (Electra.pending_consolidations_loop E l n)
      (fun _ s' => Merged E (K + l.length * 2 ^ 42) s s') s := by
  have hU : U64_BOUND = 2 ^ 64 := rfl
  have hinc := hx.increment
  have hmin := hz.min_activation_balance
  have hmax := hz.max_effective_balance
  induction l generalizing s K n with
  | nil =>
    unfold Electra.pending_consolidations_loop
    simp only [calm]
    exact ⟨h, hs, rfl, rfl, fun _ h => h, fun b hx => by have := hb b hx; omega⟩
  | cons c l ih =>
    obtain ⟨h1, h2⟩ := hl c (List.mem_cons_self ..)
    have hl' := fun c' (hc : c' ∈ l) => hl c' (List.mem_cons_of_mem _ hc)
    rw [List.length_cons, Nat.add_mul, Nat.one_mul] at hK ⊢
    generalize hL : l.length * 2 ^ 42 = L at *
    unfold Electra.pending_consolidations_loop
    simp only [calm]
    refine ⟨_, List.getElem?_eq_getElem h1, fun _ => ?_, fun _ => current_epoch_calm hE
      ⟨fun _ => ⟨h, hs, rfl, rfl, fun _ h => h, fun b hx => by have := hb b hx; omega⟩, fun _ => ?_⟩⟩
    · refine (ih (n := n + 1) h hs hl' hb (by omega)).mono ?_
      rintro - t g
      exact ⟨g.wf, g.queues, g.slot, g.length, g.active, fun b hx => by
        have := g.balances b hx; omega⟩
    refine (switch_calm h h2).mono ?_
    rintro - t g
    have w1 := g.wf h
    have q1 := g.queues hs
    obtain ⟨v, w, b, bs, dl, hv, hbv, hle, ht, ⟨cr, rfl⟩, -⟩ := g
    have l1 : t.validators.length = s.validators.length := by rw [ht]; simp
    have sl1 : t.slot = s.slot := by rw [ht]
    have b1 : ∀ b ∈ t.balances, b ≤ K := by
      intro x hx
      rw [ht] at hx
      rcases mem_set_cases hx with hx | rfl
      · exact hb x hx
      · have := hb b (List.mem_of_getElem? hbv); omega
    have a1 : ∀ e, (∃ v ∈ s.validators, ActiveAt v e) → ∃ v ∈ t.validators, ActiveAt v e := by
      rintro e ⟨u, hu, hua⟩
      rw [ht]
      obtain ⟨j, hj⟩ := List.mem_iff_getElem?.1 hu
      by_cases hij : c.target_index = j
      · subst hij
        rw [hv] at hj; cases hj
        exact ⟨{ v with withdrawal_credentials := cr },
          List.mem_of_getElem? (List.getElem?_set_self h2), hua⟩
      · exact ⟨u, List.mem_of_getElem? (i := j) (by rw [List.getElem?_set_ne hij]; exact hj), hua⟩
    clear ht
    have hs1 : c.source_index < t.validators.length := by omega
    have hs2 : c.source_index < t.balances.length := by rw [w1.balances]; exact hs1
    have ht2 : c.target_index < t.balances.length := by rw [w1.balances]; omega
    unfold Electra.get_active_balance
    simp only [calm]
    refine ⟨_, List.getElem?_eq_getElem hs1, _, List.getElem?_eq_getElem hs2, ?_⟩
    have hm : min t.balances[c.source_index] (Electra.get_validator_max_effective_balance E
        t.validators[c.source_index]) ≤ 2 ^ 42 := by
      unfold Electra.get_validator_max_effective_balance
      split <;> omega
    generalize min t.balances[c.source_index] (Electra.get_validator_max_effective_balance E
        t.validators[c.source_index]) = m at *
    refine decrease_balance_calm (List.getElem?_eq_getElem hs2) fun d hd => ?_
    have b2 : ∀ b ∈ t.balances.set c.source_index d, b ≤ K := by
      intro x hx
      rcases mem_set_cases hx with hx | rfl
      · exact b1 x hx
      · have := b1 _ (List.getElem_mem hs2); omega
    have hv2 := List.getElem?_eq_getElem (l := t.balances.set c.source_index d)
      (i := c.target_index) (by simpa using ht2)
    have hbd := b2 _ (List.mem_of_getElem? hv2)
    refine increase_balance_calm hv2 (by omega) ?_
    refine (ih (K := K + 2 ^ 42) (n := n + 1) w1.balance.balance
      (q1.congr rfl rfl rfl rfl) (fun c hc => by have := hl' c hc; simp only; omega) ?_
      (by omega)).mono ?_
    · intro x hx
      rcases mem_set_cases hx with hx | rfl
      · have := b2 x hx; omega
      · omega
    · rintro - u g
      exact ⟨g.wf, g.queues, g.slot.trans sl1, g.length.trans l1, fun e he => g.active e (a1 e he),
        fun b hx => by have := g.balances b hx; omega⟩

theorem electra_consolidation_queue_calm (hE : SaneConfig E) (hx : SaneEpochs E)
    (hz : SaneElectra E) {K : Nat} (h : Wellformed E s) (hs : Queues E s)
    (hb : ∀ b ∈ s.balances, b ≤ K) (hK : K + s.pending_consolidations.length * 2 ^ 42 < 2 ^ 63) :
    CalmM (Electra.process_pending_consolidations E) (fun _ s' =>
      Merged E (K + s.pending_consolidations.length * 2 ^ 42) s s') s := by
  unfold Electra.process_pending_consolidations
  simp only [calm]
  refine (pending_consolidations_calm hE hx hz h hs hs.consolidations hb hK).mono ?_
  rintro n t g
  have hw := g.wf
  exact ⟨⟨⟨hw.shaped.1, hw.shaped.2, hw.shaped.3, hw.shaped.4, hw.shaped.5, hw.shaped.6⟩,
    hw.balances, hw.slot, hw.effective, hw.exit, hw.eligible⟩,
    ⟨g.queues.deposits, g.queues.withdrawals, fun c hc => g.queues.consolidations c
      (List.mem_of_mem_drop hc), g.queues.amounts⟩, g.slot, g.length, g.active, g.balances⟩

/-! ## Epochs -/

theorem electra_eject_calm (hE : SaneConfig E) (hq : SaneQuotients E) (hx : SaneEpochs E)
    (hz : SaneElectra E) {k : Nat} {t : State} (h : Turnover E s t) (hi : Exits E k t) {i : Nat}
    (hlt : i < t.validators.length) :
    CalmM (eject_if_low E .Electra (epochOf E s.slot) i)
      (fun _ t' => Turnover E s t' ∧ Exits E k t') t := by
  have hla := hx.lookahead
  have hv := List.getElem?_eq_getElem hlt
  unfold eject_if_low
  simp only [calm]
  refine ⟨_, hv, fun _ => ?_, fun _ => ⟨h, hi⟩⟩
  refine (electra_initiate_calm hE hq hz h.wf hi hv).mono ?_
  rintro - u ⟨⟨-, w, xe, xr, rfl, h1, h2, h3, h4, h5, h6⟩, hx'⟩
  have hle := h.wf.eligible _ (List.mem_of_getElem? hv)
  refine ⟨h.exit hv h1 h5 (by omega) fun ⟨a1, a2⟩ => ⟨by omega, ?_⟩, hx'⟩
  rw [h.slot] at h6
  omega

theorem electra_limit_le (hx : SaneEpochs E) (hz : SaneElectra E) (v : Validator) :
    effective_balance_limit E .Electra v ≤ 2 ^ 48 := by
  have hinc := hx.increment
  have h1 := hz.max_effective_balance
  have h2 := hz.min_activation_balance
  unfold effective_balance_limit
  simp only
  split <;> omega

theorem electra_scores_fit (hx : SaneEpochs E) (hz : SaneElectra E)
    {e x : Nat} (he : e ≤ 2 ^ 11 * E.effective_balance_increment) (hs : x ≤ 2 ^ 22 + 2 ^ 10) :
    e * x < 2 ^ 64 ∧
      e * x / (E.inactivity_score_bias * inactivity_penalty_quotient_of E .Electra) ≤ 2 ^ 61 := by
  have hinc := hx.increment
  have h1 := hz.inactivity
  have h2 := hx.score_bias.1
  have hm : e * x ≤ 2 ^ 41 * (2 ^ 22 + 2 ^ 10) := Nat.mul_le_mul (by omega) hs
  have hd : 2 ^ 4 ≤ E.inactivity_score_bias * inactivity_penalty_quotient_of E .Electra :=
    Nat.le_trans h1 (Nat.le_mul_of_pos_left _ h2)
  have hdiv : e * x / (E.inactivity_score_bias * inactivity_penalty_quotient_of E .Electra) ≤
      e * x / 2 ^ 4 := Nat.div_le_div_left hd (by decide)
  generalize e * x = z at *
  exact ⟨by omega, by omega⟩

theorem electra_epoch_first_calm (hE : SaneConfig E) (hq : SaneQuotients E) (hx : SaneEpochs E)
    (hz : SaneElectra E) (h : Wellformed E s) (hqs : Queues E s) (he : ElectraEpochReady E s) :
    CalmM (process_epoch_first E .Electra) (fun _ s' => Wellformed E s' ∧ Queues E s' ∧
      s'.slot = s.slot ∧ (∀ b ∈ s'.balances, b ≤ 2 ^ 63) ∧
        ∃ v ∈ s'.validators, ActiveAt v (epochOf E s.slot + 1)) s := by
  have hne : Fork.Electra ≠ .Phase0 := by decide
  have hs := scored_calm hE hx h (f := .Electra)
    (fun _ => altair_balances_calm hE hq hx hne he.stake he.parallel) he.justified he.finalized
    he.parallel (fun _ => he.scores) (by decide)
  have key : CalmM (do
      scored E .Electra
      process_rewards_and_penalties E .Electra
      process_registry_updates E .Electra
      process_slashings E .Electra
      process_eth1_data_reset E
      Electra.process_pending_balance_deposits E
      Electra.process_pending_consolidations E : M Unit) (fun _ s' => Wellformed E s' ∧
      Queues E s' ∧ s'.slot = s.slot ∧ (∀ b ∈ s'.balances, b ≤ 2 ^ 63) ∧
        ∃ v ∈ s'.validators, ActiveAt v (epochOf E s.slot + 1)) s := by
    rw [CalmM_bind]
    refine hs.mono ?_
    rintro - - ⟨a, b, c, bits, sc, rfl, hw, hc, hsc⟩
    simp only [CalmM_bind]
    refine (altair_rewards_calm hE hq hx hne hw he.stake he.effective hc ⟨he.parallel.1, fun hf =>
      ⟨(he.parallel.2 hf).1, (he.parallel.2 hf).2.1, ((hsc hf).1).trans (he.parallel.2 hf).2.2⟩⟩
      (fun v hv x hx' => electra_scores_fit hx hz (he.effective v hv) ((hsc hne).2 x hx'))
      he.balances).mono ?_
    rintro - - ⟨l, rfl, l1, l2⟩
    have hx0 : Exits E 0 (withBalances { s with
        previous_justified_checkpoint := a
        current_justified_checkpoint := b
        finalized_checkpoint := c
        justification_bits := bits
        inactivity_scores := sc } l) := by
      refine ⟨hqs.congr rfl rfl rfl rfl, ?_⟩
      have h1 := he.exits
      have h2 := exitable_le (s := s)
      have h3 := he.stake
      unfold ExitRoom
      show max s.earliest_exit_epoch _ + exitable s + 0 < _
      omega
    refine (registry_calm_of hE hx quiet_exits.indifferent
      (fun t i ht hi hlt => electra_eject_calm hE hq hx hz ht hi hlt) (wf_balances hw l1) hx0
      hc).mono ?_
    rintro - t ⟨ht, hxt⟩
    have hslot := ht.slot
    have heffs := ht.effective
    have hwt := ht.wf
    have hact := ht.active
    have hqt := hxt.1
    clear hxt
    obtain ⟨vs, xe, xr, rfl⟩ := ht.only
    have heffs : vs.map Validator.effective_balance =
      s.validators.map Validator.effective_balance := heffs
    have hsum : (vs.map Validator.effective_balance).sum ≤ 2 ^ 56 := by
      rw [heffs]
      exact he.stake
    refine (slashings_calm hE hq hx hwt hsum (fun v hv => ?_) he.slashings l2).mono ?_
    · have hmem : v.effective_balance ∈ vs.map Validator.effective_balance :=
        List.mem_map_of_mem hv
      rw [heffs] at hmem
      obtain ⟨u, hu, hue⟩ := List.mem_map.1 hmem
      rw [← hue]
      exact he.penalties u hu
    rintro - - ⟨m, rfl, m1, m2⟩
    have hwm := wf_balances hwt m1
    refine (eth1_reset_calm hE hx hwm).mono ?_
    rintro - - ⟨vt, rfl⟩
    have hwv := wf_votes hwm vt
    refine (electra_deposit_queue_calm hE hq hz (K := 2 ^ 61 + 4 * 2 ^ 60) (by decide) hwv
      (hqt.congr rfl rfl rfl rfl) he.deposits.1 he.deposits.2 m2).mono ?_
    rintro - u ⟨u1, u2, u3, u4, u5, u6⟩
    have hlen : u.pending_consolidations.length * 2 ^ 42 ≤ 2 ^ 18 * 2 ^ 42 := by
      rw [u5]
      exact Nat.mul_le_mul_right _ he.consolidations
    refine (electra_consolidation_queue_calm hE hx hz u1 u2 u6 (by omega)).mono ?_
    rintro - w g
    refine ⟨g.wf, g.queues, g.slot.trans u3, fun b hb => ?_, g.active _ ?_⟩
    · have := g.balances b hb; omega
    · rw [u4]; exact hact he.active
  unfold process_epoch_first
  unfold scored at key
  simp only [calm] at key ⊢
  exact key

theorem flags_then_sync_mod : Modifies [.previous_epoch_participation,
    .current_epoch_participation, .current_sync_committee, .next_sync_committee] (do
      process_participation_flag_updates
      process_sync_committee_updates E) := by
  mods
  · exact Modifies.mono flag_updates_mod (by decide)
  · exact Modifies.mono sync_committees_mod (by decide)

theorem electra_epoch_calm (hE : SaneConfig E) (hq : SaneQuotients E) (hx : SaneEpochs E)
    (hz : SaneElectra E) (h : Wellformed E s) (hqs : Queues E s) (he : ElectraEpochReady E s) :
    CalmM (process_epoch E .Electra)
      (fun _ s' => (Wellformed E s' ∧ Queues E s') ∧ s'.slot = s.slot) s := by
  unfold process_epoch
  simp only [CalmM_bind]
  refine (electra_epoch_first_calm hE hq hx hz h hqs he).mono ?_
  rintro - s1 ⟨w1, q1, e1, b1, a1⟩
  refine (effective_calm hE hx (electra_limit_le hx hz) w1 b1).mono ?_
  rintro - s2 ⟨w2, ⟨vs, hs2⟩, a2⟩
  have e2 : s2.slot = s.slot := by rw [hs2]; exact e1
  rw [e1] at a2
  have a2' := a2 a1
  have q2 : Queues E s2 := by
    refine q1.congr ?_ (by rw [hs2]) (by rw [hs2]) (by rw [hs2])
    rw [← w2.balances, ← w1.balances, hs2]
  clear hs2
  refine (slashings_reset_calm hE w2).mono ?_
  rintro - - ⟨w3, l3, rfl⟩
  refine (randao_reset_calm hE w3).mono ?_
  rintro - - ⟨w4, l4, rfl⟩
  refine (historical_calm hE w4).mono ?_
  rintro - - ⟨w5, l5, m5, rfl⟩
  rw [← e2] at a2' ⊢
  refine ((flags_then_sync_calm hE hx w5 a2').pres flags_then_sync_mod).mono ?_
  rintro - t ⟨⟨w, e⟩, m⟩
  have hv := qview_changes m (by decide)
  exact ⟨⟨w, quiet_queues _ _ (q2.congr rfl rfl rfl rfl) hv⟩, e⟩

/-! ## Slots -/

theorem Ticked.electra {t : State} (h : Ticked s t) (he : ElectraEpochReady E s) :
    ElectraEpochReady E t := by
  obtain ⟨a, b, c, rfl⟩ := h
  exact ⟨he.1, he.2, he.3, he.4, he.5, he.6, he.7, he.8, he.9, he.10, he.11, he.12, he.13⟩

theorem electra_steady (hE : SaneConfig E) (hq : SaneQuotients E) (hx : SaneEpochs E)
    (hz : SaneElectra E) :
    Steady E .Electra (fun s => Wellformed E s ∧ Queues E s) (ElectraEpochReady E) := by
  refine ⟨fun _ h => h.1, fun s t h ht hw => ⟨hw, ?_⟩, fun _ _ h hn =>
    ⟨wf_move h.1 hn, h.2.congr rfl rfl rfl rfl⟩,
    fun _ h he => electra_epoch_calm hE hq hx hz h.1 h.2 he, fun _ _ he ht => ht.electra he,
    fun s n he hn => ?_⟩
  · obtain ⟨a, b, c, rfl⟩ := ht
    exact h.2.congr rfl rfl rfl rfl
  · refine ⟨he.1, he.2, he.3, he.4, he.5, ?_, he.7, he.8, he.9, ?_, he.11, he.12, he.13⟩
    · have := he.6; rwa [← hn] at this
    · have := he.10; rwa [← hn] at this

end Verif
