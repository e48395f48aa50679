import Verif.Proofs.Credit
import Verif.Proofs.Joining
import Verif.Props.Rewards

/-! # From a credited deposit to activation, in electra -/

namespace Verif

open Spec Props

section

variable {E : Env} {s t u : State} {key : PublicKey} {i : Nat}

/-- What is known of a validator while the consolidations are settled: it has enough in its account and
is the source of none of them. -/
def Rich (E : Env) (v₀ : Validator) (i : Nat) (s : State) : Prop :=
  ∃ v b, s.validators[i]? = some v ∧ s.balances[i]? = some b ∧ E.min_activation_balance ≤ b ∧
    v.withdrawable_epoch = FAR_FUTURE_EPOCH ∧ v.effective_balance = v₀.effective_balance ∧
    v.activation_eligibility_epoch = v₀.activation_eligibility_epoch ∧
    v.activation_epoch = v₀.activation_epoch ∧ v.public_key = v₀.public_key

theorem compounded_same (v : Validator) :
    (compounded v).withdrawable_epoch = v.withdrawable_epoch ∧
    (compounded v).effective_balance = v.effective_balance ∧
    (compounded v).activation_eligibility_epoch = v.activation_eligibility_epoch ∧
    (compounded v).activation_epoch = v.activation_epoch ∧
    (compounded v).public_key = v.public_key := by
  unfold compounded
  split <;> exact ⟨rfl, rfl, rfl, rfl, rfl⟩

theorem consolidated_rich {v₀ : Validator} {c : PendingConsolidation} {x m : Nat}
    (hfar : epochOf E s.slot < FAR_FUTURE_EPOCH) (hr : Rich E v₀ i s)
    (h : Consolidated E s c x m t) : Rich E v₀ i t := by
  obtain ⟨v, b, hv, hb, hge, hw, h1, h2, h3, h4⟩ := hr
  have hsrc : i ≠ c.source_index := by
    rintro rfl
    obtain ⟨v', hv', -, hle⟩ := h.ripe
    rw [hv] at hv'; cases hv'
    omega
  have hbal := h.balances i
  rw [hb, Option.map_some, if_neg hsrc, Nat.sub_zero] at hbal
  obtain ⟨w, b', hw', hb', hx, hvs⟩ := h.target
  by_cases ht : i = c.target_index
  · subst ht
    rw [hv] at hw'; cases hw'
    rw [hb] at hb'; cases hb'
    obtain ⟨g1, g2, g3, g4, g5⟩ := compounded_same v
    refine ⟨compounded v, _, by
      rw [hvs, List.getElem?_set_self (List.getElem?_eq_some_iff.1 hv).1], hbal, ?_,
      g1.trans hw, g2.trans h1, g3.trans h2, g4.trans h3, g5.trans h4⟩
    rw [if_pos rfl, if_pos rfl, hx]
    unfold excessOf
    split <;> omega
  · refine ⟨v, _, by rw [hvs, List.getElem?_set_ne (Ne.symm ht)]; exact hv, hbal, ?_,
      hw, h1, h2, h3, h4⟩
    rw [if_neg ht, if_neg ht]
    omega

theorem consolidations_rich {v₀ : Validator} {l : List PendingConsolidation}
    (h : ConsolidatedAll E s l t) (hfar : epochOf E s.slot < FAR_FUTURE_EPOCH) (hr : Rich E v₀ i s) :
    Rich E v₀ i t := by
  induction h with
  | done => exact hr
  | void _ _ ih => exact ih hfar hr
  | step h _ ih =>
    refine ih ?_ (consolidated_rich hfar hr h)
    have : _ = _ := congrArg State.slot h.rest
    rw [this]
    exact hfar

/-- A validator with enough stake for the queue of electra that is not on it -/
def Stocked (E : Env) (w : Validator) : Prop :=
  JoinsQueue E .Electra w ∧ w.activation_epoch = FAR_FUTURE_EPOCH

theorem credited_counts (ho : Orderly E .Electra t) {k : Nat} (hc : CreditedAt E t u k)
    (hfar : epochOf E t.slot + 1 < FAR_FUTURE_EPOCH) {v : Validator}
    (hv : t.validators[i]? = some v) (hel : v.activation_eligibility_epoch = FAR_FUTURE_EPOCH)
    (hact : v.activation_epoch = FAR_FUTURE_EPOCH) (hwd : v.withdrawable_epoch = FAR_FUTURE_EPOCH)
    (hlow : v.effective_balance + hysteresis E * E.hysteresis_upward_multiplier <
      E.min_activation_balance)
    (hns : v.slashed = false) {b₀ : Nat} (hb₀ : t.balances[i]? = some b₀)
    (hamt : E.min_activation_balance ≤ b₀ + depositedTo (t.pending_balance_deposits.take k) i) :
    ∃ w, u.validators[i]? = some w ∧ w.public_key = v.public_key ∧ Stocked E w := by
  obtain ⟨t₀, a, b, u₀, h0, h1, h2, h3, rfl⟩ := hc
  have hp := orderly_proper ho
  have c0 := slot_mod.ok h0
  have q0 := (before_queue h1).1
  simp only [epochParts, List.take, runs_cons, runs_nil] at h1
  obtain ⟨t1, g1, t2, g2, t3, g3, t4, g4, t5, g5, t6, g6, rfl⟩ := h1
  simp only [epochParts, List.drop, runs_cons, runs_nil] at h3
  obtain ⟨t8, g8, t9, g9, t10, g10, t11, g11, t12, g12, t13, g13, t14, g14, rfl⟩ := h3
  -- the slot, the validators and the finality up to the registry updates
  have m1 := justification_mod.ok g1
  have m2 := inactivity_mod.ok g2
  have m3 := rewards_mod.ok g3
  have hslot3 : t3.slot = t.slot :=
    (m3 .slot (by decide)).trans ((m2 .slot (by decide)).trans ((m1 .slot (by decide)).trans
      (c0 .slot (by decide))))
  have hv3 : t3.validators[i]? = some v := by
    rw [show t3.validators = t.validators from
      (m3 .validators (by decide)).trans ((m2 .validators (by decide)).trans
        ((m1 .validators (by decide)).trans (c0 .validators (by decide))))]
    exact hv
  have hup : Upto (epochOf E t₀.slot) t₀ := by
    have e1 : t₀.slot = t.slot := c0 .slot (by decide)
    have e2 : t₀.previous_justified_checkpoint = t.previous_justified_checkpoint :=
      c0 .previous_justified_checkpoint (by decide)
    have e3 : t₀.current_justified_checkpoint = t.current_justified_checkpoint :=
      c0 .current_justified_checkpoint (by decide)
    have e4 : t₀.finalized_checkpoint = t.finalized_checkpoint :=
      c0 .finalized_checkpoint (by decide)
    unfold Upto
    rw [e1, e2, e3, e4]
    exact ⟨hp.previous, hp.current, hp.finalized⟩
  have hfin : t3.finalized_checkpoint.epoch ≤ epochOf E t3.slot := by
    have e1 : t3.finalized_checkpoint = t1.finalized_checkpoint :=
      (m3 .finalized_checkpoint (by decide)).trans (m2 .finalized_checkpoint (by decide))
    have e2 : t3.slot = t1.slot := (m3 .slot (by decide)).trans (m2 .slot (by decide))
    rw [e1, e2]
    exact ((justification_past.toOk.ok g1).2 hup).2.2
  obtain ⟨A, -, hq, -, hA, -⟩ := registry_updates_ok hfin g4
  obtain ⟨w, hw, qs⟩ := hq i v hv3
  have hiA : i ∉ A := by
    intro hi
    obtain ⟨v', hv', hle, -⟩ := hA i hi
    rw [hv3] at hv'; cases hv'
    rw [hslot3] at hfin
    omega
  have hnl : ¬ LowStake E t3 v := by
    rintro ⟨⟨hle, -⟩, -⟩
    rw [hslot3] at hle
    omega
  have hnj : ¬ JoinsQueue E .Electra v := by
    rintro ⟨-, hge⟩
    rw [if_pos rfl] at hge
    omega
  have we : w.activation_eligibility_epoch = FAR_FUTURE_EPOCH := by
    rw [qs.eligibility, if_neg hnj]; exact hel
  have wa : w.activation_epoch = FAR_FUTURE_EPOCH := by
    rw [qs.activation, if_neg hiA]; exact hact
  have ww : w.withdrawable_epoch = FAR_FUTURE_EPOCH := (qs.stays hnl).2.trans hwd
  -- the account, which neither rewards nor penalties concern
  have hb2 : t2.balances[i]? = some b₀ := by
    rw [show t2.balances = t.balances from (m2 .balances (by decide)).trans
      ((m1 .balances (by decide)).trans (c0 .balances (by decide)))]
    exact hb₀
  have hb3 : t3.balances[i]? = some b₀ := by
    have hlt : i < t3.balances.length := by
      rcases C64_exact E .Electra (by decide) t2 t3 g3 with ⟨-, rfl⟩ | ⟨-, bs, rfl, q, -⟩
      · exact (List.getElem?_eq_some_iff.1 hb2).1
      · show i < bs.length
        rw [q]
        exact (List.getElem?_eq_some_iff.1 hb2).1
    have hslot2 : t2.slot = t.slot := (m3 .slot (by decide)).symm.trans hslot3
    have hnc : ¬ Counts E t2 i := by
      rintro ⟨v', hv', he⟩
      rw [← show t3.validators = t2.validators from m3 .validators (by decide), hv3] at hv'
      cases hv'
      rcases he with ⟨he, -⟩ | ⟨he, -⟩
      · unfold previousEpoch at he
        rw [hslot2] at he
        omega
      · rw [hns] at he; cases he
    have e := List.getElem?_eq_getElem hlt
    rw [e, C64_bystander E .Electra (by decide) t2 t3 g3 i b₀ _ hb2 e hnc]
  have hb4 : t4.balances[i]? = some b₀ := by
    rw [show t4.balances = t3.balances from registry_mod.ok g4 .balances (by decide)]
    exact hb3
  have hb5 : t5.balances[i]? = some b₀ := by
    obtain ⟨bs, rfl, -, q⟩ := process_slashings_ok g5
    have := q i
    rw [hw] at this
    dsimp only at this
    rw [if_neg (by rintro ⟨r, -⟩; rw [qs.slashed, hns] at r; cases r)] at this
    exact this.trans hb4
  -- the deposits
  have m5 := slashings_mod.ok g5
  have m6 := eth1_reset_mod.ok g6
  have hb := h2.rest
  have hvb : b.validators = t4.validators :=
    (congrArg State.validators hb).trans
      ((m6 .validators (by decide)).trans (m5 .validators (by decide)))
  have hslotb : b.slot = t.slot :=
    (congrArg State.slot hb).trans ((m6 .slot (by decide)).trans ((m5 .slot (by decide)).trans
      ((registry_mod.ok g4 .slot (by decide)).trans hslot3)))
  have hpar : Parallel .Electra a := by
    have p0 : Parallel .Electra t₀ := by
      unfold Parallel
      rw [show t₀.balances = t.balances from c0 .balances (by decide),
        show t₀.validators = t.validators from c0 .validators (by decide),
        show t₀.previous_epoch_participation = t.previous_epoch_participation from
          c0 .previous_epoch_participation (by decide),
        show t₀.current_epoch_participation = t.current_epoch_participation from
          c0 .current_epoch_participation (by decide),
        show t₀.inactivity_scores = t.inactivity_scores from c0 .inactivity_scores (by decide)]
      exact ho.parallel
    have p1 := (justification_len.ok g1).parallel p0
    have p2 := (inactivity_len.ok g2).parallel p1
    have p3 := (rewards_len.ok g3).parallel p2
    have p4 := (registry_len.ok g4).parallel p3
    have p5 := (slashings_len.ok g5).parallel p4
    unfold Parallel at *
    rw [show a.balances = t5.balances from m6 .balances (by decide),
      show a.validators = t5.validators from m6 .validators (by decide),
      show a.previous_epoch_participation = t5.previous_epoch_participation from
        m6 .previous_epoch_participation (by decide),
      show a.current_epoch_participation = t5.current_epoch_participation from
        m6 .current_epoch_participation (by decide),
      show a.inactivity_scores = t5.inactivity_scores from m6 .inactivity_scores (by decide)]
    exact p5
  have hlen : b.balances.length = b.validators.length := by
    have e1 : b.balances.length = a.balances.length := by
      have hh : ∀ j : Nat, b.balances[j]? = none ↔ a.balances[j]? = none := by
        intro j; rw [h2.balances j]; simp
      simp only [List.getElem?_eq_none_iff] at hh
      have := hh b.balances.length
      have := hh a.balances.length
      omega
    rw [e1, hpar.1, show b.validators = a.validators from (congrArg State.validators hb :)]
  have hrich : Rich E w i b := by
    have hlt : i < a.balances.length := by
      rw [hpar.1, show a.validators = t4.validators from
        (m6 .validators (by decide)).trans (m5 .validators (by decide))]
      exact (List.getElem?_eq_some_iff.1 hw).1
    refine ⟨w, a.balances[i] + depositedTo (a.pending_balance_deposits.take k) i,
      by rw [hvb]; exact hw, ?_, ?_, ww, rfl, rfl, rfl, rfl⟩
    · rw [h2.balances i, List.getElem?_eq_getElem hlt, Option.map_some]
    · have : t₀.pending_balance_deposits = t.pending_balance_deposits :=
        c0 .pending_balance_deposits (by decide)
      have hba : a.balances[i]? = some b₀ := by
        rw [show a.balances = t5.balances from m6 .balances (by decide)]
        exact hb5
      rw [q0, this, show a.balances[i] = b₀ from
        Option.some.inj ((List.getElem?_eq_getElem hlt).symm.trans hba)]
      exact hamt
  -- the consolidations
  obtain ⟨n, -, hall, -⟩ := pending_consolidations_ok ho.config hlen g8
  obtain ⟨x, bal, hx, hbal, hge, -, x1, x2, x3, x4⟩ :=
    consolidations_rich hall (by rw [hslotb]; omega) hrich
  -- the effective balance
  obtain ⟨vs, hvs, -, heff⟩ := effective_updates_ok ho.balances g9
  obtain ⟨bal', e, hbal', hxe, hstep⟩ := heff i x hx
  have hbe : bal' = bal := Option.some.inj (hbal'.symm.trans hbal)
  subst hbe
  have hband : ¬ InBand E x.effective_balance bal' := by
    rintro ⟨-, hle⟩
    rw [x1, qs.balance] at hle
    omega
  have hlim : E.min_activation_balance ≤ effectiveLimit E .Electra x := by
    unfold effectiveLimit
    rw [if_pos rfl]
    split
    · exact ho.balances.le_electra
    · exact Nat.le_refl _
  have hmin := (hstep.2 hband).2.2 E.min_activation_balance ho.balances.activation
    (Nat.le_min.2 ⟨hge, hlim⟩)
  have hlast : u₀.validators = t9.validators :=
    (sync_committees_mod.ok g14 .validators (by decide)).trans
      ((flag_updates_mod.ok g13 .validators (by decide)).trans
      ((historical_mod.ok g12 .validators (by decide)).trans
      ((randao_reset_mod.ok g11 .validators (by decide)).trans
      (slashings_reset_mod.ok g10 .validators (by decide)))))
  refine ⟨{ x with effective_balance := e }, ?_, x4.trans qs.key, ⟨x2.trans we, ?_⟩, x3.trans wa⟩
  · show u₀.validators[i]? = _
    rw [hlast, hvs]
    exact hxe
  · rw [if_pos rfl]
    exact hmin

/-! ## And then -/

/-- Where the validator stands later, as `Coming` -/
def Rising (E : Env) (key : PublicKey) (e i : Nat) (t : State) : Prop :=
  ∃ v, t.validators[i]? = some v ∧ v.public_key = key ∧
    (epochOf E t.slot = e ∧ Stocked E v ∨
      e < epochOf E t.slot ∧ v.activation_eligibility_epoch = e + 1 ∧
        (v.activation_epoch = FAR_FUTURE_EPOCH ∨ v.activation_epoch ≤ nextFreeEpoch E t))

theorem rising_slot {e : Nat} (hb : e + 1 < FAR_FUTURE_EPOCH) (ho : Orderly E .Electra t)
    (hc : Rising E key e i t) (h : process_slots E .Electra (t.slot + 1) t = .ok () u) :
    Rising E key e i u := by
  obtain ⟨v, hv, hk, hst⟩ := hc
  obtain ⟨w, hw, hwk⟩ := ((slots_reg ho.config).toOk.ok h).1 i v hv
  rcases (slot_turn ho h).2.2 with ⟨q1, q2⟩ | ⟨j, A, q⟩
  · refine ⟨v, by rw [q2]; exact hv, hk, ?_⟩
    unfold nextFreeEpoch at *
    rw [q1]; exact hst
  · obtain ⟨w', hw', q1, q2⟩ := q.entries i v hv
    rw [hw] at hw'; cases hw'
    refine ⟨w, hw, hwk.key.trans hk, Or.inr ?_⟩
    have he := q.epoch
    rcases hst with ⟨r0, r1, r2⟩ | ⟨r0, r1, r2⟩
    · rw [if_pos r1] at q1
      refine ⟨by omega, by omega, ?_⟩
      by_cases hA : i ∈ A
      · rw [if_pos hA] at q2
        unfold nextFreeEpoch at *
        omega
      · rw [if_neg hA] at q2
        exact Or.inl (q2.trans r2)
    · have hsmall : v.activation_eligibility_epoch ≠ FAR_FUTURE_EPOCH := by omega
      refine ⟨by omega, by rw [q1, if_neg fun h => hsmall h.1]; exact r1, ?_⟩
      unfold nextFreeEpoch at *
      by_cases hA : i ∈ A
      · rw [if_pos hA] at q2; omega
      · rw [if_neg hA] at q2
        rcases r2 with r2 | r2
        · exact Or.inl (q2.trans r2)
        · right; omega

theorem rising_block {e : Nat} {b : BeaconBlock} (ho : Orderly E .Electra t)
    (hc : Rising E key e i t) (h : process_block E .Electra b t = .ok () u) : Rising E key e i u := by
  obtain ⟨v, hv, hk, hst⟩ := hc
  obtain ⟨-, -, hsl, hstill⟩ := block_turn ho h
  obtain ⟨w, hw, e1, e2⟩ := hstill.1 i v hv
  obtain ⟨w', hw', e3⟩ := (block_weights.toOk.ok h : Weights t u).2 i v hv
  obtain ⟨w'', hw'', e4⟩ := ((block_reg ho.config).toOk.ok h : Reg t u).1 i v hv
  rw [hw] at hw' hw''; cases hw'; cases hw''
  refine ⟨w, hw, e4.key.trans hk, ?_⟩
  unfold nextFreeEpoch Stocked JoinsQueue at *
  rw [hsl, e1, e2, e3]
  exact hst

theorem follows_rising (hb : epochOf E s.slot + 1 < FAR_FUTURE_EPOCH) (ho : Orderly E .Electra s)
    (he : ∃ w, s.validators[i]? = some w ∧ w.public_key = key ∧ Stocked E w)
    (h : Follows E .Electra s t) : Rising E key (epochOf E s.slot) i t := by
  induction h with
  | start =>
    obtain ⟨v, hv, hk, hn⟩ := he
    exact ⟨v, hv, hk, Or.inl ⟨rfl, hn⟩⟩
  | slot h' h ih => exact rising_slot hb (follows_orderly ho h') ih h
  | block h' h ih => exact rising_block (follows_orderly ho h') ih h

end

end Verif
