import Verif.Spec.Queues
import Verif.Proofs.Upgrade
import Verif.Proofs.Withdrawals
import Verif.Proofs.Slashings

/-! # The balance-weighted queues of electra -/

namespace Verif
open Spec

theorem churn_step_eq_ok {E : Env} {s : State} {earliest free balance : Nat} {r : Nat × Nat}
    (h : Electra.churn_step E s earliest free balance = .ok r) :
    balance ≤ r.2 ∧
    QueuedExit E s (queueStart E s earliest free) balance r.1 (r.2 - balance) := by
  simp only [Electra.churn_step, run, current_epoch_eq_ok, activation_exit_epoch_eq_ok] at h
  obtain ⟨_, ⟨rfl, -⟩, _, ⟨rfl, -⟩, c, hc, h⟩ := h
  have hc := exit_churn_eq_ok hc
  have hstart : queueStart E s earliest free =
      (max earliest (epochOf E s.slot + 1 + E.max_seed_lookahead),
        if earliest < max earliest (epochOf E s.slot + 1 + E.max_seed_lookahead) then c
        else free) := by
    unfold queueStart nextFreeEpoch
    by_cases hlt : earliest < epochOf E s.slot + 1 + E.max_seed_lookahead
    · rw [if_pos hlt, Nat.max_eq_right (Nat.le_of_lt hlt), if_pos hlt, hc]
    · rw [if_neg hlt, Nat.max_eq_left (by omega), if_neg (Nat.lt_irrefl _)]
  rw [hstart]
  generalize max earliest (epochOf E s.slot + 1 + E.max_seed_lookahead) = e0 at *
  generalize (if earliest < e0 then c else free) = b0 at *
  clear hstart
  rcases h with ⟨h1, _, ⟨rfl, -⟩, _, ⟨rfl, -⟩, _, ⟨rfl, hc0⟩, _, ⟨rfl, -⟩, _, ⟨rfl, -⟩, _,
    ⟨rfl, -⟩, _, ⟨rfl, -⟩, rfl⟩ | ⟨h1, rfl⟩
  · have hcp : 0 < c := by omega
    have hd := Nat.div_add_mod (balance - b0 - 1) c
    have hm := Nat.mod_lt (balance - b0 - 1) hcp
    have hle : balance ≤ b0 + ((balance - b0 - 1) / c + 1) * c := by
      rw [Nat.add_mul, Nat.one_mul, Nat.mul_comm]
      omega
    refine ⟨hle, ⟨Nat.le_add_right _ _, ?_, ?_⟩⟩
    · rw [hc] at *
      simp only [Nat.add_sub_cancel_left]
      omega
    · intro e he hb
      rw [← hc] at hb
      have : (balance - b0 - 1) / c < e - e0 := by
        rw [Nat.div_lt_iff_lt_mul hcp]
        dsimp only at hb
        omega
      dsimp only at he ⊢
      omega
  · refine ⟨by dsimp only; omega, ⟨Nat.le_refl _, ?_, fun e he _ => he⟩⟩
    dsimp only
    rw [Nat.sub_self, Nat.zero_mul]
    omega

theorem exit_epoch_eq_ok {E : Env} {s s' : State} {balance epoch : Nat}
    (h : Electra.compute_exit_epoch_and_update_churn E balance s = .ok epoch s') :
    QueuedExit E s (queueStart E s s.earliest_exit_epoch s.exit_balance_to_consume) balance epoch
      s'.exit_balance_to_consume ∧
    s' = { s with
      earliest_exit_epoch := epoch
      exit_balance_to_consume := s'.exit_balance_to_consume } := by
  simp only [Electra.compute_exit_epoch_and_update_churn, run] at h
  obtain ⟨r, hr, _, ⟨rfl, -⟩, rfl, rfl⟩ := h
  exact ⟨(churn_step_eq_ok hr).2, rfl⟩

theorem consolidation_epoch_eq_ok {E : Env} {s s' : State} {balance epoch : Nat}
    (h : Electra.compute_consolidation_epoch_and_update_churn E balance s = .ok epoch s') :
    QueuedExit E s (queueStart E s s.earliest_consolidation_epoch
      s.consolidation_balance_to_consume) balance epoch s'.consolidation_balance_to_consume ∧
    s' = { s with
      earliest_consolidation_epoch := epoch
      consolidation_balance_to_consume := s'.consolidation_balance_to_consume } := by
  simp only [Electra.compute_consolidation_epoch_and_update_churn, run] at h
  obtain ⟨r, hr, _, ⟨rfl, -⟩, rfl, rfl⟩ := h
  exact ⟨(churn_step_eq_ok hr).2, rfl⟩

/-- Everything about runs of the exit queue. -/
theorem served_inv {E : Env} {C : Nat} {s s' : State} {l : List (Nat × Nat)}
    (h : Served E C s l s') :
    s.earliest_exit_epoch ≤ s'.earliest_exit_epoch ∧
    (∀ p ∈ l, s.earliest_exit_epoch ≤ p.2 ∧ p.2 ≤ s'.earliest_exit_epoch) ∧
    (l.map (·.2)).Pairwise (· ≤ ·) ∧
    s'.exit_balance_to_consume + (l.map (·.1)).sum ≤ s.exit_balance_to_consume +
      C * (s'.earliest_exit_epoch - s.earliest_exit_epoch) ∧
    ∀ x, s.earliest_exit_epoch ≤ x → ((l.filter (·.2 ≤ x)).map (·.1)).sum ≤
      s.exit_balance_to_consume + C * (x - s.earliest_exit_epoch) := by
  induction h with
  | start => exact ⟨Nat.le_refl _, by simp, by simp, by simp, by simp⟩
  | other _ h1 h2 ih => rw [h1, h2]; exact ih
  | @exit l t u balance epoch _ hC h ih =>
    obtain ⟨i1, i2, i3, i4, i5⟩ := ih
    obtain ⟨⟨q1, q2, -⟩, hu⟩ := exit_epoch_eq_ok h
    have hue : u.earliest_exit_epoch = epoch := by rw [hu]
    have hge : t.earliest_exit_epoch ≤ epoch := by
      unfold queueStart at q1
      split at q1 <;> dsimp only at q1 <;> omega
    have hmul : C * (epoch - s.earliest_exit_epoch) =
        C * (t.earliest_exit_epoch - s.earliest_exit_epoch) +
          C * (epoch - t.earliest_exit_epoch) := by
      rw [← Nat.mul_add]; congr 1; omega
    have htot : u.exit_balance_to_consume + ((l ++ [(balance, epoch)]).map (·.1)).sum ≤
        s.exit_balance_to_consume + C * (epoch - s.earliest_exit_epoch) := by
      have hb : u.exit_balance_to_consume + balance ≤
          t.exit_balance_to_consume + C * (epoch - t.earliest_exit_epoch) := by
        rw [q2]
        unfold queueStart at q1 ⊢
        split at q1
        · rename_i hlt
          rw [if_pos hlt]
          dsimp only at q1 ⊢
          have h3 : (epoch - nextFreeEpoch E t) * exitChurn E t ≤
              C * (epoch - nextFreeEpoch E t) := by
            rw [Nat.mul_comm]; exact Nat.mul_le_mul_right _ hC
          have h4 : C * (epoch - t.earliest_exit_epoch) = C * (epoch - nextFreeEpoch E t) +
              C * (nextFreeEpoch E t - t.earliest_exit_epoch) := by
            rw [← Nat.mul_add]; congr 1; omega
          have h5 : C ≤ C * (nextFreeEpoch E t - t.earliest_exit_epoch) :=
            Nat.le_mul_of_pos_right _ (by omega)
          omega
        · rename_i hlt
          rw [if_neg hlt]
          dsimp only
          have h3 : (epoch - t.earliest_exit_epoch) * exitChurn E t ≤
              C * (epoch - t.earliest_exit_epoch) := by
            rw [Nat.mul_comm]; exact Nat.mul_le_mul_right _ hC
          omega
      simp only [List.map_append, List.map_cons, List.map_nil, List.sum_append, List.sum_cons,
        List.sum_nil]
      omega
    refine ⟨by omega, ?_, ?_, by rw [hue]; exact htot, ?_⟩
    · intro p hp
      rcases List.mem_append.mp hp with hp | hp
      · have := i2 p hp; omega
      · simp only [List.mem_singleton] at hp
        subst hp
        dsimp only
        omega
    · rw [List.map_append, List.pairwise_append]
      refine ⟨i3, by simp, ?_⟩
      intro a ha b hb
      obtain ⟨p, hp, rfl⟩ := List.mem_map.mp ha
      simp only [List.map_cons, List.map_nil, List.mem_singleton] at hb
      have := i2 p hp
      omega
    · intro x hx
      by_cases hxe : epoch ≤ x
      · have hall : (l ++ [(balance, epoch)]).filter (·.2 ≤ x) = l ++ [(balance, epoch)] := by
          rw [List.filter_eq_self]
          intro p hp
          rcases List.mem_append.mp hp with hp | hp
          · have := i2 p hp
            simp only [decide_eq_true_eq]; omega
          · simp only [List.mem_singleton] at hp
            subst hp
            simpa using hxe
        rw [hall]
        have : C * (epoch - s.earliest_exit_epoch) ≤ C * (x - s.earliest_exit_epoch) :=
          Nat.mul_le_mul_left _ (by omega)
        omega
      · rw [List.filter_append]
        have : [(balance, epoch)].filter (fun p => decide (p.2 ≤ x)) = [] := by
          simp; omega
        rw [this, List.append_nil]
        exact i5 x hx

/-! ## Pending deposits -/

theorem pending_loop_ok {available : Nat} (l : List PendingBalanceDeposit) :
    ∀ {p c : Nat} {s s' : State} {r : Nat × Nat}, p ≤ available →
    Electra.pending_deposits_loop available l p c s = .ok r s' →
    ∃ k, k ≤ l.length ∧ r = (p + depositSum (l.take k), c + k) ∧
      p + depositSum (l.take k) ≤ available ∧
      (k < l.length → available < p + depositSum (l.take (k + 1))) ∧
      ∃ bs, s' = { s with balances := bs } ∧ bs.length = s.balances.length ∧
        bs.sum = s.balances.sum + depositSum (l.take k) ∧
        ∀ i : Nat, bs[i]? = s.balances[i]?.map (· + depositedTo (l.take k) i) := by
  induction l with
  | nil =>
    intro p c s s' r hp h
    unfold Electra.pending_deposits_loop at h
    simp only [run] at h
    obtain ⟨rfl, rfl⟩ := h
    exact ⟨0, by simp, by simp [depositSum], by simpa [depositSum] using hp, by simp, s.balances,
      rfl, rfl, by simp [depositSum], by simp [depositedTo]⟩
  | cons d l ih =>
    intro p c s s' r hp h
    unfold Electra.pending_deposits_loop at h
    simp only [run] at h
    obtain ⟨_, ⟨rfl, -⟩, h⟩ := h
    rcases h with ⟨h1, rfl, rfl⟩ | ⟨h1, t, h2, h3⟩
    · exact ⟨0, by simp, by simp [depositSum], by simpa [depositSum] using hp,
        by simpa [depositSum] using h1, s.balances, rfl, rfl, by simp [depositSum],
        by simp [depositedTo]⟩
    · rw [increase_balance_eq_ok] at h2
      obtain ⟨b, hb, -, rfl⟩ := h2
      obtain ⟨k, k1, rfl, k2, k3, bs, rfl, k4, k5, k6⟩ := ih (by omega) h3
      have hsum := sum_set s.balances d.index b (b + d.amount) hb
      refine ⟨k + 1, by simpa using k1, ?_, ?_, ?_, bs, rfl, ?_, ?_, ?_⟩
      · simp only [depositSum, List.take_succ_cons, List.map_cons, List.sum_cons, Prod.mk.injEq]
        omega
      · simp only [depositSum, List.take_succ_cons, List.map_cons, List.sum_cons] at k2 ⊢
        omega
      · intro hk
        have := k3 (by simpa using hk)
        simp only [depositSum, List.take_succ_cons, List.map_cons, List.sum_cons] at this ⊢
        omega
      · simpa using k4
      · simp only [depositSum, List.take_succ_cons, List.map_cons, List.sum_cons] at k5 ⊢
        omega
      · intro i
        rw [k6, List.getElem?_set]
        by_cases hi : d.index = i
        · subst hi
          have hlt := (List.getElem?_eq_some_iff.mp hb).1
          rw [if_pos rfl, if_pos hlt, hb]
          simp [depositedTo, List.take_succ_cons, Nat.add_assoc]
        · simp [hi, depositedTo, List.take_succ_cons]

theorem pending_deposits_ok {E : Env} {s s' : State}
    (h : Electra.process_pending_balance_deposits E s = .ok () s') :
    ∃ k, DepositsCredited E s k s' ∧
      s'.balances.sum = s.balances.sum + depositSum (s.pending_balance_deposits.take k) := by
  simp only [Electra.process_pending_balance_deposits, run] at h
  obtain ⟨c, hc, _, ⟨rfl, -⟩, r, t, ht, left, t2, hleft, rfl⟩ := h
  have hc := exit_churn_eq_ok hc
  subst hc
  obtain ⟨k, k1, rfl, k2, k3, bs, rfl, k4, k5, k6⟩ := pending_loop_ok _ (Nat.zero_le _) ht
  simp only [Nat.zero_add] at *
  rcases hleft with ⟨he, rfl, rfl⟩ | ⟨he, ⟨rfl, -⟩, rfl⟩
  · refine ⟨k, ⟨k1, k2, k3, k6, rfl, ?_, rfl⟩, k5⟩
    rw [List.isEmpty_iff, List.drop_eq_nil_iff] at he
    rw [if_pos (by omega)]
  · refine ⟨k, ⟨k1, k2, k3, k6, rfl, ?_, rfl⟩, k5⟩
    have : ¬ k = s.pending_balance_deposits.length := by
      intro hk
      apply he
      rw [List.isEmpty_iff, List.drop_eq_nil_iff]
      omega
    rw [if_neg this]

/-! ## Pending consolidations -/

theorem switch_ok {E : Env} {i : Nat} {s s' : State}
    (h : Electra.switch_to_compounding_validator E i s = .ok () s')
    (hlen : s.balances.length = s.validators.length) :
    ∃ v b, s.validators[i]? = some v ∧ s.balances[i]? = some b ∧
      s' = { s with
        validators := s.validators.set i (compounded v)
        balances := s.balances.set i (b - excessOf E v b)
        pending_balance_deposits := s.pending_balance_deposits ++
          if excessOf E v b = 0 then [] else [⟨i, excessOf E v b⟩] } := by
  simp only [Electra.switch_to_compounding_validator, Electra.queue_excess_active_balance,
    run] at h
  obtain ⟨v, hv, h⟩ := h
  have hlt := (List.getElem?_eq_some_iff.mp hv).1
  obtain ⟨b, hb⟩ : ∃ b, s.balances[i]? = some b := ⟨_, List.getElem?_eq_getElem (by omega)⟩
  refine ⟨v, b, hv, hb, ?_⟩
  have hcred : has_eth1_withdrawal_credential v = true ↔ v.withdrawal_credentials[0] = 0x01 := by
    simp [has_eth1_withdrawal_credential, ETH1_ADDRESS_WITHDRAWAL_PREFIX]
  rw [hcred] at h
  rcases h with ⟨h1, w, hw, b', hb', h⟩ | ⟨h1, -, rfl⟩
  · cases hv.symm.trans hw
    cases hb.symm.trans hb'
    have hc : compounded v = { v with
        withdrawal_credentials := v.withdrawal_credentials.set 0 0x02 } := by
      unfold compounded; rw [if_pos h1]
    have he : excessOf E v b = b - E.min_activation_balance := by
      unfold excessOf; rw [if_pos h1]
    rw [hc, he]
    rcases h with ⟨h2, x, hx, rfl⟩ | ⟨h2, -, rfl⟩
    · obtain ⟨rfl, -⟩ := hx
      rw [if_neg (by omega), show b - (b - E.min_activation_balance) = E.min_activation_balance by
        omega]
      rfl
    · rw [show b - E.min_activation_balance = 0 by omega, if_pos rfl, Nat.sub_zero, set_same hb,
        List.append_nil]
      rfl
  · have hc : compounded v = v := by unfold compounded; rw [if_neg h1]
    have he : excessOf E v b = 0 := by unfold excessOf; rw [if_neg h1]
    rw [hc, he, set_same hv, Nat.sub_zero, set_same hb]
    simp

theorem consolidate_ok {E : Env} {c : PendingConsolidation} {s t u v : State} {x : Nat}
    (hlen : s.balances.length = s.validators.length) (hr : Ripe E s c)
    (h1 : Electra.switch_to_compounding_validator E c.target_index s = .ok () t)
    (h2 : Electra.get_active_balance E t c.source_index = .ok x)
    (h3 : decrease_balance c.source_index x t = .ok () u)
    (h4 : increase_balance c.target_index x u = .ok () v) :
    ∃ excess, Consolidated E s c excess x v ∧
      v.balances.sum + depositSum v.pending_balance_deposits =
        s.balances.sum + depositSum s.pending_balance_deposits := by
  obtain ⟨tv, tb, htv, htb, rfl⟩ := switch_ok h1 hlen
  have hex : excessOf E tv tb ≤ tb := by unfold excessOf; split <;> omega
  generalize hexe : excessOf E tv tb = ex at *
  simp only [Electra.get_active_balance, run, compounding_limit_eq] at h2
  obtain ⟨w, hw, b1, hb1, rfl⟩ := h2
  rw [decrease_balance_eq_ok] at h3
  obtain ⟨b1', hb1', rfl⟩ := h3
  cases hb1.symm.trans hb1'
  rw [increase_balance_eq_ok] at h4
  obtain ⟨b2, hb2, -, rfl⟩ := h4
  have hT := (List.getElem?_eq_some_iff.mp htb).1
  have s1 := sum_set _ _ _ (tb - ex) htb
  have s2 := sum_set _ _ _ (b1 - min b1 (effectiveLimit E .Electra w)) hb1
  have s3 := sum_set _ _ _ (b2 + min b1 (effectiveLimit E .Electra w)) hb2
  have hS : c.source_index < s.balances.length := by
    have := (List.getElem?_eq_some_iff.mp hb1).1
    simpa using this
  dsimp only at *
  generalize hx : min b1 (effectiveLimit E .Electra w) = x at *
  have hx1 : x ≤ b1 := by omega
  refine ⟨ex, ⟨hr, ⟨tv, tb, htv, htb, hexe.symm, rfl⟩, ?_, ?_, rfl, rfl⟩, ?_⟩
  · rw [List.getElem?_set] at hb1
    by_cases hST : c.target_index = c.source_index
    · rw [if_pos hST, if_pos hT] at hb1
      refine ⟨w, tb, hw, hST ▸ htb, ?_⟩
      rw [if_pos hST.symm, ← Option.some.inj hb1] at *
      exact hx.symm
    · rw [if_neg hST] at hb1
      refine ⟨w, b1, hw, hb1, ?_⟩
      rw [if_neg (fun h => hST h.symm), Nat.sub_zero]
      exact hx.symm
  · intro i
    simp only [List.getElem?_set, List.length_set] at hb1 hb2 ⊢
    by_cases hST : c.target_index = c.source_index
    · simp only [hST, if_true, if_pos hS, Option.some.injEq] at hb1 hb2 htb ⊢
      by_cases hi : c.source_index = i
      · subst hi
        subst hb1
        subst hb2
        rw [htb]
        simp
      · have hi' : ¬ i = c.source_index := Ne.symm hi
        simp only [if_neg hi, if_neg hi', Nat.sub_zero, Nat.add_zero, Option.map_id']
    · have hST' : ¬ c.source_index = c.target_index := Ne.symm hST
      rw [if_neg hST] at hb1
      simp only [if_true] at hb2
      rw [if_neg hST', if_pos hT] at hb2
      cases hb2
      by_cases hi : c.target_index = i
      · subst hi
        rw [htb]
        simp [hT, hST]
      · have hi' : ¬ i = c.target_index := Ne.symm hi
        by_cases hj : c.source_index = i
        · subst hj
          rw [hb1]
          simp [hS, hi, hi']
        · have hj' : ¬ i = c.source_index := Ne.symm hj
          simp only [if_neg hi, if_neg hi', if_neg hj, if_neg hj', Nat.sub_zero, Nat.add_zero,
            Option.map_id']
  · have hd : depositSum (s.pending_balance_deposits ++
        if ex = 0 then [] else [⟨c.target_index, ex⟩]) =
        depositSum s.pending_balance_deposits + ex := by
      unfold depositSum
      split <;> simp [*]
    rw [hd]
    omega

theorem consolidated_lengths {E : Env} {s t : State} {c : PendingConsolidation} {a b : Nat}
    (h : Consolidated E s c a b t) : t.balances.length = s.balances.length ∧
      t.validators.length = s.validators.length := by
  constructor
  · apply Nat.le_antisymm
    · by_cases hlt : s.balances.length < t.balances.length
      · have h1 := h.balances s.balances.length
        rw [List.getElem?_eq_getElem hlt, List.getElem?_eq_none (Nat.le_refl _)] at h1
        cases h1
      · omega
    · by_cases hlt : t.balances.length < s.balances.length
      · have h1 := h.balances t.balances.length
        rw [List.getElem?_eq_getElem hlt, List.getElem?_eq_none (Nat.le_refl _)] at h1
        cases h1
      · omega
  · obtain ⟨v, b, -, -, -, h1⟩ := h.target
    rw [h1, List.length_set]

/-- Slashed flags and withdrawable epochs are not touched. -/
theorem consolidated_status {E : Env} {s t : State} {c : PendingConsolidation} {a b : Nat}
    (h : Consolidated E s c a b t) (i : Nat) :
    t.slot = s.slot ∧
    t.validators[i]?.map (fun v => (v.slashed, v.withdrawable_epoch)) =
      s.validators[i]?.map (fun v => (v.slashed, v.withdrawable_epoch)) := by
  obtain ⟨v, b, hv, -, -, h1⟩ := h.target
  refine ⟨by rw [h.rest], ?_⟩
  rw [h1, List.getElem?_set]
  by_cases hi : c.target_index = i
  · subst hi
    rw [if_pos rfl, if_pos (List.getElem?_eq_some_iff.mp hv).1, hv]
    unfold compounded
    split <;> rfl
  · rw [if_neg hi]

theorem consolidations_loop_ok {E : Env} (hE : SaneConfig E) (l : List PendingConsolidation) :
    ∀ {n m : Nat} {s s' : State}, s.balances.length = s.validators.length →
    Electra.pending_consolidations_loop E l n s = .ok m s' →
    ∃ k, m = n + k ∧ k ≤ l.length ∧ ConsolidatedAll E s (l.take k) s' ∧
      (∀ c, l[k]? = some c → ¬ Void s' c ∧ ¬ Ripe E s' c) ∧
      s'.balances.length = s.balances.length ∧ s'.pending_consolidations = s.pending_consolidations ∧
      s'.balances.sum + depositSum s'.pending_balance_deposits =
        s.balances.sum + depositSum s.pending_balance_deposits := by
  induction l with
  | nil =>
    intro n m s s' hlen h
    unfold Electra.pending_consolidations_loop at h
    simp only [run] at h
    obtain ⟨rfl, rfl⟩ := h
    exact ⟨0, rfl, Nat.le_refl _, .done, by simp, rfl, rfl, rfl⟩
  | cons c l ih =>
    intro n m s s' hlen h
    unfold Electra.pending_consolidations_loop at h
    simp only [run, current_epoch_is hE, Except.ok.injEq] at h
    obtain ⟨v, hv, h⟩ := h
    rcases h with ⟨h1, h⟩ | ⟨h1, e, rfl, h⟩
    · obtain ⟨k, rfl, k1, k2, k3, k4⟩ := ih hlen h
      exact ⟨k + 1, by omega, by simpa using k1, .void ⟨v, hv, h1⟩ k2, k3, k4⟩
    · rcases h with ⟨h2, rfl, rfl⟩ | ⟨h2, t, ht, x, hx, u, hu, w, hw, h⟩
      · refine ⟨0, rfl, by simp, .done, ?_, rfl, rfl, rfl⟩
        intro c' hc'
        simp only [List.getElem?_cons_zero, Option.some.injEq] at hc'
        subst hc'
        constructor
        · rintro ⟨v', hv', hs⟩
          cases hv.symm.trans hv'
          exact h1 hs
        · rintro ⟨v', hv', -, hs⟩
          cases hv.symm.trans hv'
          omega
      · have hr : Ripe E s c := ⟨v, hv, by simpa using h1, by omega⟩
        obtain ⟨ex, hc, hsum⟩ := consolidate_ok hlen hr ht hx hu hw
        have hl := consolidated_lengths hc
        obtain ⟨k, rfl, k1, k2, k3, k4, k5, k6⟩ := ih (by rw [hl.1, hl.2]; exact hlen) h
        have hp : w.pending_consolidations = s.pending_consolidations := by rw [hc.rest]
        exact ⟨k + 1, by omega, by simpa using k1, .step hc k2, k3, by rw [k4, hl.1],
          by rw [k5, hp], by omega⟩

theorem pending_consolidations_ok {E : Env} (hE : SaneConfig E) {s s' : State}
    (hlen : s.balances.length = s.validators.length)
    (h : Electra.process_pending_consolidations E s = .ok () s') :
    ∃ k, k ≤ s.pending_consolidations.length ∧
      ConsolidatedAll E s (s.pending_consolidations.take k)
        { s' with pending_consolidations := s.pending_consolidations } ∧
      s'.pending_consolidations = s.pending_consolidations.drop k ∧
      (∀ c, s'.pending_consolidations.head? = some c → ¬ Void s' c ∧ ¬ Ripe E s' c) ∧
      s'.balances.sum + depositSum s'.pending_balance_deposits =
        s.balances.sum + depositSum s.pending_balance_deposits := by
  simp only [Electra.process_pending_consolidations, run] at h
  obtain ⟨m, t, ht, rfl⟩ := h
  obtain ⟨k, rfl, k1, k2, k3, k4, k5, k6⟩ := consolidations_loop_ok hE _ hlen ht
  rw [Nat.zero_add]
  refine ⟨k, k1, ?_, by rw [← k5], ?_, k6⟩
  · rw [← k5]
    rw [← k5] at k2
    exact k2
  · intro c hc
    dsimp only at hc
    rw [List.head?_drop, k5] at hc
    exact k3 c hc

end Verif
