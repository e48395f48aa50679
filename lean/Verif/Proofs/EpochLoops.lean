import Verif.Proofs.Pointwise
import Verif.Proofs.Casper
import Verif.Spec.Epoch

namespace Verif

open Spec

/-! ## Effective balances -/

theorem largest_multiple {n b l : Nat} (hn : n ∣ l) : LargestMultiple n (min b l) (min (b - b % n) l) := by
  have h1 : n ∣ b - b % n := Nat.dvd_sub_mod b
  refine ⟨?_, ?_, ?_⟩
  · rcases Nat.le_total (b - b % n) l with h | h
    · rw [Nat.min_eq_left h]; exact h1
    · rw [Nat.min_eq_right h]; exact hn
  · have := Nat.sub_le b (b % n)
    omega
  · intro y hy hb
    rw [Nat.le_min] at hb ⊢
    refine ⟨?_, hb.2⟩
    obtain ⟨k, rfl⟩ := hy
    by_cases h0 : n = 0
    · subst h0; simp
    have h2 : n * (b / n) = b - b % n := by have := Nat.div_add_mod b n; omega
    rw [← h2]
    refine Nat.mul_le_mul_left n ?_
    rw [Nat.le_div_iff_mul_le (by omega), Nat.mul_comm]
    exact hb.1

theorem limit_eq (E : Env) (f : Fork) (v : Validator) :
    effective_balance_limit E f v = effectiveLimit E f v := by
  cases f <;> simp [effective_balance_limit, effectiveLimit,
    Electra.has_compounding_withdrawal_credential, Electra.is_compounding_withdrawal_credential,
    COMPOUNDING_WITHDRAWAL_PREFIX]

theorem increment_dvd_limit {E : Env} (h : SaneBalances E) (f : Fork) (v : Validator) :
    E.effective_balance_increment ∣ effectiveLimit E f v := by
  unfold effectiveLimit
  split
  · split
    · exact h.electra
    · exact h.activation
  · exact h.max

theorem updated_effective_ok {E : Env} (hB : SaneBalances E) {f : Fork} {v : Validator} {b e : Nat}
    (h : updated_effective_balance E f (hysteresis E * E.hysteresis_downward_multiplier)
      (hysteresis E * E.hysteresis_upward_multiplier) v b = .ok e) : EffectiveStep E f v b e := by
  simp only [updated_effective_balance, run] at h
  obtain ⟨_, ⟨rfl, -⟩, o, ho, h⟩ := h
  have ho : o = true ↔ ¬ InBand E v.effective_balance b := by
    unfold InBand
    rcases ho with ⟨h1, rfl⟩ | ⟨h1, _, ⟨rfl, -⟩, rfl⟩
    · simp only [true_iff]; omega
    · rw [decide_eq_true_eq]; omega
  rcases h with ⟨h1, _, ⟨rfl, -⟩, _, ⟨rfl, -⟩, rfl⟩ | ⟨h1, rfl⟩
  · refine ⟨fun hi => absurd hi (ho.1 h1), fun _ => ?_⟩
    rw [limit_eq]
    exact largest_multiple (increment_dvd_limit hB f v)
  · refine ⟨fun _ => rfl, fun hi => absurd (ho.2 hi) h1⟩

theorem effective_updates_ok {E : Env} (hB : SaneBalances E) {f : Fork} {s s' : State}
    (h : process_effective_balance_updates E f s = .ok () s') :
    ∃ vs, s' = { s with validators := vs } ∧ vs.length = s.validators.length ∧
      ∀ (i : Nat) v, s.validators[i]? = some v → ∃ b e, s.balances[i]? = some b ∧
        vs[i]? = some { v with effective_balance := e } ∧ EffectiveStep E f v b e := by
  simp only [process_effective_balance_updates, run] at h
  obtain ⟨_, ⟨rfl, -⟩, _, ⟨rfl, -⟩, _, ⟨rfl, -⟩, h⟩ := h
  obtain ⟨vs, h1, h2, h3, -⟩ := forEach_pointwise (get := State.validators)
    (put := fun s l => { s with validators := l }) (fun _ => rfl)
    (P := fun i o => ∃ v b e, s.validators[i]? = some v ∧ s.balances[i]? = some b ∧
      o = some { v with effective_balance := e } ∧ EffectiveStep E f v b e)
    List.nodup_range (by
      intro i hi l t' hl hli ht
      simp only [run] at ht
      obtain ⟨v, hv, b, hb, e, he, w, hw, rfl⟩ := ht
      rw [hv] at hw; cases hw
      refine ⟨_, rfl, List.length_set, fun j hj => List.getElem?_set_ne (Ne.symm hj), v, b, e,
        hli ▸ hv, hb, List.getElem?_set_self (List.getElem?_eq_some_iff.1 hv).1,
        updated_effective_ok hB he⟩) h
  refine ⟨vs, h1, h2, fun i v hv => ?_⟩
  obtain ⟨v', b, e, a1, a2, a3, a4⟩ := h3 i
    (List.mem_range.2 (List.getElem?_eq_some_iff.1 hv).1)
  rw [hv] at a1; cases a1
  exact ⟨b, e, a2, a3, a4⟩

/-! ## Slashing penalties -/

theorem process_slashings_ok {E : Env} {f : Fork} {s s' : State}
    (h : process_slashings E f s = .ok () s') :
    ∃ bs, s' = { s with balances := bs } ∧ bs.length = s.balances.length ∧
      ∀ i : Nat, bs[i]? = match s.validators[i]? with
        | some v => if PenaltyDue E s v
          then s.balances[i]?.map (· - correlationPenalty E f s v)
          else s.balances[i]?
        | none => s.balances[i]? := by
  simp only [process_slashings, run, current_epoch_eq_ok, total_active_eq_ok, sumU64_eq_ok] at h
  obtain ⟨_, ⟨rfl, -⟩, _, ⟨-, -, rfl⟩, _, ⟨-, rfl⟩, _, ⟨rfl, -⟩, h⟩ := h
  have hm : proportional_slashing_multiplier_of E f = slashingMultiplier E f := by cases f <;> rfl
  rw [hm] at h
  obtain ⟨bs, h1, h2, h3, h4⟩ := forEach_pointwise (get := State.balances)
    (put := fun s l => { s with balances := l }) (fun _ => rfl)
    (P := fun i o => ∃ v, s.validators[i]? = some v ∧
      o = if PenaltyDue E s v then s.balances[i]?.map (· - correlationPenalty E f s v)
          else s.balances[i]?)
    List.nodup_range (by
      intro i hi l t' hl hli ht
      simp only [apply_slashing_penalty, run] at ht
      obtain ⟨v, hv, ht⟩ := ht
      rcases ht with ⟨hs, _, ⟨rfl, -⟩, _, ⟨rfl, -⟩, ht⟩ | ⟨hs, -, rfl⟩
      · rcases ht with ⟨he, p, hp, ht⟩ | ⟨he, -, rfl⟩
        · obtain ⟨b, hb, rfl⟩ := decrease_balance_eq_ok.1 ht
          refine ⟨_, rfl, List.length_set, fun j hj => List.getElem?_set_ne (Ne.symm hj), v, hv, ?_⟩
          have hb' : s.balances[i]? = some b := by rw [← hli]; exact hb
          rw [if_pos ⟨hs, he.symm⟩, hb']
          simp only [Option.map_some]
          rw [List.getElem?_set_self (List.getElem?_eq_some_iff.1 hb).1]
          simp only [slashing_penalty, run] at hp
          obtain ⟨_, ⟨rfl, -⟩, _, ⟨rfl, -⟩, _, ⟨rfl, -⟩, rfl, -⟩ := hp
          rfl
        · refine ⟨l, rfl, rfl, fun _ _ => rfl, v, hv, ?_⟩
          rw [if_neg fun hd => he hd.2.symm]
          exact hli
      · refine ⟨l, rfl, rfl, fun _ _ => rfl, v, hv, ?_⟩
        rw [if_neg fun hd => hs hd.1]
        exact hli) h
  refine ⟨bs, h1, h2, fun i => ?_⟩
  cases hv : s.validators[i]? with
  | none =>
    refine h4 i fun hi => ?_
    rw [List.mem_range] at hi
    rw [List.getElem?_eq_getElem hi] at hv
    cases hv
  | some v =>
    obtain ⟨w, hw, ho⟩ := h3 i (List.mem_range.2 (List.getElem?_eq_some_iff.1 hv).1)
    rw [hv] at hw; cases hw
    exact ho

theorem correlationPenalty_le {E : Env} {f : Fork} {s : State} {v : Validator} :
    correlationPenalty E f s v ≤
      v.effective_balance / E.effective_balance_increment * E.effective_balance_increment := by
  unfold correlationPenalty
  refine Nat.mul_le_mul_right _ ?_
  rcases Nat.eq_zero_or_pos (activeBalance E s) with h | h
  · rw [h, Nat.div_zero]; exact Nat.zero_le _
  · refine Nat.div_le_of_le_mul ?_
    exact Nat.le_trans (Nat.mul_le_mul_left _ (Nat.min_le_right _ _))
      (Nat.le_of_eq (Nat.mul_comm _ _))

/-! ## Inactivity scores -/

theorem eligible_ok {E : Env} {s : State} {l : List Nat}
    (h : get_eligible_validator_indices E s = .ok l) :
    l.Nodup ∧ ∀ i, i ∈ l ↔ ∃ v, s.validators[i]? = some v ∧ Eligible E s v := by
  simp only [get_eligible_validator_indices, run, previous_epoch_eq_ok] at h
  obtain ⟨_, ⟨rfl, -⟩, _, ⟨rfl, -⟩, rfl⟩ := h
  constructor
  · have hs : (List.filter _ s.validators.zipIdx).Sublist s.validators.zipIdx :=
      List.filter_sublist (p := fun x : Validator × Nat =>
        is_active_validator x.1 (epochOf E s.slot - 1) ||
          x.1.slashed && decide (epochOf E s.slot - 1 + 1 < x.1.withdrawable_epoch))
    refine (hs.map (·.2)).nodup ?_
    rw [List.zipIdx_map_snd]
    exact List.nodup_range'
  · intro i
    simp only [List.mem_map, List.mem_filter, Prod.exists, exists_eq_right,
      List.mem_zipIdx_iff_getElem?, Bool.or_eq_true, Bool.and_eq_true, decide_eq_true_eq,
      is_active_iff, Eligible, previousEpoch]

theorem leak_ok {E : Env} {s : State} {b : Bool} (h : is_in_inactivity_leak E s = .ok b) :
    s.finalized_checkpoint.epoch ≤ previousEpoch E s ∧ b = decide (Leaking E s) := by
  simp only [is_in_inactivity_leak, get_finality_delay, run, previous_epoch_eq_ok] at h
  obtain ⟨_, ⟨_, ⟨rfl, -⟩, rfl, h2⟩, rfl⟩ := h
  exact ⟨h2, rfl⟩

theorem inactivity_ok {E : Env} {f : Fork} (hf : f ≠ .Phase0) {s s' : State}
    (h : process_inactivity_updates E s = .ok () s') :
    epochOf E s.slot = 0 ∧ s' = s ∨ epochOf E s.slot ≠ 0 ∧
    ∃ scores, s' = { s with inactivity_scores := scores } ∧
      scores.length = s.inactivity_scores.length ∧
      ∀ i : Nat, (∀ v, s.validators[i]? = some v → Eligible E s v →
        ∃ x, s.inactivity_scores[i]? = some x ∧
          ∃ a, (VotedTarget E f s (previousEpoch E s) i → a = x - 1) ∧
            (¬ VotedTarget E f s (previousEpoch E s) i → a = x + E.inactivity_score_bias) ∧
            scores[i]? = some (if Leaking E s then a else a - E.inactivity_score_recovery_rate)) ∧
      ((∀ v, s.validators[i]? = some v → ¬ Eligible E s v) →
        scores[i]? = s.inactivity_scores[i]?) := by
  simp only [process_inactivity_updates, run, current_epoch_eq_ok, previous_epoch_eq_ok] at h
  obtain ⟨_, ⟨rfl, -⟩, h⟩ := h
  rcases h with ⟨h1, -, rfl⟩ | ⟨h1, el, h2, _, ⟨rfl, -⟩, part, h3, lk, h4, h⟩
  · exact Or.inl ⟨h1, rfl⟩
  · right
    refine ⟨h1, ?_⟩
    obtain ⟨n1, n2⟩ := eligible_ok h2
    obtain ⟨-, n3⟩ := participating_eq_ok (by decide) h3
    obtain ⟨-, rfl⟩ := leak_ok h4
    have hvote : ∀ i, i ∈ part ↔ VotedTarget E f s (previousEpoch E s) i := by
      intro i
      rw [n3]
      simp only [VotedTarget, hf, if_false]
      rfl
    obtain ⟨sc, e1, e2, e3, e4⟩ := forEach_pointwise (get := State.inactivity_scores)
      (put := fun s l => { s with inactivity_scores := l }) (fun _ => rfl)
      (P := fun i o => ∃ x, s.inactivity_scores[i]? = some x ∧
          ∃ a, (VotedTarget E f s (previousEpoch E s) i → a = x - 1) ∧
            (¬ VotedTarget E f s (previousEpoch E s) i → a = x + E.inactivity_score_bias) ∧
            o = some (if Leaking E s then a else a - E.inactivity_score_recovery_rate))
      n1 (by
        intro i hi l t' hl hli ht
        simp only [run] at ht
        obtain ⟨x, hx, y, hy, rfl⟩ := ht
        have hx' : s.inactivity_scores[i]? = some x := by rw [← hli]; exact hx
        refine ⟨_, rfl, List.length_set, fun j hj => List.getElem?_set_ne (Ne.symm hj), x, hx', ?_⟩
        rw [List.getElem?_set_self (List.getElem?_eq_some_iff.1 hx).1]
        simp only [next_inactivity_score, run] at hy
        obtain ⟨a, ha, hy⟩ := hy
        refine ⟨a, ?_, ?_, ?_⟩
        · intro hv
          have hc : part.contains i = true := List.contains_iff_mem.2 ((hvote i).2 hv)
          rcases ha with ⟨-, rfl, -⟩ | ⟨hn, -⟩
          · omega
          · exact absurd hc hn
        · intro hv
          have hc : ¬ part.contains i = true := fun hc =>
            hv ((hvote i).1 (List.contains_iff_mem.1 hc))
          rcases ha with ⟨hn, -⟩ | ⟨-, rfl, -⟩
          · exact absurd hn hc
          · rfl
        · rcases hy with ⟨hn, rfl, -⟩ | ⟨hn, rfl⟩
          · have : ¬ Leaking E s := by simpa using hn
            rw [if_neg this]
            congr 1
            omega
          · have : Leaking E s := by simpa using hn
            rw [if_pos this]) h
    refine ⟨sc, e1, e2, fun i => ⟨fun v hv he => e3 i ((n2 i).2 ⟨v, hv, he⟩), fun hn => ?_⟩⟩
    refine e4 i fun hi => ?_
    obtain ⟨v, hv, he⟩ := (n2 i).1 hi
    exact hn v hv he

end Verif
