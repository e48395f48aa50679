import Verif.Proofs.Exit
import Verif.Spec.Slash

namespace Verif
open Spec

theorem set_eq_modify {α : Type} {l : List α} {i : Nat} {x : α} {g : α → α}
    (h : l[i]? = some x) : l.set i (g x) = l.modify i g := by
  apply List.ext_getElem?
  intro j
  simp only [List.getElem?_set, List.getElem?_modify]
  by_cases hij : i = j
  · subst hij
    simp [(List.getElem?_eq_some_iff.1 h).1]
    rw [(List.getElem?_eq_some_iff.1 h).2]
  · simp [hij]

/-! ## The proposer depends only on slot, mixes, active set and effective balances -/

/-- The two states elect the same proposer. -/
structure SameElection (E : Env) (s s' : State) : Prop where
  slot : s'.slot = s.slot
  mixes : s'.randao_mixes = s.randao_mixes
  active : activeIndices s' (epochOf E s.slot) = activeIndices s (epochOf E s.slot)
  effective : ∀ i : Nat, (s'.validators[i]?).map Validator.effective_balance =
    (s.validators[i]?).map Validator.effective_balance

theorem sample_congr {E : Env} {s s' : State} {c r : Nat} {seed : Bytes32}
    (h : (s'.validators[c]?).map Validator.effective_balance =
      (s.validators[c]?).map Validator.effective_balance) :
    sample_proposer_index E s' c r seed = sample_proposer_index E s c r seed := by
  unfold sample_proposer_index
  congr 1; funext b
  unfold idx
  cases h1 : s.validators[c]? <;> cases h2 : s'.validators[c]? <;> simp_all

theorem proposer_loop_congr {E : Env} {s s' : State} {seed : Bytes32} {cand : Nat → R Nat}
    (h : ∀ i : Nat, (s'.validators[i]?).map Validator.effective_balance =
      (s.validators[i]?).map Validator.effective_balance) (fuel r : Nat) :
    proposer_loop E s' seed cand fuel r = proposer_loop E s seed cand fuel r := by
  induction fuel generalizing r with
  | zero => rfl
  | succ n ih =>
    unfold proposer_loop
    congr 1; funext c
    rw [sample_congr (h c)]
    congr 1; funext a
    rw [ih]

theorem proposer_congr {E : Env} {s s' : State} (h : SameElection E s s') :
    get_beacon_proposer_index E s' = get_beacon_proposer_index E s := by
  unfold get_beacon_proposer_index
  have h1 : get_current_epoch E s' = get_current_epoch E s := by
    unfold get_current_epoch; rw [h.slot]
  rw [h1]
  cases he : get_current_epoch E s with
  | error e => rfl
  | ok e =>
    have := (current_epoch_eq_ok.1 he).1; subst this
    simp only [R_bind_ok]
    have h2 : get_seed E s' (epochOf E s.slot) .BeaconProposer =
        get_seed E s (epochOf E s.slot) .BeaconProposer := by
      unfold get_seed get_randao_mix; rw [h.mixes]
    rw [h2, activeIndices_eq, activeIndices_eq, h.active, h.slot]
    congr 1; funext seed
    unfold compute_proposer_index
    simp only [proposer_loop_congr h.effective]

/-! ## Exits in every fork -/

theorem Electra.churn_step_spec {E : Env} {s : State} {earliest to_consume balance : Nat}
    {r : Nat × Nat} (h : Electra.churn_step E s earliest to_consume balance = .ok r) :
    epochOf E s.slot + 1 + E.max_seed_lookahead ≤ r.1 ∧ earliest ≤ r.1 := by
  simp only [Electra.churn_step, run, current_epoch_eq_ok, activation_exit_epoch_eq_ok] at h
  obtain ⟨_, ⟨rfl, _⟩, _, ⟨rfl, _⟩, c, hc, h⟩ := h
  rcases h with ⟨_, _, _, _, _, _, _, _, _, _, ⟨rfl, _⟩, _, _, _, _, rfl⟩ | ⟨_, rfl⟩ <;>
    dsimp only <;> omega

theorem Electra.compute_exit_epoch_eq_ok {E : Env} {b e : Nat} {s s' : State} :
    Electra.compute_exit_epoch_and_update_churn E b s = .ok e s' ↔
      ∃ r, Electra.churn_step E s s.earliest_exit_epoch s.exit_balance_to_consume b = .ok r ∧
        b ≤ r.2 ∧ e = r.1 ∧
        s' = { s with exit_balance_to_consume := r.2 - b, earliest_exit_epoch := r.1 } := by
  simp only [Electra.compute_exit_epoch_and_update_churn, run]
  constructor
  · rintro ⟨r, hr, _, ⟨rfl, hb⟩, rfl, rfl⟩
    exact ⟨r, hr, hb, rfl, rfl⟩
  · rintro ⟨r, hr, hb, rfl, rfl⟩
    exact ⟨r, hr, _, ⟨rfl, hb⟩, rfl, rfl⟩

theorem set_self {α : Type} {l : List α} {i : Nat} {x : α} (h : l[i]? = some x) :
    l.set i x = l := by
  apply List.ext_getElem?
  intro j
  by_cases hij : i = j
  · subst hij; simp [(List.getElem?_eq_some_iff.1 h).1]; exact (List.getElem?_eq_some_iff.1 h).2.symm
  · simp [hij]

theorem Fork.initiate_validator_exit_effect {E : Env} {f : Fork} {i : Nat} {s s' : State}
    (h : Fork.initiate_validator_exit E f i s = .ok () s') :
    ∃ v v', ExitEffect E f i s s' v v' := by
  have pre : Verif.initiate_validator_exit E i s = .ok () s' →
      ∃ v v', ExitEffect E f i s s' v v' := by
    intro h
    obtain ⟨v, hv, ⟨hf, rfl⟩ | ⟨hf, e, he, hd, w, hw, rfl⟩⟩ := initiate_validator_exit_eq_ok.1 h
    · refine ⟨v, v, hv, ?_, fun _ => ⟨rfl, rfl⟩, rfl, fun _ => ⟨rfl, rfl⟩, fun h => absurd h hf⟩
      rw [set_self hv]
    · have := Option.some.inj (hv.symm.trans hw); subst this
      refine ⟨v, _, hv, rfl, fun _ => ⟨rfl, rfl⟩, rfl, fun h => absurd hf h, fun _ => ?_⟩
      exact ⟨(exit_queue_epoch_spec he).1, rfl, hd⟩
  have electra : Electra.initiate_validator_exit E i s = .ok () s' →
      ∃ v v', ExitEffect E .Electra i s s' v v' := by
    intro h
    simp only [Electra.initiate_validator_exit, run, Electra.compute_exit_epoch_eq_ok] at h
    obtain ⟨v, hv, ⟨hf, _, rfl⟩ | ⟨hf, _, _, ⟨r, hr, hb, rfl, rfl⟩, w, hw, _, ⟨rfl, hd⟩, w', hw', rfl⟩⟩ := h
    · refine ⟨v, v, hv, ?_, fun _ => ⟨rfl, rfl⟩, rfl, fun _ => ⟨rfl, rfl⟩, fun h => absurd h hf⟩
      rw [set_self hv]
    · dsimp only at hw hw'
      have := Option.some.inj (hv.symm.trans hw); subst this
      have hi := (List.getElem?_eq_some_iff.1 hv).1
      simp only [List.getElem?_set, hi, if_true, Option.some.injEq] at hw'
      subst hw'
      refine ⟨v, { v with
        exit_epoch := r.1
        withdrawable_epoch := r.1 + E.min_validator_withdrawability_delay },
        hv, ?_, fun h => absurd rfl h, rfl, fun h => absurd (by simpa using hf) h, fun _ => ?_⟩
      · simp [List.set_set]
      · exact ⟨(Electra.churn_step_spec hr).1, rfl, hd⟩
  cases f <;> first | exact pre h | exact electra h

theorem exitEffect_sameElection {E : Env} {f : Fork} {i : Nat} {s s' : State} {v v' : Validator}
    (h : ExitEffect E f i s s' v v') {v'' : Validator} (he : v''.exit_epoch = v'.exit_epoch)
    (ha : v''.activation_epoch = v'.activation_epoch)
    (hb : v''.effective_balance = v'.effective_balance) {t : State}
    (ht : t.validators = s.validators.set i v'') (hs : t.slot = s.slot)
    (hm : t.randao_mixes = s.randao_mixes) : SameElection E s t := by
  have hi := (List.getElem?_eq_some_iff.1 h.before).1
  have hv2 : v'.activation_epoch = v.activation_epoch := by rw [h.validator]
  have hv3 : v'.effective_balance = v.effective_balance := by rw [h.validator]
  refine ⟨hs, hm, ?_, ?_⟩
  · unfold activeIndices
    rw [ht, List.length_set]
    apply List.filter_congr
    intro j _
    by_cases hij : i = j
    · subst hij
      simp only [List.getElem?_set, hi, if_true, h.before]
      apply decide_eq_decide.2
      unfold ActiveAt
      rw [ha, he, hv2]
      by_cases hf : v.exit_epoch = FAR_FUTURE_EPOCH
      · have := h.fresh hf
        rw [hf]
        unfold FAR_FUTURE_EPOCH
        omega
      · rw [(h.exiting hf).2]
    · simp [hij]
  · intro j
    rw [ht]
    by_cases hij : i = j
    · subst hij; simp [hi, hb, hv3]
      rw [(List.getElem?_eq_some_iff.1 h.before).2]
    · simp [hij]

/-! ## Slashing -/

theorem slashing_proposer_reward_ok {E : Env} {f : Fork} {r x : Nat}
    (h : slashing_proposer_reward E f r = .ok x) :
    (f = .Phase0 → x = r / E.proposer_reward_quotient) ∧ (f ≠ .Phase0 → x = 0) := by
  cases f
  · simp only [slashing_proposer_reward, run] at h
    simp [h.1]
  all_goals
    have h' : ∃ a, (PROPOSER_WEIGHT / WEIGHT_DENOMINATOR = a ∧ WEIGHT_DENOMINATOR ≠ 0) ∧
        r * a = x ∧ r * a < U64_BOUND := by
      simpa only [slashing_proposer_reward, run] using h
    obtain ⟨_, ⟨rfl, _⟩, rfl, _⟩ := h'
    simp [PROPOSER_WEIGHT, WEIGHT_DENOMINATOR]

theorem slash_validator_effect {E : Env} {f : Fork} {i : Nat} {w : Option Nat} {s s' : State}
    (h : slash_validator E f i w s = .ok () s') :
    ∃ p share v v₁, get_beacon_proposer_index E s = .ok p ∧
      slashing_proposer_reward E f (v.effective_balance / whistleblowerQuotient E f) = .ok share ∧
      SlashEffect E f i p (w.getD p) share s s' v v₁ := by
  simp only [slash_validator, run, current_epoch_eq_ok, decrease_balance_eq_ok,
    increase_balance_eq_ok] at h
  obtain ⟨_, ⟨rfl, _⟩, t, ht, v₂, hv₂, _, ⟨rfl, _⟩, v₃, hv₃, k, ⟨rfl, _⟩, v₄, hv₄, old, hold,
    _, ⟨rfl, _⟩, pen, ⟨rfl, _⟩, _, ⟨b, hb, rfl⟩, p, hp, rew, ⟨rfl, _⟩, share, hshare, _,
    ⟨b', hb', _, rfl⟩, rest, ⟨rfl, _⟩, b'', hb'', _, rfl⟩ := h
  obtain ⟨v, v₁, he⟩ := Fork.initiate_validator_exit_effect ht
  have hi := (List.getElem?_eq_some_iff.1 he.before).1
  have hst := he.state
  have htv : t.validators = s.validators.set i v₁ := by rw [hst]
  have hbal : t.balances = s.balances := by rw [hst]
  have hsl : t.slashings = s.slashings := by rw [hst]
  have h2 : v₂ = v₁ := by
    rw [htv] at hv₂; simpa [hi, eq_comm] using hv₂
  subst h2
  have h3 : v₃ = { v₂ with slashed := true } := by
    rw [htv] at hv₃; simpa [hi, eq_comm] using hv₃
  subst h3
  have h4 : v₄ = { v₂ with
      slashed := true
      withdrawable_epoch :=
        max v₂.withdrawable_epoch (epochOf E s.slot + E.epochs_per_slashings_vector) } := by
    rw [htv] at hv₄; simpa [hi, eq_comm] using hv₄
  subst h4
  have heff : v₂.effective_balance = v.effective_balance := by rw [he.validator]
  dsimp only at hp hshare hb' hb'' hold
  simp only [heff] at hshare hb' hb''
  rw [hbal] at hb hb' hb''
  rw [hsl] at hold
  have hvals : ((t.validators.set i { v₂ with slashed := true }).set i { v₂ with
      slashed := true
      withdrawable_epoch :=
        max v₂.withdrawable_epoch (epochOf E s.slot + E.epochs_per_slashings_vector) }) =
      s.validators.set i { v₂ with
      slashed := true
      withdrawable_epoch :=
        max v₂.withdrawable_epoch (epochOf E s.slot + E.epochs_per_slashings_vector) } := by
    rw [htv]; simp [List.set_set]
  refine ⟨p, share, v, v₂, ?_, ?_, ?_⟩
  · rw [← hp]
    symm
    apply proposer_congr
    refine exitEffect_sameElection he (v'' := { v₂ with
      slashed := true
      withdrawable_epoch :=
        max v₂.withdrawable_epoch (epochOf E s.slot + E.epochs_per_slashings_vector) })
      rfl rfl rfl hvals ?_ ?_ <;> · dsimp only; rw [hst]
  · cases f <;> exact hshare
  · refine ⟨⟨t, he, rfl, rfl⟩, hvals, ?_, ?_, ?_⟩
    · dsimp only
      rw [hsl, heff]; exact set_eq_modify (g := (· + v.effective_balance)) hold
    · dsimp only
      rw [hbal, heff]
      have e1 := set_eq_modify (g := (· - v.effective_balance / min_slashing_penalty_quotient_of E f)) hb
      rw [e1] at hb' hb'' ⊢
      have e2 := set_eq_modify (g := (· + share)) hb'
      rw [e2] at hb'' ⊢
      have e3 := set_eq_modify
        (g := (· + (v.effective_balance / whistleblower_reward_quotient_of E f - share))) hb''
      rw [e3]
      cases f <;> rfl
    · rw [hst]

end Verif
