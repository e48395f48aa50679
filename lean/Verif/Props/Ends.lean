import Verif.Proofs.Ends
import Verif.Props.Parts
import Verif.Props.Slashings
import Verif.Props.Epoch

/-! # The end of an epoch, from the state before to the state after -/

namespace Verif.Props

open Spec

variable {E : Env} {f : Fork} {s s' : State}

/-- **C87** Every state reachable from genesis, through failed calls and fork upgrades too, meets the
assumptions that the theorems below make of the state before. -/
theorem C87_proper (hE : SaneConfig E) (hB : SaneBalances E)
    (hI : E.effective_balance_increment < 2 ^ 64) (h : Reachable E f s) : Proper E s := by
  have h1 := reachable_inv hE h
  have h2 := reachable_upto h
  exact ⟨hE, hB, hI, h1.sized.2.2.2.2, h2.1, h2.2.1, h2.2.2, h1.parallel.1⟩

/-- **C87** After the end of an epoch the current or the previous epoch is justified exactly if two
thirds of the active balance voted for it before, and epochs are finalized by the four rules; at the
end of the first two epochs nothing of this happens. -/
theorem C87_finality (hlen : s.justification_bits.length = 4)
    (h : process_epoch E f s = .ok () s') :
    epochOf E s.slot ≤ 1 ∧ judged s s' = s ∨
    1 < epochOf E s.slot ∧ ∃ jp jc, Weighed E s s' jp jc ∧
      (jp = true ↔ Supermajority E f s (epochOf E s.slot - 1)) ∧
      (jc = true ↔ Supermajority E f s (epochOf E s.slot)) := by
  obtain ⟨e⟩ := epoch_steps h
  exact e.finality hlen

/-- **C87** The scores after it are those before, changed by who voted for the target of the previous
epoch, and lowered unless finality is overdue as seen after the epoch. -/
theorem C87_scores (hf : f ≠ .Phase0) (h : process_epoch E f s = .ok () s') :
    epochOf E s.slot = 0 ∧ s'.inactivity_scores = s.inactivity_scores ∨ epochOf E s.slot ≠ 0 ∧
    s'.inactivity_scores.length = s.inactivity_scores.length ∧
    ∀ i : Nat, (∀ v, s.validators[i]? = some v → Eligible E s v →
      ∃ x, s.inactivity_scores[i]? = some x ∧
        ∃ a, (VotedTarget E f s (previousEpoch E s) i → a = x - 1) ∧
          (¬ VotedTarget E f s (previousEpoch E s) i → a = x + E.inactivity_score_bias) ∧
          s'.inactivity_scores[i]? =
            some (if Leaking E s' then a else a - E.inactivity_score_recovery_rate)) ∧
    ((∀ v, s.validators[i]? = some v → ¬ Eligible E s v) →
      s'.inactivity_scores[i]? = s.inactivity_scores[i]?) := by
  obtain ⟨e⟩ := epoch_steps h
  have h1 := e.inactivity
  rw [if_neg hf, e.judged_eq, e.scored_eq] at h1
  have hl : Leaking E (judged s s') ↔ Leaking E s' := by
    unfold Leaking previousEpoch
    rw [e.slot_eq]
    exact Iff.rfl
  have hv : ∀ n i, VotedTarget E f (judged s s') n i ↔ VotedTarget E f s n i := by
    intro n i
    unfold VotedTarget
    simp only [if_neg hf]
    exact Iff.rfl
  rcases inactivity_ok hf h1 with ⟨h2, h3⟩ | ⟨h2, scores, h3, h4, h5⟩
  · refine Or.inl ⟨h2, ?_⟩
    have : (scored s s').inactivity_scores = (judged s s').inactivity_scores := by rw [h3]
    exact this
  · have h6 : s'.inactivity_scores = scores := by
      have : (scored s s').inactivity_scores = scores := by rw [h3]
      exact this
    subst h6
    refine Or.inr ⟨h2, h4, fun i => ⟨fun v hv' he => ?_, (h5 i).2⟩⟩
    obtain ⟨x, k1, a, k2, k3, k4⟩ := (h5 i).1 v hv' he
    refine ⟨x, k1, a, fun h => k2 ((hv _ _).2 h), fun h => k3 fun h' => h ((hv _ _).1 h'), ?_⟩
    rw [k4]
    by_cases hk : Leaking E s'
    · rw [if_pos hk, if_pos (hl.2 hk)]
    · rw [if_neg hk, if_neg fun h' => hk (hl.1 h')]

/-- **C87** The end of an epoch as a whole: there is the state `t` in which the registry is updated
and the rewards and penalties are booked, and from it, in electra, the state `u` in which the first
deposits and consolidations of the queues are made; from there the effective balances follow, and
nothing else of `u` changes but what is recorded per epoch. -/
theorem C87_settled (hp : Proper E s) (h : process_epoch E f s = .ok () s') :
    ∃ A t u, Booked E f s s' A t ∧ Activated E f (judged s s') A ∧
      (if f = .Electra then Cleared E t u else u = t) ∧ Reweighed E f u s' ∧
      s' = { u with
        validators := s'.validators
        slashings := s'.slashings
        randao_mixes := s'.randao_mixes
        historical_roots := s'.historical_roots
        historical_summaries := s'.historical_summaries
        previous_epoch_attestations := s'.previous_epoch_attestations
        current_epoch_attestations := s'.current_epoch_attestations
        previous_epoch_participation := s'.previous_epoch_participation
        current_epoch_participation := s'.current_epoch_participation
        current_sync_committee := s'.current_sync_committee
        next_sync_committee := s'.next_sync_committee } := by
  obtain ⟨e⟩ := epoch_steps h
  obtain ⟨A, h1, h2⟩ := e.booked hp.increment (e.finalized_le hp)
  exact ⟨A, _, _, h1, h2, e.cleared hp.config (by rw [h1.accounts, h1.validators, hp.accounts]),
    e.reweighed hp.balances, e.finished⟩

/-- **C87** The registry after the end of an epoch: exactly those with enough stake are put on the
queue, exactly those with too little are ejected, and a list `A` of those waiting is activated, in the
order of the queue and as many as allowed; the rest of an entry stays, but for the effective
balance, and the credentials of targets of consolidations in electra. -/
theorem C87_registry (hp : Proper E s) (h : process_epoch E f s = .ok () s') :
    s'.validators.length = s.validators.length ∧
    ∃ A, Activated E f (judged s s') A ∧
      ∀ (i : Nat) v, s.validators[i]? = some v → ∃ w x, s'.validators[i]? = some x ∧
        QueueStep E f (judged s s') A i v w ∧
        x = { w with
          effective_balance := x.effective_balance
          withdrawal_credentials := x.withdrawal_credentials } ∧
        (x.withdrawal_credentials = v.withdrawal_credentials ∨ f = .Electra ∧
          x.withdrawal_credentials = (compounded v).withdrawal_credentials) := by
  obtain ⟨A, t, u, h1, h2, h3, h4, -⟩ := C87_settled hp h
  have h5 : u.validators.length = t.validators.length ∧
      ∀ (i : Nat) v, t.validators[i]? = some v →
        ∃ w, u.validators[i]? = some w ∧ (w = v ∨ f = .Electra ∧ w = compounded v) := by
    by_cases hf : f = .Electra
    · rw [if_pos hf] at h3
      obtain ⟨k, d, m, k1, -, k2, -⟩ := h3
      have hd : d.validators = t.validators := by rw [k1.rest]
      obtain ⟨k3, k4⟩ := consolidated_entries k2
      rw [hd] at k3 k4
      refine ⟨k3, fun i v hv => ?_⟩
      obtain ⟨w, hw, h⟩ := k4 i v hv
      exact ⟨w, hw, h.imp id fun h => ⟨hf, h⟩⟩
    · rw [if_neg hf] at h3
      subst h3
      exact ⟨rfl, fun i v hv => ⟨v, hv, Or.inl rfl⟩⟩
  refine ⟨by rw [h4.1, h5.1, h1.validators], A, h2, fun i v hv => ?_⟩
  obtain ⟨w, hw, hq⟩ := h1.entries i v hv
  obtain ⟨y, hy, hwy⟩ := h5.2 i w hw
  obtain ⟨b, e, -, hx, -⟩ := h4.2 i y hy
  refine ⟨w, _, hx, hq, ?_, ?_⟩
  · rcases hwy with rfl | ⟨-, rfl⟩
    · rfl
    · unfold compounded
      split <;> rfl
  · rcases hwy with rfl | ⟨hf, rfl⟩
    · exact Or.inl hq.credentials
    · refine Or.inr ⟨hf, ?_⟩
      unfold compounded
      rw [hq.credentials]
      split
      · rfl
      · exact hq.credentials

/-- **C87** Before electra, the balance of each validator after the end of an epoch is the one before
with the rewards and penalties for attesting, as they follow from the votes recorded before and from
the finality and scores after, and then less the penalty for its slashing, if that is due. -/
theorem C87_balances (hp : Proper E s) (hf : f ≠ .Electra)
    (h : process_epoch E f s = .ok () s') :
    s'.balances.length = s.balances.length ∧
    ∀ (i : Nat) v b, s.validators[i]? = some v → s.balances[i]? = some b →
      ∃ w r, s'.validators[i]? = some w ∧ Rewarded E f (scored s s') i b r ∧
        s'.balances[i]? = some
          (if PenaltyDue E s w then r - correlationPenalty E f s v else r) := by
  obtain ⟨A, t, u, h1, h2, h3, h4, h5⟩ := C87_settled hp h
  rw [if_neg hf] at h3
  subst h3
  have hb : s'.balances = u.balances := by rw [h5]
  refine ⟨by rw [hb, h1.accounts], fun i v b hv hb' => ?_⟩
  obtain ⟨w, hw, hq⟩ := h1.entries i v hv
  obtain ⟨r, hr, hr'⟩ := h1.balances i w b hw hb'
  obtain ⟨b2, e, -, hx, -⟩ := h4.2 i w hw
  refine ⟨_, r, hx, hr, ?_⟩
  rw [hb, hr']
  have hc : correlationPenalty E f s w = correlationPenalty E f s v := by
    unfold correlationPenalty; rw [hq.balance]
  unfold punished
  rw [hc]
  rfl

/-- **C87** The effective balances after it: each stays if the balance after it is near, and else is
the largest multiple of the increment up to that balance and the limit. -/
theorem C87_effective (hp : Proper E s) (h : process_epoch E f s = .ok () s') (i : Nat)
    (v : Validator) (hv : s.validators[i]? = some v) :
    ∃ w b, s'.validators[i]? = some w ∧ s'.balances[i]? = some b ∧
      EffectiveStep E f { w with effective_balance := v.effective_balance } b
        w.effective_balance := by
  obtain ⟨A, t, u, h1, h2, h3, h4, h5⟩ := C87_settled hp h
  obtain ⟨w, hw, hq⟩ := h1.entries i v hv
  have h6 : ∃ y, u.validators[i]? = some y ∧ y.effective_balance = v.effective_balance := by
    by_cases hf : f = .Electra
    · rw [if_pos hf] at h3
      obtain ⟨k, d, m, k1, -, k2, -⟩ := h3
      have hd : d.validators = t.validators := by rw [k1.rest]
      obtain ⟨y, hy, hyw⟩ := (consolidated_entries k2).2 i w (by rw [hd]; exact hw)
      refine ⟨y, hy, ?_⟩
      rcases hyw with rfl | rfl
      · exact hq.balance
      · rw [← hq.balance]
        unfold compounded
        split <;> rfl
    · rw [if_neg hf] at h3
      subst h3
      exact ⟨w, hw, hq.balance⟩
  obtain ⟨y, hy, hye⟩ := h6
  obtain ⟨b, e, hb, hx, hs⟩ := h4.2 i y hy
  have hb' : s'.balances = u.balances := by rw [h5]
  refine ⟨_, b, hx, by rw [hb']; exact hb, ?_⟩
  unfold EffectiveStep effectiveLimit at hs ⊢
  rw [hye] at hs
  exact hs

/-- **C87** The votes for the deposit contract are cleared exactly when a voting period ends, the mix
of the next epoch starts as that of the current one, and of the slashings only the entry of the next
epoch is cleared. -/
theorem C87_resets (h : process_epoch E f s = .ok () s') :
    (s'.eth1_data_votes = if (epochOf E s.slot + 1) % E.epochs_per_eth1_voting_period = 0 then []
      else s.eth1_data_votes) ∧ MixCarried E s s' ∧ SlashingsReset E s s' := by
  obtain ⟨e⟩ := epoch_steps h
  exact ⟨e.votes, e.mixes, C23_epoch_resets_next_entry E f s s' h⟩

/-- The end of epoch 9, in which all but validator 3 voted. Validator 1 is slashed and halfway to its
withdrawal, 2 has too little stake, 8 waits to be activated and 9 has just deposited; in electra
there is a deposit for 5 and a consolidation of 7 into 6. -/
def busyEnd : State := { Toy.state 10 79 with
  validators := (((((Toy.state 10 79).validators.modify 1 (guilty 41)).modify 2 fun v =>
    { v with effective_balance := 16000000000 }).modify 8 fun v =>
    { v with activation_eligibility_epoch := 5, activation_epoch := FAR_FUTURE_EPOCH }).modify 9
    fun v => { v with
      activation_eligibility_epoch := FAR_FUTURE_EPOCH, activation_epoch := FAR_FUTURE_EPOCH }).modify
    7 fun v => { v with exit_epoch := 8, withdrawable_epoch := 9 }
  balances := [32000000000, 31000000000, 17500000000, 31500000000, 31500000000, 31500000000,
    31500000000, 31500000000, 32000000000, 32000000000]
  slashings := (List.replicate 64 0).set 5 32000000000
  previous_epoch_participation := [7, 7, 7, 0, 7, 7, 7, 7, 0, 0]
  current_epoch_participation := [7, 7, 7, 0, 7, 7, 7, 7, 0, 0]
  inactivity_scores := [0, 30, 0, 8, 0, 0, 0, 0, 0, 0]
  justification_bits := [true, true, true, true]
  previous_justified_checkpoint := Toy.checkpoint 7
  current_justified_checkpoint := Toy.checkpoint 8
  finalized_checkpoint := Toy.checkpoint 6
  pending_balance_deposits := [⟨5, 3000000000⟩]
  pending_consolidations := [⟨7, 6⟩] }

theorem toy_proper : Proper Toy.env busyEnd :=
  ⟨toy_sane, toy_balances, by decide, by decide, by decide, by decide, by decide, by decide⟩

/-- Epoch 8 is finalized, 2 is ejected, 8 activated and 9 put on the queue; 1 pays for its slashing,
3 for its missing vote, and the others earn. -/
example :
    let s' := finalState (process_epoch Toy.env .Deneb) busyEnd
    Toy.succeeds (process_epoch Toy.env .Deneb) busyEnd = true ∧
    s'.finalized_checkpoint.epoch = 8 ∧ s'.current_justified_checkpoint.epoch = 9 ∧
    s'.inactivity_scores = [0, 18, 0, 0, 0, 0, 0, 0, 0, 0] ∧
    s'.validators.map (·.activation_eligibility_epoch) = [0, 0, 0, 0, 0, 0, 0, 0, 5, 10] ∧
    s'.validators.map (·.activation_epoch) = [0, 0, 0, 0, 0, 0, 0, 0, 14, FAR_FUTURE_EPOCH] ∧
    (s'.validators.map (·.exit_epoch)).take 3 = [FAR_FUTURE_EPOCH, 5, 14] ∧
    s'.balances = [32003370055, 13996940337, 17501685027, 31496948920, 31503370055, 31503370055,
      31503370055, 31500000000, 32000000000, 32000000000] ∧
    s'.validators.map (·.effective_balance) = [32000000000, 13000000000, 17000000000, 31000000000,
      31000000000, 31000000000, 31000000000, 31000000000, 32000000000, 32000000000] := by
  decide +kernel

/-- In electra also the deposit is credited and the consolidation made; in phase0, where the flags
mean nothing, all pay for their missing votes. -/
example :
    Toy.succeeds (process_epoch Toy.env .Electra) busyEnd = true ∧
    (finalState (process_epoch Toy.env .Electra) busyEnd).balances =
      [32003370055, 13996940337, 17501685027, 31496948920, 31503370055, 34503370055, 63003370055, 0,
        32000000000, 32000000000] ∧
    Toy.succeeds (process_epoch Toy.env .Phase0) busyEnd = true ∧
    (finalState (process_epoch Toy.env .Phase0) busyEnd).balances =
      [31996338701, 19996338701, 17498169352, 31496338701, 31496338701, 31496338701, 31496338701,
        31500000000, 32000000000, 32000000000] := by
  decide +kernel

end Verif.Props
