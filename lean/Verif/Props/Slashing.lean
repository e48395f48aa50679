import Verif.Proofs.Evidence
import Verif.Examples.Toy

/-! # C10, C13, C14: slashing -/

namespace Verif.Props

open Spec

/-! ## C10 -/

/-- **C10** A successful `slash_validator` has exactly the listed effects, in every
fork: the exit of validator `i` is initiated, it becomes slashed and withdrawable no
earlier than `epochs_per_slashings_vector` epochs from now, its effective balance is
added to this epoch's slot of `slashings`, the penalty is deducted, the proposer of the
slot gets its share of the whistleblower reward and the whistleblower (by default the
proposer) the rest; no other part of the state changes. The proposer's share is
`reward / proposer_reward_quotient` in phase0 and zero from altair on, where the code
computes `PROPOSER_WEIGHT / WEIGHT_DENOMINATOR` in integers. -/
theorem C10_slash_validator_effects (E : Env) (f : Fork) (i : Nat) (whistleblower : Option Nat)
    (s s' : State) (h : slash_validator E f i whistleblower s = .ok () s') :
    ∃ p share v v₁, get_beacon_proposer_index E s = .ok p ∧
      (f = .Phase0 →
        share = v.effective_balance / E.whistleblower_reward_quotient / E.proposer_reward_quotient) ∧
      (f ≠ .Phase0 → share = 0) ∧
      SlashEffect E f i p (whistleblower.getD p) share s s' v v₁ := by
  obtain ⟨p, share, v, v₁, h1, h2, h3⟩ := slash_validator_effect h
  have := slashing_proposer_reward_ok h2
  refine ⟨p, share, v, v₁, h1, ?_, this.2, h3⟩
  rintro rfl
  exact this.1 rfl

/-- **C10** What this means for the validators: the slashed one has an exit epoch and
is withdrawable no earlier than the window allows; all others are as before. -/
theorem C10_slash_validator_validators (E : Env) (hE : SaneConfig E) (f : Fork) (i : Nat)
    (whistleblower : Option Nat) (s s' : State)
    (h : slash_validator E f i whistleblower s = .ok () s') :
    (∃ v v', s.validators[i]? = some v ∧ s'.validators[i]? = some v' ∧
      v'.slashed = true ∧
      v'.exit_epoch ≠ FAR_FUTURE_EPOCH ∧
      (v.exit_epoch ≠ FAR_FUTURE_EPOCH → v'.exit_epoch = v.exit_epoch) ∧
      (v.exit_epoch = FAR_FUTURE_EPOCH →
        epochOf E s.slot + 1 + E.max_seed_lookahead ≤ v'.exit_epoch) ∧
      epochOf E s.slot + E.epochs_per_slashings_vector ≤ v'.withdrawable_epoch ∧
      v'.public_key = v.public_key ∧
      v'.withdrawal_credentials = v.withdrawal_credentials ∧
      v'.effective_balance = v.effective_balance ∧
      v'.activation_eligibility_epoch = v.activation_eligibility_epoch ∧
      v'.activation_epoch = v.activation_epoch) ∧
    ∀ j, j ≠ i → s'.validators[j]? = s.validators[j]? := by
  obtain ⟨p, share, v, v₁, h1, h2, h3⟩ := slash_validator_effect h
  obtain ⟨t, he, _⟩ := h3.exit
  have hi := (List.getElem?_eq_some_iff.1 he.before).1
  refine ⟨⟨v, _, he.before, by rw [h3.validators]; exact List.getElem?_set_self hi, rfl, ?_, ?_, ?_,
    ?_, ?_, ?_, ?_, ?_, ?_⟩, fun j hj => SlashEffect_other h3 hj⟩
  · dsimp only
    by_cases hf : v.exit_epoch = FAR_FUTURE_EPOCH
    · obtain ⟨_, h5, h6⟩ := he.fresh hf
      have := hE.withdrawability_delay
      unfold FAR_FUTURE_EPOCH; omega
    · rw [(he.exiting hf).2]; exact hf
  · intro hf; rw [(he.exiting hf).2]
  · intro hf; exact (he.fresh hf).1
  · exact Nat.le_max_right _ _
  all_goals dsimp only; rw [he.validator]

/-- **C10** Without a separate whistleblower (the only way the block operations call
it), the proposer receives the whole whistleblower reward, in every fork. -/
theorem C10_slash_validator_balances (E : Env) (f : Fork) (i : Nat) (s s' : State)
    (h : slash_validator E f i none s = .ok () s') :
    ∃ p v, get_beacon_proposer_index E s = .ok p ∧ s.validators[i]? = some v ∧
      s'.balances =
        (s.balances.modify i (· - v.effective_balance / slashPenaltyQuotient E f)).modify p
          (· + v.effective_balance / whistleblowerQuotient E f) := by
  obtain ⟨p, share, v, v₁, h1, h2, h3⟩ := slash_validator_effect h
  obtain ⟨t, he, _⟩ := h3.exit
  refine ⟨p, v, h1, he.before, ?_⟩
  have hs : share ≤ v.effective_balance / whistleblowerQuotient E f := by
    have := slashing_proposer_reward_ok h2
    by_cases hf : f = .Phase0
    · rw [this.1 hf]; exact Nat.div_le_self _ _
    · rw [this.2 hf]; exact Nat.zero_le _
  rw [h3.balances, Option.getD_none, List.modify_modify_eq]
  congr 1
  funext x
  simp only [Function.comp]; omega

/-- Slashing validator 3 of 8 in phase0: the penalty, and the reward of the proposer. -/
example : (finalState (slash_validator Toy.env .Phase0 3 none) (Toy.state 8 20)).balances =
    [32000000000, 32000000000, 32062500000, 31500000000, 32000000000, 32000000000, 32000000000,
     32000000000] ∧
    Toy.succeeds (slash_validator Toy.env .Phase0 3 none) (Toy.state 8 20) = true ∧
    Toy.succeeds (slash_validator Toy.env .Deneb 3 none) (Toy.state 8 20) = true ∧
    Toy.succeeds (slash_validator Toy.env .Electra 3 (some 2)) (Toy.state 8 20) = true := by
  decide +kernel

/-! ## C13 -/

/-- **C13** `process_proposer_slashing` succeeds exactly on a proof of equivocation of
an existing, slashable proposer, with exactly the effect of slashing it. -/
theorem C13_proposer_slashing_iff (E : Env) (hE : SaneConfig E) (f : Fork)
    (op : ProposerSlashing) (s s' : State) :
    process_proposer_slashing E f op s = .ok () s' ↔
      (∃ v, ProposerEquivocation E s op v) ∧
      slash_validator E f op.signed_header_1.message.proposer_index none s = .ok () s' := by
  rw [process_proposer_slashing_eq_ok]
  have := hE.slots_per_epoch
  constructor
  · exact fun h => h.2
  · exact fun h => ⟨by omega, h⟩

/-- **C13** If the evidence is not a proof of equivocation the operation is rejected
and the state is untouched. -/
theorem C13_proposer_slashing_rejects (E : Env) (hE : SaneConfig E) (f : Fork)
    (op : ProposerSlashing) (s : State) (h : ¬ ∃ v, ProposerEquivocation E s op v) :
    ∃ e, process_proposer_slashing E f op s = .error e s := by
  cases hr : process_proposer_slashing E f op s with
  | ok u s' => exact absurd ((C13_proposer_slashing_iff E hE f op s s').1 hr).1 h
  | error e s' =>
    rcases process_proposer_slashing_error hr with rfl | ⟨h', _⟩
    · exact ⟨e, rfl⟩
    · exact absurd h' h

def equivocation : ProposerSlashing :=
  ⟨⟨⟨17, 3, Toy.root 1, Toy.root 2, Toy.root 3⟩, Toy.goodSig⟩,
   ⟨⟨17, 3, Toy.root 1, Toy.root 2, Toy.root 4⟩, Toy.goodSig⟩⟩

example : Toy.succeeds (process_proposer_slashing Toy.env .Altair equivocation) (Toy.state 8 20) = true ∧
    Toy.errorOf (process_proposer_slashing Toy.env .Altair equivocation)
      (finalState (process_proposer_slashing Toy.env .Altair equivocation) (Toy.state 8 20)) =
    some .proposerSlashingProposerIsNotSlashable := by
  decide +kernel

/-! ## C14 -/

/-- **C14** `process_attester_slashing` succeeds exactly for two valid indexed
attestations with slashable data and at least one slashable common attester; its effect
is that of slashing the slashable common attesters one after the other, in ascending
order (in the start state's sense of "slashable"). -/
theorem C14_attester_slashing_iff (E : Env) (hE : SaneConfig E) (f : Fork)
    (op : AttesterSlashing) (s s' : State) :
    process_attester_slashing E f op s = .ok () s' ↔
      (DoubleVote op.attestation_1.data op.attestation_2.data ∨
        Surrounds op.attestation_1.data op.attestation_2.data) ∧
      ValidIndexed E s op.attestation_1 ∧ ValidIndexed E s op.attestation_2 ∧
      culprits E s op.attestation_1 op.attestation_2 ≠ [] ∧
      forEach (culprits E s op.attestation_1 op.attestation_2)
        (fun i => slash_validator E f i none) s = .ok () s' := by
  rw [process_attester_slashing_eq_ok]
  have := hE.slots_per_epoch
  exact ⟨fun h => h.2, fun h => ⟨by omega, h⟩⟩

/-- **C14** Exactly the culprits become slashed: each of them is slashed afterwards, and
every other validator is as before. -/
theorem C14_attester_slashing_slashes (E : Env) (f : Fork) (op : AttesterSlashing)
    (s s' : State) (h : process_attester_slashing E f op s = .ok () s') :
    (∀ i ∈ culprits E s op.attestation_1 op.attestation_2,
      ∃ v, s'.validators[i]? = some v ∧ v.slashed = true) ∧
    (∀ i ∉ culprits E s op.attestation_1 op.attestation_2,
      s'.validators[i]? = s.validators[i]?) := by
  have := slash_run (process_attester_slashing_eq_ok.1 h).2.2.2.2.2
  exact ⟨this.2.2.2, this.2.2.1⟩

def doubleVote : AttesterSlashing :=
  ⟨⟨[1, 4, 6], ⟨17, 0, Toy.root 1, Toy.checkpoint 1, Toy.checkpoint 2⟩, Toy.goodSig⟩,
   ⟨[0, 1, 6, 7], ⟨17, 0, Toy.root 2, Toy.checkpoint 1, Toy.checkpoint 2⟩, Toy.goodSig⟩⟩

example : culprits Toy.env (Toy.state 8 20) doubleVote.attestation_1 doubleVote.attestation_2 =
      [1, 6] ∧
    ((finalState (process_attester_slashing Toy.env .Deneb doubleVote)
      (Toy.state 8 20)).validators.map Validator.slashed) =
      [false, true, false, false, false, false, true, false] ∧
    Toy.succeeds (process_attester_slashing Toy.env .Deneb doubleVote) (Toy.state 8 20) = true := by
  decide +kernel

end Verif.Props
