import Verif.Proofs.GuiltElectra
import Verif.Props.Guilt
import Verif.Props.SafetyElectra

/-! # C97: evidence of an offence is accepted in electra -/

namespace Verif.Props

open Spec

variable {E : Env} {s : State}

/-- **C97** Two headers of a validator that can be slashed are accepted, and it is slashed. -/
theorem C97_electra_proposer_accepted (hE : SaneConfig E) (hq : SaneQuotients E)
    (hz : SaneElectra E) (h : Wellformed E s) (hs : Queues E s) (hr : Room 0 s)
    (hT : effectiveSum s ≤ 2 ^ 56) (hx : s.earliest_exit_epoch ≤ 2 ^ 62)
    (p : Nat) (hp : get_beacon_proposer_index E s = .ok p) (op : ProposerSlashing) (v : Validator)
    (hv : ProposerEquivocation E s op v) :
    ∃ s' w, process_proposer_slashing E .Electra op s = .ok () s' ∧
      s'.validators[op.signed_header_1.message.proposer_index]? = some w ∧
      w.public_key = v.public_key ∧ w.slashed = true := by
  obtain ⟨s', hs'⟩ := electra_slashes_total (l := [op.signed_header_1.message.proposer_index])
    hE hq hz (List.nodup_singleton _) h hr (exits_of hs hT hx) (by omega) hp (by
      intro i hi
      rw [List.mem_singleton] at hi
      subst hi
      exact ⟨v, hv.exists_proposer, hv.slashable.1⟩)
  exact proposer_accepted_of hE.slots_per_epoch.1 hv hs'

/-- **C97** And two contradictory votes, of which everyone that took part in both and can be slashed is
slashed. -/
theorem C97_electra_attesters_accepted (hE : SaneConfig E) (hq : SaneQuotients E)
    (hz : SaneElectra E) (h : Wellformed E s) (hs : Queues E s) (hr : Room 0 s)
    (hT : effectiveSum s ≤ 2 ^ 56) (hx : s.earliest_exit_epoch ≤ 2 ^ 62)
    (p : Nat) (hp : get_beacon_proposer_index E s = .ok p) (op : AttesterSlashing)
    (hc : DoubleVote op.attestation_1.data op.attestation_2.data ∨
      Surrounds op.attestation_1.data op.attestation_2.data)
    (h1 : ValidIndexed E s op.attestation_1) (h2 : ValidIndexed E s op.attestation_2)
    (hsome : ∃ i v, i ∈ op.attestation_1.attesting_indices ∧
      i ∈ op.attestation_2.attesting_indices ∧ s.validators[i]? = some v ∧
      Slashable v (epochOf E s.slot)) :
    ∃ s', process_attester_slashing E .Electra op s = .ok () s' ∧
      ∀ i v, i ∈ op.attestation_1.attesting_indices → i ∈ op.attestation_2.attesting_indices →
        s.validators[i]? = some v → Slashable v (epochOf E s.slot) →
        ∃ w, s'.validators[i]? = some w ∧ w.public_key = v.public_key ∧ w.slashed = true := by
  obtain ⟨s', hs'⟩ := electra_slashes_total
    (l := culprits E s op.attestation_1 op.attestation_2) hE hq hz
    (by unfold culprits; exact List.nodup_range.filter _) h hr (exits_of hs hT hx) (by omega) hp (by
      intro i hi
      obtain ⟨-, -, v, hv, hs⟩ := mem_culprits.1 hi
      exact ⟨v, hv, hs.1⟩)
  exact attesters_accepted_of hE.slots_per_epoch.1 hc h1 h2 hsome hs'

/-! ## Examples -/

theorem toy_queues : Queues Toy.env (Toy.state 8 20) := queues_of (by decide +kernel)

example : ∃ s' w, process_proposer_slashing Toy.env .Electra equivocation (Toy.state 8 20) =
      .ok () s' ∧
    s'.validators[equivocation.signed_header_1.message.proposer_index]? = some w ∧
    w.public_key = Toy.pk 3 ∧ w.slashed = true := by
  obtain ⟨p, hp⟩ := toy_elects
  exact C97_electra_proposer_accepted toy_sane toy_quotients toy_electra toy_wellformed toy_queues
    toy_room (by decide +kernel) (by decide +kernel) p hp _ (Toy.validator 3) (by
      constructor <;> decide +kernel)

example : ∃ s', process_attester_slashing Toy.env .Electra doubleVote (Toy.state 8 20) =
      .ok () s' ∧ ∀ i v, i ∈ doubleVote.attestation_1.attesting_indices →
        i ∈ doubleVote.attestation_2.attesting_indices →
        (Toy.state 8 20).validators[i]? = some v →
        Slashable v (epochOf Toy.env (Toy.state 8 20).slot) →
        ∃ w, s'.validators[i]? = some w ∧ w.public_key = v.public_key ∧ w.slashed = true := by
  obtain ⟨p, hp⟩ := toy_elects
  obtain ⟨_, h1⟩ := ok_of_isSome (x := is_valid_indexed_attestation Toy.env (Toy.state 8 20)
    doubleVote.attestation_1) (by decide +kernel)
  obtain ⟨_, h2⟩ := ok_of_isSome (x := is_valid_indexed_attestation Toy.env (Toy.state 8 20)
    doubleVote.attestation_2) (by decide +kernel)
  refine C97_electra_attesters_accepted toy_sane toy_quotients toy_electra toy_wellformed toy_queues
    toy_room (by decide +kernel) (by decide +kernel) p hp _ (.inl ?_) (valid_indexed_iff.1 h1)
    (valid_indexed_iff.1 h2) ⟨6, Toy.validator 6, ?_, ?_, ?_, ?_⟩
  · unfold DoubleVote; decide +kernel
  all_goals decide +kernel

end Verif.Props
