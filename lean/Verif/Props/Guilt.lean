import Verif.Proofs.GuiltShown
import Verif.Props.Advance
import Verif.Props.Slashing

/-!
# C97: only the guilty are slashed

"Nobody is slashed who has not signed two contradictory votes or two headers for one slot, whatever
blocks are processed, whether they succeed or fail, in every fork and across forks; and whoever is
shown to have done so is slashed." Who is an offender is said in `Verif/Spec/Guilt.lean`.
-/

namespace Verif.Props

open Spec

variable {E : Env} {s s' : State} {f g : Fork}

/-- **C97** In every state that a client can have, from genesis on, the key of every slashed validator
has signed two votes or two headers that contradict each other. -/
theorem C97_slashed (h : OnChain E f s) (v : Validator) (hv : v ∈ s.validators)
    (hs : v.slashed = true) : Offender E s.genesis_validators_root v.public_key :=
  onchain_evid h v hv hs

/-- **C97** From any state on: a validator whose key has signed nothing of the kind is never
slashed. -/
theorem C97_innocent (h : ChainFuture E f s g s') (i : Nat) (v : Validator)
    (hv : s.validators[i]? = some v) (hs : v.slashed = false)
    (hk : ¬ Offender E s.genesis_validators_root v.public_key) :
    ∃ w, s'.validators[i]? = some w ∧ w.public_key = v.public_key ∧ w.slashed = false := by
  obtain ⟨h1, ⟨l, hl⟩, -⟩ := chainFuture_evid h
  have hi : (s'.validators.map (·.public_key))[i]? = some v.public_key := by
    rw [← hl, List.getElem?_append_left (by
      rw [List.length_map]; exact (List.getElem?_eq_some_iff.1 hv).1), List.getElem?_map, hv]
    rfl
  rw [List.getElem?_map] at hi
  obtain ⟨w, hw, hp⟩ := Option.map_eq_some_iff.1 hi
  refine ⟨w, hw, hp, ?_⟩
  cases hsl : w.slashed with
  | false => rfl
  | true =>
    rcases h1.2 i w hw hsl with h2 | ⟨u, h2, h3, -⟩
    · exact absurd (hp ▸ h2) hk
    · rw [hv] at h2; cases h2
      rw [hs] at h3; cases h3

/-- **C97** The same for those who join: whoever is slashed in the end either was so before or is an
offender. -/
theorem C97_new (h : ChainFuture E f s g s') (i : Nat) (w : Validator)
    (hw : s'.validators[i]? = some w) (hs : w.slashed = true) :
    Offender E s.genesis_validators_root w.public_key ∨
      ∃ v, s.validators[i]? = some v ∧ v.slashed = true ∧ v.public_key = w.public_key :=
  (chainFuture_evid h).1.2 i w hw hs

/-- **C97** Time slashes nobody, nor does a fork. -/
theorem C97_time (t i : Nat) (w : Validator)
    (hw : (finalState (process_slots E f t) s).validators[i]? = some w) (hs : w.slashed = true) :
    ∃ v, s.validators[i]? = some v ∧ v.slashed = true ∧ v.public_key = w.public_key :=
  slots_clean.final s i w hw hs

theorem C97_fork (h : upgrade_to E g s = .ok s') (i : Nat) (w : Validator)
    (hw : s'.validators[i]? = some w) (hs : w.slashed = true) :
    ∃ v, s.validators[i]? = some v ∧ v.slashed = true ∧ v.public_key = w.public_key :=
  upgrade_clean h i w hw hs

/-- If the slashing itself succeeds, so does the operation. -/
theorem proposer_accepted_of {op : ProposerSlashing} {v : Validator}
    (hspe : 0 < E.slots_per_epoch)
    (hv : ProposerEquivocation E s op v)
    (hs' : forEach [op.signed_header_1.message.proposer_index]
      (fun i => slash_validator E f i none) s = .ok () s') :
    ∃ s' w, process_proposer_slashing E f op s = .ok () s' ∧
      s'.validators[op.signed_header_1.message.proposer_index]? = some w ∧
      w.public_key = v.public_key ∧ w.slashed = true := by
  have hrun := slash_run hs'
  obtain ⟨w, hw, hsl⟩ := hrun.2.2.2 _ (List.mem_singleton_self _)
  have hs1 : slash_validator E f op.signed_header_1.message.proposer_index none s = .ok () s' := by
    simp only [forEach, run] at hs'
    obtain ⟨t, ht, -, rfl⟩ := hs'
    exact ht
  refine ⟨s', w, process_proposer_slashing_eq_ok.2 ⟨by omega, ⟨v, hv⟩, hs1⟩, hw, ?_, hsl⟩
  have hk : SameKeys s s' := slash_same.ok hs1
  have : (s'.validators.map (·.public_key))[op.signed_header_1.message.proposer_index]? =
      some v.public_key := by
    rw [hk, List.getElem?_map, hv.exists_proposer]; rfl
  rw [List.getElem?_map, hw] at this
  exact Option.some.inj this

theorem attesters_accepted_of {op : AttesterSlashing}
    (hspe : 0 < E.slots_per_epoch)
    (hc : DoubleVote op.attestation_1.data op.attestation_2.data ∨
      Surrounds op.attestation_1.data op.attestation_2.data)
    (h1 : ValidIndexed E s op.attestation_1) (h2 : ValidIndexed E s op.attestation_2)
    (hsome : ∃ i v, i ∈ op.attestation_1.attesting_indices ∧
      i ∈ op.attestation_2.attesting_indices ∧ s.validators[i]? = some v ∧
      Slashable v (epochOf E s.slot))
    (hs' : forEach (culprits E s op.attestation_1 op.attestation_2)
      (fun i => slash_validator E f i none) s = .ok () s') :
    ∃ s', process_attester_slashing E f op s = .ok () s' ∧
      ∀ i v, i ∈ op.attestation_1.attesting_indices → i ∈ op.attestation_2.attesting_indices →
        s.validators[i]? = some v → Slashable v (epochOf E s.slot) →
        ∃ w, s'.validators[i]? = some w ∧ w.public_key = v.public_key ∧ w.slashed = true := by
  have hok : process_attester_slashing E f op s = .ok () s' := by
    refine process_attester_slashing_eq_ok.2 ⟨by omega, hc, h1, h2, fun h0 => ?_, hs'⟩
    obtain ⟨i, v, a, b, c, d⟩ := hsome
    have := mem_culprits.2 ⟨a, b, v, c, d⟩
    rw [h0] at this; cases this
  refine ⟨s', hok, fun i v a b c d => ?_⟩
  obtain ⟨w, hw, hsl⟩ := (slash_run hs').2.2.2 i (mem_culprits.2 ⟨a, b, v, c, d⟩)
  refine ⟨w, hw, ?_, hsl⟩
  have hk : SameKeys s s' := attester_slashing_same.ok hok
  have : (s'.validators.map (·.public_key))[i]? = some v.public_key := by
    rw [hk, List.getElem?_map, c]; rfl
  rw [List.getElem?_map, hw] at this
  exact Option.some.inj this

/-- **C97** Evidence is enough: two headers of a validator that can be slashed are accepted, and it is
slashed, in every fork before electra. -/
theorem C97_proposer_accepted (hE : SaneConfig E) (hq : SaneQuotients E) (hf : f ≠ .Electra)
    (h : Wellformed E s) (hr : Room 0 s)
    (hx : ∀ v ∈ s.validators, v.exit_epoch = FAR_FUTURE_EPOCH ∨ v.exit_epoch ≤ 2 ^ 62)
    (p : Nat) (hp : get_beacon_proposer_index E s = .ok p) (op : ProposerSlashing) (v : Validator)
    (hv : ProposerEquivocation E s op v) :
    ∃ s' w, process_proposer_slashing E f op s = .ok () s' ∧
      s'.validators[op.signed_header_1.message.proposer_index]? = some w ∧
      w.public_key = v.public_key ∧ w.slashed = true := by
  have hslot := h.slot
  have hep := epochOf_le E s.slot
  have hm := hE.max_seed_lookahead
  have hd := hE.withdrawability_delay
  have hspe := hE.slots_per_epoch
  obtain ⟨s', hs'⟩ := slashes_total (l := [op.signed_header_1.message.proposer_index]) hE hq hf
    (List.nodup_singleton _) h hr (B := 2 ^ 62) hx (by omega) (by
      simp only [List.length_singleton, U64_BOUND]; omega) hp (by
      intro i hi
      rw [List.mem_singleton] at hi
      subst hi
      exact ⟨v, hv.exists_proposer, hv.slashable.1⟩)
  exact proposer_accepted_of hspe.1 hv hs'

/-- **C97** And two contradictory votes, of which everyone that took part in both and can be slashed is
slashed. -/
theorem C97_attesters_accepted (hE : SaneConfig E) (hq : SaneQuotients E) (hf : f ≠ .Electra)
    (h : Wellformed E s) (hr : Room 0 s) (hreg : s.validators.length ≤ 2 ^ 40)
    (hx : ∀ v ∈ s.validators, v.exit_epoch = FAR_FUTURE_EPOCH ∨ v.exit_epoch ≤ 2 ^ 62)
    (p : Nat) (hp : get_beacon_proposer_index E s = .ok p) (op : AttesterSlashing)
    (hc : DoubleVote op.attestation_1.data op.attestation_2.data ∨
      Surrounds op.attestation_1.data op.attestation_2.data)
    (h1 : ValidIndexed E s op.attestation_1) (h2 : ValidIndexed E s op.attestation_2)
    (hsome : ∃ i v, i ∈ op.attestation_1.attesting_indices ∧
      i ∈ op.attestation_2.attesting_indices ∧ s.validators[i]? = some v ∧
      Slashable v (epochOf E s.slot)) :
    ∃ s', process_attester_slashing E f op s = .ok () s' ∧
      ∀ i v, i ∈ op.attestation_1.attesting_indices → i ∈ op.attestation_2.attesting_indices →
        s.validators[i]? = some v → Slashable v (epochOf E s.slot) →
        ∃ w, s'.validators[i]? = some w ∧ w.public_key = v.public_key ∧ w.slashed = true := by
  have hslot := h.slot
  have hep := epochOf_le E s.slot
  have hm := hE.max_seed_lookahead
  have hd := hE.withdrawability_delay
  have hspe := hE.slots_per_epoch
  have hlen : (culprits E s op.attestation_1 op.attestation_2).length ≤ s.validators.length := by
    unfold culprits
    exact Nat.le_trans (List.length_filter_le _ _) (by rw [List.length_range])
  obtain ⟨s', hs'⟩ := slashes_total (l := culprits E s op.attestation_1 op.attestation_2) hE hq hf
    (by unfold culprits; exact List.nodup_range.filter _) h hr (B := 2 ^ 62) hx (by omega) (by
      simp only [U64_BOUND]; omega) hp (by
      intro i hi
      obtain ⟨-, -, v, hv, hs⟩ := mem_culprits.1 hi
      exact ⟨v, hv, hs.1⟩)
  exact attesters_accepted_of hspe.1 hc h1 h2 hsome hs'

/-! ## Examples -/

/-- An environment in which validator 3 has signed nothing, and everybody else everything. -/
def honestEnv : Env := { Toy.env with
  verify_signature := fun k m sig => Toy.env.verify_signature k m sig && k != Toy.pk 3
  fast_aggregate_verify := fun ks m sig =>
    Toy.env.fast_aggregate_verify ks m sig && !ks.contains (Toy.pk 3) }

theorem honest_innocent (r : Root) : ¬ Offender honestEnv r (Toy.pk 3) := by
  rintro (⟨d, d', ⟨v, ks, sig, h1, h2⟩, -⟩ | ⟨h, h', -, -, -, ⟨v, sig, h2⟩, -⟩)
  · simp [honestEnv, h1] at h2
  · simp [honestEnv] at h2

/-- The two votes are accepted there; validators 1 and 6 are slashed and 3 is not. -/
example : Toy.succeeds (process_attester_slashing honestEnv .Deneb doubleVote) (Toy.state 8 20) =
      true ∧
    (finalState (process_attester_slashing honestEnv .Deneb doubleVote)
      (Toy.state 8 20)).validators.map Validator.slashed =
      [false, true, false, false, false, false, true, false] ∧
    Toy.errorOf (process_proposer_slashing honestEnv .Deneb equivocation) (Toy.state 8 20) =
      some .proposerSlashingInvalidSignature := by
  decide +kernel

/-- The block `b` is processed on the way, and time passes. -/
example (b : BeaconBlock) : ∃ w, (finalState (process_slots honestEnv .Deneb 200)
      (finalState (process_block honestEnv .Deneb b) (Toy.state 8 20))).validators[3]? = some w ∧
    w.public_key = Toy.pk 3 ∧ w.slashed = false :=
  C97_innocent (f := .Deneb) (g := .Deneb)
    (.call (.call .start (.process_block b)) (.process_slots 200)) 3 (Toy.validator 3)
    (by decide +kernel) rfl (honest_innocent _)

/-- Hypotheses of the acceptance theorems. -/
theorem toy_room : Room 0 (Toy.state 8 20) := by constructor <;> decide +kernel

theorem toy_wellformed : Wellformed Toy.env (Toy.state 8 20) := by
  refine ⟨by constructor <;> decide +kernel, ?_, ?_, ?_, ?_, ?_⟩ <;> decide +kernel

theorem ok_of_isSome {α : Type} {x : R α} (h : x.toOption.isSome = true) : ∃ a, x = .ok a := by
  cases x with
  | ok a => exact ⟨a, rfl⟩
  | error e => cases h

theorem toy_elects : ∃ p, get_beacon_proposer_index Toy.env (Toy.state 8 20) = .ok p :=
  ok_of_isSome (by decide +kernel)

example : ∃ s' w, process_proposer_slashing Toy.env .Altair equivocation (Toy.state 8 20) =
      .ok () s' ∧
    s'.validators[equivocation.signed_header_1.message.proposer_index]? = some w ∧
    w.public_key = Toy.pk 3 ∧ w.slashed = true := by
  obtain ⟨p, hp⟩ := toy_elects
  exact C97_proposer_accepted toy_sane toy_quotients (by decide) toy_wellformed toy_room
    (by decide +kernel) p hp _ (Toy.validator 3) (by
      constructor <;> decide +kernel)

example : ∃ s', process_attester_slashing Toy.env .Deneb doubleVote (Toy.state 8 20) =
      .ok () s' ∧ ∀ i v, i ∈ doubleVote.attestation_1.attesting_indices →
        i ∈ doubleVote.attestation_2.attesting_indices →
        (Toy.state 8 20).validators[i]? = some v →
        Slashable v (epochOf Toy.env (Toy.state 8 20).slot) →
        ∃ w, s'.validators[i]? = some w ∧ w.public_key = v.public_key ∧ w.slashed = true := by
  obtain ⟨p, hp⟩ := toy_elects
  obtain ⟨_, h1⟩ := ok_of_isSome (x := is_valid_indexed_attestation Toy.env (Toy.state 8 20)
    doubleVote.attestation_1) (by decide +kernel)
  obtain ⟨_, h2⟩ := ok_of_isSome (x := is_valid_indexed_attestation Toy.env (Toy.state 8 20)
    doubleVote.attestation_2) (by decide +kernel)
  refine C97_attesters_accepted toy_sane toy_quotients (by decide) toy_wellformed toy_room
    (by decide +kernel) (by decide +kernel) p hp _ (.inl ?_) (valid_indexed_iff.1 h1)
    (valid_indexed_iff.1 h2) ⟨6, Toy.validator 6, ?_, ?_, ?_, ?_⟩
  · unfold DoubleVote; decide +kernel
  all_goals decide +kernel

end Verif.Props
