import Verif.Props.Leaving
import Verif.Proofs.Lock
import Verif.Props.Guilt
import Verif.Props.GuiltElectra
import Verif.Props.Withdrawals
import Verif.Props.Parts

/-!
# C100: the stake answers for the vote

"For the withdrawability delay after every epoch in which it is active, a validator can be slashed for
it and its stake cannot be withdrawn."
-/

namespace Verif.Props

open Spec

variable {E : Env} {f f' : Fork} {s s' : State}

/-- **C100** In every state that any calls can lead to, no stake can be withdrawn before the delay
after the exit is over. -/
theorem C100_locked (hE : SaneConfig E) (h : Reachable E f s) (v : Validator)
    (hv : v ∈ s.validators) :
    v.exit_epoch + E.min_validator_withdrawability_delay ≤ v.withdrawable_epoch ∨
      FAR_FUTURE_EPOCH ≤ v.withdrawable_epoch :=
  reachable_held hE h v hv

/-- **C100** Whatever is called and whatever fork comes: for the delay after an epoch in which it was
active, a validator is slashed or can be. -/
theorem C100_punishable (hE : SaneConfig E) (hs : AllLocked E s) (h : Future E f s f' s')
    {i a : Nat} {v : Validator} (hv : s.validators[i]? = some v) (ha : ActiveAt v a)
    (hnow : a ≤ epochOf E s.slot)
    (hin : epochOf E s'.slot ≤ a + E.min_validator_withdrawability_delay)
    (hfar : a + E.min_validator_withdrawability_delay < FAR_FUTURE_EPOCH) :
    ∃ w, s'.validators[i]? = some w ∧ w.public_key = v.public_key ∧
      (w.slashed = true ∨ Slashable w (epochOf E s'.slot)) := by
  obtain ⟨w, hw, hk, h1, h2, h3⟩ := still_locked hE hs h hv ha hnow (by omega)
  refine ⟨w, hw, hk, ?_⟩
  cases hsl : w.slashed with
  | true => exact .inl rfl
  | false => exact .inr ⟨hsl, by have := h1.1; omega, by omega⟩

/-- **C100** The same from every reachable state on. -/
theorem C100_punishable_always (hE : SaneConfig E) (hr : Reachable E f s) (h : Future E f s f' s')
    {i a : Nat} {v : Validator} (hv : s.validators[i]? = some v) (ha : ActiveAt v a)
    (hnow : a ≤ epochOf E s.slot)
    (hin : epochOf E s'.slot ≤ a + E.min_validator_withdrawability_delay)
    (hfar : a + E.min_validator_withdrawability_delay < FAR_FUTURE_EPOCH) :
    ∃ w, s'.validators[i]? = some w ∧ w.public_key = v.public_key ∧
      (w.slashed = true ∨ Slashable w (epochOf E s'.slot)) :=
  C100_punishable hE (reachable_held hE hr) h hv ha hnow hin hfar

/-- **C100** And so long a block of capella or deneb that pays it anything pays it no more than what
it has above the maximum effective balance. -/
theorem C100_stake_stays (hE : SaneConfig E) (hmax : 0 < E.max_deposits) (hs : AllLocked E s)
    (h : Future E f s f' s') (hf : f' = .Capella ∨ f' = .Deneb)
    {i a : Nat} {v : Validator} (hv : s.validators[i]? = some v) (ha : ActiveAt v a)
    (hnow : a ≤ epochOf E s.slot)
    (hin : epochOf E s'.slot ≤ a + E.min_validator_withdrawability_delay)
    (hfar : a + E.min_validator_withdrawability_delay < FAR_FUTURE_EPOCH)
    (hr : SweepReady E s') {b : BeaconBlock} {t : State}
    (hb : process_block E f' b s' = .ok () t) (w : Withdrawal)
    (hw : w ∈ b.body.execution_payload.withdrawals) (hi : w.validator_index = i) :
    ∃ n, s'.balances[i]? = some n ∧ w.amount + E.max_effective_balance = n := by
  obtain ⟨u, hu, -, -, -, h3⟩ := still_locked hE hs h hv ha hnow (by omega)
  obtain ⟨hpay, -⟩ := C86_withdrawals hE hmax hf hr hb
  obtain ⟨ws, h1, h2⟩ := C44_expected E hE f' hf s' hr
  obtain rfl := pays_unique hpay h2
  obtain ⟨-, -, h4⟩ := C44_bounded E hE f' hf s' hr _ _ h1
  obtain ⟨u', n, hu', hn, -, h5⟩ := h4 w hw
  rw [hi] at hu' hn
  rw [hu] at hu'
  cases hu'
  refine ⟨n, hn, ?_⟩
  rcases h5 with ⟨h5, -⟩ | ⟨-, -, -, h5⟩
  · omega
  · exact h5

/-- **C100** So evidence of two contradictory votes is accepted against whoever was active in an epoch
not longer ago than the delay, and they are slashed, in every fork before electra. -/
theorem C100_answers (hE : SaneConfig E) (hq : SaneQuotients E) (hs : AllLocked E s)
    (h : Future E f s f' s') (hf : f' ≠ .Electra)
    {i a : Nat} {v : Validator} (hv : s.validators[i]? = some v) (ha : ActiveAt v a)
    (hnow : a ≤ epochOf E s.slot)
    (hin : epochOf E s'.slot ≤ a + E.min_validator_withdrawability_delay)
    (hfar : a + E.min_validator_withdrawability_delay < FAR_FUTURE_EPOCH)
    (hfree : ∀ w, s'.validators[i]? = some w → w.slashed = false)
    (hw : Wellformed E s') (hr : Room 0 s') (hreg : s'.validators.length ≤ 2 ^ 40)
    (hx : ∀ v ∈ s'.validators, v.exit_epoch = FAR_FUTURE_EPOCH ∨ v.exit_epoch ≤ 2 ^ 62)
    (p : Nat) (hp : get_beacon_proposer_index E s' = .ok p) (op : AttesterSlashing)
    (hc : DoubleVote op.attestation_1.data op.attestation_2.data ∨
      Surrounds op.attestation_1.data op.attestation_2.data)
    (h1 : ValidIndexed E s' op.attestation_1) (h2 : ValidIndexed E s' op.attestation_2)
    (hi1 : i ∈ op.attestation_1.attesting_indices) (hi2 : i ∈ op.attestation_2.attesting_indices) :
    ∃ t w, process_attester_slashing E f' op s' = .ok () t ∧ t.validators[i]? = some w ∧
      w.public_key = v.public_key ∧ w.slashed = true := by
  obtain ⟨u, hu, hk, h3⟩ := C100_punishable hE hs h hv ha hnow hin hfar
  have h4 : Slashable u (epochOf E s'.slot) := by
    rcases h3 with h3 | h3
    · rw [hfree u hu] at h3; cases h3
    · exact h3
  obtain ⟨t, ht, h5⟩ := C97_attesters_accepted hE hq hf hw hr hreg hx p hp op hc h1 h2
    ⟨i, u, hi1, hi2, hu, h4⟩
  obtain ⟨w, hw, hkw, hsl⟩ := h5 i u hi1 hi2 hu h4
  exact ⟨t, w, ht, hw, hkw.trans hk, hsl⟩

/-- **C100** And so is evidence of two headers for one slot, against whoever signed them: `op` is
evidence that would be valid against the validator if it could be slashed. -/
theorem C100_answers_proposer (hE : SaneConfig E) (hq : SaneQuotients E) (hs : AllLocked E s)
    (h : Future E f s f' s') (hf : f' ≠ .Electra)
    {a : Nat} {v : Validator} (op : ProposerSlashing)
    (hv : s.validators[op.signed_header_1.message.proposer_index]? = some v) (ha : ActiveAt v a)
    (hnow : a ≤ epochOf E s.slot)
    (hin : epochOf E s'.slot ≤ a + E.min_validator_withdrawability_delay)
    (hfar : a + E.min_validator_withdrawability_delay < FAR_FUTURE_EPOCH)
    (hfree : ∀ w, s'.validators[op.signed_header_1.message.proposer_index]? = some w →
      w.slashed = false)
    (hw : Wellformed E s') (hr : Room 0 s')
    (hx : ∀ v ∈ s'.validators, v.exit_epoch = FAR_FUTURE_EPOCH ∨ v.exit_epoch ≤ 2 ^ 62)
    (p : Nat) (hp : get_beacon_proposer_index E s' = .ok p)
    (hop : ∀ w, s'.validators[op.signed_header_1.message.proposer_index]? = some w →
      Slashable w (epochOf E s'.slot) → ProposerEquivocation E s' op w) :
    ∃ t w, process_proposer_slashing E f' op s' = .ok () t ∧
      t.validators[op.signed_header_1.message.proposer_index]? = some w ∧
      w.public_key = v.public_key ∧ w.slashed = true := by
  obtain ⟨u, hu, hk, h3⟩ := C100_punishable hE hs h hv ha hnow hin hfar
  have h4 : Slashable u (epochOf E s'.slot) := by
    rcases h3 with h3 | h3
    · rw [hfree u hu] at h3; cases h3
    · exact h3
  obtain ⟨t, w, ht, hw, hkw, hsl⟩ := C97_proposer_accepted hE hq hf hw hr hx p hp op u (hop u hu h4)
  exact ⟨t, w, ht, hw, hkw.trans hk, hsl⟩

/-- **C100** The same in electra. -/
theorem C100_answers_proposer_electra (hE : SaneConfig E) (hq : SaneQuotients E)
    (hz : SaneElectra E) (hs : AllLocked E s) (h : Future E f s .Electra s')
    {a : Nat} {v : Validator} (op : ProposerSlashing)
    (hv : s.validators[op.signed_header_1.message.proposer_index]? = some v) (ha : ActiveAt v a)
    (hnow : a ≤ epochOf E s.slot)
    (hin : epochOf E s'.slot ≤ a + E.min_validator_withdrawability_delay)
    (hfar : a + E.min_validator_withdrawability_delay < FAR_FUTURE_EPOCH)
    (hfree : ∀ w, s'.validators[op.signed_header_1.message.proposer_index]? = some w →
      w.slashed = false)
    (hw : Wellformed E s') (hqs : Queues E s') (hr : Room 0 s')
    (hT : effectiveSum s' ≤ 2 ^ 56) (hx : s'.earliest_exit_epoch ≤ 2 ^ 62)
    (p : Nat) (hp : get_beacon_proposer_index E s' = .ok p)
    (hop : ∀ w, s'.validators[op.signed_header_1.message.proposer_index]? = some w →
      Slashable w (epochOf E s'.slot) → ProposerEquivocation E s' op w) :
    ∃ t w, process_proposer_slashing E .Electra op s' = .ok () t ∧
      t.validators[op.signed_header_1.message.proposer_index]? = some w ∧
      w.public_key = v.public_key ∧ w.slashed = true := by
  obtain ⟨u, hu, hk, h3⟩ := C100_punishable hE hs h hv ha hnow hin hfar
  have h4 : Slashable u (epochOf E s'.slot) := by
    rcases h3 with h3 | h3
    · rw [hfree u hu] at h3; cases h3
    · exact h3
  obtain ⟨t, w, ht, hw, hkw, hsl⟩ := C97_electra_proposer_accepted hE hq hz hw hqs hr hT hx p hp op u
    (hop u hu h4)
  exact ⟨t, w, ht, hw, hkw.trans hk, hsl⟩

/-- **C100** Contradictory votes in electra. -/
theorem C100_answers_electra (hE : SaneConfig E) (hq : SaneQuotients E) (hz : SaneElectra E)
    (hs : AllLocked E s) (h : Future E f s .Electra s')
    {i a : Nat} {v : Validator} (hv : s.validators[i]? = some v) (ha : ActiveAt v a)
    (hnow : a ≤ epochOf E s.slot)
    (hin : epochOf E s'.slot ≤ a + E.min_validator_withdrawability_delay)
    (hfar : a + E.min_validator_withdrawability_delay < FAR_FUTURE_EPOCH)
    (hfree : ∀ w, s'.validators[i]? = some w → w.slashed = false)
    (hw : Wellformed E s') (hqs : Queues E s') (hr : Room 0 s')
    (hT : effectiveSum s' ≤ 2 ^ 56) (hx : s'.earliest_exit_epoch ≤ 2 ^ 62)
    (p : Nat) (hp : get_beacon_proposer_index E s' = .ok p) (op : AttesterSlashing)
    (hc : DoubleVote op.attestation_1.data op.attestation_2.data ∨
      Surrounds op.attestation_1.data op.attestation_2.data)
    (h1 : ValidIndexed E s' op.attestation_1) (h2 : ValidIndexed E s' op.attestation_2)
    (hi1 : i ∈ op.attestation_1.attesting_indices) (hi2 : i ∈ op.attestation_2.attesting_indices) :
    ∃ t w, process_attester_slashing E .Electra op s' = .ok () t ∧ t.validators[i]? = some w ∧
      w.public_key = v.public_key ∧ w.slashed = true := by
  obtain ⟨u, hu, hk, h3⟩ := C100_punishable hE hs h hv ha hnow hin hfar
  have h4 : Slashable u (epochOf E s'.slot) := by
    rcases h3 with h3 | h3
    · rw [hfree u hu] at h3; cases h3
    · exact h3
  obtain ⟨t, ht, h5⟩ := C97_electra_attesters_accepted hE hq hz hw hqs hr hT hx p hp op hc h1 h2
    ⟨i, u, hi1, hi2, hu, h4⟩
  obtain ⟨w, hw, hkw, hsl⟩ := h5 i u hi1 hi2 hu h4
  exact ⟨t, w, ht, hw, hkw.trans hk, hsl⟩

/-! ## Examples -/

/-- After exits of three of the four validators of C11. -/
example (s : State) (h : genesisState = .ok s) (v : Validator)
    (hv : v ∈ (threeExits s).validators) :
    v.exit_epoch + genesisEnv.min_validator_withdrawability_delay ≤ v.withdrawable_epoch ∨
      FAR_FUTURE_EPOCH ≤ v.withdrawable_epoch :=
  C100_locked (f := .Altair) (by constructor <;> decide) (.call (.call (.call (.genesis h)
    (.initiate_validator_exit 0)) (.initiate_validator_exit 1)) (.initiate_validator_exit 3)) v hv

/-- Validator 6 is active for the last time in epoch 2, in which it has voted twice. -/
def lastVote : State :=
  let s := Toy.state 8 23
  { s with validators := s.validators.modify 6 fun v => { v with
      exit_epoch := 3, withdrawable_epoch := 259 } }

/-- In epoch 3 it is gone. -/
def goneState (f : Fork) : State := finalState (process_slots Toy.env f 24) lastVote

example : ∀ f ∈ [Fork.Deneb, .Electra], Toy.succeeds (process_slots Toy.env f 24) lastVote = true ∧
    (goneState f).validators.map (fun v => decide (ActiveAt v 3)) =
      [true, true, true, true, true, true, false, true] := by
  decide +kernel

theorem lastVote_locked : AllLocked Toy.env lastVote := by
  unfold AllLocked Locked; decide +kernel

theorem gone_wellformed : Wellformed Toy.env (goneState .Deneb) ∧
    Wellformed Toy.env (goneState .Electra) := by
  constructor <;>
    refine ⟨by constructor <;> decide +kernel, ?_, ?_, ?_, ?_, ?_⟩ <;> decide +kernel

/-- But it answers for its votes. -/
example : ∃ t w, process_attester_slashing Toy.env .Deneb doubleVote (goneState .Deneb) = .ok () t ∧
    t.validators[6]? = some w ∧ w.public_key = Toy.pk 6 ∧ w.slashed = true := by
  obtain ⟨p, hp⟩ := ok_of_isSome (x := get_beacon_proposer_index Toy.env (goneState .Deneb))
    (by decide +kernel)
  obtain ⟨_, h1⟩ := ok_of_isSome (x := is_valid_indexed_attestation Toy.env (goneState .Deneb)
    doubleVote.attestation_1) (by decide +kernel)
  obtain ⟨_, h2⟩ := ok_of_isSome (x := is_valid_indexed_attestation Toy.env (goneState .Deneb)
    doubleVote.attestation_2) (by decide +kernel)
  exact C100_answers (f := .Deneb) (s := lastVote) (a := 2) (v := lastVote.validators[6])
    toy_sane toy_quotients lastVote_locked
    (.call .start (.process_slots 24)) (by decide) rfl (by decide +kernel) (by decide +kernel)
    (by decide +kernel) (by decide +kernel) (by
      intro w hw
      have : ∀ w ∈ (goneState .Deneb).validators, w.slashed = false := by decide +kernel
      exact this w (List.mem_of_getElem? hw))
    gone_wellformed.1 (by constructor <;> decide +kernel) (by decide +kernel) (by decide +kernel) p hp
    doubleVote (.inl (by unfold DoubleVote; decide +kernel)) (valid_indexed_iff.1 h1)
    (valid_indexed_iff.1 h2) (by decide) (by decide)

/-- Two headers that it has signed for one slot. -/
def lastHeaders : ProposerSlashing :=
  let by6 (h : SignedBeaconBlockHeader) : SignedBeaconBlockHeader :=
    { h with message := { h.message with proposer_index := 6 } }
  { signed_header_1 := by6 equivocation.signed_header_1
    signed_header_2 := by6 equivocation.signed_header_2 }

/-- And for its blocks. -/
example : ∃ t w, process_proposer_slashing Toy.env .Deneb lastHeaders (goneState .Deneb) = .ok () t ∧
    t.validators[6]? = some w ∧ w.public_key = Toy.pk 6 ∧ w.slashed = true := by
  obtain ⟨p, hp⟩ := ok_of_isSome (x := get_beacon_proposer_index Toy.env (goneState .Deneb))
    (by decide +kernel)
  refine C100_answers_proposer (f := .Deneb) (s := lastVote) (a := 2) (v := lastVote.validators[6])
    toy_sane toy_quotients lastVote_locked
    (.call .start (.process_slots 24)) (by decide) lastHeaders rfl (by decide +kernel)
    (by decide +kernel) (by decide +kernel) (by decide +kernel) (by
      intro w hw
      have : ∀ w ∈ (goneState .Deneb).validators, w.slashed = false := by decide +kernel
      exact this w (List.mem_of_getElem? hw))
    gone_wellformed.1 (by constructor <;> decide +kernel) (by decide +kernel) p hp
    fun w hw hsl => ⟨rfl, rfl, by decide +kernel, hw, hsl, ?_, ?_⟩
  all_goals
    have hw' := List.mem_of_getElem? hw
    clear hw hsl hp
    revert w
    decide +kernel

example : ∃ t w, process_proposer_slashing Toy.env .Electra lastHeaders (goneState .Electra) =
      .ok () t ∧
    t.validators[6]? = some w ∧ w.public_key = Toy.pk 6 ∧ w.slashed = true := by
  obtain ⟨p, hp⟩ := ok_of_isSome (x := get_beacon_proposer_index Toy.env (goneState .Electra))
    (by decide +kernel)
  refine C100_answers_proposer_electra (f := .Electra) (s := lastVote) (a := 2)
    (v := lastVote.validators[6]) toy_sane toy_quotients toy_electra lastVote_locked
    (.call .start (.process_slots 24)) lastHeaders rfl (by decide +kernel)
    (by decide +kernel) (by decide +kernel) (by decide +kernel) (by
      intro w hw
      have : ∀ w ∈ (goneState .Electra).validators, w.slashed = false := by decide +kernel
      exact this w (List.mem_of_getElem? hw))
    gone_wellformed.2 (queues_of (by decide +kernel)) (by constructor <;> decide +kernel)
    (by decide +kernel) (by decide +kernel) p hp
    fun w hw hsl => ⟨rfl, rfl, by decide +kernel, hw, hsl, ?_, ?_⟩
  all_goals
    have hw' := List.mem_of_getElem? hw
    clear hw hsl hp
    revert w
    decide +kernel

example : ∃ t w, process_attester_slashing Toy.env .Electra doubleVote (goneState .Electra) =
      .ok () t ∧
    t.validators[6]? = some w ∧ w.public_key = Toy.pk 6 ∧ w.slashed = true := by
  obtain ⟨p, hp⟩ := ok_of_isSome (x := get_beacon_proposer_index Toy.env (goneState .Electra))
    (by decide +kernel)
  obtain ⟨_, h1⟩ := ok_of_isSome (x := is_valid_indexed_attestation Toy.env (goneState .Electra)
    doubleVote.attestation_1) (by decide +kernel)
  obtain ⟨_, h2⟩ := ok_of_isSome (x := is_valid_indexed_attestation Toy.env (goneState .Electra)
    doubleVote.attestation_2) (by decide +kernel)
  exact C100_answers_electra (f := .Electra) (s := lastVote) (a := 2) (v := lastVote.validators[6])
    toy_sane toy_quotients toy_electra lastVote_locked
    (.call .start (.process_slots 24)) rfl (by decide +kernel) (by decide +kernel)
    (by decide +kernel) (by decide +kernel) (by
      intro w hw
      have : ∀ w ∈ (goneState .Electra).validators, w.slashed = false := by decide +kernel
      exact this w (List.mem_of_getElem? hw))
    gone_wellformed.2 (queues_of (by decide +kernel)) (by constructor <;> decide +kernel)
    (by decide +kernel) (by decide +kernel) p hp
    doubleVote (.inl (by unfold DoubleVote; decide +kernel)) (valid_indexed_iff.1 h1)
    (valid_indexed_iff.1 h2) (by decide) (by decide)

/-- It can be paid what it has above the maximum. -/
def richVote : State :=
  { lastVote with
    validators := lastVote.validators.modify 6 fun v => { v with
      withdrawal_credentials := v.withdrawal_credentials.set 0 1 }
    balances := lastVote.balances.set 6 32000000007 }

def excessBlock : BeaconBlock :=
  Toy.block richVote { Toy.body richVote with
    execution_payload := { (Toy.body richVote).execution_payload with
      withdrawals := [⟨0, 6, zeroBytes 20, 7⟩] } }

example : ∃ n, richVote.balances[6]? = some n ∧ 7 + 32000000000 = n :=
  C100_stake_stays (f := .Capella) (s := richVote) (a := 2) (v := richVote.validators[6])
    (w := ⟨0, 6, zeroBytes 20, 7⟩) toy_sane (by decide)
    (by unfold AllLocked Locked; decide +kernel) .start (.inl rfl) rfl (by decide +kernel)
    (by decide +kernel) (by decide +kernel) (by decide +kernel) (by constructor <;> decide +kernel)
    (Toy.ok_of_succeeds (m := process_block Toy.env .Capella excessBlock) (by decide +kernel))
    (by decide +kernel) rfl

end Verif.Props
