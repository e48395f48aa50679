import Verif.Proofs.Leaving
import Verif.Props.Withdrawals
import Verif.Props.Identity
import Verif.Props.Operations

/-! # C94: leaving is honoured, from the exit to the payment

Before electra the exit queue admits a fixed least number of validators per epoch and leaves no
holes, so that the wait is bounded by the number of those ahead. From capella on the withdrawal sweep
then pays the whole stake to the address the validator has named, within as many blocks as the
registry has entries. -/

namespace Verif.Props

open Verif.Spec

variable {E : Env} {f : Fork} {s s' : State}

/-- **C94** In every reachable state before electra, a validator that is leaving has an exit epoch no
further than the next free epoch plus the number of validators that leave before it, divided by the
least number of exits per epoch. -/
theorem C94_wait (hE : SaneConfig E) (hf : f ≠ .Electra) (h : Reachable E f s) (v : Validator)
    (hv : v ∈ s.validators) (hx : v.exit_epoch < FAR_FUTURE_EPOCH) :
    v.exit_epoch ≤ nextFreeEpoch E s +
      leavingBefore E s v.exit_epoch / E.min_per_epoch_churn_limit :=
  compact_wait (reachable_compact h hf) hE.min_per_epoch_churn_limit hv hx

/-- **C94** An accepted voluntary exit gives the validator an epoch at which it leaves, bounded by the
number of validators that were on their way out before, and an epoch from which it can withdraw. -/
theorem C94_exit (hE : SaneConfig E) (hf : f ≠ .Electra) (hr : Reachable E f s)
    (hslot : s.slot < 2 ^ 64) (op : SignedVoluntaryExit) (h : process_voluntary_exit E f op s = .ok () s') :
    ∃ w, s'.validators[op.message.validator_index]? = some w ∧
      w.exit_epoch < FAR_FUTURE_EPOCH ∧
      nextFreeEpoch E s ≤ w.exit_epoch ∧
      w.exit_epoch ≤ nextFreeEpoch E s +
        leavingBefore E s w.exit_epoch / E.min_per_epoch_churn_limit ∧
      w.withdrawable_epoch = w.exit_epoch + E.min_validator_withdrawability_delay := by
  have hc := compact_step ((voluntary_exit_dense hf).ok h) (reachable_compact hr hf)
  obtain ⟨⟨v, ha⟩, h⟩ := (C27_voluntary_exit_iff E hE f op s s' hslot).1 h
  have hv := And.intro ha.exists_validator ha.not_exiting
  obtain ⟨v', w, hw⟩ := Fork.initiate_validator_exit_effect h
  have hv' := hw.before
  rw [hv.1] at hv'; cases hv'
  obtain ⟨h1, h2, h3⟩ := hw.fresh hv.2
  have hs := hw.state
  have hlen := (List.getElem?_eq_some_iff.1 hv.1).1
  have hval : s'.validators = s.validators.set op.message.validator_index w :=
    congrArg State.validators hs
  have hget : s'.validators[op.message.validator_index]? = some w := by
    rw [hval]; simp [hlen]
  have hd := hE.withdrawability_delay.1
  have hlt : w.exit_epoch < FAR_FUTURE_EPOCH := by
    have : FAR_FUTURE_EPOCH = 2 ^ 64 - 1 := rfl
    omega
  have hfree : nextFreeEpoch E s' = nextFreeEpoch E s := by rw [hs]; rfl
  have hb := compact_wait hc hE.min_per_epoch_churn_limit (List.mem_of_getElem? hget) hlt
  have hsame : leavingBefore E s' w.exit_epoch = leavingBefore E s w.exit_epoch := by
    unfold leavingBefore
    rw [hfree, hval, List.countP_set hlen, (List.getElem?_eq_some_iff.1 hv.1).2]
    have : ¬ FAR_FUTURE_EPOCH < w.exit_epoch := by omega
    simp [hv.2, this]
  rw [hfree, hsame] at hb
  exact ⟨w, hget, hlt, h1, hb, h2⟩

/-- **C94** A validator that has an exit epoch and is not slashed is paid out in time: once the
epoch from which it can withdraw has come, and as many blocks as the registry has entries have
been accepted, one of them has found that it has nothing left, or has paid all it had to the
address named in the credentials it had when it was leaving. -/
theorem C94_home (hE : SaneConfig E) (hmax : 0 < E.max_deposits) (hf : f = .Capella ∨ f = .Deneb)
    {t : State} {before l : List (State × BeaconBlock)} {i : Nat} {v w : Validator}
    (hv : s.validators[i]? = some v) (hx : v.exit_epoch ≠ FAR_FUTURE_EPOCH)
    (hc : v.withdrawal_credentials[0] = 1)
    (h0 : Passes E f s before t) (hw : t.validators[i]? = some w) (hs : w.slashed = false)
    (he : v.withdrawable_epoch ≤ epochOf E t.slot) (hr : SweepReady E t) (hp : Parallel f t)
    (h : Passes E f t l s') (hl : s'.validators.length ≤ l.length)
    (hreg : s'.validators.length ≤ 2 ^ 40)
    (hidx : t.next_withdrawal_index + (l.length + 1) * E.max_withdrawals_per_payload < 2 ^ 64) :
    ∃ x ∈ l, x.1.balances[i]? = some 0 ∨ PaysOut x.1 x.2 i v.withdrawal_credentials := by
  have hf' : f ≠ .Electra := by rcases hf with rfl | rfl <;> decide
  obtain ⟨w', hw', hk⟩ := (passes_abides hf' h0).entry i v hv hx
  rw [hw] at hw'; cases hw'
  have hwd : w.withdrawable_epoch = v.withdrawable_epoch := by
    rcases hk.withdrawable with h | ⟨_, h, _⟩
    · exact h.1
    · rw [hs] at h; cases h
  have hcr := hk.credentials hc
  rw [← hcr]
  exact paid_out hE hmax hf hw (by rw [hk.exit]; exact hx) (by rw [hcr]; exact hc)
    (by rw [hwd]; exact he) hr hp h hl hreg hidx

/-- **C94** In particular for one that can withdraw now, slashed or not. -/
theorem C94_paid (hE : SaneConfig E) (hmax : 0 < E.max_deposits) (hf : f = .Capella ∨ f = .Deneb)
    {l : List (State × BeaconBlock)} {i : Nat} {v : Validator}
    (hv : s.validators[i]? = some v) (hx : v.exit_epoch ≠ FAR_FUTURE_EPOCH)
    (hc : v.withdrawal_credentials[0] = 1)
    (he : v.withdrawable_epoch ≤ epochOf E s.slot) (hr : SweepReady E s) (hp : Parallel f s)
    (h : Passes E f s l s') (hl : s'.validators.length ≤ l.length)
    (hreg : s'.validators.length ≤ 2 ^ 40)
    (hidx : s.next_withdrawal_index + (l.length + 1) * E.max_withdrawals_per_payload < 2 ^ 64) :
    ∃ x ∈ l, x.1.balances[i]? = some 0 ∨ PaysOut x.1 x.2 i v.withdrawal_credentials :=
  paid_out hE hmax hf hv hx hc he hr hp h hl hreg hidx

/-- **C94** Who can withdraw already is left alone, in every fork before electra: whatever blocks and
slots come, they are not slashed (any more), and keep the epochs of their exit and withdrawal and the
address that they named. -/
theorem C94_settled (hf : f ≠ .Electra) {l : List (State × BeaconBlock)} {i : Nat} {v : Validator}
    (hv : s.validators[i]? = some v) (hx : v.exit_epoch ≠ FAR_FUTURE_EPOCH)
    (he : v.withdrawable_epoch ≤ epochOf E s.slot) (h : Passes E f s l s') :
    ∃ w, s'.validators[i]? = some w ∧ w.slashed = v.slashed ∧ w.exit_epoch = v.exit_epoch ∧
      w.withdrawable_epoch = v.withdrawable_epoch ∧
      (v.withdrawal_credentials[0] = 1 → w.withdrawal_credentials = v.withdrawal_credentials) := by
  obtain ⟨w, hw, hk⟩ := (passes_abides hf h).entry i v hv hx
  rcases hk.withdrawable with h | ⟨_, _, h⟩
  · exact ⟨w, hw, h.2, hk.exit, h.1, hk.credentials⟩
  · omega

/-! ## Examples -/

/-- The genesis of C11 after exits of three of its four validators: two leave in the next free epoch,
as many as may, and the third one epoch later, as the bound has it. -/
def threeExits (s : State) : State :=
  finalState (initiate_validator_exit genesisEnv 3)
    (finalState (initiate_validator_exit genesisEnv 1)
      (finalState (initiate_validator_exit genesisEnv 0) s))

example (s : State) (h : genesisState = .ok s) : Reachable genesisEnv .Altair (threeExits s) :=
  .call (.call (.call (.genesis h) (.initiate_validator_exit 0)) (.initiate_validator_exit 1))
    (.initiate_validator_exit 3)

example : SaneConfig genesisEnv ∧
    (genesisState.toOption.map fun s => ((threeExits s).validators.map (·.exit_epoch),
      nextFreeEpoch genesisEnv (threeExits s), leavingBefore genesisEnv (threeExits s) 6,
      genesisEnv.min_per_epoch_churn_limit)) =
    some ([5, 5, FAR_FUTURE_EPOCH, 6], 5, 2, 2) :=
  ⟨by constructor <;> decide, by decide +kernel⟩

/-- One of two validators leaves, and can withdraw. -/
def oneGoes : State :=
  let s := Toy.state 2 16
  { s with
    validators := s.validators.modify 0 fun v => { v with
      withdrawal_credentials := v.withdrawal_credentials.set 0 1
      exit_epoch := 1
      withdrawable_epoch := 2 }
    current_sync_committee := { s.current_sync_committee with
      public_keys := s.current_sync_committee.public_keys.map fun _ => Toy.pk 1 } }

/-- The block that pays it, and an empty one in the next slot. -/
def payingBlock : BeaconBlock :=
  Toy.block oneGoes { Toy.body oneGoes with
    execution_payload := { (Toy.body oneGoes).execution_payload with
      withdrawals := [⟨0, 0, zeroBytes 20, 32000000000⟩] } }

def afterPaying : State := finalState (process_slots Toy.env .Capella 17)
  (finalState (process_block Toy.env .Capella payingBlock) oneGoes)

def idleBlock : BeaconBlock := Toy.block afterPaying (Toy.body afterPaying)

theorem oneGoes_passes : Passes Toy.env .Capella oneGoes
    [(oneGoes, payingBlock), (afterPaying, idleBlock)]
    (finalState (process_block Toy.env .Capella idleBlock) afterPaying) :=
  .block (.slots (.block .start (Toy.ok_of_succeeds (by decide +kernel)))
    (Toy.ok_of_succeeds (by decide +kernel))) (Toy.ok_of_succeeds (by decide +kernel))

/-- The hypotheses are met, and it is the first block that pays. -/
example : ∃ x ∈ [(oneGoes, payingBlock), (afterPaying, idleBlock)],
    x.1.balances[0]? = some 0 ∨ PaysOut x.1 x.2 0 ((zeroBytes 32).set 0 1) :=
  C94_home (v := oneGoes.validators[0]) (w := oneGoes.validators[0]) toy_sane (by decide)
    (Or.inl rfl) rfl (by decide) (by decide) .start rfl rfl (by decide)
    (by constructor <;> decide +kernel) ⟨by decide, fun _ => by decide⟩ oneGoes_passes
    (by decide +kernel) (by decide +kernel) (by decide +kernel)

example : oneGoes.balances[0]? = some 32000000000 ∧ afterPaying.balances[0]? = some 0 ∧
    PaysOut oneGoes payingBlock 0 ((zeroBytes 32).set 0 1) :=
  ⟨by decide +kernel, by decide +kernel, ⟨0, 0, zeroBytes 20, 32000000000⟩, by decide +kernel, rfl,
    by decide +kernel, by decide +kernel⟩

/-- A voluntary exit that is accepted. -/
example : Toy.succeeds (process_voluntary_exit Toy.env .Capella exitOp) (Toy.state 8 600) = true ∧
    nextFreeEpoch Toy.env (Toy.state 8 600) = 80 ∧
    ((finalState (process_voluntary_exit Toy.env .Capella exitOp) (Toy.state 8 600)).validators.map
      (·.exit_epoch))[exitOp.message.validator_index]? = some 80 := by decide +kernel

/-- The same two blocks leave its entry as it was. -/
example : ∃ w, (finalState (process_block Toy.env .Capella idleBlock) afterPaying).validators[0]? =
      some w ∧ w.slashed = false ∧ w.exit_epoch = 1 ∧ w.withdrawable_epoch = 2 ∧
      ((1 : UInt8) = 1 → w.withdrawal_credentials = (zeroBytes 32).set 0 1) :=
  C94_settled (v := oneGoes.validators[0]) (by decide) rfl (by decide) (by decide) oneGoes_passes

end Verif.Props
