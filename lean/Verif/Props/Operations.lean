import Verif.Proofs.Operations
import Verif.Model.Epoch
import Verif.Examples.Toy

/-! # C15, C18, C24, C27, C37, C46, C47: headers, randao, eth1 votes, exits, domains,
credential changes, execution payloads -/

namespace Verif.Props

open Spec

/-! ## C15 -/

/-- **C15** `process_block_header` succeeds exactly for a header that fits the state; it
then only replaces `latest_block_header`, with an empty state root. -/
theorem C15_block_header_iff (E : Env) (f : Fork) (b : BeaconBlock) (s s' : State) :
    process_block_header E f b s = .ok () s' ↔
      ValidHeader E s b ∧ s' = { s with latest_block_header := headerOf E f b } :=
  process_block_header_eq_ok

/-- **C15** Once a block has been processed in a slot, no second block can be: its
header would not be newer. -/
theorem C15_one_block_per_slot (E : Env) (f g : Fork) (b c : BeaconBlock) (s s' : State)
    (h : process_block_header E f b s = .ok () s') :
    process_block_header E g c s' ≠ .ok () s'' := by
  intro h2
  obtain ⟨h1, rfl⟩ := process_block_header_eq_ok.1 h
  obtain ⟨h3, -⟩ := process_block_header_eq_ok.1 h2
  have := h3.newer
  have := h3.slot
  have := h1.slot
  simp only [headerOf] at *
  omega

def header : BeaconBlock where
  slot := 20
  proposer_index := 2
  parent_root := Toy.root 7
  state_root := Toy.root 3
  body := {
    randao_reveal := Toy.goodSig
    eth1_data := Toy.eth1
    graffiti := zeroBytes 32
    proposer_slashings := []
    attester_slashings := []
    attestations := []
    deposits := []
    voluntary_exits := []
    sync_aggregate := ⟨[], Toy.goodSig⟩
    execution_payload := defaultPayload
    bls_to_execution_changes := []
    blob_kzg_commitments := []
    consolidations := [] }

example : Toy.succeeds (process_block_header Toy.env .Phase0 header) (Toy.state 8 20) = true := by
  decide +kernel

/-- A slashed proposer is rejected — after the header has been recorded: on this one
error path the state has already changed. -/
example :
    let s := finalState (slash_validator Toy.env .Phase0 2 none) (Toy.state 8 20)
    Toy.errorOf (process_block_header Toy.env .Phase0 header) s = some .headerProposerSlashed ∧
    (finalState (process_block_header Toy.env .Phase0 header) s).latest_block_header ≠
      s.latest_block_header := by
  decide +kernel

/-! ## C18 -/

/-- **C18** `process_randao` succeeds exactly for a valid reveal; it changes only the mix
of the current epoch, to the xor of the old mix and the hash of the reveal. -/
theorem C18_process_randao_iff (E : Env) (hE : SaneConfig E) (body : BeaconBlockBody)
    (s s' : State) :
    process_randao E body s = .ok () s' ↔
      ValidReveal E s body.randao_reveal ∧
      ∃ mix, mixAt E s (epochOf E s.slot) = some mix ∧
        s' = { s with
          randao_mixes := s.randao_mixes.set
            (epochOf E s.slot % E.epochs_per_historical_vector)
            (Vector.zipWith (· ^^^ ·) mix (E.hash body.randao_reveal.toList)) } := by
  rw [process_randao_eq_ok]
  have := hE.slots_per_epoch
  have := hE.epochs_per_historical_vector
  constructor
  · exact fun h => h.2.2
  · exact fun h => ⟨by omega, by omega, h⟩

/-- **C18** The other epochs the buffer covers keep their mixes. -/
theorem C18_process_randao_history (E : Env) (hE : SaneConfig E) (body : BeaconBlockBody)
    (s s' : State) (h : process_randao E body s = .ok () s') (e : Nat)
    (he : e < epochOf E s.slot) (he' : epochOf E s.slot < e + E.epochs_per_historical_vector) :
    mixAt E s' e = mixAt E s e := by
  obtain ⟨-, mix, -, rfl⟩ := (C18_process_randao_iff E hE body s s').1 h
  simp only [mixAt]
  rw [List.getElem?_set_ne]
  intro hc
  have hN := hE.epochs_per_historical_vector
  obtain ⟨k, hk⟩ : ∃ k, epochOf E s.slot = e + k := ⟨_, (Nat.add_sub_cancel' (by omega)).symm⟩
  rw [hk] at hc
  have : (e + k - e) % E.epochs_per_historical_vector = 0 :=
    Nat.sub_mod_eq_zero_of_mod_eq hc
  rw [Nat.add_sub_cancel_left, Nat.mod_eq_of_lt (by omega)] at this
  omega

/-- **C18** The mix of the current epoch after the block. -/
theorem C18_process_randao_current (E : Env) (hE : SaneConfig E) (body : BeaconBlockBody)
    (s s' : State) (h : process_randao E body s = .ok () s') :
    mixAt E s' (epochOf E s'.slot) =
      (mixAt E s (epochOf E s.slot)).map
        (Vector.zipWith (· ^^^ ·) · (E.hash body.randao_reveal.toList)) := by
  obtain ⟨-, mix, hm, rfl⟩ := (C18_process_randao_iff E hE body s s').1 h
  have hm' := hm
  simp only [mixAt] at hm ⊢
  rw [List.getElem?_set_self (List.getElem?_eq_some_iff.1 hm).1, hm, Option.map_some]

/-- **C18** Mixing the same reveal in twice restores the mix. -/
theorem C18_mix_involutive (mix h : Bytes32) : xor (xor mix h) h = mix := by
  apply Vector.ext
  intro i hi
  simp [xor, UInt8.xor_assoc]

/-- **C18** At the end of an epoch the current mix is copied to the next epoch, and the
mixes of the `epochs_per_historical_vector - 1` epochs up to the current one stay. -/
theorem C18_reset (E : Env) (s s' : State)
    (h : process_randao_mixes_reset E s = .ok () s') :
    mixAt E s' (epochOf E s.slot + 1) = mixAt E s (epochOf E s.slot) ∧
    (∀ e, e ≤ epochOf E s.slot → epochOf E s.slot + 1 < e + E.epochs_per_historical_vector →
      mixAt E s' e = mixAt E s e) ∧
    { s' with randao_mixes := s.randao_mixes } = s := by
  simp only [process_randao_mixes_reset, run, current_epoch_eq_ok, get_randao_mix_eq_ok] at h
  obtain ⟨_, ⟨rfl, h1⟩, _, ⟨rfl, h2⟩, _, ⟨rfl, h3⟩, m, ⟨h4, -⟩, _, ⟨h5, rfl⟩, rfl⟩ := h
  refine ⟨?_, ?_, rfl⟩
  · rw [h4]; simp only [mixAt]
    rw [List.getElem?_set_self h5]
  · intro e he he'
    simp only [mixAt]
    rw [List.getElem?_set_ne]
    intro hc
    obtain ⟨k, hk⟩ : ∃ k, epochOf E s.slot + 1 = e + k :=
      ⟨_, (Nat.add_sub_cancel' (by omega)).symm⟩
    rw [hk] at hc
    have : (e + k - e) % E.epochs_per_historical_vector = 0 :=
      Nat.sub_mod_eq_zero_of_mod_eq hc
    rw [Nat.add_sub_cancel_left, Nat.mod_eq_of_lt (by omega)] at this
    omega

example : Toy.succeeds (process_randao Toy.env header.body) (Toy.state 8 20) = true ∧
    Toy.succeeds (process_randao_mixes_reset Toy.env) (Toy.state 8 23) = true := by
  decide +kernel

/-! ## C24 -/

/-- **C24** `process_eth1_data` records the vote, and adopts it exactly when more than
half of the slots of the voting period have voted for it. -/
theorem C24_process_eth1_data (E : Env) (hp : votingPeriodSlots E < 2 ^ 63)
    (body : BeaconBlockBody) (s : State) (hv : s.eth1_data_votes.length < 2 ^ 62) :
    process_eth1_data E body s = .ok () { s with
      eth1_data_votes := s.eth1_data_votes ++ [body.eth1_data]
      eth1_data := if votingPeriodSlots E < 2 * (votesFor s body.eth1_data + 1)
        then body.eth1_data else s.eth1_data } := by
  rw [process_eth1_data_eq_ok]
  have : votesFor s body.eth1_data ≤ s.eth1_data_votes.length := List.count_le_length
  have := U64_BOUND_eq
  refine ⟨by omega, by omega, rfl⟩

/-- **C24** The votes are cleared exactly when the next epoch starts a voting period. -/
theorem C24_reset (E : Env) (s s' : State) (h : process_eth1_data_reset E s = .ok () s') :
    s' = { s with
      eth1_data_votes :=
        if (epochOf E s.slot + 1) % E.epochs_per_eth1_voting_period = 0 then []
        else s.eth1_data_votes } := by
  simp only [process_eth1_data_reset, run, current_epoch_eq_ok] at h
  obtain ⟨_, ⟨rfl, h1⟩, _, ⟨rfl, h2⟩, _, ⟨rfl, h3⟩, (⟨h4, rfl⟩ | ⟨h4, -, rfl⟩)⟩ := h
  · rw [if_pos h4]
  · rw [if_neg h4]

example : Toy.succeeds (process_eth1_data Toy.env header.body) (Toy.state 8 20) = true ∧
    Toy.succeeds (process_eth1_data_reset Toy.env) (Toy.state 8 31) = true ∧
    votingPeriodSlots Toy.env = 32 := by
  decide +kernel

/-! ## C27 -/

/-- **C27** `process_voluntary_exit` succeeds exactly when the exit is allowed and the
validator can be put on the exit queue; its effect is exactly that. -/
theorem C27_voluntary_exit_iff (E : Env) (hE : SaneConfig E) (f : Fork)
    (op : SignedVoluntaryExit) (s s' : State) (hs : s.slot < 2 ^ 64) :
    process_voluntary_exit E f op s = .ok () s' ↔
      (∃ v, ExitAllowed E f s op v) ∧
      f.initiate_validator_exit E op.message.validator_index s = .ok () s' :=
  process_voluntary_exit_eq_ok (by have := hE.slots_per_epoch; omega) hs

/-- **C27** After a successful exit the validator has an exit epoch beyond the seed
lookahead, and the same exit cannot be processed again. -/
theorem C27_voluntary_exit_once (E : Env) (hE : SaneConfig E) (f g : Fork)
    (op : SignedVoluntaryExit) (s s' s'' : State) (hs : s.slot < 2 ^ 64)
    (h : process_voluntary_exit E f op s = .ok () s') :
    (∃ v', s'.validators[op.message.validator_index]? = some v' ∧
      epochOf E s.slot + 1 + E.max_seed_lookahead ≤ v'.exit_epoch ∧
      v'.exit_epoch < FAR_FUTURE_EPOCH) ∧
    process_voluntary_exit E g op s' ≠ .ok () s'' := by
  obtain ⟨⟨v, hv⟩, h2⟩ := (C27_voluntary_exit_iff E hE f op s s' hs).1 h
  obtain ⟨w, w', he⟩ := Fork.initiate_validator_exit_effect h2
  have hb := he.before
  rw [hv.exists_validator] at hb; cases hb
  have hf := he.fresh hv.not_exiting
  have hd := hE.withdrawability_delay
  have hi := (List.getElem?_eq_some_iff.1 he.before).1
  have hw : s'.validators[op.message.validator_index]? = some w' := by
    rw [he.state]; exact List.getElem?_set_self hi
  have hlt : w'.exit_epoch < FAR_FUTURE_EPOCH := by unfold FAR_FUTURE_EPOCH; omega
  refine ⟨⟨w', hw, hf.1, hlt⟩, fun h3 => ?_⟩
  have hs' : s'.slot = s.slot := by rw [he.state]
  obtain ⟨⟨u, hu⟩, -⟩ := (C27_voluntary_exit_iff E hE g op s' s'' (by omega)).1 h3
  have hu' := hu.exists_validator
  rw [hw] at hu'; cases hu'
  have := hu.not_exiting
  omega

def exitOp : SignedVoluntaryExit := ⟨⟨60, 3⟩, Toy.goodSig⟩

example : Toy.succeeds (process_voluntary_exit Toy.env .Phase0 exitOp) (Toy.state 8 600) = true ∧
    Toy.succeeds (process_voluntary_exit Toy.env .Deneb exitOp) (Toy.state 8 600) = true ∧
    Toy.succeeds (process_voluntary_exit Toy.env .Electra exitOp) (Toy.state 8 600) = true ∧
    Toy.errorOf (process_voluntary_exit Toy.env .Capella exitOp)
      (finalState (process_voluntary_exit Toy.env .Capella exitOp) (Toy.state 8 600)) =
      some .exitValidatorAlreadyExited := by
  decide +kernel

/-! ## C37 -/

/-- **C37** Two domain types with the same encoding are equal, or are the two
application domains. -/
theorem C37_domain_types_distinct (t u : DomainType) (h : t.as_bytes = u.as_bytes) :
    t = u ∨ (t = .ApplicationMask ∧ u = .ApplicationBuilder) ∨
      (t = .ApplicationBuilder ∧ u = .ApplicationMask) := by
  revert h; cases t <;> cases u <;> decide

/-- **C37** A domain has 32 bytes: the four bytes of its type, then the first 28 bytes
of the fork data root of the version and the genesis root (by default the genesis fork
version and the zero root). -/
theorem C37_compute_domain (E : Env) (t : DomainType) (version : Option Version)
    (root : Option Root) :
    (compute_domain E t version root).length = 32 ∧
    (compute_domain E t version root).take 4 = t.as_bytes ∧
    (compute_domain E t version root).drop 4 =
      (E.fork_data_root (version.getD E.genesis_fork_version)
        (root.getD (zeroBytes 32))).toList.take 28 := by
  have ht : t.as_bytes.length = 4 := by cases t <;> rfl
  have hr : ∀ r : Root, (r.toList.take 28).length = 28 := fun r => by simp
  refine ⟨?_, ?_, ?_⟩
  · simp only [compute_domain, compute_fork_data_root, List.length_append, ht, hr]
  · simp only [compute_domain, compute_fork_data_root]
    rw [List.take_append_of_le_length (by omega), List.take_of_length_le (by omega)]
  · simp only [compute_domain, compute_fork_data_root]
    rw [List.drop_append_of_le_length (by omega), List.drop_of_length_le (by omega)]
    rfl

/-- **C37** Domains of different purposes differ, whatever the versions and roots. -/
theorem C37_purposes_separate (E : Env) (t u : DomainType) (v w : Option Version)
    (r q : Option Root) (h : compute_domain E t v r = compute_domain E u w q) :
    t = u ∨ (t = .ApplicationMask ∧ u = .ApplicationBuilder) ∨
      (t = .ApplicationBuilder ∧ u = .ApplicationMask) := by
  apply C37_domain_types_distinct
  rw [← (C37_compute_domain E t v r).2.1, ← (C37_compute_domain E u w q).2.1, h]

/-- **C37** Domains of one purpose for two forks or chains are equal only if the first
28 bytes of the fork data roots are. -/
theorem C37_forks_separate (E : Env) (t : DomainType) (v w : Version) (r q : Root) :
    compute_domain E t (some v) (some r) = compute_domain E t (some w) (some q) ↔
      (E.fork_data_root v r).toList.take 28 = (E.fork_data_root w q).toList.take 28 := by
  constructor
  · intro h
    have h1 := (C37_compute_domain E t (some v) (some r)).2.2
    have h2 := (C37_compute_domain E t (some w) (some q)).2.2
    simp only [Option.getD_some] at h1 h2
    rw [← h1, ← h2, h]
  · intro h
    show t.as_bytes ++ _ = t.as_bytes ++ _
    exact congrArg _ h

/-- **C37** `get_domain` uses the previous fork version exactly for epochs before the
fork epoch; without an epoch it uses the current one. -/
theorem C37_get_domain (E : Env) (s : State) (t : DomainType) (epoch : Nat) :
    get_domain E s t (some epoch) =
      .ok (domainOf E t
        (if epoch < s.fork.epoch then s.fork.previous_version else s.fork.current_version)
        s.genesis_validators_root) := rfl

theorem C37_get_domain_default (E : Env) (hE : SaneConfig E) (s : State) (t : DomainType) :
    get_domain E s t none = get_domain E s t (some (s.slot / E.slots_per_epoch)) := by
  have := hE.slots_per_epoch
  have h : get_current_epoch E s = .ok (epochOf E s.slot) :=
    current_epoch_eq_ok.2 ⟨rfl, by omega⟩
  unfold get_domain
  rw [h]; rfl

example : (compute_domain Toy.env .Deposit none none).take 4 = [3, 0, 0, 0] ∧
    compute_domain Toy.env .Randao none none ≠ compute_domain Toy.env .Deposit none none := by
  decide +kernel

/-! ## C46 -/

/-- **C46** A credential change succeeds exactly when it is authorised; it replaces the
credentials of that validator by execution credentials for the given address and
changes nothing else. -/
theorem C46_credential_change_iff (E : Env) (op : SignedBlsToExecutionChange) (s s' : State) :
    process_bls_to_execution_change E op s = .ok () s' ↔
      ∃ v c, ChangeAllowed E s op v ∧
        c.toList = executionCredentials op.message.to_execution_address ∧
        s' = { s with
          validators := s.validators.set op.message.validator_index
            { v with withdrawal_credentials := c } } := by
  rw [process_bls_change_eq_ok]
  constructor
  · rintro ⟨v, h, rfl⟩; exact ⟨v, _, h, eth1Credentials_toList _, rfl⟩
  · rintro ⟨v, c, h, hc, rfl⟩
    refine ⟨v, h, ?_⟩
    have : c = eth1Credentials op.message.to_execution_address := by
      apply Vector.toList_inj.1; rw [hc, eth1Credentials_toList]
    rw [this]

/-- **C46** After a change no further change is accepted for that validator, whoever
signs it: the credentials no longer start with the BLS prefix. -/
theorem C46_credential_change_once (E : Env) (op op' : SignedBlsToExecutionChange)
    (s s' s'' : State) (h : process_bls_to_execution_change E op s = .ok () s')
    (hi : op'.message.validator_index = op.message.validator_index) :
    process_bls_to_execution_change E op' s' ≠ .ok () s'' := by
  intro h'
  obtain ⟨v, c, hv, hc, rfl⟩ := (C46_credential_change_iff E op s s').1 h
  obtain ⟨v', c', hv', -, -⟩ := (C46_credential_change_iff E op' _ s'').1 h'
  have h1 := hv'.exists_validator
  rw [hi] at h1
  simp only at h1
  rw [List.getElem?_set_self (List.getElem?_eq_some_iff.1 hv.exists_validator).1] at h1
  cases h1
  have h2 := hv'.credentials
  simp only [hc, executionCredentials] at h2
  simp at h2

def change : SignedBlsToExecutionChange := ⟨⟨3, Toy.pk 3, zeroBytes 20⟩, Toy.goodSig⟩

/-- The toy state with BLS credentials for validator 3. -/
def changeState : State :=
  { Toy.state 8 20 with
    validators := (List.range 8).map fun n =>
      { Toy.validator n with
        withdrawal_credentials := (Toy.hash (Toy.pk n).toList).set 0 0 } }

example : Toy.succeeds (process_bls_to_execution_change Toy.env change) changeState = true ∧
    Toy.errorOf (process_bls_to_execution_change Toy.env change)
      (finalState (process_bls_to_execution_change Toy.env change) changeState) =
      some .blsChangeWithdrawalCredentialsPrefix := by
  decide +kernel

/-! ## C47 -/

/-- **C47** `process_execution_payload` succeeds exactly for a payload that fits the
state and that the engine accepts; it changes only the latest payload header, to a
summary of that payload. -/
theorem C47_execution_payload_iff (E : Env) (hE : SaneConfig E) (f : Fork)
    (body : BeaconBlockBody) (s s' : State) :
    process_execution_payload E f body s = .ok () s' ↔
      PayloadFits E f s body ∧
      s' = { s with
        latest_execution_payload_header := header_of_payload E f body.execution_payload } := by
  rw [process_execution_payload_eq_ok]
  have := hE.slots_per_epoch
  have := hE.epochs_per_historical_vector
  constructor
  · exact fun h => h.2.2
  · exact fun h => ⟨by omega, by omega, h⟩

/-- **C47** The recorded header has the fields of the payload and the roots of its lists. -/
theorem C47_header_summarises (E : Env) (hE : SaneConfig E) (f : Fork)
    (body : BeaconBlockBody) (s s' : State)
    (h : process_execution_payload E f body s = .ok () s') :
    Summarises E f body.execution_payload s'.latest_execution_payload_header := by
  obtain ⟨-, rfl⟩ := (C47_execution_payload_iff E hE f body s s').1 h
  exact header_of_payload_summarises E f _

/-- **C47** Payloads chain: from capella on, each accepted payload's parent is the
payload accepted before it. -/
theorem C47_payloads_chain (E : Env) (hE : SaneConfig E) (f g : Fork) (hg : g ≠ .Bellatrix)
    (b c : BeaconBlockBody) (s s' t t' : State)
    (h : process_execution_payload E f b s = .ok () s')
    (ht : t.latest_execution_payload_header = s'.latest_execution_payload_header)
    (h' : process_execution_payload E g c t = .ok () t') :
    c.execution_payload.parent_hash = b.execution_payload.block_hash := by
  have h1 := (C47_header_summarises E hE f b s s' h).block_hash
  obtain ⟨h2, -⟩ := (C47_execution_payload_iff E hE g c t t').1 h'
  rw [h2.parent (fun h => absurd h hg), ht, h1]

/-- **C47** In bellatrix the same holds once the merge is complete, which it is after
every payload that differs from the default. -/
theorem C47_payloads_chain_bellatrix (E : Env) (hE : SaneConfig E) (f g : Fork)
    (b c : BeaconBlockBody) (s s' t t' : State)
    (h : process_execution_payload E f b s = .ok () s')
    (hd : b.execution_payload.block_hash ≠ zeroBytes 32)
    (ht : t.latest_execution_payload_header = s'.latest_execution_payload_header)
    (h' : process_execution_payload E g c t = .ok () t') :
    c.execution_payload.parent_hash = b.execution_payload.block_hash := by
  have h1 := (C47_header_summarises E hE f b s s' h).block_hash
  obtain ⟨h2, -⟩ := (C47_execution_payload_iff E hE g c t t').1 h'
  rw [h2.parent, ht, h1]
  intro _ hc
  apply hd
  rw [← h1, ← ht]
  have := congrArg (fun x => x.block_hash) hc
  exact this

def payloadBody : BeaconBlockBody :=
  { header.body with
    execution_payload := { defaultPayload with
      prev_randao := Toy.root 2
      timestamp := 120
      block_hash := Toy.root 77 } }

example : Toy.succeeds (process_execution_payload Toy.env .Capella payloadBody) (Toy.state 8 20)
      = true ∧
    Toy.succeeds (process_execution_payload Toy.env .Bellatrix payloadBody) (Toy.state 8 20)
      = true ∧
    Toy.errorOf (process_execution_payload Toy.env .Capella payloadBody)
      (finalState (process_execution_payload Toy.env .Capella payloadBody) (Toy.state 8 20)) =
      some .payloadInvalidParentHash := by
  decide +kernel

end Verif.Props
