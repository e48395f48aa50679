import Verif.Proofs.Whole
import Verif.Props.Deposits
import Verif.Props.Rotation
import Verif.Props.Withdrawals
import Verif.Props.Safety

/-!
# C86: an accepted block has been applied in full; C87: so has the end of an epoch

The other claims say what each operation does in the state it meets. These say that a block
consists of those operations and nothing else, in which order they come, and what is left of each
when the whole block has been processed.
-/

namespace Verif.Props

open Spec

variable {E : Env} {f : Fork} {b : BeaconBlock} {s s' : State}

/-- **C86** A block is accepted exactly when its parts, in their order, are: the header, the
withdrawals and the payload, the randao reveal and the eth1 vote; then, if the number of deposits is
right, the operations; then the sync aggregate. The result is that of the last part. -/
theorem C86_block (hmax : 0 < E.max_deposits) :
    process_block E f b s = .ok () s' ↔
      ∃ t u, Runs (openingParts E f s b) s t ∧ RightCount E f t b.body ∧
        Runs (operationParts E f b.body) t u ∧ Runs (closingParts E f b.body) u s' :=
  block_parts hmax

/-- **C87** The end of an epoch is processed exactly when its parts, in their order, are. -/
theorem C87_epoch : process_epoch E f s = .ok () s' ↔ Runs (epochParts E f) s s' := epoch_parts

/-! ## The opening -/

theorem opening_states {a0 : State} (h : Runs (openingParts E f s b) s a0) :
    ∃ t1 t2 t3 t4, process_block_header E f b s = .ok () t1 ∧
      (if Fork.withdraws f then process_withdrawals E f b.body.execution_payload t1 = .ok () t2
        else t2 = t1) ∧
      (if HasPayload f s b.body then process_execution_payload E f b.body t2 = .ok () t3
        else t3 = t2) ∧
      process_randao E b.body t3 = .ok () t4 ∧ process_eth1_data E b.body t4 = .ok () a0 := by
  unfold openingParts at h
  obtain ⟨t3, h, h4⟩ := runs_append.1 h
  obtain ⟨t2, h, h3⟩ := runs_append.1 h
  obtain ⟨t1, h1, h2⟩ := runs_append.1 h
  obtain ⟨t4, h4, h5⟩ := h4
  refine ⟨t1, t2, t3, t4, runs_single.1 h1, ?_, ?_, h4, runs_single.1 h5⟩
  · split at h2
    · rw [if_pos ‹_›]; exact runs_single.1 h2
    · rw [if_neg ‹_›]; exact h2
  · split at h3
    · rw [if_pos ‹_›]; exact runs_single.1 h3
    · rw [if_neg ‹_›]; exact h3

/-- The fields that only the opening of a block changes. -/
theorem rest_keeps {a0 a1 a2 a3 a4 a5 a6 : State} (hp : Phases E f b s a0 a1 a2 a3 a4 a5 a6 s') :
    ChangesOnly [.validators, .balances, .slashings, .exit_balance_to_consume,
      .earliest_exit_epoch, .current_epoch_attestations, .previous_epoch_attestations,
      .current_epoch_participation, .previous_epoch_participation, .eth1_deposit_index,
      .inactivity_scores, .pending_balance_deposits, .pending_partial_withdrawals,
      .deposit_receipts_start_index, .consolidation_balance_to_consume,
      .earliest_consolidation_epoch, .pending_consolidations] a0 s' := by
  have m := fun {W V : List Field} {α : Type} {m : M α} (h : Modifies W m) (hs : W ⊆ V) =>
    (Modifies.mono h hs : Modifies V m)
  refine (changesPre _).trans (runs_mod (map_all fun _ _ => m proposer_slashing_mod (by decide))
      hp.proposers) ((changesPre _).trans (runs_mod
      (map_all fun _ _ => m attester_slashing_mod (by decide)) hp.attesters)
    ((changesPre _).trans (runs_mod (map_all fun _ _ => m attestation_mod (by decide)) hp.votes)
    ((changesPre _).trans (runs_mod (map_all fun _ _ => m deposit_mod (by decide)) hp.deposits)
    ((changesPre _).trans (runs_mod (map_all fun _ _ => m voluntary_exit_mod (by decide)) hp.exits)
    ((changesPre _).trans (runs_mod (later_all ?_ ?_ ?_ ?_) hp.later)
      (runs_mod (closing_all fun _ => m sync_aggregate_mod (by decide)) hp.closing))))))
  · exact fun _ _ _ => m bls_change_mod (by decide)
  · exact fun _ _ _ => m withdrawal_request_mod (by decide)
  · exact fun _ _ _ => m deposit_receipt_mod (by decide)
  · exact fun _ _ _ => m consolidation_mod (by decide)

/-- **C86** The block fits the state, and its header is the latest one afterwards. -/
theorem C86_header (hmax : 0 < E.max_deposits) (h : process_block E f b s = .ok () s') :
    ValidHeader E s b ∧ s'.latest_block_header = headerOf E f b := by
  obtain ⟨a0, a1, a2, a3, a4, a5, a6, hp⟩ := phases hmax h
  obtain ⟨t1, t2, t3, t4, h1, h2, h3, h4, h5⟩ := opening_states hp.opening
  obtain ⟨hv, rfl⟩ := process_block_header_eq_ok.1 h1
  refine ⟨hv, ?_⟩
  rw [show s'.latest_block_header = a0.latest_block_header from
      rest_keeps hp .latest_block_header (by decide),
    show a0.latest_block_header = t4.latest_block_header from
      eth1_mod.toOk.ok h5 .latest_block_header (by decide),
    show t4.latest_block_header = t3.latest_block_header from
      randao_mod.toOk.ok h4 .latest_block_header (by decide)]
  have e3 : t3.latest_block_header = t2.latest_block_header := by
    split at h3
    · exact payload_mod.toOk.ok h3 .latest_block_header (by decide)
    · rw [h3]
  have e2 : t2.latest_block_header = headerOf E f b := by
    split at h2
    · exact withdrawals_mod.toOk.ok h2 .latest_block_header (by decide)
    · rw [h2]
  rw [e3, e2]

/-- Up to the randao reveal. -/
theorem opening_changes {t1 t2 t3 : State} (h1 : process_block_header E f b s = .ok () t1)
    (h2 : if Fork.withdraws f then process_withdrawals E f b.body.execution_payload t1 = .ok () t2
        else t2 = t1)
    (h3 : if HasPayload f s b.body then process_execution_payload E f b.body t2 = .ok () t3
        else t3 = t2) :
    ChangesOnly [.latest_block_header, .balances, .pending_partial_withdrawals,
      .next_withdrawal_index, .next_withdrawal_validator_index,
      .latest_execution_payload_header] s t3 := by
  have m := fun {W V : List Field} {α : Type} {m : M α} (h : Modifies W m) (hs : W ⊆ V) =>
    (Modifies.mono h hs : Modifies V m)
  refine (changesPre _).trans ((m header_mod (by decide)).toOk.ok h1)
    ((changesPre _).trans (?_ : ChangesOnly _ t1 t2) ?_)
  · split at h2
    · exact (m withdrawals_mod (by decide)).toOk.ok h2
    · rw [h2]; exact (changesPre _).refl _
  · split at h3
    · exact (m payload_mod (by decide)).toOk.ok h3
    · rw [h3]; exact (changesPre _).refl _

/-- **C86** The proposer signed the epoch, and the hash of that signature is mixed into the
randao mix of the epoch; the other mixes are kept. -/
theorem C86_reveal (hE : SaneConfig E) (hmax : 0 < E.max_deposits)
    (h : process_block E f b s = .ok () s') :
    ValidReveal E s b.body.randao_reveal ∧
    ∃ mix, mixAt E s (epochOf E s.slot) = some mix ∧
      s'.randao_mixes = s.randao_mixes.set (epochOf E s.slot % E.epochs_per_historical_vector)
        (Vector.zipWith (· ^^^ ·) mix (E.hash b.body.randao_reveal.toList)) := by
  obtain ⟨a0, a1, a2, a3, a4, a5, a6, hp⟩ := phases hmax h
  obtain ⟨t1, t2, t3, t4, h1, h2, h3, h4, h5⟩ := opening_states hp.opening
  have hc := opening_changes h1 h2 h3
  have e1 : t3.slot = s.slot := hc .slot (by decide)
  have e2 : t3.validators = s.validators := hc .validators (by decide)
  have e3 : t3.randao_mixes = s.randao_mixes := hc .randao_mixes (by decide)
  have e4 : t3.fork = s.fork := hc .fork (by decide)
  have e5 : t3.genesis_validators_root = s.genesis_validators_root :=
    hc .genesis_validators_root (by decide)
  obtain ⟨hv, mix, hm, rfl⟩ := (C18_process_randao_iff E hE b.body t3 t4).1 h4
  have he : get_beacon_proposer_index E t3 = get_beacon_proposer_index E s :=
    proposer_congr ⟨e1, e3, by unfold activeIndices; rw [e2], fun i => by rw [e2]⟩
  refine ⟨?_, mix, ?_, ?_⟩
  · obtain ⟨p, v, k1, k2, k3⟩ := hv
    unfold domainAt versionAt at k3
    rw [he] at k1; rw [e2] at k2; rw [e1, e4, e5] at k3
    exact ⟨p, v, k1, k2, k3⟩
  · unfold mixAt at hm ⊢; rw [e1, e3] at hm; exact hm
  · rw [show s'.randao_mixes = a0.randao_mixes from rest_keeps hp .randao_mixes (by decide),
      show a0.randao_mixes = _ from eth1_mod.toOk.ok h5 .randao_mixes (by decide)]
    dsimp only
    rw [e1, e3]

/-- **C86** The eth1 vote is recorded, and adopted when it has a majority. -/
theorem C86_vote (hmax : 0 < E.max_deposits) (h : process_block E f b s = .ok () s') :
    s'.eth1_data_votes = s.eth1_data_votes ++ [b.body.eth1_data] ∧
    s'.eth1_data = if votingPeriodSlots E < 2 * (votesFor s b.body.eth1_data + 1)
      then b.body.eth1_data else s.eth1_data := by
  obtain ⟨a0, a1, a2, a3, a4, a5, a6, hp⟩ := phases hmax h
  obtain ⟨t1, t2, t3, t4, h1, h2, h3, h4, h5⟩ := opening_states hp.opening
  have hc := opening_changes h1 h2 h3
  have hr : ChangesOnly _ t3 t4 := randao_mod.toOk.ok h4
  have e1 : t4.eth1_data_votes = s.eth1_data_votes :=
    (hr .eth1_data_votes (by decide)).trans (hc .eth1_data_votes (by decide))
  have e2 : t4.eth1_data = s.eth1_data :=
    (hr .eth1_data (by decide)).trans (hc .eth1_data (by decide))
  obtain ⟨-, -, rfl⟩ := process_eth1_data_eq_ok.1 h5
  refine ⟨(rest_keeps hp .eth1_data_votes (by decide)).trans ?_,
    (rest_keeps hp .eth1_data (by decide)).trans ?_⟩
  · dsimp only; rw [e1]
  · dsimp only; unfold votesFor; rw [e1, e2]

/-- **C86** If the block carries a payload it fits the state, the engine has accepted it, and the
latest payload header is its summary; otherwise that header is kept. -/
theorem C86_payload (hE : SaneConfig E) (hmax : 0 < E.max_deposits)
    (h : process_block E f b s = .ok () s') :
    (HasPayload f s b.body →
      PayloadFits E f { s with latest_block_header := headerOf E f b } b.body ∧
      Summarises E f b.body.execution_payload s'.latest_execution_payload_header) ∧
    (¬ HasPayload f s b.body →
      s'.latest_execution_payload_header = s.latest_execution_payload_header) := by
  obtain ⟨a0, a1, a2, a3, a4, a5, a6, hp⟩ := phases hmax h
  obtain ⟨t1, t2, t3, t4, h1, h2, h3, h4, h5⟩ := opening_states hp.opening
  have key : s'.latest_execution_payload_header = t3.latest_execution_payload_header :=
    (rest_keeps hp .latest_execution_payload_header (by decide)).trans
      ((eth1_mod.toOk.ok h5 .latest_execution_payload_header (by decide)).trans
        (randao_mod.toOk.ok h4 .latest_execution_payload_header (by decide)))
  obtain ⟨-, rfl⟩ := process_block_header_eq_ok.1 h1
  have hw : ChangesOnly [.balances, .pending_partial_withdrawals, .next_withdrawal_index,
      .next_withdrawal_validator_index] { s with latest_block_header := headerOf E f b } t2 := by
    split at h2
    · exact withdrawals_mod.toOk.ok h2
    · rw [h2]; exact (changesPre _).refl _
  rw [key]
  constructor
  · intro hh
    rw [if_pos hh] at h3
    obtain ⟨k, -⟩ := (C47_execution_payload_iff E hE f b.body t2 t3).1 h3
    refine ⟨?_, C47_header_summarises E hE f b.body t2 t3 h3⟩
    have e1 : t2.latest_execution_payload_header = s.latest_execution_payload_header :=
      hw .latest_execution_payload_header (by decide)
    have e2 : t2.randao_mixes = s.randao_mixes := hw .randao_mixes (by decide)
    have e3 : t2.slot = s.slot := hw .slot (by decide)
    have e4 : t2.genesis_time = s.genesis_time := hw .genesis_time (by decide)
    have e5 : t2.latest_block_header = headerOf E f b := hw .latest_block_header (by decide)
    obtain ⟨k1, k2, k3, k4, k5, k6⟩ := k
    unfold MergeComplete at k1
    unfold mixAt at k2
    unfold payload_request at k6
    rw [e1] at k1; rw [e2, e3] at k2; rw [e3, e4] at k3 k4; rw [e5] at k6
    exact ⟨k1, k2, k3, k4, k5, k6⟩
  · intro hh
    rw [if_neg hh] at h3
    rw [h3]
    exact hw .latest_execution_payload_header (by decide)

/-- **C86** The payload of a block pays the withdrawals that were due before it, and the counters
advance (capella and deneb). -/
theorem C86_withdrawals (hE : SaneConfig E) (hmax : 0 < E.max_deposits)
    (hf : f = .Capella ∨ f = .Deneb) (hs : SweepReady E s)
    (h : process_block E f b s = .ok () s') :
    Pays E f s ((creditors E f s).take E.max_withdrawals_per_payload) s.next_withdrawal_index
      b.body.execution_payload.withdrawals ∧
    s'.next_withdrawal_index =
      s.next_withdrawal_index + b.body.execution_payload.withdrawals.length ∧
    s'.next_withdrawal_validator_index = nextCursor E s b.body.execution_payload.withdrawals := by
  obtain ⟨a0, a1, a2, a3, a4, a5, a6, hp⟩ := phases hmax h
  obtain ⟨t1, t2, t3, t4, h1, h2, h3, h4, h5⟩ := opening_states hp.opening
  obtain ⟨-, rfl⟩ := process_block_header_eq_ok.1 h1
  have hwf : Fork.withdraws f = true := by rcases hf with rfl | rfl <;> rfl
  rw [if_pos hwf] at h2
  have hs1 : SweepReady E { s with latest_block_header := headerOf E f b } :=
    ⟨hs.payload, hs.sweep, hs.cursor, hs.registry, hs.balances, hs.index, hs.width⟩
  obtain ⟨k1, k2⟩ := (C44_processed E hE f hf _ t2 hs1 _).1 h2
  have hr : ChangesOnly [.latest_execution_payload_header] t2 t3 := by
    split at h3
    · exact payload_mod.toOk.ok h3
    · rw [h3]; exact (changesPre _).refl _
  refine ⟨⟨k1.payees, k1.indices, k1.exact⟩, ?_, ?_⟩
  · rw [show s'.next_withdrawal_index = a0.next_withdrawal_index from
        rest_keeps hp .next_withdrawal_index (by decide),
      show a0.next_withdrawal_index = t4.next_withdrawal_index from
        eth1_mod.toOk.ok h5 .next_withdrawal_index (by decide),
      show t4.next_withdrawal_index = t3.next_withdrawal_index from
        randao_mod.toOk.ok h4 .next_withdrawal_index (by decide),
      show t3.next_withdrawal_index = t2.next_withdrawal_index from
        hr .next_withdrawal_index (by decide)]
    exact k2.index
  · rw [show s'.next_withdrawal_validator_index = a0.next_withdrawal_validator_index from
        rest_keeps hp .next_withdrawal_validator_index (by decide),
      show a0.next_withdrawal_validator_index = t4.next_withdrawal_validator_index from
        eth1_mod.toOk.ok h5 .next_withdrawal_validator_index (by decide),
      show t4.next_withdrawal_validator_index = t3.next_withdrawal_validator_index from
        randao_mod.toOk.ok h4 .next_withdrawal_validator_index (by decide),
      show t3.next_withdrawal_validator_index = t2.next_withdrawal_validator_index from
        hr .next_withdrawal_validator_index (by decide)]
    exact k2.cursor

/-! ## The operations -/

theorem slashed_stays (hE : SaneConfig E) {t u : State} (h : History E f t u) {i : Nat}
    {v : Validator} (hv : t.validators[i]? = some v) (hs : v.slashed = true) :
    ∃ w, u.validators[i]? = some w ∧ w.slashed = true := by
  obtain ⟨w, hw, -, h1, -⟩ := C11_registry_moves_forward E hE f t u h i v hv
  exact ⟨w, hw, h1 hs⟩

/-- **C86** Every proposer that an accepted block proves to have equivocated is slashed. -/
theorem C86_proposer_slashings (hE : SaneConfig E) (hmax : 0 < E.max_deposits)
    (h : process_block E f b s = .ok () s') (op : ProposerSlashing)
    (hop : op ∈ b.body.proposer_slashings) :
    ∃ w, s'.validators[op.signed_header_1.message.proposer_index]? = some w ∧
      w.slashed = true := by
  obtain ⟨t, u, -, h1, h2⟩ := operation_ran hmax h
    (m := process_proposer_slashing E f op) (by
      simp only [operationParts, List.mem_append, List.mem_map]
      exact .inl (.inl (.inl (.inl (.inl (.inl ⟨op, hop, rfl⟩))))))
  have h1 := (process_proposer_slashing_eq_ok.1 h1).2.2
  have h3 := (slash_run (l := [op.signed_header_1.message.proposer_index])
    (by rw [forEach_cons]; exact ⟨_, h1, by rw [forEach_nil]⟩)).2.2.2 _ (List.mem_singleton.2 rfl)
  obtain ⟨v, hv, hs⟩ := h3
  exact slashed_stays hE h2 hv hs

/-- The entry is as before, or slashed. -/
def Meanwhile (s t : State) : Prop :=
  t.slot = s.slot ∧ ∀ (i : Nat) v, s.validators[i]? = some v →
    ∃ w, t.validators[i]? = some w ∧ (w = v ∨ w.slashed = true) ∧
      (v.slashed = true → w.slashed = true)

theorem meanwhilePre : Preorder' Meanwhile :=
  ⟨fun _ => ⟨rfl, fun _ v hv => ⟨v, hv, .inl rfl, fun h => h⟩⟩, fun h h' =>
    ⟨h'.1.trans h.1, fun i v hv => by
      obtain ⟨w, hw, h1, h2⟩ := h.2 i v hv
      obtain ⟨x, hx, h3, h4⟩ := h'.2 i w hw
      refine ⟨x, hx, ?_, fun h => h4 (h2 h)⟩
      rcases h3 with rfl | h3
      · rcases h1 with rfl | h1
        · exact .inl rfl
        · exact .inr h1
      · exact .inr h3⟩⟩

theorem meanwhile_slash {l : List Nat} {t u : State}
    (h : forEach l (fun i => slash_validator E f i none) t = .ok () u) : Meanwhile t u := by
  obtain ⟨-, h1, h2, h3⟩ := slash_run h
  refine ⟨h1, fun i v hv => ?_⟩
  by_cases hi : i ∈ l
  · obtain ⟨w, hw, hs⟩ := h3 i hi
    exact ⟨w, hw, .inr hs, fun _ => hs⟩
  · exact ⟨v, (h2 i hi).trans hv, .inl rfl, fun h => h⟩

/-- **C86** Every validator that signed both attestations of an attester slashing of an accepted
block, and that could be slashed before the block, is slashed. -/
theorem C86_attester_slashings (hE : SaneConfig E) (hmax : 0 < E.max_deposits)
    (h : process_block E f b s = .ok () s') (op : AttesterSlashing)
    (hop : op ∈ b.body.attester_slashings) (i : Nat) (v : Validator)
    (hv : s.validators[i]? = some v) (hs : Slashable v (epochOf E s.slot))
    (h1 : i ∈ op.attestation_1.attesting_indices) (h2 : i ∈ op.attestation_2.attesting_indices) :
    ∃ w, s'.validators[i]? = some w ∧ w.slashed = true := by
  obtain ⟨a0, a1, a2, a3, a4, a5, a6, hp⟩ := phases hmax h
  have hm : ∀ {W : List Field} {m : M Unit}, Modifies W m →
      (∀ x ∈ [Field.validators, .slot], x ∉ W) → PresOk Meanwhile m := by
    intro W m h hW
    refine PresOk.of fun x a y hxy => ?_
    have g : ChangesOnly W x y := h.toOk.ok hxy
    refine ⟨g .slot (hW _ (by decide)), fun i v hv => ⟨v, ?_, .inl rfl, fun h => h⟩⟩
    rw [show y.validators = x.validators from g .validators (hW _ (by decide))]
    exact hv
  have m0 : Meanwhile s a0 := by
    refine runs_pres meanwhilePre (opening_all ?_ ?_ ?_ ?_ ?_) hp.opening
    · exact hm header_mod (by decide)
    · exact fun _ => hm withdrawals_mod (by decide)
    · exact hm payload_mod (by decide)
    · exact hm randao_mod (by decide)
    · exact hm eth1_mod (by decide)
  have m1 : Meanwhile a0 a1 := by
    refine runs_pres meanwhilePre (map_all fun op _ => PresOk.of fun x a y hxy => ?_) hp.proposers
    exact meanwhile_slash (l := [op.signed_header_1.message.proposer_index])
      (by rw [forEach_cons]
          exact ⟨_, (process_proposer_slashing_eq_ok.1 hxy).2.2, by rw [forEach_nil]⟩)
  obtain ⟨l, r, t, u, he, g1, g2, g3⟩ := runs_mem (List.mem_map_of_mem hop) hp.attesters
  have m2 : Meanwhile a1 t := by
    refine runs_pres meanwhilePre (fun m hm => ?_) g1
    have : m ∈ b.body.attester_slashings.map (process_attester_slashing E f) := by
      rw [he]; exact List.mem_append_left _ hm
    obtain ⟨op', -, rfl⟩ := List.mem_map.1 this
    exact PresOk.of fun x a y hxy =>
      meanwhile_slash (process_attester_slashing_eq_ok.1 hxy).2.2.2.2.2
  obtain ⟨ms, mw⟩ := meanwhilePre.trans m0 (meanwhilePre.trans m1 m2)
  obtain ⟨w, hw, hc, -⟩ := mw i v hv
  have iu : History E f t u := by
    have := History.call (History.start (E := E) (f := f) (s := t)) (.process_attester_slashing op)
    unfold finalState at this
    rw [g2] at this
    exact this
  have su : ∃ x, u.validators[i]? = some x ∧ x.slashed = true := by
    rcases hc with rfl | hc
    · exact (C14_attester_slashing_slashes E f op t u g2).1 i
        (mem_culprits.2 ⟨h1, h2, w, hw, by rw [ms]; exact hs⟩)
    · exact slashed_stays hE iu hw hc
  obtain ⟨x, hx, hxs⟩ := su
  have hist : History E f u s' := by
    have k2 : History E f u a2 := runs_history (fun m hm => by
      have : m ∈ b.body.attester_slashings.map (process_attester_slashing E f) := by
        rw [he]; exact List.mem_append_right _ (List.mem_cons_of_mem _ hm)
      obtain ⟨op', -, rfl⟩ := List.mem_map.1 this
      exact .process_attester_slashing _) .start g3
    have k3 := runs_history (map_all fun _ _ => .process_attestation _) k2 hp.votes
    have k4 := runs_history (map_all fun _ _ => .process_deposit _) k3 hp.deposits
    have k5 := runs_history (map_all fun _ _ => .process_voluntary_exit _) k4 hp.exits
    have k6 := runs_history (later_all (fun _ _ _ => .process_bls_to_execution_change _)
      (fun hf _ _ => .process_execution_layer_withdrawal_request _ hf)
      (fun hf _ _ => .process_deposit_receipt _ hf)
      (fun hf _ _ => .process_consolidation _ hf)) k5 hp.later
    exact runs_history (fun _ => closingParts_entry) k6 hp.closing
  exact slashed_stays hE hist hx hxs

/-- What comes before the attestations. -/
theorem before_votes {a0 a1 a2 a3 a4 a5 a6 : State} (hp : Phases E f b s a0 a1 a2 a3 a4 a5 a6 s') :
    ChangesOnly [.latest_block_header, .balances, .pending_partial_withdrawals,
      .next_withdrawal_index, .next_withdrawal_validator_index,
      .latest_execution_payload_header, .randao_mixes, .eth1_data, .eth1_data_votes, .validators,
      .slashings, .exit_balance_to_consume, .earliest_exit_epoch] s a2 := by
  have m := fun {W V : List Field} {α : Type} {m : M α} (h : Modifies W m) (hs : W ⊆ V) =>
    (Modifies.mono h hs : Modifies V m)
  refine (changesPre _).trans (runs_mod (opening_all ?_ ?_ ?_ ?_ ?_) hp.opening)
    ((changesPre _).trans
      (runs_mod (map_all fun _ _ => m proposer_slashing_mod (by decide)) hp.proposers)
      (runs_mod (map_all fun _ _ => m attester_slashing_mod (by decide)) hp.attesters))
  · exact m header_mod (by decide)
  · exact fun _ => m withdrawals_mod (by decide)
  · exact m payload_mod (by decide)
  · exact m randao_mod (by decide)
  · exact m eth1_mod (by decide)

/-- What comes after the attestations. -/
theorem after_votes {a0 a1 a2 a3 a4 a5 a6 : State} (hp : Phases E f b s a0 a1 a2 a3 a4 a5 a6 s') :
    ChangesOnly [.validators, .balances, .slashings, .exit_balance_to_consume,
      .earliest_exit_epoch,
      .current_epoch_participation, .previous_epoch_participation, .eth1_deposit_index,
      .inactivity_scores, .pending_balance_deposits, .pending_partial_withdrawals,
      .deposit_receipts_start_index, .consolidation_balance_to_consume,
      .earliest_consolidation_epoch, .pending_consolidations] a3 s' := by
  have m := fun {W V : List Field} {α : Type} {m : M α} (h : Modifies W m) (hs : W ⊆ V) =>
    (Modifies.mono h hs : Modifies V m)
  refine (changesPre _).trans (runs_mod (map_all fun _ _ => m deposit_mod (by decide)) hp.deposits)
    ((changesPre _).trans (runs_mod (map_all fun _ _ => m voluntary_exit_mod (by decide)) hp.exits)
    ((changesPre _).trans (runs_mod (later_all ?_ ?_ ?_ ?_) hp.later)
      (runs_mod (closing_all fun _ => m sync_aggregate_mod (by decide)) hp.closing)))
  · exact fun _ _ _ => m bls_change_mod (by decide)
  · exact fun _ _ _ => m withdrawal_request_mod (by decide)
  · exact fun _ _ _ => m deposit_receipt_mod (by decide)
  · exact fun _ _ _ => m consolidation_mod (by decide)

theorem phase0_votes (hE : SaneConfig E) (hreg : s.validators.length ≤ 2 ^ 40)
    (hslot : s.slot < 2 ^ 63) (hV : E.min_seed_lookahead + 3 < E.epochs_per_historical_vector)
    {p : Nat} (hp : ∀ t, Inside E .Phase0 s t → get_beacon_proposer_index E t = .ok p)
    {as : List Attestation} {t u : State} (ht : Inside E .Phase0 s t)
    (h : Runs (as.map (process_attestation E .Phase0)) t u) :
    (∀ a ∈ as, TimelyVote E .Phase0 s a.data ∧ ∃ l, CommitteeVote E s a l) ∧
    u.current_epoch_attestations = t.current_epoch_attestations ++
      (as.filter fun a => a.data.target.epoch = epochOf E s.slot).map (pendingOf s · p) ∧
    u.previous_epoch_attestations = t.previous_epoch_attestations ++
      (as.filter fun a => a.data.target.epoch ≠ epochOf E s.slot).map (pendingOf s · p) := by
  induction as generalizing t with
  | nil => cases h; simp
  | cons a as ih =>
    obtain ⟨x, hx, hr⟩ := h
    have ix := inside_attestation ht hx
    obtain ⟨j1, j2, j3⟩ := ih ix hr
    have hx' : Phase0.process_attestation E a t = .ok () x := hx
    obtain ⟨k1, ⟨l, k2⟩, q, k3, rfl⟩ := (phase0_attestation_eq_ok hE (ht.slot ▸ hslot)).1 hx'
    have kt := ht.timely.1 k1
    rw [hp t ht] at k3
    cases k3
    have ep : pendingOf t a p = pendingOf s a p := by unfold pendingOf; rw [ht.slot]
    refine ⟨?_, ?_, ?_⟩
    · intro a' ha'
      rcases List.mem_cons.1 ha' with rfl | ha'
      · exact ⟨kt, l, ht.vote hE hreg hslot hV kt k2⟩
      · exact j1 a' ha'
    · rw [j2, ep, ht.slot]
      by_cases hc : a.data.target.epoch = epochOf E s.slot <;> simp [hc]
    · rw [j3, ep, ht.slot]
      by_cases hc : a.data.target.epoch = epochOf E s.slot <;> simp [hc]

/-- **C86** Phase0: every attestation of an accepted block is a timely vote of a committee of the
state, and the block adds to the pending attestations of the epochs exactly its attestations for
them, in order, credited to its proposer. -/
theorem C86_attestations_phase0 (hE : SaneConfig E) (hmax : 0 < E.max_deposits)
    (hV : E.min_seed_lookahead + 3 < E.epochs_per_historical_vector)
    (hslot : s.slot < 2 ^ 63) (hreg : s.validators.length ≤ 2 ^ 40)
    (h : process_block E .Phase0 b s = .ok () s') :
    (∀ a ∈ b.body.attestations,
      TimelyVote E .Phase0 s a.data ∧ ∃ l, CommitteeVote E s a l) ∧
    s'.current_epoch_attestations = s.current_epoch_attestations ++
      (b.body.attestations.filter fun a => a.data.target.epoch = epochOf E s.slot).map
        (pendingOf s · b.proposer_index) ∧
    s'.previous_epoch_attestations = s.previous_epoch_attestations ++
      (b.body.attestations.filter fun a => a.data.target.epoch ≠ epochOf E s.slot).map
        (pendingOf s · b.proposer_index) := by
  obtain ⟨a0, a1, a2, a3, a4, a5, a6, hp⟩ := phases hmax h
  obtain ⟨k1, k2, k3⟩ := phase0_votes hE hreg hslot hV
    (fun t ht => hp.proposer hE hreg hslot (by omega) ht) hp.i2 hp.votes
  refine ⟨k1, ?_, ?_⟩
  · rw [show s'.current_epoch_attestations = a3.current_epoch_attestations from
      after_votes hp .current_epoch_attestations (by decide), k2,
      show a2.current_epoch_attestations = s.current_epoch_attestations from
      before_votes hp .current_epoch_attestations (by decide)]
  · rw [show s'.previous_epoch_attestations = a3.previous_epoch_attestations from
      after_votes hp .previous_epoch_attestations (by decide), k3,
      show a2.previous_epoch_attestations = s.previous_epoch_attestations from
      before_votes hp .previous_epoch_attestations (by decide)]

theorem flagsFor_withFlags {t : State} {d : AttestationData} {new : List UInt8} {bs : List Nat} :
    flagsFor E { withFlags E t d new with balances := bs } d = new := by
  unfold flagsFor withFlags
  by_cases h : d.target.epoch = epochOf E t.slot <;> simp [h]

theorem attestedBy_mem {a : Attestation} {l l' : List Nat} (h : AttestedBy E f s a l)
    (h' : AttestedBy E f s a l') {i : Nat} : i ∈ l ↔ i ∈ l' := by
  have key : ∀ {l l' : List Nat}, CommitteeVote E s a l → CommitteeVote E s a l' →
      (i ∈ l ↔ i ∈ l') := by
    intro l l' h h'
    obtain ⟨c, h1, -, h2⟩ := h.members
    obtain ⟨c', h3, -, h4⟩ := h'.members
    rw [h1] at h3; cases h3
    rw [h2.2, h4.2]
  cases f
  case Electra =>
    obtain ⟨x, h1, h2, -⟩ := h
    obtain ⟨y, h3, h4, -⟩ := h'
    rw [h1] at h3; cases h3
    exact h2.mem_iff.trans h4.mem_iff.symm
  all_goals exact key h h'

theorem earnedFlags_mem {d : AttestationData} {l l' : List Nat} (h : EarnedFlags E f s d l)
    (h' : EarnedFlags E f s d l') {j : Nat} : j ∈ l ↔ j ∈ l' := by
  have key : ∀ {l l' : List Nat}, EarnedFlags E f s d l → EarnedFlags E f s d l' → j ∈ l → j ∈ l' := by
    intro l l' h h' hj
    have := h.only j hj
    obtain rfl | rfl | rfl : j = 0 ∨ j = 1 ∨ j = 2 := by omega
    · exact h'.source.2 (h.source.1 hj)
    · exact h'.target.2 (h.target.1 hj)
    · exact h'.head.2 (h.head.1 hj)
  exact ⟨key h h', key h' h⟩

/-- The effect of one attestation, in terms of the state before the block. -/
theorem vote_effect (hE : SaneConfig E) (hreg : s.validators.length ≤ 2 ^ 40)
    (hslot : s.slot < 2 ^ 63) (hV : E.min_seed_lookahead + 3 < E.epochs_per_historical_vector)
    (hf : f ≠ .Phase0) (hpar : Parallel f s) {a : Attestation} {t u : State}
    (ht : Inside E f s t) (hl : t.validators.length = s.validators.length)
    (h : process_attestation E f a t = .ok () u) :
    TimelyVote E f s a.data ∧ (∃ l, AttestedBy E f s a l) ∧
    ∃ l fl new bs, AttestedBy E f s a l ∧ EarnedFlags E f s a.data fl ∧
      FlagsAdded l fl (flagsFor E t a.data) new ∧
      u = { withFlags E t a.data new with balances := bs } := by
  have hs : t.slot < 2 ^ 63 := ht.slot ▸ hslot
  have hfl := ht.flags hpar a.data hf
  by_cases he : f = .Electra
  · subst he
    obtain ⟨h1, idxs, l, fl, h2, h3, h4, h5, p, b, new, -, -, h6, rfl⟩ :=
      C30_electra_process_attestation_effect E hE a t u hs hfl h
    have kt := ht.timely.1 h1
    obtain ⟨idxs', h2', hperm⟩ := ht.electra_attesters hslot hV kt h2
    have ka : AttestedBy E .Electra s a l :=
      ⟨idxs', h2', h3.trans hperm,
        ht.indexed hE (fun i hi => hl ▸ h4.in_range i hi) h4⟩
    exact ⟨kt, ⟨l, ka⟩, l, fl, new, _, ka, ht.earned.1 h5, h6, rfl⟩
  · obtain ⟨h1, l, fl, h2, h5, p, b, new, -, -, h6, rfl⟩ :=
      C30_process_attestation_effect E hE f ⟨hf, he⟩ a t u hs hfl h
    have kt := ht.timely.1 h1
    have ka : AttestedBy E f s a l := by
      have := ht.vote hE hreg hslot hV kt h2
      cases f <;> first | exact this | exact absurd rfl he
    exact ⟨kt, ⟨l, ka⟩, l, fl, new, _, ka, ht.earned.1 h5, h6, rfl⟩

theorem flagsEarned_refl {P : Nat → Nat → Prop} {l : List UInt8} (h : ∀ i j, ¬ P i j) :
    FlagsEarned P l l :=
  fun i x hx => ⟨x, hx, fun j _ => ⟨.inl, fun h' => h'.resolve_right (h i j)⟩⟩

theorem flagsEarned_trans {P Q S : Nat → Nat → Prop} {l m n : List UInt8} (h : FlagsEarned P l m)
    (h' : FlagsEarned Q m n) (hS : ∀ i j, S i j ↔ P i j ∨ Q i j) : FlagsEarned S l n := by
  intro i x hx
  obtain ⟨y, hy, h1⟩ := h i x hx
  obtain ⟨z, hz, h2⟩ := h' i y hy
  exact ⟨z, hz, fun j hj => by rw [h2 j hj, h1 j hj, hS, or_assoc]⟩

theorem flagsEarned_prefix {l m : List UInt8} (h : l <+: m) :
    FlagsEarned (fun _ _ => False) l m := fun i x hx => by
  obtain ⟨r, rfl⟩ := h
  exact ⟨x, (List.getElem?_append_left (List.getElem?_eq_some_iff.1 hx).1).trans hx,
    fun j _ => ⟨.inl, fun h => h.resolve_right id⟩⟩

theorem flagsEarned_added {a : Attestation} {l fl : List Nat} {old new : List UInt8}
    (ha : AttestedBy E f s a l) (hf : EarnedFlags E f s a.data fl) (h : FlagsAdded l fl old new) :
    FlagsEarned (EarnsFlag E f s a) old new := by
  intro i x hx
  have hi : i < new.length := by rw [h.1]; exact (List.getElem?_eq_some_iff.1 hx).1
  refine ⟨_, List.getElem?_eq_getElem hi, fun j hj => ?_⟩
  rw [h.2 i _ _ hx (List.getElem?_eq_getElem hi) j hj]
  refine or_congr_right ⟨fun h => ⟨l, fl, ha, hf, h⟩, fun ⟨l', fl', h1, h2, h3, h4⟩ => ?_⟩
  exact ⟨(attestedBy_mem h1 ha).1 h3, (earnedFlags_mem h2 hf).1 h4⟩

theorem later_votes (hE : SaneConfig E) (hreg : s.validators.length ≤ 2 ^ 40)
    (hslot : s.slot < 2 ^ 63) (hV : E.min_seed_lookahead + 3 < E.epochs_per_historical_vector)
    (hf : f ≠ .Phase0) (hpar : Parallel f s) {as : List Attestation} {t u : State}
    (ht : Inside E f s t) (hl : t.validators.length = s.validators.length)
    (h : Runs (as.map (process_attestation E f)) t u) :
    (∀ a ∈ as, TimelyVote E f s a.data ∧ ∃ l, AttestedBy E f s a l) ∧
    FlagsEarned (fun i j => ∃ a ∈ as, a.data.target.epoch = epochOf E s.slot ∧
        EarnsFlag E f s a i j)
      t.current_epoch_participation u.current_epoch_participation ∧
    FlagsEarned (fun i j => ∃ a ∈ as, a.data.target.epoch ≠ epochOf E s.slot ∧
        EarnsFlag E f s a i j)
      t.previous_epoch_participation u.previous_epoch_participation := by
  induction as generalizing t with
  | nil =>
    cases h
    exact ⟨by simp, flagsEarned_refl (by simp), flagsEarned_refl (by simp)⟩
  | cons a as ih =>
    obtain ⟨x, hx, hr⟩ := h
    have ix := inside_attestation ht hx
    have lx : x.validators.length = s.validators.length := by
      rw [show x.validators = t.validators from attestation_mod.toOk.ok hx .validators (by decide),
        hl]
    obtain ⟨j1, j2, j3⟩ := ih ix lx hr
    obtain ⟨k1, k2, l, fl, new, bs, k3, k4, k5, hxe⟩ :=
      vote_effect hE hreg hslot hV hf hpar ht hl hx
    have k6 := flagsEarned_added k3 k4 k5
    refine ⟨?_, ?_, ?_⟩
    · intro a' ha'
      rcases List.mem_cons.1 ha' with rfl | ha'
      · exact ⟨k1, k2⟩
      · exact j1 a' ha'
    · refine flagsEarned_trans (P := fun i j => a.data.target.epoch = epochOf E s.slot ∧
        EarnsFlag E f s a i j) ?_ j2 (fun i j => by simp [or_and_right, exists_or])
      by_cases hc : a.data.target.epoch = epochOf E s.slot
      · have : x.current_epoch_participation = new := by
          rw [hxe]; unfold withFlags; rw [ht.slot, if_pos hc]
        rw [this]
        unfold flagsFor at k6
        rw [ht.slot, if_pos hc] at k6
        simpa [hc] using k6
      · have : x.current_epoch_participation = t.current_epoch_participation := by
          rw [hxe]; unfold withFlags; rw [ht.slot, if_neg hc]
        rw [this]
        exact flagsEarned_refl (fun i j h => hc h.1)
    · refine flagsEarned_trans (P := fun i j => a.data.target.epoch ≠ epochOf E s.slot ∧
        EarnsFlag E f s a i j) ?_ j3 (fun i j => by simp [or_and_right, exists_or])
      by_cases hc : a.data.target.epoch = epochOf E s.slot
      · have : x.previous_epoch_participation = t.previous_epoch_participation := by
          rw [hxe]; unfold withFlags; rw [ht.slot, if_pos hc]
        rw [this]
        exact flagsEarned_refl (fun i j h => h.1 hc)
      · have : x.previous_epoch_participation = new := by
          rw [hxe]; unfold withFlags; rw [ht.slot, if_neg hc]
        rw [this]
        unfold flagsFor at k6
        rw [ht.slot, if_neg hc] at k6
        simpa [hc] using k6

/-- **C86** From altair on: every attestation of an accepted block is a timely vote signed by
validators of the state, and the flags of a validator for an epoch are afterwards exactly those it
had and those that attestations of the block for that epoch earn it. -/
theorem C86_attestations (hE : SaneConfig E) (hmax : 0 < E.max_deposits)
    (hV : E.min_seed_lookahead + 3 < E.epochs_per_historical_vector)
    (hslot : s.slot < 2 ^ 63) (hreg : s.validators.length ≤ 2 ^ 40)
    (hf : f ≠ .Phase0) (hpar : Parallel f s) (h : process_block E f b s = .ok () s') :
    (∀ a ∈ b.body.attestations, TimelyVote E f s a.data ∧ ∃ l, AttestedBy E f s a l) ∧
    FlagsEarned (fun i j => ∃ a ∈ b.body.attestations,
        a.data.target.epoch = epochOf E s.slot ∧ EarnsFlag E f s a i j)
      s.current_epoch_participation s'.current_epoch_participation ∧
    FlagsEarned (fun i j => ∃ a ∈ b.body.attestations,
        a.data.target.epoch ≠ epochOf E s.slot ∧ EarnsFlag E f s a i j)
      s.previous_epoch_participation s'.previous_epoch_participation := by
  obtain ⟨a0, a1, a2, a3, a4, a5, a6, hp⟩ := phases hmax h
  obtain ⟨k1, k2, k3⟩ := later_votes hE hreg hslot hV hf hpar hp.i2 hp.length hp.votes
  refine ⟨k1, ?_, ?_⟩
  · rw [show a2.current_epoch_participation = s.current_epoch_participation from
      before_votes hp .current_epoch_participation (by decide)] at k2
    exact flagsEarned_trans k2 (flagsEarned_prefix hp.grows.1) (by simp)
  · rw [show a2.previous_epoch_participation = s.previous_epoch_participation from
      before_votes hp .previous_epoch_participation (by decide)] at k3
    exact flagsEarned_trans k3 (flagsEarned_prefix hp.grows.2) (by simp)

/-! ## Deposits -/

theorem runs_map_forEach {α : Type} {g : α → M Unit} {l : List α} {t u : State} :
    Runs (l.map g) t u ↔ forEach l g t = .ok () u := by
  induction l generalizing t with
  | nil => rw [forEach_nil]; exact ⟨fun h => h, fun h => h⟩
  | cons x l ih => rw [forEach_cons]; simp only [List.map_cons, Runs, ih]

/-- **C86** The deposits of an accepted block are those with the next indices of the deposit
contract as the state knows it after the vote of the block, as many as are due, and the index
advances by their number. -/
theorem C86_deposits (hE : SaneConfig E) (hmax : 0 < E.max_deposits)
    (h : process_block E f b s = .ok () s') :
    (∀ k d, b.body.deposits[k]? = some d → DepositProven E
      { s with eth1_data := s'.eth1_data, eth1_deposit_index := s.eth1_deposit_index + k } d) ∧
    s'.eth1_deposit_index = s.eth1_deposit_index + b.body.deposits.length ∧
    RightCount E f { s with eth1_data := s'.eth1_data } b.body := by
  obtain ⟨a0, a1, a2, a3, a4, a5, a6, hp⟩ := phases hmax h
  obtain ⟨k1, k2, -⟩ := C25_deposits_in_order E hE f _ _ _ (runs_map_forEach.1 hp.deposits)
  have m := fun {W V : List Field} {α : Type} {m : M α} (h : Modifies W m) (hs : W ⊆ V) =>
    (Modifies.mono h hs : Modifies V m)
  have e0 : a0.eth1_deposit_index = s.eth1_deposit_index :=
    (runs_mod (W := [.latest_block_header, .balances, .pending_partial_withdrawals,
      .next_withdrawal_index, .next_withdrawal_validator_index,
      .latest_execution_payload_header, .randao_mixes, .eth1_data, .eth1_data_votes])
      (opening_all (m header_mod (by decide)) (fun _ => m withdrawals_mod (by decide))
      (m payload_mod (by decide)) (m randao_mod (by decide)) (m eth1_mod (by decide))) hp.opening)
      .eth1_deposit_index (by decide)
  have e0r : a0.deposit_receipts_start_index = s.deposit_receipts_start_index :=
    (runs_mod (W := [.latest_block_header, .balances, .pending_partial_withdrawals,
      .next_withdrawal_index, .next_withdrawal_validator_index,
      .latest_execution_payload_header, .randao_mixes, .eth1_data, .eth1_data_votes])
      (opening_all (m header_mod (by decide)) (fun _ => m withdrawals_mod (by decide))
      (m payload_mod (by decide)) (m randao_mod (by decide)) (m eth1_mod (by decide))) hp.opening)
      .deposit_receipts_start_index (by decide)
  have hv : ChangesOnly _ a2 a3 := runs_mod (map_all fun _ _ => attestation_mod) hp.votes
  have e3 : a3.eth1_deposit_index = s.eth1_deposit_index :=
    (hv .eth1_deposit_index (by decide)).trans (before_votes hp .eth1_deposit_index (by decide))
  have d0 : s'.eth1_data = a0.eth1_data := rest_keeps hp .eth1_data (by decide)
  have d3 : s'.eth1_data = a3.eth1_data := after_votes hp .eth1_data (by decide)
  have e4 : s'.eth1_deposit_index = a4.eth1_deposit_index := by
    refine (changesPre [.validators, .balances, .exit_balance_to_consume,
      .earliest_exit_epoch, .current_epoch_participation, .previous_epoch_participation,
      .inactivity_scores, .pending_balance_deposits, .pending_partial_withdrawals,
      .deposit_receipts_start_index, .consolidation_balance_to_consume,
      .earliest_consolidation_epoch, .pending_consolidations]).trans
      (runs_mod (map_all fun _ _ => m voluntary_exit_mod (by decide)) hp.exits)
      ((changesPre _).trans (runs_mod (later_all ?_ ?_ ?_ ?_) hp.later)
      (runs_mod (closing_all fun _ => m sync_aggregate_mod (by decide)) hp.closing))
      .eth1_deposit_index (by decide)
    · exact fun _ _ _ => m bls_change_mod (by decide)
    · exact fun _ _ _ => m withdrawal_request_mod (by decide)
    · exact fun _ _ _ => m deposit_receipt_mod (by decide)
    · exact fun _ _ _ => m consolidation_mod (by decide)
  refine ⟨fun k d hd => ?_, by rw [e4, k2, e3], ?_⟩
  · have := k1 k d hd
    unfold DepositProven at this ⊢
    rw [d3]
    rw [e3] at this
    exact this
  · have := hp.count
    unfold RightCount at this ⊢
    rw [d0]
    cases f <;> simpa only [e0, e0r] using this

/-- Where the entries of `t` that `s` does not have come from. -/
def Newcomers (E : Env) (D : List DepositData) (s t : State) : Prop :=
  s.validators.length ≤ t.validators.length ∧
  ∀ (i : Nat) w, s.validators.length ≤ i → t.validators[i]? = some w →
    ∃ d ∈ D, w.public_key = d.public_key ∧ DepositSigned E d ∧ UnknownKey s d.public_key

theorem newcomers_step (hE : SaneConfig E) {D : List DepositData} {t u : State}
    (hs : History E f s t) (h : Newcomers E D s t) (hu : History E f t u)
    (hn : u.validators.length = t.validators.length ∨
      ∃ d ∈ D, DepositSigned E d ∧ UnknownKey t d.public_key ∧
        ∃ v, v.public_key = d.public_key ∧ u.validators = t.validators ++ [v]) :
    Newcomers E D s u := by
  have hold : ∀ (i : Nat) w, s.validators.length ≤ i → i < t.validators.length →
      u.validators[i]? = some w →
      ∃ d ∈ D, w.public_key = d.public_key ∧ DepositSigned E d ∧ UnknownKey s d.public_key := by
    intro i w hi hl hw
    obtain ⟨d, hd, h1, h2, h3⟩ := h.2 i _ hi (List.getElem?_eq_getElem hl)
    obtain ⟨w', hw', hk, -⟩ := C11_registry_moves_forward E hE f t u hu i _
      (List.getElem?_eq_getElem hl)
    rw [hw] at hw'; cases hw'
    exact ⟨d, hd, hk.trans h1, h2, h3⟩
  rcases hn with hn | ⟨d, hd, h1, h2, v, hv, hn⟩
  · refine ⟨hn ▸ h.1, fun i w hi hw => hold i w hi ?_ hw⟩
    rw [← hn]; exact (List.getElem?_eq_some_iff.1 hw).1
  · refine ⟨by rw [hn, List.length_append]; have := h.1; omega, fun i w hi hw => ?_⟩
    by_cases hl : i < t.validators.length
    · exact hold i w hi hl hw
    · rw [hn, List.getElem?_append_right (by omega)] at hw
      have : w = v := by
        rcases Nat.eq_zero_or_pos (i - t.validators.length) with h0 | h0
        · rw [h0] at hw; simpa using hw.symm
        · rw [List.getElem?_eq_none (by simp; omega)] at hw; cases hw
      subst this
      refine ⟨d, hd, hv, h1, fun x hx hkey => ?_⟩
      obtain ⟨k, hk⟩ := List.getElem?_of_mem hx
      obtain ⟨y, hy, hky, -⟩ := C11_registry_moves_forward E hE f s t hs k x hk
      exact h2 y (List.mem_of_getElem? hy) (hky.trans hkey)

theorem deposit_newcomer (hE : SaneConfig E) {d : Deposit} {t u : State}
    (h : process_deposit E f d t = .ok () u) :
    (DepositSigned E d.data → ∃ v ∈ u.validators, v.public_key = d.data.public_key) ∧
    (u.validators.length = t.validators.length ∨
      DepositSigned E d.data ∧ UnknownKey t d.data.public_key ∧
        ∃ v, v.public_key = d.data.public_key ∧ u.validators = t.validators ++ [v]) := by
  obtain ⟨-, -, h⟩ := process_deposit_ok_iff.1 h
  by_cases hf : f = .Electra
  · subst hf
    cases electra_apply_deposit_eq_ok.1 h with
    | topUp i v known val signed =>
      obtain ⟨w, hw, hk⟩ := known.1
      exact ⟨fun _ => ⟨w, List.mem_of_getElem? hw, hk⟩, .inl rfl⟩
    | switch i b v known val signed switch balance =>
      obtain ⟨w, hw, hk⟩ := known.1
      rw [val] at hw; cases hw
      refine ⟨fun _ => ⟨{ v with withdrawal_credentials := v.withdrawal_credentials.set 0 2 },
        ?_, hk⟩, .inl ?_⟩
      · exact List.mem_set (List.getElem?_eq_some_iff.1 val).1 _
      · exact List.length_set ..
    | added new signed =>
      exact ⟨fun _ => ⟨newValidator d.data 0, List.mem_append_right _ (List.mem_singleton.2 rfl),
        rfl⟩, .inr ⟨signed, new, _, rfl, rfl⟩⟩
  · have h := (apply_deposit_eq_ok hf (Nat.pos_iff_ne_zero.1 hE.effective_balance_increment)).1 h
    cases h with
    | topUp i b known balance fits =>
      obtain ⟨w, hw, hk⟩ := known.1
      exact ⟨fun _ => ⟨w, List.mem_of_getElem? hw, hk⟩, .inl rfl⟩
    | added new signed =>
      have : (withValidator f { t with eth1_deposit_index := t.eth1_deposit_index + 1 }
          (newValidator d.data (depositEffective E d.data.amount)) d.data.amount).validators =
          t.validators ++ [newValidator d.data (depositEffective E d.data.amount)] := by
        unfold withValidator; split <;> rfl
      rw [this]
      exact ⟨fun _ => ⟨_, List.mem_append_right _ (List.mem_singleton.2 rfl), rfl⟩,
        .inr ⟨signed, new, _, rfl, rfl⟩⟩
    | ignored new unsigned => exact ⟨fun hs => absurd hs unsigned, .inl rfl⟩

theorem receipt_newcomer {r : DepositReceipt} {d : DepositData}
    (hd : d = ⟨r.public_key, r.withdrawal_credentials, r.amount, r.signature⟩) {t u : State}
    (h : Electra.process_deposit_receipt E r t = .ok () u) :
    (∃ v ∈ u.validators, v.public_key = d.public_key) ∧
    (u.validators.length = t.validators.length ∨
      DepositSigned E d ∧ UnknownKey t d.public_key ∧
        ∃ v, v.public_key = d.public_key ∧ u.validators = t.validators ++ [v]) := by
  have h := (C69_receipt_iff E r t u).1 h
  rw [← hd] at h
  cases h with
  | topUp i v known val signed =>
    obtain ⟨w, hw, hk⟩ := known.1
    exact ⟨⟨w, List.mem_of_getElem? hw, hk⟩, .inl rfl⟩
  | switch i b v known val signed switch balance =>
    obtain ⟨w, hw, hk⟩ := known.1
    rw [val] at hw; cases hw
    refine ⟨⟨{ v with withdrawal_credentials := v.withdrawal_credentials.set 0 2 }, ?_, hk⟩,
      .inl ?_⟩
    · exact List.mem_set (List.getElem?_eq_some_iff.1 val).1 _
    · exact List.length_set ..
  | added new signed =>
    exact ⟨⟨newValidator d 0, List.mem_append_right _ (List.mem_singleton.2 rfl), rfl⟩,
      .inr ⟨signed, new, _, rfl, rfl⟩⟩

/-- **C86** Every key a signed deposit of an accepted block is for has a validator afterwards. -/
theorem C86_depositors (hE : SaneConfig E) (hmax : 0 < E.max_deposits)
    (h : process_block E f b s = .ok () s') (d : DepositData) (hd : d ∈ depositsOf f b.body)
    (hs : DepositSigned E d) : ∃ v ∈ s'.validators, v.public_key = d.public_key := by
  have key : ∃ u, History E f u s' ∧ ∃ v ∈ u.validators, v.public_key = d.public_key := by
    rcases List.mem_append.1 hd with hd | hd
    · obtain ⟨d, hm, rfl⟩ := List.mem_map.1 hd
      obtain ⟨t, u, -, h1, h2⟩ := operation_ran hmax h (m := process_deposit E f d) (by
        simp only [operationParts, List.mem_append, List.mem_map]
        exact .inl (.inl (.inl (.inr ⟨d, hm, rfl⟩))))
      exact ⟨u, h2, (deposit_newcomer hE h1).1 hs⟩
    · split at hd
      · rename_i hf
        obtain ⟨r, hr, rfl⟩ := List.mem_map.1 hd
        obtain ⟨t, u, -, h1, h2⟩ := operation_ran hmax h
          (m := Electra.process_deposit_receipt E r) (by
            simp only [operationParts, List.mem_append, List.mem_map, if_pos hf]
            exact .inr (.inl (.inr ⟨r, hr, rfl⟩)))
        exact ⟨u, h2, (receipt_newcomer rfl h1).1⟩
      · cases hd
  obtain ⟨u, hu, v, hv, hk⟩ := key
  obtain ⟨i, hi⟩ := List.getElem?_of_mem hv
  obtain ⟨w, hw, hwk, -⟩ := C11_registry_moves_forward E hE f u s' hu i v hi
  exact ⟨w, List.mem_of_getElem? hw, hwk.trans hk⟩

/-- **C86** Every validator that is new after an accepted block has the key of a signed deposit of
the block that no validator had. -/
theorem C86_newcomers (hE : SaneConfig E) (hmax : 0 < E.max_deposits) (hslot : s.slot < 2 ^ 63)
    (h : process_block E f b s = .ok () s') (i : Nat) (w : Validator)
    (hi : s.validators.length ≤ i) (hw : s'.validators[i]? = some w) :
    ∃ d ∈ depositsOf f b.body,
      w.public_key = d.public_key ∧ DepositSigned E d ∧ UnknownKey s d.public_key := by
  obtain ⟨a0, a1, a2, a3, a4, a5, a6, hp⟩ := phases hmax h
  let D := depositsOf f b.body
  let J : State → Prop := fun t => Inside E f s t ∧ Newcomers E D s t
  have call : ∀ {m : M Unit} {t u : State}, EntryPoint E f m → m t = .ok () u →
      History E f t u := by
    intro m t u he hm
    have := History.call (History.start (E := E) (f := f) (s := t)) he
    unfold finalState at this
    rw [hm] at this
    exact this
  have same : ∀ {W : List Field} {m : M Unit} {t u : State}, Modifies W m →
      Field.validators ∉ W → m t = .ok () u → u.validators.length = t.validators.length := by
    intro W m t u h hW hm
    have g : ChangesOnly W t u := h.toOk.ok hm
    rw [show u.validators = t.validators from g .validators hW]
  have j3 : J a3 := by
    refine ⟨hp.i3, ?_⟩
    have : a3.validators.length = s.validators.length := by
      rw [show a3.validators = a2.validators from
        (runs_mod (map_all fun _ _ => attestation_mod) hp.votes) .validators (by decide), hp.length]
    refine ⟨Nat.le_of_eq this.symm, fun i w hi hw => ?_⟩
    have := (List.getElem?_eq_some_iff.1 hw).1
    omega
  have j4 : J a4 := by
    refine runs_inv (J := J) (map_all fun d hd t u ht hm =>
      ⟨inside_deposit ht.1 hm, newcomers_step hE ht.1.history ht.2
        (call (.process_deposit d) hm) ?_⟩) hp.deposits j3
    rcases (deposit_newcomer hE hm).2 with h | ⟨h1, h2, h3⟩
    · exact .inl h
    · exact .inr ⟨d.data, List.mem_append_left _ (List.mem_map_of_mem hd), h1, h2, h3⟩
  have j5 : J a5 := by
    refine runs_inv (J := J) (map_all fun op ho t u ht hm =>
      ⟨inside_exit ht.1 hm, newcomers_step hE ht.1.history ht.2
        (call (.process_voluntary_exit op) hm) (.inl ?_)⟩) hp.exits j4
    obtain ⟨-, h⟩ := (process_voluntary_exit_eq_ok (Nat.pos_iff_ne_zero.1 hE.slots_per_epoch.1)
      (by have := ht.1.slot; unfold U64_BOUND; omega)).1 hm
    obtain ⟨v, v', h⟩ := Fork.initiate_validator_exit_effect h
    rw [h.state]
    exact List.length_set ..
  have j6 : J a6 := by
    refine runs_inv (J := J) (fun m hm t u ht hmu => ⟨inside_later m hm t u ht.1 hmu, ?_⟩)
      hp.later j5
    refine (?_ : ∀ m ∈ laterParts E f b.body, ∀ t u, J t → m t = .ok () u →
      Newcomers E D s u) m hm t u ht hmu
    refine later_all ?_ ?_ ?_ ?_
    · intro hf op ho t u ht hm
      refine newcomers_step hE ht.1.history ht.2
        (call (.process_bls_to_execution_change op) hm) (.inl ?_)
      obtain ⟨w, c, -, -, rfl⟩ := (C46_credential_change_iff E op t u).1 hm
      exact List.length_set ..
    · intro hf r hr t u ht hm
      refine newcomers_step hE ht.1.history ht.2
        (call (.process_execution_layer_withdrawal_request r hf) hm) (.inl ?_)
      cases C69_request E r t u hm with
      | leave j w epoch left request queued => exact List.length_set ..
      | part => rfl
      | ignored => rfl
    · intro hf r hr t u ht hm
      refine newcomers_step hE ht.1.history ht.2 (call (.process_deposit_receipt r hf) hm) ?_
      rcases (receipt_newcomer rfl hm).2 with h | ⟨h1, h2, h3⟩
      · exact .inl h
      · refine .inr ⟨_, List.mem_append_right _ ?_, h1, h2, h3⟩
        rw [if_pos hf]
        exact List.mem_map_of_mem hr
    · intro hf op ho t u ht hm
      exact absurd hm (C69_consolidation_fails E hE.withdrawability_delay.1 op t u)
  have j7 : J s' := by
    refine runs_inv (J := J) (closing_all fun hf t u ht hm =>
      ⟨inside_closing _ (by unfold closingParts; rw [if_neg hf]; exact List.mem_singleton.2 rfl)
        t u ht.1 hm, newcomers_step hE ht.1.history ht.2
        (call (.process_sync_aggregate _) hm) (.inl (same sync_aggregate_mod (by decide) hm))⟩)
      hp.closing j6
  exact j7.2.2 i w hi hw

/-! ## Exits, credentials, requests -/

/-- **C86** Every validator whose voluntary exit an accepted block contains is leaving. -/
theorem C86_exits (hE : SaneConfig E) (hmax : 0 < E.max_deposits) (hslot : s.slot < 2 ^ 63)
    (h : process_block E f b s = .ok () s') (op : SignedVoluntaryExit)
    (hop : op ∈ b.body.voluntary_exits) :
    ∃ w, s'.validators[op.message.validator_index]? = some w ∧
      epochOf E s.slot + 1 + E.max_seed_lookahead ≤ w.exit_epoch ∧
      w.exit_epoch < FAR_FUTURE_EPOCH := by
  obtain ⟨a0, a1, a2, a3, a4, a5, a6, hp⟩ := phases hmax h
  obtain ⟨l, r, t, u, he, h1, h2, h3⟩ := runs_mem (List.mem_map_of_mem hop) hp.exits
  have it : Inside E f s t := runs_inv (J := Inside E f s) (fun m hm t u ht hmu => by
    have : m ∈ b.body.voluntary_exits.map (process_voluntary_exit E f) := by
      rw [he]; exact List.mem_append_left _ hm
    obtain ⟨op', -, rfl⟩ := List.mem_map.1 this
    exact inside_exit ht hmu) h1 hp.i4
  obtain ⟨⟨v, hv, k1, k2⟩, -⟩ := C27_voluntary_exit_once E hE f f op t u t
    (by have := it.slot; omega) h2
  have k5 : History E f u a5 := runs_history (fun m hm => by
      have : m ∈ b.body.voluntary_exits.map (process_voluntary_exit E f) := by
        rw [he]; exact List.mem_append_right _ (List.mem_cons_of_mem _ hm)
      obtain ⟨op', -, rfl⟩ := List.mem_map.1 this
      exact .process_voluntary_exit _) .start h3
  have k6 := runs_history (later_all (fun _ _ _ => .process_bls_to_execution_change _)
      (fun hf _ _ => .process_execution_layer_withdrawal_request _ hf)
      (fun hf _ _ => .process_deposit_receipt _ hf)
      (fun hf _ _ => .process_consolidation _ hf)) k5 hp.later
  have k7 := runs_history (fun _ => closingParts_entry) k6 hp.closing
  obtain ⟨w, hw, -, -, -, -, hx, -⟩ := C11_registry_moves_forward E hE f u s' k7 _ v hv
  have := hx (by omega)
  refine ⟨w, hw, ?_, ?_⟩
  · rw [this, ← it.slot]; exact k1
  · rw [this]; exact k2

/-- **C86** Every validator whose change of withdrawal credentials a block accepted from capella on
contains has credentials for the address it names. -/
theorem C86_credentials (hE : SaneConfig E) (hmax : 0 < E.max_deposits)
    (hf : Fork.withdraws f = true) (h : process_block E f b s = .ok () s')
    (op : SignedBlsToExecutionChange) (hop : op ∈ b.body.bls_to_execution_changes) :
    ∃ w, s'.validators[op.message.validator_index]? = some w ∧
      w.withdrawal_credentials[0] ≠ 0 ∧
      w.withdrawal_credentials.toList.drop 1 =
        (executionCredentials op.message.to_execution_address).drop 1 := by
  obtain ⟨t, u, -, h1, h2⟩ := operation_ran hmax h (m := process_bls_to_execution_change E op) (by
    simp only [operationParts, List.mem_append, List.mem_map, if_pos hf]
    exact .inl (.inr ⟨op, hop, rfl⟩))
  obtain ⟨v, c, k1, k2, rfl⟩ := (C46_credential_change_iff E op t u).1 h1
  obtain ⟨w, hw, h3, h4⟩ := C11_withdrawal_address_is_fixed E hE f _ s' h2
    op.message.validator_index { v with withdrawal_credentials := c }
    (List.getElem?_set_self (List.getElem?_eq_some_iff.1 k1.exists_validator).1) (by
      have : c[0] = 1 := by
        have h5 : c.toList[0]? = some 1 := by rw [k2]; rfl
        simpa using h5
      show c[0] ≠ 0
      rw [this]; decide)
  exact ⟨w, hw, h3, by rw [h4]; show c.toList.drop 1 = _; rw [k2]⟩

/-- **C86** Every request of the execution layer in an accepted electra block has had its effect in
a state between the two. -/
theorem C86_requests (hmax : 0 < E.max_deposits) (h : process_block E .Electra b s = .ok () s')
    (r : ExecutionLayerWithdrawalRequest) (hr : r ∈ b.body.execution_payload.withdrawal_requests) :
    ∃ t u, History E .Electra s t ∧ t.slot = s.slot ∧ RequestEffect E t r u ∧
      History E .Electra u s' := by
  obtain ⟨a0, a1, a2, a3, a4, a5, a6, hp⟩ := phases hmax h
  obtain ⟨l, q, t, u, he, h1, h2, h3⟩ := runs_mem
    (m := Electra.process_execution_layer_withdrawal_request E r) (by
      simp only [laterParts, List.mem_append, List.mem_map, if_pos]
      exact .inr (.inl (.inl ⟨r, hr, rfl⟩))) hp.later
  have it : Inside E .Electra s t := runs_inv (J := Inside E .Electra s) (fun m hm =>
    inside_later m (he ▸ List.mem_append_left _ hm)) h1 hp.i5
  have k6 : History E .Electra u a6 := runs_history (fun m hm => by
    have : m ∈ laterParts E .Electra b.body := he ▸ List.mem_append_right _ (.tail _ hm)
    exact later_all (P := EntryPoint E .Electra) (fun _ _ _ => .process_bls_to_execution_change _)
      (fun hf _ _ => .process_execution_layer_withdrawal_request _ hf)
      (fun hf _ _ => .process_deposit_receipt _ hf)
      (fun hf _ _ => .process_consolidation _ hf) m this) .start h3
  exact ⟨t, u, it.history, it.slot, C69_request E r t u h2,
    runs_history (fun _ => closingParts_entry) k6 hp.closing⟩

/-- **C86** No block with consolidations is accepted (see C69). -/
theorem C86_consolidations (hE : SaneConfig E) (hmax : 0 < E.max_deposits)
    (h : process_block E .Electra b s = .ok () s') : b.body.consolidations = [] := by
  cases hc : b.body.consolidations with
  | nil => rfl
  | cons op l =>
    obtain ⟨t, u, -, h1, -⟩ := operation_ran hmax h (m := Electra.process_consolidation E op) (by
      simp only [operationParts, List.mem_append, List.mem_map, if_pos]
      exact .inr (.inr ⟨op, by rw [hc]; exact List.mem_cons_self, rfl⟩))
    exact absurd h1 (C69_consolidation_fails E hE.withdrawability_delay.1 op t u)

/-! ## The end -/

/-- **C86** From altair on the sync aggregate of an accepted block is signed by the sync committee
the state had, over the block of the slot before. -/
theorem C86_sync (hmax : 0 < E.max_deposits) (hf : f ≠ .Phase0)
    (h : process_block E f b s = .ok () s') : SyncSigned E s b.body.sync_aggregate := by
  obtain ⟨a0, a1, a2, a3, a4, a5, a6, hp⟩ := phases hmax h
  have hc := hp.closing
  unfold closingParts at hc
  rw [if_neg hf] at hc
  obtain ⟨⟨root, h1, h2⟩, -⟩ := sync_aggregate_ok (runs_single.1 hc)
  have i := hp.i6
  rw [i.root, i.slot] at h1
  rw [i.domain, i.slot, show a6.current_sync_committee = s.current_sync_committee from
    i.still .current_sync_committee (by decide)] at h2
  exact ⟨root, h1, h2⟩

/-- **C86** The proposer of a block is that of the state, and still is when the block has been
processed, whatever the block did to it. -/
theorem C86_proposer (hE : SaneConfig E) (hmax : 0 < E.max_deposits)
    (hV : E.min_seed_lookahead + 2 < E.epochs_per_historical_vector)
    (hslot : s.slot < 2 ^ 63) (hreg : s.validators.length ≤ 2 ^ 40)
    (h : process_block E f b s = .ok () s') :
    get_beacon_proposer_index E s = .ok b.proposer_index ∧
    get_beacon_proposer_index E s' = .ok b.proposer_index := by
  obtain ⟨a0, a1, a2, a3, a4, a5, a6, hp⟩ := phases hmax h
  exact ⟨hp.proposer hE hreg hslot hV .start, hp.proposer hE hreg hslot hV hp.i7⟩

/-- **C86** An accepted block changes no registry entry that it does not name. -/
theorem C86_registry (hE : SaneConfig E) (hmax : 0 < E.max_deposits) (hslot : s.slot < 2 ^ 63)
    (h : process_block E f b s = .ok () s') (i : Nat) (v : Validator)
    (hv : s.validators[i]? = some v) (hn : ¬ Named f b.body i v.public_key) :
    s'.validators[i]? = some v := entry_kept hE hmax hslot h hv hn

/-- **C86** An accepted block changes no balance but those of its proposer, of the sync committee
and of the validators it slashes, pays withdrawals or has deposits for. -/
theorem C86_balances (hE : SaneConfig E) (hmax : 0 < E.max_deposits)
    (hV : E.min_seed_lookahead + 2 < E.epochs_per_historical_vector)
    (hslot : s.slot < 2 ^ 63) (hreg : s.validators.length ≤ 2 ^ 40) (hpar : Parallel f s)
    (h : process_block E f b s = .ok () s') (i : Nat) (v : Validator)
    (hv : s.validators[i]? = some v) (hn : ¬ Paid f s b i v.public_key) :
    s'.balances[i]? = s.balances[i]? := balance_kept hE hmax hV hslot hreg hpar h hv hn

/-! ## The hypotheses hold of concrete blocks -/

theorem toy_far : Toy.env.min_seed_lookahead + 3 < Toy.env.epochs_per_historical_vector ∧
    0 < Toy.env.max_deposits := by decide

/-- The state after a block -/
def after (f : Fork) (s : State) (body : BeaconBlockBody) : State :=
  finalState (process_block Toy.env f (Toy.block s body)) s

/-- A block with a proposer slashing, an attester slashing, an attestation and a deposit -/
theorem toy_due : process_block Toy.env .Deneb (Toy.block dueState fullBody) dueState =
    .ok () (after .Deneb dueState fullBody) :=
  Toy.ok_of_succeeds (by decide +kernel)

/-- the same in phase0 -/
theorem toy_due_phase0 : process_block Toy.env .Phase0 (Toy.block dueState fullBody) dueState =
    .ok () (after .Phase0 dueState fullBody) :=
  Toy.ok_of_succeeds (by decide +kernel)

/-- A late state whose validators have BLS credentials -/
def lateState : State :=
  { Toy.state 8 600 with
    validators := (List.range 8).map fun n =>
      { Toy.validator n with
        withdrawal_credentials := (Toy.hash (Toy.pk n).toList).set 0 0 } }

/-- Validator 3 leaves, and first says where to send its stake. -/
def leavingBody : BeaconBlockBody :=
  { Toy.body lateState with voluntary_exits := [exitOp], bls_to_execution_changes := [change] }

theorem toy_leaving : process_block Toy.env .Capella (Toy.block lateState leavingBody) lateState =
    .ok () (after .Capella lateState leavingBody) :=
  Toy.ok_of_succeeds (by decide +kernel)

/-- Validators with compounding credentials and something to spare -/
def askingState : State :=
  let creds : Bytes32 :=
    Vector.ofFn fun i : Fin 32 => if i.val = 0 then 2 else if i.val < 12 then 0 else 9
  let s := Toy.state 8 520
  { s with
    validators := s.validators.map fun v => { v with withdrawal_credentials := creds }
    balances := s.balances.map (· + 8000000000)
    deposit_receipts_start_index := 2 ^ 64 - 1 }

/-- An electra block with requests and receipts of the execution layer -/
def requestBody : BeaconBlockBody :=
  let b := Toy.body askingState
  { b with execution_payload := { b.execution_payload with
      withdrawal_requests := [requestFor 1 5000000000, requestFor 0 0]
      deposit_receipts := [⟨Toy.pk 1, zeroBytes 32, 1000000000, Toy.goodSig, 17⟩,
        ⟨Toy.pk 17, zeroBytes 32, 32000000000, Toy.goodSig, 18⟩] } }

theorem toy_request : process_block Toy.env .Electra (Toy.block askingState requestBody)
    askingState = .ok () (after .Electra askingState requestBody) :=
  Toy.ok_of_succeeds (by decide +kernel)

example : SweepReady Toy.env dueState := by constructor <;> decide +kernel
example : Parallel .Deneb dueState := by unfold Parallel; decide +kernel
example : HasPayload .Deneb dueState fullBody := by decide +kernel

/-! What the theorems say about these blocks -/

example : ∃ w, (after .Deneb dueState fullBody).validators[
    equivocation.signed_header_1.message.proposer_index]? = some w ∧ w.slashed = true :=
  C86_proposer_slashings toy_sane toy_far.2 toy_due equivocation List.mem_cons_self

example : ∃ v ∈ (after .Deneb dueState fullBody).validators, v.public_key = Toy.pk 20 :=
  C86_depositors toy_sane toy_far.2 toy_due (depositOf 20 Toy.goodSig).data
    List.mem_cons_self (by unfold DepositSigned; decide +kernel)

example : SyncSigned Toy.env dueState fullBody.sync_aggregate :=
  C86_sync toy_far.2 (by decide) toy_due

example : ∃ w, (after .Capella lateState leavingBody).validators[3]? = some w ∧
    80 ≤ w.exit_epoch ∧ w.exit_epoch < FAR_FUTURE_EPOCH := by
  obtain ⟨w, h1, h2, h3⟩ := C86_exits toy_sane toy_far.2 (by decide) toy_leaving exitOp
    List.mem_cons_self
  exact ⟨w, h1, Nat.le_trans (by decide +kernel) h2, h3⟩

example : ∃ v ∈ (after .Electra askingState requestBody).validators, v.public_key = Toy.pk 17 :=
  C86_depositors toy_sane toy_far.2 toy_request
    ⟨Toy.pk 17, zeroBytes 32, 32000000000, Toy.goodSig⟩ (.tail _ (.head _))
    (by unfold DepositSigned; decide +kernel)

end Verif.Props
