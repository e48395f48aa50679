import Verif.Proofs.AdvanceEpoch
import Verif.Props.Parts

/-! # A block without operations is accepted -/

namespace Verif

open Spec Props

variable {T : Err → Prop} {E : Env} {f : Fork} {s s' : State} {b : BeaconBlock}

theorem get_domain_firm {d : DomainType} {e : Option Nat} : Firm T (get_domain E s d e) := by
  unfold get_domain
  cases e <;> firm [current_epoch_firm]

theorem sync_rewards_firm (hT : effectiveSum s < 2 ^ 64) : Firm T (sync_rewards E s) := by
  unfold sync_rewards get_base_reward_per_increment
  firm [total_active_firm hT]

theorem seats_firm : Firm T (sync_committee_indices s) := by
  unfold sync_committee_indices
  refine Firm_mapM fun k _ => ?_
  split
  · exact Firm_ok
  · exact Firm_panic

theorem sync_aggregate_firm {a : SyncAggregate} {p : Nat} (hT : effectiveSum s < 2 ^ 64)
    (hp : get_beacon_proposer_index E s = .ok p) (hs : SyncSigned E s a) :
    FirmM T (process_sync_aggregate E a) s := by
  obtain ⟨root, hr, hsig⟩ := hs
  have hslot : max s.slot 1 - 1 = s.slot - 1 := by omega
  unfold process_sync_aggregate
  refine FirmM_get_bind (FirmM_lift_bind (by firm []) fun n hn => ?_)
  obtain ⟨rfl, -⟩ := sub_eq_ok.1 hn
  rw [hslot]
  refine FirmM_lift_bind (by unfold compute_epoch_at_slot; firm []) fun e he => ?_
  refine FirmM_lift_bind get_domain_firm fun d hd => ?_
  refine FirmM_lift_bind (Firm_of_ok hr) fun r hr' => ?_
  rw [hr] at hr'
  cases hr'
  refine FirmM_lift_bind (Firm_of_ok (a := ()) ?_) fun _ _ => ?_
  · unfold compute_epoch_at_slot at he
    obtain ⟨rfl, -⟩ := div_eq_ok.1 he
    rw [get_domain_some] at hd
    cases hd
    rw [rejectIf_eq_ok]
    simp only [Bool.not_eq_false', eth_fast_aggregate_verify, signers_eq]
    split
    · rfl
    · rename_i hc
      rcases hsig with ⟨h1, h2⟩ | h
      · exact absurd (by simp [h1, h2, infinitySignature]) hc
      · exact h
  refine FirmM_lift_bind (sync_rewards_firm hT) fun r _ => ?_
  refine FirmM_lift_bind seats_firm fun l _ => ?_
  refine FirmM_forEach' (fun _ t => get_beacon_proposer_index E t = .ok p) ?_ hp
  intro x rest t ht
  unfold apply_sync_reward
  have inc : ∀ {i d : Nat} {u v : State}, increase_balance i d u = .ok () v →
      get_beacon_proposer_index E v = get_beacon_proposer_index E u := by
    intro i d u v h
    unfold increase_balance at h
    simp only [run] at h
    obtain ⟨_, -, _, -, rfl⟩ := h
    exact proposer_congr ⟨rfl, rfl, rfl, fun _ => rfl⟩
  have dec : ∀ {i d : Nat} {u v : State}, decrease_balance i d u = .ok () v →
      get_beacon_proposer_index E v = get_beacon_proposer_index E u := by
    intro i d u v h
    unfold decrease_balance at h
    simp only [run] at h
    obtain ⟨_, -, _, _, ⟨-, -, rfl⟩ | ⟨-, -, rfl⟩, rfl⟩ := h <;>
      exact proposer_congr ⟨rfl, rfl, rfl, fun _ => rfl⟩
  split
  · refine ⟨FirmM_bind increase_firm fun _ u hu => FirmM_get_bind (FirmM_lift_bind
      (Firm_of_ok ((inc hu).trans ht)) fun _ _ => increase_firm), fun v hv => ?_⟩
    simp only [run] at hv
    obtain ⟨u, hu, q, -, hv⟩ := hv
    rw [inc hv, inc hu, ht]
  · exact ⟨decrease_firm, fun u hu => (dec hu).trans ht⟩

theorem mixAt_exists (hE : SaneConfig E) (h : Wellformed E s) {e : Nat} :
    ∃ mix, mixAt E s e = some mix := by
  have hpos := hE.epochs_per_historical_vector
  have := Nat.mod_lt e (show 0 < E.epochs_per_historical_vector by omega)
  unfold mixAt
  exact ⟨_, List.getElem?_eq_getElem (by rw [h.shaped.randao_mixes]; exact this)⟩

theorem votingPeriod_lt (hE : SaneConfig E) (hq : SaneQuotients E) :
    votingPeriodSlots E < 2 ^ 63 := by
  have := Nat.mul_le_mul hq.eth1_voting_period hE.slots_per_epoch.2
  unfold votingPeriodSlots
  omega

/-- The opening of a block succeeds if its parts do. -/
theorem opening_runs_of (hE : SaneConfig E) (hq : SaneQuotients E) (h : Wellformed E s)
    (hvotes : s.eth1_data_votes.length < 2 ^ 62) (hh : ValidHeader E s b)
    (hv : ValidReveal E s b.body.randao_reveal)
    (hpay : HasPayload f s b.body →
      PayloadFits E f { s with latest_block_header := headerOf E f b } b.body)
    (h2 : ∃ t2, if Fork.withdraws f then
      process_withdrawals E f b.body.execution_payload
        { s with latest_block_header := headerOf E f b } = .ok () t2
      else t2 = { s with latest_block_header := headerOf E f b }) :
    ∃ t, Runs (openingParts E f s b) s t ∧ t.eth1_data = eth1After E s b.body ∧
      t.eth1_deposit_index = s.eth1_deposit_index := by
  have h1 : process_block_header E f b s =
      .ok () { s with latest_block_header := headerOf E f b } :=
    process_block_header_eq_ok.2 ⟨hh, rfl⟩
  obtain ⟨t2, h2⟩ := h2
  have hw : ChangesOnly [.balances, .pending_partial_withdrawals, .next_withdrawal_index,
      .next_withdrawal_validator_index] { s with latest_block_header := headerOf E f b } t2 := by
    split at h2
    · exact withdrawals_mod.toOk.ok h2
    · rw [h2]; exact (changesPre _).refl _
  obtain ⟨t3, h3⟩ : ∃ t3, if HasPayload f s b.body then
      process_execution_payload E f b.body t2 = .ok () t3 else t3 = t2 := by
    split
    · rename_i hh
      refine ⟨_, (C47_execution_payload_iff E hE f b.body t2 _).2 ⟨?_, rfl⟩⟩
      have e1 : t2.latest_execution_payload_header = s.latest_execution_payload_header :=
        hw .latest_execution_payload_header (by decide)
      have e2 : t2.randao_mixes = s.randao_mixes := hw .randao_mixes (by decide)
      have e3 : t2.slot = s.slot := hw .slot (by decide)
      have e4 : t2.genesis_time = s.genesis_time := hw .genesis_time (by decide)
      have e5 : t2.latest_block_header = headerOf E f b := hw .latest_block_header (by decide)
      obtain ⟨k1, k2, k3, k4, k5, k6⟩ := hpay hh
      refine ⟨?_, ?_, ?_, ?_, k5, ?_⟩
      · unfold MergeComplete; rw [e1]; exact k1
      · unfold mixAt; rw [e2, e3]; exact k2
      · rw [e3, e4]; exact k3
      · rw [e3, e4]; exact k4
      · unfold payload_request; rw [e5]; exact k6
    · exact ⟨_, rfl⟩
  have hc := opening_changes h1 h2 h3
  have e1 : t3.slot = s.slot := hc .slot (by decide)
  have e2 : t3.validators = s.validators := hc .validators (by decide)
  have e3 : t3.randao_mixes = s.randao_mixes := hc .randao_mixes (by decide)
  have e4 : t3.fork = s.fork := hc .fork (by decide)
  have e5 : t3.genesis_validators_root = s.genesis_validators_root :=
    hc .genesis_validators_root (by decide)
  have e6 : t3.eth1_data_votes = s.eth1_data_votes := hc .eth1_data_votes (by decide)
  have e7 : t3.eth1_data = s.eth1_data := hc .eth1_data (by decide)
  have e8 : t3.eth1_deposit_index = s.eth1_deposit_index := hc .eth1_deposit_index (by decide)
  have he : get_beacon_proposer_index E t3 = get_beacon_proposer_index E s :=
    proposer_congr ⟨e1, e3, by unfold activeIndices; rw [e2], fun i => by rw [e2]⟩
  obtain ⟨mix, hm⟩ := mixAt_exists (e := epochOf E s.slot) hE h
  have h4 := (C18_process_randao_iff E hE b.body t3 _).2 ⟨by
    obtain ⟨p, v, k1, k2, k3⟩ := hv
    refine ⟨p, v, he.trans k1, by rw [e2]; exact k2, ?_⟩
    unfold domainAt versionAt
    rw [e1, e4, e5]
    exact k3, mix, by unfold mixAt; rw [e1, e3]; exact hm, rfl⟩
  obtain ⟨t5, h5, g1, g2⟩ : ∃ t5, process_eth1_data E b.body { t3 with
      randao_mixes := t3.randao_mixes.set (epochOf E t3.slot % E.epochs_per_historical_vector)
        (Vector.zipWith (· ^^^ ·) mix (E.hash b.body.randao_reveal.toList)) } = .ok () t5 ∧
      t5.eth1_data = (if votingPeriodSlots E < 2 * (t3.eth1_data_votes.count b.body.eth1_data + 1)
        then b.body.eth1_data else t3.eth1_data) ∧
      t5.eth1_deposit_index = t3.eth1_deposit_index :=
    ⟨_, C24_process_eth1_data E (votingPeriod_lt hE hq) b.body _
      (by show t3.eth1_data_votes.length < 2 ^ 62; rw [e6]; exact hvotes), rfl, rfl⟩
  refine ⟨t5, ?_, ?_, g2.trans e8⟩
  · unfold openingParts
    refine runs_append.2 ⟨t3, runs_append.2 ⟨t2, runs_append.2 ⟨_, runs_single.2 h1, ?_⟩, ?_⟩,
      _, h4, runs_single.2 h5⟩
    · split at h2
      · rw [if_pos ‹_›]; exact runs_single.2 h2
      · rw [if_neg ‹_›]; exact h2
    · split at h3
      · rw [if_pos ‹_›]; exact runs_single.2 h3
      · rw [if_neg ‹_›]; exact h3
  · rw [g1, e6, e7]
    rfl

/-- The opening of an acceptable block succeeds. -/
theorem opening_runs (hE : SaneConfig E) (hq : SaneQuotients E) (hf : f ≠ .Electra)
    (h : Wellformed E s) (hb : BlockReady E f s b.body) (ha : Acceptable E f s b) :
    ∃ t, Runs (openingParts E f s b) s t ∧ t.eth1_data = eth1After E s b.body ∧
      t.eth1_deposit_index = s.eth1_deposit_index := by
  refine opening_runs_of hE hq h hb.votes ha.header ha.reveal ha.payload ?_
  split
  · rename_i hw
    have hs := hb.sweep (by revert hw; cases f <;> decide)
    have hp := ha.withdrawals hw
    have hr := process_withdrawals_eq (s := { s with latest_block_header := headerOf E f b })
      (ws := b.body.execution_payload.withdrawals) (p := b.body.execution_payload) hE hf
      ⟨hs.1, hs.2, hs.3, hs.4, hs.5, hs.6, hs.7⟩ ⟨hp.payees, hp.indices, hp.exact⟩
    rw [if_pos rfl] at hr
    exact ⟨_, hr⟩
  · exact ⟨_, rfl⟩

theorem FirmM_bind_ok {α β : Type} {m : M α} {g : α → M β} {a : α} (h : m s = .ok a s')
    (hg : FirmM T (g a) s') : FirmM T (m >>= g) s := by
  refine FirmM_bind (fun e u he => by rw [h] at he; cases he) fun a' u ha => ?_
  rw [h] at ha
  cases ha
  exact hg

/-- A block without operations does not fail but by a panic. -/
theorem plain_firm (hE : SaneConfig E) (hmax : 0 < E.max_deposits)
    (hV : E.min_seed_lookahead + 2 < E.epochs_per_historical_vector) (h : Wellformed E s)
    (hreg : s.validators.length ≤ 2 ^ 40) (hT : effectiveSum s < 2 ^ 64) {t : State}
    (hrun : Runs (openingParts E f s b) s t) (hc : RightCount E f t b.body)
    (hno : operationParts E f b.body = []) (hh : ValidHeader E s b)
    (hsync : f ≠ .Phase0 → SyncSigned E s b.body.sync_aggregate) :
    FirmM (fun _ => False) (process_block E f b) s := by
  have hin : Inside E f s t := runs_inv (J := Inside E f s) inside_opening hrun .start
  have hops : Runs (operationParts E f b.body) t t := by
    rw [hno]
    rfl
  have hrun' := hrun
  unfold openingParts at hrun'
  rw [List.append_assoc, List.append_assoc, runs_append, ← List.append_assoc] at hrun'
  obtain ⟨t1, h1, h2⟩ := hrun'
  obtain ⟨t2, h2, h3⟩ := runs_append.1 h2
  obtain ⟨t3, h3, h4⟩ := h3
  have h1 := runs_single.1 h1
  have h2 := (payload_parts (s₀ := s) (by rw [(process_block_header_eq_ok.1 h1).2])).2 h2
  unfold process_block
  refine FirmM_bind_ok h1 (FirmM_bind_ok h2 (FirmM_bind_ok h3 (FirmM_bind_ok (runs_single.1 h4)
    (FirmM_bind_ok ((operations_parts hmax).2 ⟨hc, hops⟩) ?_))))
  have hagg : f ≠ .Phase0 → FirmM (fun _ => False) (process_sync_aggregate E b.body.sync_aggregate)
      t := by
    intro h0
    have hp := hh.proposer
    rw [← inside_proposer hE hreg (by have := h.slot; omega) hV hin] at hp
    refine sync_aggregate_firm ?_ hp ?_
    · have hm := fun {W V : List Field} {α : Type} {m : M α} (h : Modifies W m) (hs : W ⊆ V) =>
        (Modifies.mono h hs : Modifies V m)
      have hval : t.validators = s.validators :=
        runs_mod (W := [.latest_block_header, .balances, .pending_partial_withdrawals,
          .next_withdrawal_index, .next_withdrawal_validator_index,
          .latest_execution_payload_header, .randao_mixes, .eth1_data, .eth1_data_votes])
          (opening_all (hm header_mod (by decide)) (fun _ => hm withdrawals_mod (by decide))
            (hm payload_mod (by decide)) (hm randao_mod (by decide)) (hm eth1_mod (by decide)))
          hrun .validators (by decide)
      unfold effectiveSum at *
      rw [hval]
      exact hT
    · obtain ⟨root, k1, k2⟩ := hsync h0
      refine ⟨root, ?_, ?_⟩
      · rw [hin.root, hin.slot]; exact k1
      · rw [hin.domain, hin.slot, show t.current_sync_committee = s.current_sync_committee from
          hin.still .current_sync_committee (by decide)]
        exact k2
  cases f <;> first | exact FirmM_pure | exact hagg (by decide)

/-- A block without operations is accepted if it is acceptable. -/
theorem plain_block (hE : SaneConfig E) (hq : SaneQuotients E) (hmax : 0 < E.max_deposits)
    (hV : E.min_seed_lookahead + 2 < E.epochs_per_historical_vector) (hf : f ≠ .Electra)
    (h : Wellformed E s) (hb : BlockReady E f s b.body) (hn : NoOperations b.body)
    (ha : Acceptable E f s b) :
    ∃ s', process_block E f b s = .ok () s' ∧ Wellformed E s' ∧ s'.slot = s.slot := by
  obtain ⟨t, hrun, g1, g2⟩ := opening_runs hE hq hf h hb ha
  have hc : RightCount E f t b.body := by
    have : t.eth1_data.deposit_count = t.eth1_deposit_index := by rw [g1, g2]; exact ha.deposits
    unfold RightCount
    cases f <;> first | exact absurd rfl hf | exact ⟨by omega, by rw [hn.deposits, this]; simp⟩
  have hno : operationParts E f b.body = [] := by
    unfold operationParts
    rw [hn.1, hn.2, hn.3, hn.4, hn.5, hn.6, if_neg hf]
    simp
  have hreg := hb.registry
  have hst := hb.stake
  exact ((block_calm hE hq hf h hb).sure (plain_firm hE hmax hV h (by omega) (by omega) hrun hc hno
    ha.header ha.sync)).total

end Verif
