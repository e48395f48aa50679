import Verif.Proofs.AdvanceBlock
import Verif.Proofs.AdvanceElectra
import Verif.Spec.AdvanceElectra

/-! # A block of electra without operations is accepted -/

namespace Verif

open Spec Props

variable {T : Err → Prop} {E : Env} {s s' : State} {b : BeaconBlock}

theorem paysRequests_unique {rs : List PendingPartialWithdrawal} {n c : Nat}
    {ps qs : List Withdrawal} (h : PaysRequests E s rs n ps) (h' : PaysRequests E s rs n qs)
    (hc : ∀ w ∈ ps, w.validator_index = c) (hc' : ∀ w ∈ qs, w.validator_index = c) : ps = qs := by
  have l1 : ps.length = rs.length := by simpa using congrArg List.length h.amounts
  have l2 : qs.length = rs.length := by simpa using congrArg List.length h'.amounts
  apply List.ext_getElem (by omega)
  intro k k1 k2
  have hr := List.getElem?_eq_getElem (l := rs) (i := k) (by omega)
  have e1 := List.getElem?_eq_getElem k1
  have e2 := List.getElem?_eq_getElem k2
  have a1 : ps[k].amount = qs[k].amount := by
    have := congrArg (·[k]?) (h.amounts.trans h'.amounts.symm)
    simp only [List.getElem?_map, e1, e2, Option.map_some, Option.some.injEq] at this
    exact this
  have i1 : ps[k].index = qs[k].index := by
    have hi : ps.map (·.index) = qs.map (·.index) := by
      rw [h.indices, h'.indices, l1, l2]
    have := congrArg (·[k]?) hi
    simp only [List.getElem?_map, e1, e2, Option.map_some, Option.some.injEq] at this
    exact this
  obtain ⟨v, hv, hva⟩ := h.addresses k _ _ hr e1
  obtain ⟨w, hw, hwa⟩ := h'.addresses k _ _ hr e2
  rw [hv] at hw
  cases hw
  have d1 : ps[k].address = qs[k].address := Vector.toList_inj.1 (hva.trans hwa.symm)
  have v1 : ps[k].validator_index = qs[k].validator_index :=
    (hc _ (List.getElem_mem k1)).trans (hc' _ (List.getElem_mem k2)).symm
  generalize ps[k] = x at *
  generalize qs[k] = y at *
  cases x; cases y
  simp_all

theorem electraPays_unique {a c : List Withdrawal} (h : ElectraPays E s a)
    (h' : ElectraPays E s c) : a = c := by
  obtain ⟨p1, r1, rfl, g1, g2, g3⟩ := h
  obtain ⟨p2, r2, rfl, k1, k2, k3⟩ := h'
  obtain rfl := paysRequests_unique g1 k1 g2 k2
  rw [pays_unique g3 k3]

theorem electra_expected (hE : SaneConfig E) (hz : SaneElectra E) (hqs : Queues E s)
    (hs : SweepReady E s) : ∃ ws n, get_expected_withdrawals E .Electra s = .ok (ws, n) ∧
      ElectraPays E s ws ∧ ∀ w ∈ ws, w.validator_index < s.balances.length := by
  obtain ⟨ps, ws, h1, h2, h3, h4⟩ := electra_expected_eq hE hs hqs.withdrawals hz.partials
  refine ⟨_, _, h1, ⟨ps, ws, rfl, h2, h3, h4⟩, ?_⟩
  rw [hs.balances]
  intro w hw
  rcases List.mem_append.1 hw with hw | hw
  · rw [h3 w hw]; exact hs.cursor
  · obtain ⟨-, v, hv, -⟩ := h4.exact w hw
    exact (List.getElem?_eq_some_iff.1 hv).1

/-- The withdrawals are accepted if they are the right ones. -/
theorem electra_withdrawals_firm (hE : SaneConfig E) (hz : SaneElectra E) (hqs : Queues E s)
    (hs : SweepReady E s) {p : ExecutionPayload} (hp : ElectraPays E s p.withdrawals) :
    FirmM T (process_withdrawals E .Electra p) s := by
  obtain ⟨ws, n, h1, h2, -⟩ := electra_expected hE hz hqs hs
  have he := electraPays_unique hp h2
  unfold process_withdrawals next_withdrawal_index_of next_sweep_start
  refine FirmM_get_bind (FirmM_lift_bind (Firm_of_ok h1) fun r hr => ?_)
  rw [h1] at hr
  cases hr
  refine FirmM_lift_bind (Firm_of_ok (a := ()) (rejectIf_eq_ok.2 (by simpa using he)))
    fun _ _ => ?_
  firm [decrease_firm]

theorem electra_withdrawals_ok (hE : SaneConfig E) (hz : SaneElectra E) (hqs : Queues E s)
    (hs : SweepReady E s) {p : ExecutionPayload}
    (h : process_withdrawals E .Electra p s = .ok () s') : ElectraPays E s p.withdrawals := by
  obtain ⟨ws, n, h1, h2, h3⟩ := electra_expected hE hz hqs hs
  rw [(electra_process_ok h1 h3 h).1]
  exact h2

theorem electraPays_header {h : BeaconBlockHeader} {ws : List Withdrawal}
    (hp : ElectraPays E s ws) : ElectraPays E { s with latest_block_header := h } ws := by
  obtain ⟨ps, rest, e, h1, h2, h3⟩ := hp
  exact ⟨ps, rest, e, ⟨h1.amounts, h1.indices, h1.addresses⟩, h2,
    ⟨h3.payees, h3.indices, h3.exact⟩⟩

/-- The opening of an acceptable block succeeds. -/
theorem electra_opening_runs (hE : SaneConfig E) (hq : SaneQuotients E) (hz : SaneElectra E)
    (h : Wellformed E s) (hqs : Queues E s) (hb : ElectraBlockReady E s b.body)
    (ha : ElectraAcceptable E s b) :
    ∃ t, Runs (openingParts E .Electra s b) s t ∧ t.eth1_data = eth1After E s b.body ∧
      t.eth1_deposit_index = s.eth1_deposit_index := by
  refine opening_runs_of hE hq h hb.votes ha.header ha.reveal (fun _ => ha.payload) ?_
  simp only [show Fork.withdraws .Electra = true from rfl, if_true]
  have hs := hb.sweep
  have hr0 : Room 0 s := (electra_block_room hb).le (Nat.zero_le _)
  have hx : Exits E 0 { s with latest_block_header := headerOf E .Electra b } := by
    refine ⟨hqs.congr rfl rfl rfl rfl, ?_⟩
    have h1 := hb.exits
    have h2 := exitable_le (s := s)
    have h3 := hb.stake
    unfold ExitRoom
    show max s.earliest_exit_epoch _ + exitable s + 0 < _
    omega
  have hw : Wellformed E { s with latest_block_header := headerOf E .Electra b } :=
    ⟨⟨h.shaped.1, h.shaped.2, h.shaped.3, h.shaped.4, h.shaped.5, h.shaped.6⟩, h.balances, h.slot,
      h.effective, h.exit, h.eligible⟩
  obtain ⟨t2, h2, -⟩ := ((electra_withdrawals_calm (E := E) (k := 0) (x := 0)
    (s := { s with latest_block_header := headerOf E .Electra b }) hE hz hw
    ⟨hr0.stake, hr0.balances, hr0.slashings⟩ hx ⟨hs.1, hs.2, hs.3, hs.4, hs.5, hs.6, hs.7⟩
    b.body.execution_payload).sure
    (electra_withdrawals_firm (T := fun _ => False)
      (s := { s with latest_block_header := headerOf E .Electra b }) hE hz (hqs.congr rfl rfl rfl rfl)
      ⟨hs.1, hs.2, hs.3, hs.4, hs.5, hs.6, hs.7⟩
      (electraPays_header ha.withdrawals))).total
  exact ⟨t2, h2⟩

/-- A block without operations is accepted if it is acceptable. -/
theorem electra_plain_block (hE : SaneConfig E) (hq : SaneQuotients E) (hz : SaneElectra E)
    (hmax : 0 < E.max_deposits) (hV : E.min_seed_lookahead + 2 < E.epochs_per_historical_vector)
    (h : Wellformed E s) (hqs : Queues E s) (hb : ElectraBlockReady E s b.body)
    (hn : NoOperations b.body) (hn' : NoRequests b.body) (ha : ElectraAcceptable E s b) :
    ∃ s', process_block E .Electra b s = .ok () s' ∧ (Wellformed E s' ∧ Queues E s') ∧
      s'.slot = s.slot := by
  obtain ⟨t, hrun, g1, g2⟩ := electra_opening_runs hE hq hz h hqs hb ha
  have hin : Inside E .Electra s t := runs_inv (J := Inside E .Electra s) inside_opening hrun .start
  have hc : RightCount E .Electra t b.body := by
    show min t.eth1_data.deposit_count t.deposit_receipts_start_index ≤ t.eth1_deposit_index
    have hm := fun {W V : List Field} {α : Type} {m : M α} (h : Modifies W m) (hs : W ⊆ V) =>
      (Modifies.mono h hs : Modifies V m)
    have hst : t.deposit_receipts_start_index = s.deposit_receipts_start_index :=
      runs_mod (W := [.latest_block_header, .balances, .pending_partial_withdrawals,
        .next_withdrawal_index, .next_withdrawal_validator_index,
        .latest_execution_payload_header, .randao_mixes, .eth1_data, .eth1_data_votes])
        (opening_all (hm header_mod (by decide)) (fun _ => hm withdrawals_mod (by decide))
          (hm payload_mod (by decide)) (hm randao_mod (by decide)) (hm eth1_mod (by decide)))
        hrun .deposit_receipts_start_index (by decide)
    rw [g1, g2, hst]
    exact ha.deposits
  have hno : operationParts E .Electra b.body = [] := by
    unfold operationParts
    rw [hn.1, hn.2, hn.3, hn.4, hn.5, hn.6, hn'.1, hn'.2, hn'.3]
    simp
  have hreg := hb.registry
  have hst := hb.stake
  exact ((electra_block_calm hE hq hz h hqs hb).sure (plain_firm hE hmax hV h (by omega) (by omega)
    hrun hc hno ha.header fun _ => ha.sync)).total

end Verif
