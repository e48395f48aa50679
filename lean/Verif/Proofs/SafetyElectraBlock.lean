import Verif.Proofs.SafetyElectraOps

/-! # Electra's blocks do not panic -/

namespace Verif

open Spec Props

variable {E : Env} {s s' : State}

/-- Calls that touch neither the registry nor the queues. -/
theorem qview_changes {W : List Field} (m : ChangesOnly W s s')
    (hW : Field.validators ∉ W ∧ Field.earliest_exit_epoch ∉ W ∧
      Field.pending_balance_deposits ∉ W ∧ Field.pending_partial_withdrawals ∉ W ∧
      Field.pending_consolidations ∉ W) : qview s' = qview s := by
  obtain ⟨h1, h2, h3, h4, h5⟩ := hW
  have e1 : s'.validators = s.validators := m .validators h1
  have e2 : s'.earliest_exit_epoch = s.earliest_exit_epoch := m .earliest_exit_epoch h2
  have e3 : s'.pending_balance_deposits = s.pending_balance_deposits :=
    m .pending_balance_deposits h3
  have e4 : s'.pending_partial_withdrawals = s.pending_partial_withdrawals :=
    m .pending_partial_withdrawals h4
  have e5 : s'.pending_consolidations = s.pending_consolidations := m .pending_consolidations h5
  unfold qview
  rw [e1, e2, e3, e4, e5]

/-- A loop of operations that keep `I` and need no room. -/
theorem held_loop {α : Type} {xs : List α} {body : α → M Unit} {k : Nat} {I : State → Prop}
    (hb : ∀ x s, Wellformed E s → Room k s → I s →
      CalmM (body x) (fun _ s' => Kept E k s s' ∧ I s') s)
    (h : Wellformed E s) (hr : Room k s) (hi : I s) :
    CalmM (forEach xs body) (fun _ s' => Kept E k s s' ∧ I s') s :=
  CalmM_forEach (fun _ s' => Kept E k s s' ∧ I s')
    (fun x _ t g => (hb x t g.1.wf g.1.room g.2).mono fun _ _ g' => ⟨g.1.trans g'.1, g'.2⟩)
    (fun _ g => g) ⟨⟨h, hr, rfl, rfl⟩, hi⟩

theorem electra_attestations_calm (hE : SaneConfig E) (hq : SaneQuotients E) {k : Nat}
    {l : List Attestation} (h : Wellformed E s) (hr : Room (k + l.length * effectiveSum s) s)
    (hp : Parallel .Electra s) (hT : effectiveSum s ≤ 2 ^ 57) :
    CalmM (forEach l (process_attestation E .Electra)) (fun _ s' => Kept E k s s') s := by
  refine CalmM_forEach (fun rest s' => Kept E (k + rest.length * effectiveSum s) s s' ∧
    Parallel .Electra s') ?_ (fun s' g => by simpa using g.1) ⟨⟨h, hr, rfl, rfl⟩, hp⟩
  rintro a rest t ⟨g1, g2⟩
  have hroom : Room (k + rest.length * effectiveSum s + effectiveSum t) t := by
    apply g1.room.le
    rw [g1.total, List.length_cons, Nat.add_mul]; omega
  refine ((electra_attestation_calm hE hq g1.wf hroom g2 (by rw [g1.total]; exact hT) a).pres
    (attestation_len (g := .Electra))).mono ?_
  rintro - t' ⟨g3, g4⟩
  exact ⟨g1.trans g3, g4.parallel g2⟩

theorem electra_deposits_calm {k x : Nat} {l : List Deposit} (h : Wellformed E s) (hr : Room k s)
    (hx : Exits E x s) (hl : s.validators.length + l.length ≤ 2 ^ 40)
    (hi : s.eth1_deposit_index + l.length < 2 ^ 64) :
    CalmM (forEach l (process_deposit E .Electra)) (fun _ s' => Grown E k x l.length s s') s := by
  refine CalmM_forEach (fun rest s' => rest.length ≤ l.length ∧
      Grown E k x (l.length - rest.length) s s' ∧ s'.eth1_deposit_index + rest.length < 2 ^ 64)
    ?_ (fun s' g => by simpa using g.2.1)
    ⟨Nat.le_refl _, ⟨h, hr, hx, by omega, rfl, rfl⟩, hi⟩
  rintro d rest t ⟨g1, g2, g3⟩
  rw [List.length_cons] at g1 g2 g3
  have := g2.length
  refine (electra_deposit_calm g2.wf g2.room g2.exits (by omega) (by omega)).mono ?_
  rintro - t' ⟨q, qi⟩
  have h1 := g2.trans q
  rw [show l.length - (rest.length + 1) + 1 = l.length - rest.length by omega] at h1
  exact ⟨by omega, h1, by omega⟩

theorem electra_receipts_calm {k x : Nat} {l : List DepositReceipt} (h : Wellformed E s)
    (hr : Room k s) (hx : Exits E x s) (hl : s.validators.length + l.length ≤ 2 ^ 40) :
    CalmM (forEach l (Electra.process_deposit_receipt E))
      (fun _ s' => Grown E k x l.length s s') s := by
  refine CalmM_forEach (fun rest s' => rest.length ≤ l.length ∧
      Grown E k x (l.length - rest.length) s s') ?_ (fun s' g => by simpa using g.2)
    ⟨Nat.le_refl _, ⟨h, hr, hx, by omega, rfl, rfl⟩⟩
  rintro d rest t ⟨g1, g2⟩
  rw [List.length_cons] at g1 g2
  have := g2.length
  refine (electra_receipt_calm g2.wf g2.room g2.exits (by omega)).mono ?_
  rintro - t' q
  have h1 := g2.trans q
  rw [show l.length - (rest.length + 1) + 1 = l.length - rest.length by omega] at h1
  exact ⟨by omega, h1⟩

theorem electra_requests_calm (hE : SaneConfig E) (hq : SaneQuotients E) (hz : SaneElectra E)
    {k x : Nat} {l : List ExecutionLayerWithdrawalRequest} (h : Wellformed E s) (hr : Room k s)
    (hk : 2 ^ 61 ≤ k) (hx : Exits E (x + l.length * 2 ^ 49) s) :
    CalmM (forEach l (Electra.process_execution_layer_withdrawal_request E))
      (fun _ s' => Kept E k s s' ∧ Exits E x s') s := by
  refine CalmM_forEach (fun rest s' => Kept E k s s' ∧ Exits E (x + rest.length * 2 ^ 49) s')
    ?_ (fun s' g => by simpa using g) ⟨⟨h, hr, rfl, rfl⟩, hx⟩
  rintro r rest t ⟨g1, g2⟩
  rw [List.length_cons, Nat.add_mul, Nat.one_mul, ← Nat.add_assoc] at g2
  exact (electra_request_calm hE hq hz g1.wf g1.room hk g2).mono fun _ _ g =>
    ⟨g1.trans g.1, g.2⟩

theorem electra_bls_change_calm {k : Nat} {I : State → Prop} (hI : Unmoved I) (h : Wellformed E s)
    (hr : Room k s) (hi : I s) (op : SignedBlsToExecutionChange) :
    CalmM (process_bls_to_execution_change E op) (fun _ s' => Kept E k s s' ∧ I s') s := by
  unfold process_bls_to_execution_change verify_signed_data
  simp only [calm]
  refine ⟨fun v hv => ⟨fun _ => rfl, fun _ => ⟨fun _ => rfl, fun _ => ⟨fun _ => rfl, fun _ =>
    ⟨v, hv, ?_⟩⟩⟩⟩, fun _ => rfl⟩
  exact ⟨⟨h.set hv rfl (h.exit v (List.mem_of_getElem? hv)) rfl rfl, hr.set hv rfl id,
    map_effective_set hv rfl, rfl⟩, hI.indifferent _ _ _ _ hi hv rfl rfl⟩

theorem electra_operations_calm (hE : SaneConfig E) (hq : SaneQuotients E) (hz : SaneElectra E)
    {k x : Nat} {b : BeaconBlockBody} (h : Wellformed E s)
    (hr : Room (k + b.attestations.length * effectiveSum s) s) (hk : 2 ^ 61 ≤ k)
    (hx : Exits E (x + b.execution_payload.withdrawal_requests.length * 2 ^ 49) s)
    (hp : Parallel .Electra s) (hT : effectiveSum s ≤ 2 ^ 57)
    (hl : s.validators.length + b.deposits.length +
      b.execution_payload.deposit_receipts.length ≤ 2 ^ 40)
    (hi : s.eth1_deposit_index + b.deposits.length < 2 ^ 64) (hc : b.consolidations = []) :
    CalmM (process_operations E .Electra b) (fun _ s' => Grown E k x (b.deposits.length +
      b.execution_payload.deposit_receipts.length) s s') s := by
  unfold process_operations
  simp only [calm]
  have hcount : Calm (check_deposit_count E .Electra s b) fun _ => True := by
    unfold check_deposit_count
    simp only [calm]
    exact ⟨fun hlt => ⟨by omega, fun _ => rfl, fun _ => ⟨fun _ => rfl, fun _ => trivial⟩⟩,
      fun _ => trivial⟩
  refine hcount.mono fun _ _ => ?_
  refine (((held_loop (fun op t h hr hi => proposer_slashing_calm_of hE
    (electra_slasher hE hq hz) h hr hi op) h hr hx).pres
    (Pres.forEach (changesPre _) fun _ => proposer_slashing_mod)).pres
      (Pres.forEach (lenPre .Electra) fun _ => proposer_slashing_len)).mono ?_
  rintro - s1 ⟨⟨⟨g1, x1⟩, m1⟩, l1⟩
  have d1 : s1.eth1_deposit_index = s.eth1_deposit_index := m1 .eth1_deposit_index (by decide)
  refine (((held_loop (fun op t h hr hi => attester_slashing_calm_of hE
    (electra_slasher hE hq hz) h hr hi op) g1.wf g1.room x1).pres
    (Pres.forEach (changesPre _) fun _ => attester_slashing_mod)).pres
      (Pres.forEach (lenPre .Electra) fun _ => attester_slashing_len)).mono ?_
  rintro - s2 ⟨⟨⟨g2, x2⟩, m2⟩, l2⟩
  have d2 : s2.eth1_deposit_index = s1.eth1_deposit_index := m2 .eth1_deposit_index (by decide)
  have k2 := g1.trans g2
  have hp2 := l2.parallel (l1.parallel hp)
  refine ((electra_attestations_calm hE hq (k := k) k2.wf
    (by rw [k2.total]; exact k2.room) hp2 (by rw [k2.total]; exact hT)).pres
      (Pres.forEach (changesPre _) fun _ => attestation_mod)).mono ?_
  rintro - s3 ⟨g3, m3⟩
  have d3 : s3.eth1_deposit_index = s2.eth1_deposit_index := m3 .eth1_deposit_index (by decide)
  have x3 := quiet_exits _ _ x2 (qview_changes m3 (by decide))
  have k3 := k2.trans g3
  refine (electra_deposits_calm k3.wf k3.room x3 (by rw [k3.length]; omega) (by omega)).mono ?_
  rintro - s4 g4
  have n4 := g4.length
  rw [k3.length] at n4
  refine (held_loop (fun op t h hr hi => voluntary_exit_calm_of hE hq (electra_exiter hE hq hz)
    (fun _ i => (pending_balance_calm hi.1 i).mono fun _ _ => trivial) h hr hi op) g4.wf g4.room
      g4.exits).mono ?_
  rintro - s5 ⟨g5, x5⟩
  refine (held_loop (fun op t h hr hi => electra_bls_change_calm quiet_exits h hr hi op) g5.wf
    g5.room x5).mono ?_
  rintro - s6 ⟨g6, x6⟩
  refine (electra_requests_calm hE hq hz g6.wf g6.room hk x6).mono ?_
  rintro - s7 ⟨g7, x7⟩
  have k7 := (g5.trans g6).trans g7
  refine (electra_receipts_calm k7.wf k7.room x7 (by rw [k7.length]; omega)).mono ?_
  rintro - s8 g8
  rw [hc]
  have n8 := g8.length
  rw [k7.length] at n8
  exact ⟨g8.wf, g8.room, g8.exits, by omega,
    by rw [g8.total, k7.total, g4.total, k3.total],
    by rw [g8.slot, k7.slot, g4.slot, k3.slot]⟩

theorem electra_block_room {b : BeaconBlockBody} (hb : ElectraBlockReady E s b) :
    Room (2 ^ 63 + 2 ^ 62) s := by
  have := atStake_le_effectiveSum (s := s)
  have := hb.stake
  exact ⟨by omega, fun x hx => by have := hb.balances x hx; omega,
    fun x hx => by have := hb.slashings x hx; omega⟩

theorem electra_block_calm (hE : SaneConfig E) (hq : SaneQuotients E) (hz : SaneElectra E)
    {b : BeaconBlock} (h : Wellformed E s) (hqs : Queues E s)
    (hb : ElectraBlockReady E s b.body) :
    CalmM (process_block E .Electra b)
      (fun _ s' => (Wellformed E s' ∧ Queues E s') ∧ s'.slot = s.slot) s := by
  have hinc := hq.increment
  have hst := hb.stake
  have hatt : b.body.attestations.length * effectiveSum s ≤ 2 ^ 7 * 2 ^ 56 :=
    Nat.mul_le_mul hb.attestations hb.stake
  have hr := electra_block_room hb
  have hx : Exits E (0 + b.body.execution_payload.withdrawal_requests.length * 2 ^ 49) s := by
    refine ⟨hqs, ?_⟩
    have h1 := hb.exits
    have h2 := exitable_le (s := s)
    have h3 : b.body.execution_payload.withdrawal_requests.length * 2 ^ 49 ≤ 2 ^ 10 * 2 ^ 49 :=
      Nat.mul_le_mul_right _ hb.requests
    unfold ExitRoom
    omega
  unfold process_block
  simp only [calm]
  refine (((header_full_calm hE h hr b).pres header_mod).pres
    (len_mod (f := .Electra) header_mod (by decide))).mono ?_
  rintro - s1 ⟨⟨⟨g1, hpos⟩, m1⟩, l1⟩
  have x1 := quiet_exits _ _ hx (qview_changes m1 (by decide))
  have a1 : s1.validators = s.validators := m1 .validators (by decide)
  have a2 : s1.genesis_time = s.genesis_time := m1 .genesis_time (by decide)
  have a3 : s1.balances = s.balances := m1 .balances (by decide)
  have a4 : s1.next_withdrawal_index = s.next_withdrawal_index :=
    m1 .next_withdrawal_index (by decide)
  have a5 : s1.next_withdrawal_validator_index = s.next_withdrawal_validator_index :=
    m1 .next_withdrawal_validator_index (by decide)
  have hsweep : SweepReady E s1 := by
    have := hb.sweep
    exact ⟨this.payload, this.sweep, by rw [a5, a1]; exact this.cursor,
      by rw [a1]; exact this.registry, by rw [a1, a3]; exact this.balances,
      by rw [a4]; exact this.index, this.width⟩
  have hpay : CalmM (process_block_payload E .Electra b) (fun _ t => Kept E (2 ^ 63 + 2 ^ 62) s1 t ∧
      Exits E (0 + b.body.execution_payload.withdrawal_requests.length * 2 ^ 49) t) s1 := by
    unfold process_block_payload
    simp only [calm]
    refine ((electra_withdrawals_calm hE hz g1.wf g1.room x1 hsweep _).pres withdrawals_mod).mono ?_
    rintro - t ⟨⟨g, xt⟩, hm⟩
    have e1 : t.genesis_time = s1.genesis_time := hm .genesis_time (by decide)
    refine ((payload_calm hE g.wf g.room ?_ _).pres payload_mod).mono fun _ u ⟨g', mu⟩ =>
      ⟨g.trans g', quiet_exits _ _ xt (qview_changes mu (by decide))⟩
    have := hb.clock
    unfold ClockFits at *
    rw [e1, g.slot, a2, g1.slot]
    exact this
  refine ((hpay.pres block_payload_mod).pres (block_payload_len (g := .Electra))).mono ?_
  rintro - s2 ⟨⟨⟨g2, x2⟩, m2⟩, l2⟩
  refine (((randao_calm hE g2.wf g2.room b.body).pres randao_mod).pres
    (randao_len (g := .Electra))).mono ?_
  rintro - s3 ⟨⟨g3, m3⟩, l3⟩
  have x3 := quiet_exits _ _ x2 (qview_changes m3 (by decide))
  have b1 : s3.eth1_data_votes = s.eth1_data_votes :=
    (m3 .eth1_data_votes (by decide) : s3.eth1_data_votes = s2.eth1_data_votes).trans
      ((m2 .eth1_data_votes (by decide) : s2.eth1_data_votes = s1.eth1_data_votes).trans
        (m1 .eth1_data_votes (by decide)))
  have b3 : s3.eth1_deposit_index = s.eth1_deposit_index :=
    (m3 .eth1_deposit_index (by decide) : s3.eth1_deposit_index = s2.eth1_deposit_index).trans
      ((m2 .eth1_deposit_index (by decide) : s2.eth1_deposit_index = s1.eth1_deposit_index).trans
        (m1 .eth1_deposit_index (by decide)))
  have k3 := (g1.trans g2).trans g3
  have hp1 := l1.parallel hb.parallel
  refine (((eth1_calm hE hq g3.wf g3.room (by rw [b1]; exact hb.votes) b.body).pres
    (len_mod (f := .Electra) eth1_mod (by decide))).pres eth1_mod).mono ?_
  rintro - s4 ⟨⟨⟨g4, c1, -⟩, l4⟩, m4⟩
  have x4 := quiet_exits _ _ x3 (qview_changes m4 (by decide))
  have k4 := k3.trans g4
  have hp4 := l4.parallel (l3.parallel (l2.parallel hp1))
  have hroom : Room (2 ^ 61 + b.body.attestations.length * effectiveSum s4) s4 := by
    rw [k4.total]
    exact k4.room.le (by omega)
  refine (((electra_operations_calm hE hq hz k4.wf hroom (Nat.le_refl _) x4 hp4
    (by rw [k4.total]; omega) (by rw [k4.length]; exact hb.registry)
    (by rw [c1, b3]; exact hb.deposit_index) hb.consolidations).pres operations_mod).pres
      (operations_reg hE)).mono ?_
  rintro - s5 ⟨⟨g5, m5⟩, r5⟩
  have e5 : s5.slot = s.slot := g5.slot.trans k4.slot
  have t5 := g5.total
  rw [k4.total] at t5
  obtain ⟨q1, q2⟩ := hb.committee
  have c4 : s4.current_sync_committee = s.current_sync_committee :=
    (m4 .current_sync_committee (by decide) :
      s4.current_sync_committee = s3.current_sync_committee).trans
    ((m3 .current_sync_committee (by decide) :
      s3.current_sync_committee = s2.current_sync_committee).trans
    ((m2 .current_sync_committee (by decide) :
      s2.current_sync_committee = s1.current_sync_committee).trans
      (m1 .current_sync_committee (by decide))))
  have c5 : s5.current_sync_committee = s4.current_sync_committee :=
    m5 .current_sync_committee (by decide)
  have v4 : s4.validators = s.validators :=
    (m4 .validators (by decide) : s4.validators = s3.validators).trans
    ((m3 .validators (by decide) : s3.validators = s2.validators).trans
    ((m2 .validators (by decide) : s2.validators = s1.validators).trans a1))
  have q4 : ∀ k ∈ s4.current_sync_committee.public_keys,
      ∃ v ∈ s4.validators, v.public_key = k := by rw [c4, v4]; exact q2
  refine ((sync_aggregate_calm hE hq (k := 0) g5.wf (g5.room.le (by omega)) (by omega)
    (by omega) (by rw [c5, c4]; exact q1) (keys_known q4 r5 c5) _).pres sync_aggregate_mod).mono ?_
  rintro - s6 ⟨g6, m6⟩
  exact ⟨⟨g6.wf, (quiet_exits _ _ g5.exits (qview_changes m6 (by decide))).1⟩, g6.slot.trans e5⟩

end Verif
