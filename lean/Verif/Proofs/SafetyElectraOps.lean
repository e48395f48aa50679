import Verif.Proofs.SafetyElectraVotes

/-! # Electra's operations and blocks do not panic -/

namespace Verif

open Spec Props

variable {E : Env} {s s' : State}

/-! ## Deposits -/

/-- What a deposit of Electra guarantees: it may add a validator, whose effective balance is 0. -/
structure Grown (E : Env) (k x n : Nat) (s s' : State) : Prop where
  wf : Wellformed E s'
  room : Room k s'
  exits : Exits E x s'
  length : s'.validators.length ≤ s.validators.length + n
  total : effectiveSum s' = effectiveSum s
  slot : s'.slot = s.slot

theorem Grown.trans {k x n m : Nat} {s'' : State} (h : Grown E k x n s s')
    (h' : Grown E k x m s' s'') : Grown E k x (n + m) s s'' :=
  ⟨h'.wf, h'.room, h'.exits, by have := h.length; have := h'.length; omega,
    h'.total.trans h.total, h'.slot.trans h.slot⟩

/-- A pending deposit for a validator that exists. -/
theorem exits_deposit {x : Nat} (hx : Exits E x s) {d : PendingBalanceDeposit}
    (hd : d.index < s.validators.length) :
    Exits E x { s with pending_balance_deposits := s.pending_balance_deposits ++ [d] } := by
  refine ⟨⟨fun e he => ?_, hx.1.withdrawals, hx.1.consolidations, hx.1.amounts⟩, hx.2⟩
  rcases List.mem_append.1 he with he | he
  · exact hx.1.deposits e he
  · simp only [List.mem_singleton] at he; subst he; exact hd

theorem wf_pending {l : List PendingBalanceDeposit} (h : Wellformed E s) :
    Wellformed E { s with pending_balance_deposits := l } :=
  ⟨⟨h.shaped.1, h.shaped.2, h.shaped.3, h.shaped.4, h.shaped.5, h.shaped.6⟩, h.balances, h.slot,
    h.effective, h.exit, h.eligible⟩

/-- Switching to compounding credentials. -/
structure Switched (E : Env) (i : Nat) (s s' : State) : Prop where
  new : ∃ v w b bs l, s.validators[i]? = some v ∧ s.balances[i]? = some b ∧ bs ≤ b ∧
    s' = { s with
      validators := s.validators.set i w
      balances := s.balances.set i bs
      pending_balance_deposits := s.pending_balance_deposits ++ l } ∧
    (∃ c, w = { v with withdrawal_credentials := c }) ∧
    ∀ d ∈ l, d.index = i

theorem switch_calm (h : Wellformed E s) {i : Nat} (hi : i < s.validators.length) :
    CalmM (Electra.switch_to_compounding_validator E i) (fun _ s' => Switched E i s s') s := by
  have hv := List.getElem?_eq_getElem hi
  have hb := List.getElem?_eq_getElem (show i < s.balances.length by rw [h.balances]; exact hi)
  unfold Electra.switch_to_compounding_validator Electra.queue_excess_active_balance
  simp only [calm]
  refine ⟨_, hv, fun _ => ⟨_, hv, _, hb, fun hgt => ?_, fun _ => ?_⟩, fun _ => ?_⟩
  · intro _
    exact ⟨_, _, _, _, _, hv, hb, by omega, rfl, ⟨_, rfl⟩, by simp⟩
  · exact ⟨_, { s.validators[i] with withdrawal_credentials :=
      (s.validators[i]).withdrawal_credentials.set 0 COMPOUNDING_WITHDRAWAL_PREFIX }, _, _, [], hv,
      hb, Nat.le_refl _, by rw [set_self hb, List.append_nil], ⟨_, rfl⟩, by simp⟩
  · exact ⟨_, s.validators[i], _, _, [], hv, hb, Nat.le_refl _,
      by rw [set_self hb, set_self hv, List.append_nil], ⟨_, rfl⟩, by simp⟩

theorem Switched.wf {i : Nat} (g : Switched E i s s') (h : Wellformed E s) : Wellformed E s' := by
  obtain ⟨v, w, b, bs, l, hv, hb, hle, rfl, ⟨c, rfl⟩, hl⟩ := g
  have h1 := (h.set (w := { v with withdrawal_credentials := c }) hv rfl
    (h.exit v (List.mem_of_getElem? hv)) rfl rfl).balance (i := i) (b := bs)
  exact ⟨⟨h1.shaped.1, h1.shaped.2, h1.shaped.3, h1.shaped.4, h1.shaped.5, h1.shaped.6⟩,
    h1.balances, h1.slot, h1.effective, h1.exit, h1.eligible⟩

theorem Switched.kept {k i : Nat} (g : Switched E i s s') (h : Wellformed E s) (hr : Room k s) :
    Kept E k s s' := by
  have hw := g.wf h
  obtain ⟨v, w, b, bs, l, hv, hb, hle, rfl, ⟨c, rfl⟩, hl⟩ := g
  have h1 := ((hr.set (w := { v with withdrawal_credentials := c }) hv rfl id).two.lower
    (i := i) hb hle).room
  exact ⟨hw, ⟨h1.stake, h1.balances, h1.slashings⟩, map_effective_set hv rfl, rfl⟩

theorem Switched.queues {i : Nat} (g : Switched E i s s') (hx : Queues E s) : Queues E s' := by
  obtain ⟨v, w, b, bs, l, hv, hb, hle, rfl, ⟨c, rfl⟩, hl⟩ := g
  have hlt := (List.getElem?_eq_some_iff.1 hv).1
  refine ⟨fun d hd => ?_, fun d hd => by simpa using hx.withdrawals d hd,
    fun d hd => by simpa using hx.consolidations d hd, hx.amounts⟩
  simp only [List.length_set]
  rcases List.mem_append.1 hd with hd | hd
  · exact hx.deposits d hd
  · rw [hl d hd]; exact hlt

theorem Switched.exits {x i : Nat} (g : Switched E i s s') (hx : Exits E x s) : Exits E x s' := by
  refine ⟨g.queues hx.1, ?_⟩
  obtain ⟨v, w, b, bs, l, hv, hb, hle, rfl, ⟨c, rfl⟩, hl⟩ := g
  have := exitable_set (s := s) { v with withdrawal_credentials := c } hv
  have h2 := hx.2
  unfold ExitRoom at *
  show max s.earliest_exit_epoch _ + exitable { s with validators := _ } + x < _
  simp only at this
  omega

theorem electra_apply_deposit_calm {k x a : Nat} (h : Wellformed E s)
    (hr : Room k s) (hx : Exits E x s) (hl : s.validators.length < 2 ^ 40) (pk : PublicKey)
    (w : Bytes32) (sig : Signature) :
    CalmM (Electra.apply_deposit E pk w a sig) (fun _ s' => Grown E k x 1 s s') s := by
  have hfar : FAR_FUTURE_EPOCH = 2 ^ 64 - 1 := rfl
  unfold Electra.apply_deposit
  simp only [calm]
  split
  · rename_i i hfi
    have hlt : i < s.validators.length := (List.findIdx?_eq_some_iff_getElem.1 hfi).1
    have hx1 := exits_deposit hx (d := ⟨i, a⟩) hlt
    have h1 : Wellformed E { s with
        pending_balance_deposits := s.pending_balance_deposits ++ [⟨i, a⟩] } := wf_pending h
    have hr1 : Room k { s with
        pending_balance_deposits := s.pending_balance_deposits ++ [⟨i, a⟩] } :=
      ⟨hr.stake, hr.balances, hr.slashings⟩
    simp only [calm]
    refine ⟨_, List.getElem?_eq_getElem hlt, fun _ => rfl, fun _ => ⟨fun _ => ?_, fun _ => ?_⟩⟩
    · refine (switch_calm h1 hlt).mono fun _ s2 g => ?_
      have g1 := g.kept h1 hr1
      exact ⟨g1.wf, g1.room, g.exits hx1, by rw [g1.length]; simp, g1.total, g1.slot⟩
    · exact ⟨h1, hr1, hx1, Nat.le_succ _, rfl, rfl⟩
  · unfold add_validator_to_registry get_validator_from_deposit
    simp only [calm]
    refine ⟨fun _ => rfl, fun _ => ?_⟩
    generalize hv : ({
      public_key := pk
      withdrawal_credentials := w
      effective_balance := 0
      slashed := false
      activation_eligibility_epoch := FAR_FUTURE_EPOCH
      activation_epoch := FAR_FUTURE_EPOCH
      exit_epoch := FAR_FUTURE_EPOCH
      withdrawable_epoch := FAR_FUTURE_EPOCH } : Validator) = v
    have v1 : v.effective_balance = 0 := by rw [← hv]
    have v2 : v.activation_eligibility_epoch = v.activation_epoch := by rw [← hv]
    have v3 : v.exit_epoch = 2 ^ 64 - 1 := by rw [← hv]; rfl
    have hat : ((s.validators ++ [v]).map fun v : Validator =>
        if v.slashed then 0 else v.effective_balance).sum = atStake s := by
      simp [atStake, v1]
    have hef : ((s.validators ++ [v]).map Validator.effective_balance).sum = effectiveSum s := by
      simp [effectiveSum, v1]
    have hex : ((s.validators ++ [v]).map fun v : Validator =>
        if v.exit_epoch = FAR_FUTURE_EPOCH then v.effective_balance else 0).sum = exitable s := by
      simp [exitable, v1]
    have hmem : ∀ {p : Validator → Prop}, (∀ u ∈ s.validators, p u) → p v →
        ∀ u ∈ s.validators ++ [v], p u := by
      intro p hp hpv u hu
      rcases List.mem_append.1 hu with hu | hu
      · exact hp u hu
      · simp only [List.mem_singleton] at hu; subst hu; exact hpv
    refine ⟨⟨⟨h.shaped.1, h.shaped.2, h.shaped.3, h.shaped.4, by simp; omega, h.shaped.6⟩,
      by simp [h.balances], h.slot, hmem h.effective (by omega), hmem h.exit (by omega),
      hmem h.eligible (by omega)⟩, ⟨?_, ?_, ?_⟩, ⟨⟨?_, ?_, ?_, hx.1.amounts⟩, ?_⟩, by simp, hef, rfl⟩
    · unfold atStake; rw [hat]; exact hr.stake
    · unfold atStake; rw [hat]
      intro b hb
      rcases List.mem_append.1 hb with hb | hb
      · exact hr.balances b hb
      · simp only [List.mem_singleton] at hb
        have := hr.stake
        omega
    · unfold atStake; rw [hat]; exact hr.slashings
    · intro d hd
      simp only [List.length_append, List.length_singleton]
      rcases List.mem_append.1 hd with hd | hd
      · have := hx.1.deposits d hd; omega
      · simp only [List.mem_singleton] at hd; subst hd; simp only; omega
    · intro d hd
      simp only [List.length_append, List.length_singleton]
      have := hx.1.withdrawals d hd; omega
    · intro d hd
      simp only [List.length_append, List.length_singleton]
      have := hx.1.consolidations d hd; omega
    · have := hx.2
      unfold ExitRoom at *
      unfold exitable
      rw [hex]; exact this

theorem electra_deposit_calm {k x : Nat} {d : Deposit} (h : Wellformed E s) (hr : Room k s)
    (hx : Exits E x s) (hl : s.validators.length < 2 ^ 40)
    (hi : s.eth1_deposit_index + 1 < 2 ^ 64) :
    CalmM (process_deposit E .Electra d) (fun _ s' => Grown E k x 1 s s' ∧
      s'.eth1_deposit_index = s.eth1_deposit_index + 1) s := by
  unfold process_deposit
  simp only [calm]
  refine ⟨fun _ => rfl, fun _ => ⟨hi, ?_⟩⟩
  have h1 : Wellformed E { s with eth1_deposit_index := s.eth1_deposit_index + 1 } :=
    ⟨⟨h.shaped.1, h.shaped.2, h.shaped.3, h.shaped.4, h.shaped.5, h.shaped.6⟩, h.balances, h.slot,
      h.effective, h.exit, h.eligible⟩
  have hr1 : Room k { s with eth1_deposit_index := s.eth1_deposit_index + 1 } :=
    ⟨hr.stake, hr.balances, hr.slashings⟩
  have hx1 : Exits E x { s with eth1_deposit_index := s.eth1_deposit_index + 1 } :=
    quiet_exits _ _ hx rfl
  refine ((electra_apply_deposit_calm h1 hr1 hx1 hl _ _ _).pres electra_apply_deposit_mod).mono ?_
  rintro - s2 ⟨g, m⟩
  exact ⟨⟨g.wf, g.room, g.exits, g.length, g.total, g.slot⟩, m .eth1_deposit_index (by decide)⟩

theorem electra_receipt_calm {k x : Nat} {r : DepositReceipt} (h : Wellformed E s) (hr : Room k s)
    (hx : Exits E x s) (hl : s.validators.length < 2 ^ 40) :
    CalmM (Electra.process_deposit_receipt E r) (fun _ s' => Grown E k x 1 s s') s := by
  unfold Electra.process_deposit_receipt
  simp only [calm]
  split
  · have h1 : Wellformed E { s with deposit_receipts_start_index := r.index } :=
      ⟨⟨h.shaped.1, h.shaped.2, h.shaped.3, h.shaped.4, h.shaped.5, h.shaped.6⟩, h.balances, h.slot,
        h.effective, h.exit, h.eligible⟩
    refine (electra_apply_deposit_calm h1 (k := k) ⟨hr.stake, hr.balances, hr.slashings⟩
      (quiet_exits _ _ hx rfl) hl _ _ _).mono ?_
    rintro - s2 g
    exact ⟨g.wf, g.room, g.exits, g.length, g.total, g.slot⟩
  · exact electra_apply_deposit_calm h hr hx hl _ _ _

/-! ## Withdrawal requests -/

theorem electra_request_calm (hE : SaneConfig E) (hq : SaneQuotients E) (hz : SaneElectra E)
    {k x : Nat} {r : ExecutionLayerWithdrawalRequest} (h : Wellformed E s) (hr : Room k s)
    (hk : 2 ^ 61 ≤ k) (hx : Exits E (x + 2 ^ 49) s) :
    CalmM (Electra.process_execution_layer_withdrawal_request E r)
      (fun _ s' => Kept E k s s' ∧ Exits E x s') s := by
  have hU : U64_BOUND = 2 ^ 64 := rfl
  have hslot := h.slot
  have hep := epochOf_le E s.slot
  have hsh := hq.shard_committee_period
  have hwd := hE.withdrawability_delay
  have hroom := hx.2
  unfold ExitRoom at hroom
  have hid : Kept E k s s ∧ Exits E x s := ⟨⟨h, hr, rfl, rfl⟩, hx.le (by omega)⟩
  unfold Electra.process_execution_layer_withdrawal_request
  simp only [calm]
  refine ⟨fun _ => hid, fun _ => ?_⟩
  split
  · exact hid
  · rename_i i hfi
    have hlt : i < s.validators.length := (List.findIdx?_eq_some_iff_getElem.1 hfi).1
    have hv := List.getElem?_eq_getElem hlt
    have hb := List.getElem?_eq_getElem (show i < s.balances.length by
      rw [h.balances]; exact hlt)
    simp only [calm]
    refine ⟨_, hv, fun _ => hid, fun _ => current_epoch_calm hE ⟨fun _ => hid, fun ha =>
      ⟨fun _ => hid, fun _ => ?_⟩⟩⟩
    have hact : (s.validators[i]).activation_epoch ≤ epochOf E s.slot := by
      unfold is_active_validator at ha; simp at ha; exact ha.1
    refine ⟨by omega, fun _ => hid, fun _ => ?_⟩
    refine (pending_balance_calm hx.1 i).mono fun p hp => ?_
    have hamt := hx.1.amounts i
    refine ⟨fun _ => ⟨fun _ => ?_, fun _ => hid⟩, fun _ => ⟨_, hb, by omega, fun hc => ?_,
      fun _ => hid⟩⟩
    · exact (electra_initiate_calm hE hq hz h (hx.le (Nat.le_add_right x (2 ^ 49))) hv).mono
        fun _ _ g => ⟨g.1.kept hr hv, g.2⟩
    · simp only [Bool.and_eq_true, decide_eq_true_eq] at hc
      have hgt := hc.2.2
      have hbd := hr.balances _ (List.mem_of_getElem? hb)
      refine ⟨by omega, by omega, ?_⟩
      generalize hw : min ((s.balances[i]'(by rw [h.balances]; exact hlt)) -
        E.min_activation_balance - p) r.amount = w
      refine electra_exit_epoch_calm hE hq hz h (by omega) (by omega) fun e c h1 h2 => ?_
      have hw16 : w / 2 ^ 16 ≤ 2 ^ 48 := Nat.div_le_of_le_mul (by omega)
      refine ⟨by omega, ?_⟩
      refine ⟨⟨⟨⟨h.shaped.1, h.shaped.2, h.shaped.3, h.shaped.4, h.shaped.5, h.shaped.6⟩,
        h.balances, h.slot, h.effective, h.exit, h.eligible⟩,
        ⟨hr.stake, hr.balances, hr.slashings⟩, rfl, rfl⟩, ⟨hx.1.deposits, ?_,
          hx.1.consolidations, ?_⟩, ?_⟩
      · intro d hd
        rcases List.mem_append.1 hd with hd | hd
        · exact hx.1.withdrawals d hd
        · simp only [List.mem_singleton] at hd; subst hd; exact hlt
      · intro j
        have hj := hx.1.amounts j
        unfold pendingWithdrawalsOf at *
        simp only [List.filter_append, List.map_append, List.sum_append]
        by_cases hij : i = j
        · subst hij
          simp only [decide_true, List.filter_cons_of_pos, List.filter_nil, List.map_cons,
            List.map_nil, List.sum_cons, List.sum_nil, Nat.add_zero]
          omega
        · simp [hij]; omega
      · show max e _ + exitable s + x < _
        omega

/-! ## Withdrawals -/

theorem electra_withdrawals_calm (hE : SaneConfig E) (hz : SaneElectra E) {k x : Nat}
    (h : Wellformed E s) (hr : Room k s) (hx : Exits E x s) (hs : SweepReady E s)
    (p : ExecutionPayload) :
    CalmM (process_withdrawals E .Electra p) (fun _ s' => Kept E k s s' ∧ Exits E x s') s := by
  have hU : U64_BOUND = 2 ^ 64 := rfl
  obtain ⟨ps, ws, h1, h2, h3, h4⟩ := electra_expected_eq hE hs hx.1.withdrawals hz.partials
  have hl : ∀ w ∈ ps ++ ws, w.validator_index < s.balances.length := by
    rw [h.balances]
    intro w hw
    rcases List.mem_append.1 hw with hw | hw
    · rw [h3 w hw]; exact hs.cursor
    · obtain ⟨-, v, hv, -⟩ := h4.exact w hw
      exact (List.getElem?_eq_some_iff.1 hv).1
  have hpl : ps.length ≤ E.max_pending_partials_per_withdrawals_sweep := by
    have := congrArg List.length h2.amounts
    simp only [List.length_map, nextRequests, List.length_take] at this
    omega
  have hwl : ws.length ≤ E.max_withdrawals_per_payload - ps.length := by
    have := congrArg List.length h4.payees
    simp only [List.length_map, List.length_take] at this
    omega
  have hlim := hz.partials
  have hin := hs.index
  have hwid := hs.width
  have hreg := hs.registry
  have hcur := hs.cursor
  have hidx : ∀ w ∈ ps ++ ws, w.index + 1 < 2 ^ 64 := by
    intro w hw
    rcases List.mem_append.1 hw with hw | hw
    · have := h2.indices ▸ List.mem_map.2 ⟨w, hw, rfl⟩
      have := List.mem_range'_1.1 this
      omega
    · have := h4.indices ▸ List.mem_map.2 ⟨w, hw, rfl⟩
      have := List.mem_range'_1.1 this
      omega
  generalize ps ++ ws = l at h1 hl hidx
  unfold process_withdrawals
  simp only [calm, h1]
  refine ⟨fun _ => rfl, fun _ => ?_⟩
  unfold CalmM
  rw [debit_loop l s hl]
  simp only
  have hk : ∀ {n a c : Nat}, Kept E k s { s with
      balances := debit s.balances l
      pending_partial_withdrawals := s.pending_partial_withdrawals.drop n
      next_withdrawal_index := a
      next_withdrawal_validator_index := c } ∧ Exits E x { s with
      balances := debit s.balances l
      pending_partial_withdrawals := s.pending_partial_withdrawals.drop n
      next_withdrawal_index := a
      next_withdrawal_validator_index := c } := by
    intro n a c
    refine ⟨⟨⟨⟨h.shaped.1, h.shaped.2, h.shaped.3, h.shaped.4, h.shaped.5, h.shaped.6⟩,
      by rw [debit_length]; exact h.balances, h.slot, h.effective, h.exit, h.eligible⟩,
      ⟨hr.stake, fun b hb => ?_, hr.slashings⟩, rfl, rfl⟩,
      ⟨hx.1.deposits, fun w hw => hx.1.withdrawals w (List.mem_of_mem_drop hw),
        hx.1.consolidations, fun i => ?_⟩, hx.2⟩
    · obtain ⟨i, hi⟩ := List.getElem?_of_mem hb
      simp only at hi
      rw [debit_get l s.balances i, Option.map_eq_some_iff] at hi
      obtain ⟨b0, hb0, rfl⟩ := hi
      have := hr.balances b0 (List.mem_of_getElem? hb0)
      show _ + atStake s + k < _
      omega
    · have h0 := hx.1.amounts i
      have hsub : pendingWithdrawalsOf { s with
          pending_partial_withdrawals := s.pending_partial_withdrawals.drop n } i ≤
          pendingWithdrawalsOf s i := by
        unfold pendingWithdrawalsOf
        conv => rhs; rw [← List.take_append_drop n s.pending_partial_withdrawals]
        simp only [List.filter_append, List.map_append, List.sum_append]
        omega
      unfold pendingWithdrawalsOf at *
      simp only at *
      omega
  unfold next_withdrawal_index_of next_sweep_start
  cases hlast : l.getLast? with
  | none =>
    simp only [calm]
    exact ⟨fun _ => hk, fun _ => ⟨by omega, by omega, hk⟩⟩
  | some w =>
    have := hidx w (List.mem_of_getLast? hlast)
    simp only [calm]
    exact ⟨by omega, fun _ => ⟨by omega, by omega, hk⟩, fun _ => ⟨by omega, by omega, hk⟩⟩

end Verif
