import Verif.Proofs.Ledger
import Verif.Props.Parts

/-! # C88: the books of a block

After an accepted block, every balance and every queued deposit is what the entries of the block
make of the ones before. -/

namespace Verif.Props

open Spec

variable {E : Env} {f : Fork} {s s' : State} {b : BeaconBlock}

/-- One attestation: what its proposer is paid. -/
theorem vote_paid (hE : SaneConfig E) (hreg : s.validators.length ≤ 2 ^ 40)
    (hslot : s.slot < 2 ^ 63) (hV : E.min_seed_lookahead + 3 < E.epochs_per_historical_vector)
    (hf : f ≠ .Phase0) (hpar : Parallel f s) {a : Attestation} {t u : State} {p : Nat}
    (ht : Inside E f s t) (hl : t.validators.length = s.validators.length)
    (hp : get_beacon_proposer_index E t = .ok p) (h : process_attestation E f a t = .ok () u) :
    ∃ l fl new x, AttestedBy E f s a l ∧ EarnedFlags E f s a.data fl ∧
      (∀ v ∈ l, v < s.validators.length) ∧
      FlagsAdded l fl (flagsFor E t a.data) new ∧ t.balances[p]? = some x ∧
      u = { withFlags E t a.data new with
        balances := t.balances.set p (x + inclusionReward E t a.data l fl) } := by
  have hs : t.slot < 2 ^ 63 := ht.slot ▸ hslot
  have hfl := ht.flags hpar a.data hf
  by_cases he : f = .Electra
  · subst he
    obtain ⟨h1, idxs, l, fl, h2, h3, h4, h5, q, x, new, hq, hx, h6, rfl⟩ :=
      C30_electra_process_attestation_effect E hE a t u hs hfl h
    rw [hp] at hq; cases hq
    have kt := ht.timely.1 h1
    have hr : ∀ v ∈ l, v < s.validators.length := fun v hv => hl ▸ h4.in_range v hv
    obtain ⟨idxs', h2', hperm⟩ := ht.electra_attesters hslot hV kt h2
    have ka : AttestedBy E .Electra s a l :=
      ⟨idxs', h2', h3.trans hperm, ht.indexed hE hr h4⟩
    exact ⟨l, fl, new, x, ka, ht.earned.1 h5, hr, h6, hx, rfl⟩
  · obtain ⟨h1, l, fl, h2, h5, q, x, new, hq, hx, h6, rfl⟩ :=
      C30_process_attestation_effect E hE f ⟨hf, he⟩ a t u hs hfl h
    rw [hp] at hq; cases hq
    have kt := ht.timely.1 h1
    have kv := ht.vote hE hreg hslot hV kt h2
    have ka : AttestedBy E f s a l := by
      cases f <;> first | exact kv | exact absurd rfl he
    exact ⟨l, fl, new, x, ka, ht.earned.1 h5, fun v hv => kv.signed.in_range v hv, h6, hx, rfl⟩

theorem noted_more {done : List Attestation} {t u : State}
    (h : Noted E f s done t) (ht : t.slot = s.slot) {a : Attestation} {l fl : List Nat}
    {new : List UInt8} {bs : List Nat} (h1 : AttestedBy E f s a l)
    (h2 : EarnedFlags E f s a.data fl) (h3 : FlagsAdded l fl (flagsFor E t a.data) new)
    (hu : u = { withFlags E t a.data new with balances := bs }) :
    Noted E f s (done ++ [a]) u := by
  have k6 := flagsEarned_added h1 h2 h3
  constructor
  · refine flagsEarned_trans (Q := fun i j => a.data.target.epoch = epochOf E s.slot ∧
      EarnsFlag E f s a i j) h.current ?_ (fun i j => by
        simp [or_and_right, exists_or])
    by_cases hc : a.data.target.epoch = epochOf E s.slot
    · have : u.current_epoch_participation = new := by
        rw [hu]; unfold withFlags; rw [ht, if_pos hc]
      rw [this]
      unfold flagsFor at k6
      rw [ht, if_pos hc] at k6
      simpa [hc] using k6
    · have : u.current_epoch_participation = t.current_epoch_participation := by
        rw [hu]; unfold withFlags; rw [ht, if_neg hc]
      rw [this]
      exact flagsEarned_refl (fun i j h => hc h.1)
  · refine flagsEarned_trans (Q := fun i j => a.data.target.epoch ≠ epochOf E s.slot ∧
      EarnsFlag E f s a i j) h.previous ?_ (fun i j => by simp [or_and_right, exists_or])
    by_cases hc : a.data.target.epoch = epochOf E s.slot
    · have : u.previous_epoch_participation = t.previous_epoch_participation := by
        rw [hu]; unfold withFlags; rw [ht, if_pos hc]
      rw [this]
      exact flagsEarned_refl (fun i j h => h.1 hc)
    · have : u.previous_epoch_participation = new := by
        rw [hu]; unfold withFlags; rw [ht, if_neg hc]
      rw [this]
      unfold flagsFor at k6
      rw [ht, if_neg hc] at k6
      simpa [hc] using k6

theorem votes_book (hE : SaneConfig E) (hreg : s.validators.length ≤ 2 ^ 40)
    (hslot : s.slot < 2 ^ 63) (hV : E.min_seed_lookahead + 3 < E.epochs_per_historical_vector)
    (hf : f ≠ .Phase0) (hpar : Parallel f s) {p : Nat}
    (hp : ∀ t, Inside E f s t → get_beacon_proposer_index E t = .ok p)
    {as done : List Attestation} {t u : State}
    (ht : Inside E f s t) (hl : t.validators.length = s.validators.length)
    (hn : Noted E f s done t) (h : Runs (as.map (process_attestation E f)) t u) :
    ∃ rs : List Nat, rs.length = as.length ∧
      (∀ k a r, as[k]? = some a → rs[k]? = some r →
        InclusionReward E f s (done ++ as.take k) a r) ∧
      bookOf u = rs.foldl (fun B r => B.credit p r) (bookOf t) := by
  induction as generalizing t done with
  | nil => cases h; exact ⟨[], rfl, fun _ _ _ h => by simp at h, rfl⟩
  | cons a as ih =>
    obtain ⟨x, hx, hr⟩ := h
    obtain ⟨l, fl, new, y, h1, h2, h3, h4, h5, h6⟩ :=
      vote_paid hE hreg hslot hV hf hpar ht hl (hp t ht) hx
    have ix := inside_attestation ht hx
    have hv : x.validators = t.validators := attestation_mod.toOk.ok hx .validators (by decide)
    obtain ⟨rs, k1, k2, k3⟩ := ih (done := done ++ [a]) ix (by rw [hv, hl])
      (noted_more hn ht.slot h1 h2 h4 h6) hr
    have hflag : (flagsFor E s a.data).length = s.validators.length := by
      have := hpar.2 hf
      unfold flagsFor
      split
      · exact this.2.1
      · exact this.1
    refine ⟨inclusionReward E t a.data l fl :: rs, by simp [k1], ?_, ?_⟩
    · intro k a' r ha hr
      cases k with
      | zero =>
        simp only [List.getElem?_cons_zero, Option.some.injEq] at ha hr
        subst ha; subst hr
        refine ⟨l, fl, h1, h2, ?_⟩
        unfold inclusionReward
        congr 2
        refine List.map_congr_left fun v hvl => ?_
        rw [ht.baseReward hslot (h3 v hvl), missing_new hn ht.slot (hflag ▸ h3 v hvl),
          List.take_zero, List.append_nil]
      | succ k =>
        rw [List.getElem?_cons_succ] at ha hr
        have := k2 k a' r ha hr
        rwa [List.append_assoc] at this
    · rw [k3, List.foldl_cons]
      congr 1
      refine book_credit (t := t) ?_ h5 (by rw [h6]) ?_
      · unfold holders; rw [hv]
      · exact attestation_mod.toOk.ok hx .pending_balance_deposits (by decide)

/-- **C88** After an accepted block the accounts of all validators, old and new, and the queue of
deposits are exactly what the entries of the block make of the ones before it: the withdrawals of
its payload, the penalties and rewards for those it slashes, the rewards of its proposer for the
flags its attestations newly earn, its deposits, the execution addresses it records and the rewards
and penalties of the sync committee. -/
theorem C88_ledger (hE : SaneConfig E) (hmax : 0 < E.max_deposits)
    (hV : E.min_seed_lookahead + 3 < E.epochs_per_historical_vector)
    (hslot : s.slot < 2 ^ 63) (hreg : s.validators.length ≤ 2 ^ 40) (hpar : Parallel f s)
    (h : process_block E f b s = .ok () s') :
    ∃ rewards seats, (f ≠ .Phase0 → InclusionRewards E f s b.body.attestations rewards) ∧
      (f ≠ .Phase0 → Seats s' seats) ∧ bookOf s' = ledger E f s b rewards seats := by
  obtain ⟨a0, a1, a2, a3, a4, a5, a6, hp⟩ := phases hmax h
  have hprop := fun t => hp.proposer hE hreg hslot (by omega) (t := t)
  have hlen : ∀ t, Inside E f s t → t.balances.length = t.validators.length := fun t ht =>
    ((C12_calls_keep_lengths E f s t ht.history).2.1 hpar).1
  -- the opening
  have b0 : bookOf a0 = if Fork.withdraws f then
      b.body.execution_payload.withdrawals.foldl (fun B w => B.debit w.validator_index w.amount)
        (bookOf s) else bookOf s := by
    obtain ⟨t1, t2, t3, t4, h1, h2, h3, h4, h5⟩ := opening_states hp.opening
    rw [book_mod eth1_mod (by decide) h5, book_mod randao_mod (by decide) h4]
    have e3 : bookOf t3 = bookOf t2 := by
      split at h3
      · exact book_mod payload_mod (by decide) h3
      · rw [h3]
    rw [e3, ← book_mod header_mod (by decide) h1]
    split at h2
    · rw [if_pos ‹_›]; exact withdrawals_book h2
    · rw [if_neg ‹_›, h2]
  -- the slashings
  have v0 : a0.validators = s.validators :=
    (runs_mod (W := [.latest_block_header, .balances, .pending_partial_withdrawals,
      .next_withdrawal_index, .next_withdrawal_validator_index,
      .latest_execution_payload_header, .randao_mixes, .eth1_data, .eth1_data_votes])
      (opening_all (Modifies.mono header_mod (by decide))
        (fun _ => Modifies.mono withdrawals_mod (by decide))
        (Modifies.mono payload_mod (by decide)) (Modifies.mono randao_mod (by decide))
        (Modifies.mono eth1_mod (by decide))) hp.opening) .validators (by decide)
  have d0 : Slashed s [] a0 := ⟨hp.i0.slot, by rw [v0], fun i _ => by rw [v0], by simp⟩
  obtain ⟨b1, d1⟩ := proposers_book hprop hp.i0 d0 hp.proposers (B := bookOf a0) rfl
  obtain ⟨b2, -⟩ := attesters_book hprop hp.i1 d1 hp.attesters b1
  rw [List.nil_append] at b2
  have b2 : bookOf a2 = (offenders E s b.body).foldl (Book.slash E f s b.proposer_index)
    (bookOf a0) := b2
  -- the attestations
  have b3 : ∃ rewards : List Nat,
      (f ≠ .Phase0 → InclusionRewards E f s b.body.attestations rewards) ∧
      bookOf a3 = if f = .Phase0 then bookOf a2 else
        rewards.foldl (fun B r => B.credit b.proposer_index r) (bookOf a2) := by
    by_cases hf : f = .Phase0
    · subst hf
      refine ⟨[], fun h => absurd rfl h, ?_⟩
      rw [if_pos rfl]
      exact runs_inv (J := fun t => bookOf t = bookOf a2)
        (map_all fun a _ t u ht hm => (book_mod phase0_attestation_mod (by decide) hm).trans ht)
        hp.votes rfl
    · have n2 : Noted E f s [] a2 := by
        constructor
        · rw [show a2.current_epoch_participation = s.current_epoch_participation from
            before_votes hp .current_epoch_participation (by decide)]
          exact flagsEarned_refl (by simp)
        · rw [show a2.previous_epoch_participation = s.previous_epoch_participation from
            before_votes hp .previous_epoch_participation (by decide)]
          exact flagsEarned_refl (by simp)
      obtain ⟨rs, k1, k2, k3⟩ := votes_book hE hreg hslot hV hf hpar hprop hp.i2 hp.length n2
        hp.votes
      exact ⟨rs, fun _ => ⟨k1, k2⟩, by rw [if_neg hf, k3]⟩
  obtain ⟨rewards, hrew, b3⟩ := b3
  -- the deposits
  have fold : ∀ {α : Type} {g : α → M Unit} {k : Book → α → Book} {l : List α} {t u : State},
      (∀ x ∈ l, ∀ t u, Inside E f s t → g x t = .ok () u →
        Inside E f s u ∧ bookOf u = k (bookOf t) x) →
      Inside E f s t → Runs (l.map g) t u → Inside E f s u ∧ bookOf u = l.foldl k (bookOf t) := by
    intro α g k l
    induction l with
    | nil => intro t u _ ht hr; cases hr; exact ⟨ht, rfl⟩
    | cons x l ih =>
      intro t u hg ht hr
      obtain ⟨y, h1, h2⟩ := hr
      obtain ⟨iy, hy⟩ := hg x (.head _) t y ht h1
      obtain ⟨iu, hu⟩ := ih (fun z hz => hg z (.tail _ hz)) iy h2
      exact ⟨iu, by rw [hu, hy, List.foldl_cons]⟩
  have b4 : bookOf a4 = (b.body.deposits.map (·.data)).foldl (Book.deposit E f) (bookOf a3) := by
    rw [List.foldl_map]
    exact (fold (fun d _ t u ht hm => ⟨inside_deposit ht hm, deposit_book hE (hlen t ht) hm⟩) hp.i3
      hp.deposits).2
  have b5 : bookOf a5 = bookOf a4 :=
    (runs_inv (J := fun t => Inside E f s t ∧ bookOf t = bookOf a4)
      (map_all fun op _ t u ht hm => ⟨inside_exit ht.1 hm,
        (exit_book hE (by rw [ht.1.slot]; exact hslot) hm).trans ht.2⟩) hp.exits ⟨hp.i4, rfl⟩).2
  -- credential changes and requests
  have hl := hp.later
  unfold laterParts at hl
  obtain ⟨c1, l1, l2⟩ := runs_append.1 hl
  have b6 : Inside E f s c1 ∧ bookOf c1 = if Fork.withdraws f then
      b.body.bls_to_execution_changes.foldl (fun B c => B.toExecution c.message.validator_index)
        (bookOf a5) else bookOf a5 := by
    split at l1
    · rw [if_pos ‹_›]
      exact fold (fun c _ t u ht hm => ⟨inside_part (.process_bls_to_execution_change _)
        bls_change_weights bls_change_mod (by decide) ht hm, change_book hm⟩) hp.i5 l1
    · rw [if_neg ‹_›]
      cases l1
      exact ⟨hp.i5, rfl⟩
  have b7 : bookOf a6 = if f = .Electra then
      (b.body.execution_payload.deposit_receipts.map fun r =>
        (⟨r.public_key, r.withdrawal_credentials, r.amount, r.signature⟩ : DepositData)).foldl
        (Book.deposit E f) (bookOf c1) else bookOf c1 := by
    split at l2
    · rename_i hf
      rw [if_pos hf]
      obtain ⟨c3, l2, l3⟩ := runs_append.1 l2
      obtain ⟨c2, l2, l4⟩ := runs_append.1 l2
      obtain ⟨i2, e2⟩ := runs_inv (J := fun t => Inside E f s t ∧ bookOf t = bookOf c1)
        (map_all fun r _ t u ht hm => ⟨inside_part
          (.process_execution_layer_withdrawal_request _ hf) request_weights withdrawal_request_mod
          (by decide) ht.1 hm, (request_book hm).trans ht.2⟩) l2 ⟨b6.1, rfl⟩
      obtain ⟨i3, e3⟩ := fold (k := fun B r => Book.deposit E f B
          ⟨r.public_key, r.withdrawal_credentials, r.amount, r.signature⟩)
        (fun r _ t u ht hm => ⟨inside_part (.process_deposit_receipt _ hf) receipt_weights
          deposit_receipt_mod (by decide) ht hm, by
            rw [hf]; exact receipt_book (hlen t ht) hm⟩) i2 l4
      rw [List.foldl_map, ← e2, ← e3]
      refine runs_inv (J := fun t => bookOf t = bookOf c3) (map_all fun op _ t u ht hm => ?_) l3 rfl
      exact absurd hm (C69_consolidation_fails E hE.withdrawability_delay.1 op t u)
    · rw [if_neg ‹_›]
      cases l2
      rfl
  -- the sync committee
  have b8 : ∃ seats, (f ≠ .Phase0 → Seats s' seats) ∧
      bookOf s' = if f = .Phase0 then bookOf a6 else
        (seats.zip b.body.sync_aggregate.sync_committee_bits).foldl
          (Book.seat (syncReward E s) (syncProposerReward E s) b.proposer_index) (bookOf a6) := by
    have hc := hp.closing
    unfold closingParts at hc
    by_cases hf : f = .Phase0
    · rw [if_pos hf] at hc
      cases hc
      exact ⟨[], fun h => absurd hf h, by rw [if_pos hf]⟩
    · rw [if_neg hf] at hc
      obtain ⟨seats, k1, k2⟩ := sync_book (runs_single.1 hc) (hprop a6 hp.i6)
      refine ⟨seats, fun _ => k1, ?_⟩
      unfold syncProposerReward at k2 ⊢
      rw [hp.i6.syncReward hslot] at k2
      rw [if_neg hf, k2]
  obtain ⟨seats, hseats, b8⟩ := b8
  refine ⟨rewards, seats, hrew, hseats, ?_⟩
  rw [b8, b7, b6.2, b5, b4, b3, b2, b0]
  rfl

theorem seats_total {r q p : Nat} {seats : List Nat} {bits : List Bool} {B : Book} :
    ((seats.zip bits).foldl (Book.seat r q p) B).total ≤
      B.total + bits.count true * (r + q) := by
  induction seats generalizing bits B with
  | nil => exact Nat.le_add_right _ _
  | cons i seats ih =>
    cases bits with
    | nil => exact Nat.le_add_right _ _
    | cons c bits =>
      rw [List.zip_cons_cons, List.foldl_cons]
      refine Nat.le_trans (ih (bits := bits)) ?_
      cases c
      · have := total_debit (B := B) (i := i) (x := r)
        rw [List.count_cons_of_ne (by decide)]
        exact Nat.add_le_add_right this _
      · have h1 := total_credit (B := B) (i := i) (x := r)
        have h2 := total_credit (B := B.credit i r) (i := p) (x := q)
        rw [List.count_cons_self, Nat.add_mul, Nat.one_mul]
        show ((B.credit i r).credit p q).total + _ ≤ _
        omega

/-- **C88** No money comes from nowhere: all balances and queued deposits together grow by no more
than the deposits of the block and the rewards for its slashings, its attestations and its sync
aggregate. -/
theorem C88_no_minting (hE : SaneConfig E) (hmax : 0 < E.max_deposits)
    (hV : E.min_seed_lookahead + 3 < E.epochs_per_historical_vector)
    (hslot : s.slot < 2 ^ 63) (hreg : s.validators.length ≤ 2 ^ 40) (hpar : Parallel f s)
    (h : process_block E f b s = .ok () s') :
    ∃ rewards, (f ≠ .Phase0 → InclusionRewards E f s b.body.attestations rewards) ∧
      (s'.balances.sum + (s'.pending_balance_deposits.map (·.amount)).sum) ≤
        (s.balances.sum + (s.pending_balance_deposits.map (·.amount)).sum) +
        ((depositsOf f b.body).map (·.amount)).sum +
        ((offenders E s b.body).map fun i =>
          effectiveBalance s i / whistleblowerQuotient E f).sum +
        (if f = .Phase0 then 0 else rewards.sum +
          b.body.sync_aggregate.sync_committee_bits.count true *
            (syncReward E s + syncProposerReward E s)) := by
  obtain ⟨rewards, seats, h1, -, h2⟩ := C88_ledger hE hmax hV hslot hreg hpar h
  refine ⟨rewards, h1, ?_⟩
  have tot : ∀ t : State, t.balances.length = t.validators.length → (bookOf t).total =
      t.balances.sum + (t.pending_balance_deposits.map (·.amount)).sum := by
    intro t ht
    unfold Book.total bookOf
    dsimp only
    rw [List.map_zipWith]
    congr 2
    apply List.ext_getElem?
    intro n
    rw [List.getElem?_zipWith]
    cases hb : t.balances[n]? with
    | none => cases t.validators[n]? <;> rfl
    | some x =>
      have := (List.getElem?_eq_some_iff.1 hb).1
      rw [List.getElem?_eq_getElem (ht ▸ this)]
  obtain ⟨a0, a1, a2, a3, a4, a5, a6, hp⟩ := phases hmax h
  rw [← tot s hpar.1, ← tot s'
    ((C12_calls_keep_lengths E f s s' hp.i7.history).2.1 hpar).1, h2]
  have hd : ∀ {l : List DepositData} {B : Book}, (l.foldl (Book.deposit E f) B).total ≤
      B.total + (l.map (·.amount)).sum := total_foldl fun _ _ _ => total_deposit
  unfold ledger depositsOf
  rw [List.map_append, List.sum_append]
  dsimp only
  have e1 : ∀ B : Book, (if Fork.withdraws f then b.body.execution_payload.withdrawals.foldl
      (fun B w => B.debit w.validator_index w.amount) B else B).total ≤ B.total := by
    intro B
    split
    · have := total_foldl (g := fun B (w : Withdrawal) => B.debit w.validator_index w.amount)
        (w := fun _ => 0) (l := b.body.execution_payload.withdrawals) (B := B)
        fun _ _ _ => total_debit
      simpa using this
    · exact Nat.le_refl _
  have e2 : ∀ B : Book, ((offenders E s b.body).foldl (Book.slash E f s b.proposer_index) B).total ≤
      B.total + ((offenders E s b.body).map fun i =>
          effectiveBalance s i / whistleblowerQuotient E f).sum := fun B =>
    total_foldl fun B i _ => Nat.le_trans total_credit (Nat.add_le_add_right total_debit _)
  have e3 : ∀ B : Book, (rewards.foldl (fun B r => B.credit b.proposer_index r) B).total ≤
      B.total + rewards.sum := by
    intro B
    have := total_foldl (g := fun B r => Book.credit B b.proposer_index r) (w := fun r => r)
      (l := rewards) (B := B) fun _ _ _ => total_credit
    simpa using this
  have e4 : ∀ B : Book, (if Fork.withdraws f then b.body.bls_to_execution_changes.foldl
      (fun B c => B.toExecution c.message.validator_index) B else B).total ≤ B.total := by
    intro B
    split
    · have := total_foldl
        (g := fun B (c : SignedBlsToExecutionChange) => B.toExecution c.message.validator_index)
        (w := fun _ => 0) (l := b.body.bls_to_execution_changes) (B := B) fun _ _ _ => total_kind
      simpa using this
    · exact Nat.le_refl _
  have e5 : ∀ B : Book, (if f = .Electra then
      (b.body.execution_payload.deposit_receipts.map fun r =>
        (⟨r.public_key, r.withdrawal_credentials, r.amount, r.signature⟩ : DepositData)).foldl
        (Book.deposit E f) B else B).total ≤ B.total + ((if f = .Electra then
          b.body.execution_payload.deposit_receipts.map fun r =>
            (⟨r.public_key, r.withdrawal_credentials, r.amount, r.signature⟩ : DepositData)
          else []).map (·.amount)).sum := by
    intro B
    split
    · exact hd
    · simp
  generalize hB0 : (if Fork.withdraws f then b.body.execution_payload.withdrawals.foldl
      (fun B w => B.debit w.validator_index w.amount) (bookOf s) else bookOf s) = B0
  have k0 := e1 (bookOf s)
  rw [hB0] at k0
  have k1 := e2 B0
  generalize (offenders E s b.body).foldl (Book.slash E f s b.proposer_index) B0 = B1 at k1 ⊢
  by_cases hf : f = .Phase0
  · simp only [if_pos hf] at *
    have k3 := hd (l := b.body.deposits.map (·.data)) (B := B1)
    generalize (b.body.deposits.map (·.data)).foldl (Book.deposit E f) B1 = B3 at k3 ⊢
    have k4 := e4 B3
    have k5 := e5 (if Fork.withdraws f then b.body.bls_to_execution_changes.foldl
      (fun B c => B.toExecution c.message.validator_index) B3 else B3)
    omega
  · simp only [if_neg hf]
    have k2 := e3 B1
    generalize rewards.foldl (fun B r => B.credit b.proposer_index r) B1 = B2 at k2 ⊢
    have k3 := hd (l := b.body.deposits.map (·.data)) (B := B2)
    generalize (b.body.deposits.map (·.data)).foldl (Book.deposit E f) B2 = B3 at k3 ⊢
    have k4 := e4 B3
    have k5 := e5 (if Fork.withdraws f then b.body.bls_to_execution_changes.foldl
      (fun B c => B.toExecution c.message.validator_index) B3 else B3)
    refine Nat.le_trans seats_total ?_
    omega

/-! ## Who is slashed -/

theorem slashings_kept {m : M Unit} {W : List Field} (h : Modifies W m) (hW : Field.slashings ∉ W)
    {t u : State} (hm : m t = .ok () u) : u.slashings = t.slashings := by
  have g : ChangesOnly W t u := h.toOk.ok hm
  exact g .slashings hW

theorem slash_fund {l : List Nat} {t u : State} (ht : Inside E f s t)
    (hl : ∀ i ∈ l, i < s.validators.length)
    (h : forEach l (fun i => slash_validator E f i none) t = .ok () u) :
    u.slashings = t.slashings.modify (epochOf E s.slot % E.epochs_per_slashings_vector)
      (· + totalEffective s l) := by
  induction l generalizing t with
  | nil =>
    rw [forEach_nil] at h; cases h
    exact (List.modify_id _ _).symm
  | cons i l ih =>
    rw [forEach_cons] at h
    obtain ⟨x, h1, h2⟩ := h
    have ix : Inside E f s x :=
      inside_part (.slash_validator _ _) slash_weights slash_mod (by decide) ht h1
    rw [ih ix (fun j hj => hl j (.tail _ hj)) h2]
    obtain ⟨q, share, v, v₁, -, -, he⟩ := slash_validator_effect h1
    obtain ⟨y, hy, -⟩ := he.exit
    have hw : v.effective_balance = effectiveBalance s i := by
      rw [← ht.weight (hl i (.head _))]
      unfold effectiveBalance; rw [hy.before]
    rw [he.slashings, ht.slot, hw]
    unfold totalEffective
    rw [List.map_cons, List.sum_cons, modify_twice]

theorem offenders_done (hE : SaneConfig E) (hmax : 0 < E.max_deposits) (hslot : s.slot < 2 ^ 63)
    (h : process_block E f b s = .ok () s') :
    (offenders E s b.body).Nodup ∧ (∀ i ∈ offenders E s b.body, ∃ v,
      s.validators[i]? = some v ∧ Slashable v (epochOf E s.slot)) ∧
    (∃ u, Slashed s (offenders E s b.body) u ∧ KeepsFlags u s') ∧
    s'.slashings = s.slashings.modify (epochOf E s.slot % E.epochs_per_slashings_vector)
      (· + totalEffective s (offenders E s b.body)) := by
  obtain ⟨a0, a1, a2, a3, a4, a5, a6, hp⟩ := phases hmax h
  have hc0 : ChangesOnly _ s a0 :=
    (runs_mod (W := [.latest_block_header, .balances, .pending_partial_withdrawals,
      .next_withdrawal_index, .next_withdrawal_validator_index,
      .latest_execution_payload_header, .randao_mixes, .eth1_data, .eth1_data_votes])
      (opening_all (Modifies.mono header_mod (by decide))
        (fun _ => Modifies.mono withdrawals_mod (by decide))
        (Modifies.mono payload_mod (by decide)) (Modifies.mono randao_mod (by decide))
        (Modifies.mono eth1_mod (by decide))) hp.opening)
  have v0 : a0.validators = s.validators := hc0 .validators (by decide)
  have s0 : a0.slashings = s.slashings := hc0 .slashings (by decide)
  have d0 : Slashed s [] a0 := ⟨hp.i0.slot, by rw [v0], fun i _ => by rw [v0], by simp⟩
  let J : List Nat → State → Prop := fun done t => Inside E f s t ∧ Slashed s done t ∧ done.Nodup ∧
    (∀ i ∈ done, ∃ v, s.validators[i]? = some v ∧ Slashable v (epochOf E s.slot)) ∧
    t.slashings = s.slashings.modify (epochOf E s.slot % E.epochs_per_slashings_vector)
      (· + totalEffective s done)
  have step : ∀ {l done : List Nat} {t u : State}, J done t → l.Nodup →
      (∀ i ∈ l, i ∉ done ∧ ∃ v, s.validators[i]? = some v ∧ Slashable v (epochOf E s.slot)) →
      Inside E f s u → forEach l (fun i => slash_validator E f i none) t = .ok () u →
      J (done ++ l) u := by
    intro l done t u ht hl hnew iu hf
    obtain ⟨j1, j2, j3, j4, j5⟩ := ht
    refine ⟨iu, slashed_more j2 hf, List.nodup_append.2 ⟨j3, hl, ?_⟩, ?_, ?_⟩
    · rintro i hi j hj rfl
      exact (hnew i hj).1 hi
    · intro i hi
      rcases List.mem_append.1 hi with hi | hi
      · exact j4 i hi
      · exact (hnew i hi).2
    · have hr : ∀ i ∈ l, i < s.validators.length := fun i hi => by
        obtain ⟨-, v, hv, -⟩ := hnew i hi
        exact (List.getElem?_eq_some_iff.1 hv).1
      rw [slash_fund j1 hr hf, j5, modify_twice]
      unfold totalEffective
      rw [List.map_append, List.sum_append]
  have j0 : J [] a0 :=
    ⟨hp.i0, d0, List.nodup_nil, by simp, by rw [s0]; exact (List.modify_id _ _).symm⟩
  have j1 : ∀ {ops : List ProposerSlashing} {done : List Nat} {t u : State}, J done t →
      Runs (ops.map (process_proposer_slashing E f)) t u →
      J (done ++ ops.map fun op => op.signed_header_1.message.proposer_index) u := by
    intro ops
    induction ops with
    | nil => intro done t u ht hr; cases hr; simpa using ht
    | cons op ops ih =>
      intro done t u ht hr
      obtain ⟨x, h1, h2⟩ := hr
      obtain ⟨-, ⟨v, hv⟩, hs⟩ := process_proposer_slashing_eq_ok.1 h1
      have hnot : op.signed_header_1.message.proposer_index ∉ done := fun hd => by
        obtain ⟨w, hw, hws⟩ := ht.2.1.done _ hd
        rw [hv.exists_proposer] at hw; cases hw
        have := hv.slashable.1
        rw [hws] at this; cases this
      have hval := hv.exists_proposer
      rw [ht.2.1.others _ hnot] at hval
      have hsl := hv.slashable
      rw [ht.2.1.slot] at hsl
      have := ih (step ht (l := [op.signed_header_1.message.proposer_index])
        (List.nodup_singleton _) (by
          intro i hi
          rw [List.mem_singleton] at hi; subst hi
          exact ⟨hnot, v, hval, hsl⟩) (inside_proposer_slashing ht.1 h1) (by
          rw [forEach_cons]; exact ⟨_, hs, by rw [forEach_nil]⟩)) h2
      simpa using this
  have j2 : ∀ {ops : List AttesterSlashing} {done : List Nat} {t u : State}, J done t →
      Runs (ops.map (process_attester_slashing E f)) t u →
      J (ops.foldl (fun done op => done ++ (culprits E s op.attestation_1 op.attestation_2).filter
        fun i => decide (i ∉ done)) done) u := by
    intro ops
    induction ops with
    | nil => intro done t u ht hr; cases hr; exact ht
    | cons op ops ih =>
      intro done t u ht hr
      obtain ⟨x, h1, h2⟩ := hr
      have hf := (process_attester_slashing_eq_ok.1 h1).2.2.2.2.2
      rw [culprits_later ht.2.1] at hf
      refine ih (step ht ?_ ?_ (inside_attester_slashing ht.1 h1) hf) h2
      · exact ((List.nodup_range).filter _).filter _
      · intro i hi
        obtain ⟨hc, hd⟩ := List.mem_filter.1 hi
        obtain ⟨-, -, v, hv, hs⟩ := mem_culprits.1 hc
        exact ⟨by simpa using hd, v, hv, hs⟩
  have k2 := j2 (j1 j0 hp.proposers) hp.attesters
  rw [List.nil_append] at k2
  obtain ⟨-, k2, k3, k4, k5⟩ : J (offenders E s b.body) a2 := k2
  refine ⟨k3, k4, ⟨a2, k2, ?_⟩, ?_⟩
  · have f3 : KeepsFlags a2 a3 := runs_pres keepsFlagsPre
      (map_all fun _ _ => PresOk.of fun x _ y hxy => keeps_mod attestation_mod (by decide) hxy)
      hp.votes
    have f4 : KeepsFlags a3 a4 := runs_pres keepsFlagsPre
      (map_all fun _ _ => PresOk.of fun x _ y hxy => keeps_deposit hE hxy) hp.deposits
    have f5 : KeepsFlags a4 a5 := (runs_inv (J := fun t => Inside E f s t ∧ KeepsFlags a4 t)
      (map_all fun op _ t u ht hm => ⟨inside_exit ht.1 hm, keepsFlagsPre.trans ht.2
        (keeps_exit hE (by rw [ht.1.slot]; exact hslot) hm)⟩) hp.exits
      ⟨hp.i4, keepsFlagsPre.refl _⟩).2
    have f6 : KeepsFlags a5 a6 := runs_pres keepsFlagsPre (later_all
      (fun _ _ _ => PresOk.of fun x _ y hxy => keeps_change hxy)
      (fun _ _ _ => PresOk.of fun x _ y hxy => keeps_request hxy)
      (fun _ _ _ => PresOk.of fun x _ y hxy => keeps_receipt hxy)
      (fun _ op _ => PresOk.of fun x _ y hxy =>
        absurd hxy (C69_consolidation_fails E hE.withdrawability_delay.1 op x y))) hp.later
    have f7 : KeepsFlags a6 s' := runs_pres keepsFlagsPre (closing_all
      (fun _ => PresOk.of fun x _ y hxy => keeps_mod sync_aggregate_mod (by decide) hxy)) hp.closing
    exact keepsFlagsPre.trans f3 (keepsFlagsPre.trans f4 (keepsFlagsPre.trans f5
      (keepsFlagsPre.trans f6 f7)))
  · rw [← k5]
    have g3 : a3.slashings = a2.slashings :=
      (runs_mod (map_all fun _ _ => attestation_mod) hp.votes) .slashings (by decide)
    rw [← g3]
    have m := fun {W V : List Field} {α : Type} {m : M α} (h : Modifies W m) (hs : W ⊆ V) =>
      (Modifies.mono h hs : Modifies V m)
    refine ((changesPre [.validators, .balances, .exit_balance_to_consume,
      .earliest_exit_epoch,
      .current_epoch_participation, .previous_epoch_participation, .eth1_deposit_index,
      .inactivity_scores, .pending_balance_deposits, .pending_partial_withdrawals,
      .deposit_receipts_start_index, .consolidation_balance_to_consume,
      .earliest_consolidation_epoch, .pending_consolidations]).trans
      (runs_mod (map_all fun _ _ => m deposit_mod (by decide)) hp.deposits)
      ((changesPre _).trans (runs_mod (map_all fun _ _ => m voluntary_exit_mod (by decide)) hp.exits)
      ((changesPre _).trans (runs_mod (later_all ?_ ?_ ?_ ?_) hp.later)
      (runs_mod (closing_all fun _ => m sync_aggregate_mod (by decide)) hp.closing))))
      .slashings (by decide)
    · exact fun _ _ _ => m bls_change_mod (by decide)
    · exact fun _ _ _ => m withdrawal_request_mod (by decide)
    · exact fun _ _ _ => m deposit_receipt_mod (by decide)
    · exact fun _ _ _ => m consolidation_mod (by decide)

/-- **C88** The validators an accepted block slashes are exactly those its evidence is against and
that could be slashed before: each is listed once, and afterwards a validator is slashed if and only
if it was before or is one of them. -/
theorem C88_slashed (hE : SaneConfig E) (hmax : 0 < E.max_deposits) (hslot : s.slot < 2 ^ 63)
    (h : process_block E f b s = .ok () s') :
    (offenders E s b.body).Nodup ∧
    (∀ i ∈ offenders E s b.body, ∃ v,
      s.validators[i]? = some v ∧ Slashable v (epochOf E s.slot)) ∧
    ∀ (i : Nat) v, s.validators[i]? = some v →
      ∃ w, s'.validators[i]? = some w ∧
        (w.slashed = true ↔ v.slashed = true ∨ i ∈ offenders E s b.body) := by
  obtain ⟨h1, h2, ⟨u, hu, hk⟩, -⟩ := offenders_done hE hmax hslot h
  refine ⟨h1, h2, fun i v hv => ?_⟩
  by_cases hi : i ∈ offenders E s b.body
  · obtain ⟨x, hx, hxs⟩ := hu.done i hi
    obtain ⟨w, hw, hws⟩ := hk i x hx
    exact ⟨w, hw, by simp [hws, hxs, hi]⟩
  · obtain ⟨w, hw, hws⟩ := hk i v ((hu.others i hi).trans hv)
    exact ⟨w, hw, by simp [hws, hi]⟩

/-- **C88** The effective balances of the validators a block slashes, and nothing else, are added to
the sum of the slashings of the epoch. -/
theorem C88_slashings (hE : SaneConfig E) (hmax : 0 < E.max_deposits) (hslot : s.slot < 2 ^ 63)
    (h : process_block E f b s = .ok () s') :
    s'.slashings = s.slashings.modify (epochOf E s.slot % E.epochs_per_slashings_vector)
      (· + totalEffective s (offenders E s b.body)) := (offenders_done hE hmax hslot h).2.2.2

/-! ## The hypotheses hold of concrete blocks -/

/-- Three validators are slashed: one proposer, two attesters. -/
example : offenders Toy.env dueState fullBody = [3, 1, 6] := by decide +kernel

/-- The theorem speaks about this block, ... -/
example : ∃ rewards seats, (Fork.Deneb ≠ .Phase0 →
      InclusionRewards Toy.env .Deneb dueState fullBody.attestations rewards) ∧
    (Fork.Deneb ≠ .Phase0 → Seats (after .Deneb dueState fullBody) seats) ∧
    bookOf (after .Deneb dueState fullBody) =
      ledger Toy.env .Deneb dueState (Toy.block dueState fullBody) rewards seats :=
  C88_ledger toy_sane toy_far.2 toy_far.1 (by decide) (by decide +kernel)
    (by unfold Parallel; decide +kernel) toy_due

/-- ... whose entries are these: the attestation is worth 617142 to the proposer, whose balance grows
by that, three rewards for reporting and four for the sync aggregate. -/
example :
    bookOf (after .Deneb dueState fullBody) =
      ledger Toy.env .Deneb dueState (Toy.block dueState fullBody) [617142] [0, 1, 2, 3] ∧
    ((bookOf (after .Deneb dueState fullBody)).accounts[9]?.map (·.balance)) =
      some (32000000000 + 3 * 62500000 + 617142 + 4 * 892) := by decide +kernel

/-- In electra deposits are queued. -/
example :
    bookOf (after .Electra askingState requestBody) =
      ledger Toy.env .Electra askingState (Toy.block askingState requestBody) [] [0, 1, 2, 3] ∧
    (bookOf (after .Electra askingState requestBody)).queue = [⟨1, 1000000000⟩, ⟨8, 32000000000⟩] := by
  decide +kernel

example : ∃ w, (after .Deneb dueState fullBody).validators[6]? = some w ∧
    (w.slashed = true ↔ (Toy.validator 6).slashed = true ∨ 6 ∈ offenders Toy.env dueState fullBody) :=
  (C88_slashed toy_sane toy_far.2 (by decide) toy_due).2.2 6 _ (by decide +kernel)

end Verif.Props
