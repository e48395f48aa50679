import Verif.Props.Parts
import Verif.Props.Executor
import Verif.Proofs.Replay

/-!
# C105: nothing is done twice

"What a block or a transaction in it has done cannot be done again: in whatever state comes later, the
block, and an exit, change of credentials, slashing or deposit like one of its own, is refused."
-/

namespace Verif.Props

open Spec

variable {E : Env} {f g : Fork} {s s' t u : State}

/-- A future, and then a history -/
theorem future_history (h : Future E f s g t) (h' : History E g t u) : Future E f s g u := by
  induction h' with
  | start => exact h
  | call _ hm ih => exact .call ih hm

/-! ## Blocks -/

/-- **C105** A block that is accepted after another, whatever was called in between and whatever fork
came, is of a later slot. Hence no block is accepted twice. -/
theorem C105_block (hE : SaneConfig E) (hmax : 0 < E.max_deposits) {b c : BeaconBlock}
    (hb : process_block E f b s = .ok () s') (h : Future E f s' g t)
    (hc : process_block E g c t = .ok () u) : b.slot < c.slot := by
  have h1 := (C86_header hmax hb).2
  have h2 := (C86_header hmax hc).1.newer
  have h3 := (future_marks hE h).2.1
  rw [h1] at h3
  exact Nat.lt_of_le_of_lt h3 h2

/-- **C105** The same for the state transition. -/
theorem C105_transition (hE : SaneConfig E) (hmax : 0 < E.max_deposits) {b c : SignedBeaconBlock}
    {v w : Validation} (hb : state_transition E f b v s = .ok () s') (h : Future E f s' g t)
    (hc : state_transition E g c w t = .ok () u) : b.message.slot < c.message.slot := by
  have cut : ∀ {k : Fork} {x : SignedBeaconBlock} {v : Validation} {a z : State},
      state_transition E k x v a = .ok () z →
        ∃ y, process_slots E k x.message.slot a = .ok () y ∧
          process_block E k x.message y = .ok () z := by
    intro k x v a z hx
    cases v with
    | Disabled => exact (C48_unvalidated E k x a z).1 hx
    | Enabled => exact (C48_unvalidated E k x a z).1 ((C48_validated E hE k x a z).1 hx).1
  obtain ⟨y, -, hy⟩ := cut hb
  obtain ⟨z, h1, hz⟩ := cut hc
  have hf : Future E f s' g z := by
    have := Future.call h (EntryPoint.process_slots c.message.slot)
    rw [show finalState (process_slots E g c.message.slot) t = z by unfold finalState; rw [h1]] at this
    exact this
  exact C105_block hE hmax hy hf hz

/-! ## Deposits -/

/-- **C105** Each deposit of the deposit contract is processed once: the proofs of all later deposits
are for later positions in its list. -/
theorem C105_deposit (hE : SaneConfig E) {d d' : Deposit}
    (hd : process_deposit E f d s = .ok () s') (h : Future E f s' g t)
    (hd' : process_deposit E g d' t = .ok () u) :
    E.is_valid_merkle_branch (E.deposit_data_root d.data) d.proof 33 s.eth1_deposit_index
      s.eth1_data.deposit_root = true ∧
    E.is_valid_merkle_branch (E.deposit_data_root d'.data) d'.proof 33 t.eth1_deposit_index
      t.eth1_data.deposit_root = true ∧
    s.eth1_deposit_index < t.eth1_deposit_index := by
  have cut : ∀ {k : Fork} {x : Deposit} {a z : State}, process_deposit E k x a = .ok () z →
      E.is_valid_merkle_branch (E.deposit_data_root x.data) x.proof 33 a.eth1_deposit_index
        a.eth1_data.deposit_root = true ∧ z.eth1_deposit_index = a.eth1_deposit_index + 1 := by
    intro k x a z hx
    unfold process_deposit at hx
    simp only [run] at hx
    obtain ⟨h1, _, ⟨rfl, -⟩, h3⟩ := hx
    exact ⟨by simpa [DEPOSIT_CONTRACT_TREE_DEPTH] using h1,
      apply_deposit_mod.toOk.ok h3 .eth1_deposit_index (by decide)⟩
  have h1 := cut hd
  have h2 := (future_marks hE h).2.2
  exact ⟨h1.1, (cut hd').1, by have := h1.2; omega⟩

/-! ## Exits -/

/-- **C105** A validator that left by a voluntary exit cannot leave by another one. -/
theorem C105_exit (hE : SaneConfig E) {op op' : SignedVoluntaryExit}
    (h : process_voluntary_exit E f op s = .ok () s') (hf : Future E f s' g t)
    (hslot : t.slot < 2 ^ 64) (hi : op'.message.validator_index = op.message.validator_index) :
    process_voluntary_exit E g op' t ≠ .ok () u := by
  intro h'
  have hle := (future_duty hf).1.1
  have hss : s'.slot = s.slot := voluntary_exit_mod.toOk.ok h .slot (by decide)
  obtain ⟨⟨v, hv, -, h1⟩, -⟩ := C27_voluntary_exit_once E hE f f op s s' s (by omega) h
  obtain ⟨w, hw, -, -, h2, -⟩ := (future_marks hE hf).1 _ v hv
  obtain ⟨⟨x, hx⟩, -⟩ := (C27_voluntary_exit_iff E hE g op' t u hslot).1 h'
  have h3 := hx.exists_validator
  rw [hi, hw] at h3
  cases h3
  have h4 := hx.not_exiting
  rw [h2 (by omega)] at h4
  omega

/-- **C105** Hence no block has an exit of a validator of which an earlier block has one. -/
theorem C105_exits (hE : SaneConfig E) (hmax : 0 < E.max_deposits) {b c : BeaconBlock}
    (hb : process_block E f b s = .ok () s') (h : Future E f s' g t)
    (hc : process_block E g c t = .ok () u) (hslot : u.slot < 2 ^ 64)
    {op op' : SignedVoluntaryExit} (hop : op ∈ b.body.voluntary_exits)
    (hop' : op' ∈ c.body.voluntary_exits) :
    op'.message.validator_index ≠ op.message.validator_index := by
  have part : ∀ {k : Fork} {x : BeaconBlock} {o : SignedVoluntaryExit},
      o ∈ x.body.voluntary_exits → process_voluntary_exit E k o ∈ operationParts E k x.body := by
    intro k x o ho
    simp only [operationParts, List.mem_append, List.mem_map]
    exact .inl (.inl (.inr ⟨o, ho, rfl⟩))
  obtain ⟨a, a', -, h1, h2⟩ := operation_ran hmax hb (part hop)
  obtain ⟨z, z', h3, h4, h5⟩ := operation_ran hmax hc (part hop')
  have hz : Future E g z g u := by
    have := Future.call (Future.start (E := E) (f := g) (s := z)) (.process_voluntary_exit op')
    rw [show finalState (process_voluntary_exit E g op') z = z' by unfold finalState; rw [h4]] at this
    exact future_history this h5
  have := (future_duty hz).1.1
  exact fun hi => C105_exit hE h1 (future_history (history_future h2 h) h3) (by omega) hi h4

/-- **C105** Nor are there two of one validator in one block. -/
theorem C105_exits_distinct (hE : SaneConfig E) (hmax : 0 < E.max_deposits) {b : BeaconBlock}
    (hb : process_block E f b s = .ok () s') (hslot : s.slot < 2 ^ 64) :
    (b.body.voluntary_exits.map (·.message.validator_index)).Nodup := by
  obtain ⟨a0, a1, a2, a3, a4, a5, a6, hp⟩ := phases hmax hb
  have h4 := hp.i4.slot
  have hr := hp.exits
  revert h4 hr
  generalize a4 = x
  generalize b.body.voluntary_exits = l
  intro h4 hr
  induction l generalizing x with
  | nil => exact List.nodup_nil
  | cons op l ih =>
    obtain ⟨y, h1, h2⟩ := runs_cons.1 hr
    have hy : y.slot = x.slot := voluntary_exit_mod.toOk.ok h1 .slot (by decide)
    rw [List.map_cons, List.nodup_cons]
    refine ⟨fun hm => ?_, ih y (hy.trans h4) h2⟩
    obtain ⟨op', hm, hi⟩ := List.mem_map.1 hm
    obtain ⟨p, r, z, z', he, k1, k2, -⟩ := runs_mem (List.mem_map_of_mem hm) h2
    have hz : History E f y z := runs_history (fun m hm => by
      have : m ∈ l.map (process_voluntary_exit E f) := by rw [he]; exact List.mem_append_left _ hm
      obtain ⟨o, -, rfl⟩ := List.mem_map.1 this
      exact .process_voluntary_exit _) .start k1
    have hzs : z.slot = y.slot :=
      (runs_mod (W := [.validators, .exit_balance_to_consume, .earliest_exit_epoch]) (fun m hm => by
        have : m ∈ l.map (process_voluntary_exit E f) := by rw [he]; exact List.mem_append_left _ hm
        obtain ⟨o, -, rfl⟩ := List.mem_map.1 this
        exact voluntary_exit_mod) k1) .slot (by decide)
    exact C105_exit hE h1 (future_history .start hz) (by omega) hi k2

/-! ## Credentials -/

/-- **C105** A validator that has changed its credentials cannot change them again. -/
theorem C105_change (hE : SaneConfig E) {op op' : SignedBlsToExecutionChange}
    (h : process_bls_to_execution_change E op s = .ok () s') (hf : Future E f s' g t)
    (hi : op'.message.validator_index = op.message.validator_index) :
    process_bls_to_execution_change E op' t ≠ .ok () u := by
  intro h'
  obtain ⟨v, c, hv, hc, rfl⟩ := (C46_credential_change_iff E op s s').1 h
  obtain ⟨x, c', hx, -, -⟩ := (C46_credential_change_iff E op' t u).1 h'
  have hlt := (List.getElem?_eq_some_iff.1 hv.exists_validator).1
  obtain ⟨w, hw, -, -, -, h2⟩ := (future_marks hE hf).1 op.message.validator_index
    { v with withdrawal_credentials := c } (List.getElem?_set_self hlt)
  have first : ∀ (a : Bytes32), a.toList.head? = some a[0] := fun a => by
    rw [List.head?_eq_getElem?]; simp
  have h0 : c[0] ≠ 0 := by
    have := first c
    rw [hc] at this
    simp only [executionCredentials, List.head?_cons, Option.some.injEq] at this
    rw [← this]; decide
  have h3 := hx.exists_validator
  rw [hi, hw] at h3
  have h3 := Option.some.inj h3
  have h4 := first x.withdrawal_credentials
  rw [hx.credentials] at h4
  rw [h3] at h2
  exact h2 h0 (Option.some.inj h4).symm

/-- **C105** Hence no block has a change for a validator for which an earlier block has one. -/
theorem C105_changes (hE : SaneConfig E) (hmax : 0 < E.max_deposits) {b c : BeaconBlock}
    (hf : Fork.withdraws f = true) (hg : Fork.withdraws g = true)
    (hb : process_block E f b s = .ok () s') (h : Future E f s' g t)
    (hc : process_block E g c t = .ok () u)
    {op op' : SignedBlsToExecutionChange} (hop : op ∈ b.body.bls_to_execution_changes)
    (hop' : op' ∈ c.body.bls_to_execution_changes) :
    op'.message.validator_index ≠ op.message.validator_index := by
  have part : ∀ {k : Fork} {x : BeaconBlock} {o : SignedBlsToExecutionChange},
      Fork.withdraws k = true → o ∈ x.body.bls_to_execution_changes →
        process_bls_to_execution_change E o ∈ operationParts E k x.body := by
    intro k x o hk ho
    simp only [operationParts, List.mem_append, List.mem_map, if_pos hk]
    exact .inl (.inr ⟨o, ho, rfl⟩)
  obtain ⟨a, a', -, h1, h2⟩ := operation_ran hmax hb (part hf hop)
  obtain ⟨z, z', h3, h4, -⟩ := operation_ran hmax hc (part hg hop')
  exact fun hi => C105_change hE h1 (future_history (history_future h2 h) h3) hi h4

/-! ## Slashings -/

/-- **C105** A validator that is slashed is not slashed again, whatever else it is proved to have
done: neither for headers it signed nor for votes. -/
theorem C105_slashed_once (hE : SaneConfig E) {i : Nat} {v : Validator}
    (hv : s.validators[i]? = some v) (hs : v.slashed = true) (hf : Future E f s g t) :
    (∀ op : ProposerSlashing, op.signed_header_1.message.proposer_index = i →
      process_proposer_slashing E g op t ≠ .ok () u) ∧
    (∀ op : AttesterSlashing, i ∉ culprits E t op.attestation_1 op.attestation_2) := by
  obtain ⟨w, hw, -, h1, -⟩ := (future_marks hE hf).1 i v hv
  have hws := h1 hs
  constructor
  · rintro op rfl h
    obtain ⟨⟨x, hx⟩, -⟩ := (C13_proposer_slashing_iff E hE g op t u).1 h
    have h2 := hx.exists_proposer
    rw [hw] at h2
    cases h2
    rw [hx.slashable.1] at hws
    cases hws
  · intro op hm
    unfold culprits at hm
    rw [List.mem_filter] at hm
    rw [hw] at hm
    simp only [Bool.and_eq_true, decide_eq_true_eq] at hm
    rw [hm.2.2.1] at hws
    cases hws

/-- **C105** Hence no block slashes a proposer whom an earlier block has slashed for equivocation. -/
theorem C105_proposer_slashings (hE : SaneConfig E) (hmax : 0 < E.max_deposits)
    {b c : BeaconBlock} (hb : process_block E f b s = .ok () s') (h : Future E f s' g t)
    (hc : process_block E g c t = .ok () u) {op op' : ProposerSlashing}
    (hop : op ∈ b.body.proposer_slashings) (hop' : op' ∈ c.body.proposer_slashings) :
    op'.signed_header_1.message.proposer_index ≠ op.signed_header_1.message.proposer_index := by
  obtain ⟨w, hw, hs⟩ := C86_proposer_slashings hE hmax hb op hop
  obtain ⟨z, z', h3, h4, -⟩ := operation_ran hmax hc (m := process_proposer_slashing E g op') (by
    simp only [operationParts, List.mem_append, List.mem_map]
    exact .inl (.inl (.inl (.inl (.inl (.inl ⟨op', hop', rfl⟩))))))
  exact fun hi => (C105_slashed_once hE hw hs (future_history h h3)).1 op' hi h4

/-- What is refused once it is done is not done twice in a row of operations. -/
theorem runs_distinct {α : Type} {exec : α → M Unit} {key : α → Nat} {l : List α}
    (entry : ∀ op, EntryPoint E f (exec op))
    (once : ∀ op op' (x y z z' : State), exec op x = .ok () y → History E f y z →
      key op' = key op → exec op' z ≠ .ok () z')
    (h : Runs (l.map exec) s s') : (l.map key).Nodup := by
  induction l generalizing s with
  | nil => exact List.nodup_nil
  | cons op l ih =>
    obtain ⟨y, h1, h2⟩ := runs_cons.1 h
    rw [List.map_cons, List.nodup_cons]
    refine ⟨fun hm => ?_, ih h2⟩
    obtain ⟨op', hm, hi⟩ := List.mem_map.1 hm
    obtain ⟨p, r, z, z', he, k1, k2, -⟩ := runs_mem (List.mem_map_of_mem hm) h2
    have hz : History E f y z := runs_history (fun m hm => by
      have : m ∈ l.map exec := by rw [he]; exact List.mem_append_left _ hm
      obtain ⟨o, -, rfl⟩ := List.mem_map.1 this
      exact entry o) .start k1
    exact once op op' _ _ _ _ h1 hz hi k2

/-- **C105** Nor does one block have two proposer slashings of the same validator. -/
theorem C105_proposer_slashings_distinct (hE : SaneConfig E) (hmax : 0 < E.max_deposits)
    {b : BeaconBlock} (hb : process_block E f b s = .ok () s') :
    (b.body.proposer_slashings.map (·.signed_header_1.message.proposer_index)).Nodup := by
  obtain ⟨a0, a1, a2, a3, a4, a5, a6, hp⟩ := phases hmax hb
  refine runs_distinct (fun op => .process_proposer_slashing op) ?_ hp.proposers
  intro op op' x y z z' h1 hz hi
  have h1 := (process_proposer_slashing_eq_ok.1 h1).2.2
  obtain ⟨v, hv, hs⟩ := (slash_run (l := [op.signed_header_1.message.proposer_index])
    (by rw [forEach_cons]; exact ⟨_, h1, by rw [forEach_nil]⟩)).2.2.2 _ (List.mem_singleton.2 rfl)
  exact (C105_slashed_once hE hv hs (future_history .start hz)).1 op' hi

/-- **C105** Nor does one block have two credential changes of the same validator. -/
theorem C105_changes_distinct (hE : SaneConfig E) (hmax : 0 < E.max_deposits)
    {b : BeaconBlock} (hf : Fork.withdraws f = true) (hb : process_block E f b s = .ok () s') :
    (b.body.bls_to_execution_changes.map (·.message.validator_index)).Nodup := by
  obtain ⟨a0, a1, a2, a3, a4, a5, a6, hp⟩ := phases hmax hb
  have hl := hp.later
  unfold laterParts at hl
  rw [if_pos hf] at hl
  obtain ⟨x, hl, -⟩ := runs_append.1 hl
  exact runs_distinct (f := f) (fun op => .process_bls_to_execution_change op)
    (fun op op' x y z z' h1 hz hi => C105_change hE h1 (future_history .start hz) hi) hl

/-- **C105** An attester slashing whose culprits were all slashed before is refused. -/
theorem C105_attester_slashing (hE : SaneConfig E) {op : AttesterSlashing}
    (hs : ∀ i, i ∈ op.attestation_1.attesting_indices → i ∈ op.attestation_2.attesting_indices →
      ∃ v, s.validators[i]? = some v ∧ v.slashed = true)
    (hf : Future E f s g t) : process_attester_slashing E g op t ≠ .ok () u := by
  intro h
  obtain ⟨-, -, -, hne, -⟩ := (C14_attester_slashing_iff E hE g op t u).1 h
  obtain ⟨i, hi⟩ := List.exists_mem_of_ne_nil _ hne
  have hm := hi
  unfold culprits at hm
  rw [List.mem_filter] at hm
  simp only [Bool.and_eq_true, decide_eq_true_eq] at hm
  obtain ⟨v, hv, hvs⟩ := hs i hm.2.1.1 hm.2.1.2
  exact (C105_slashed_once (u := u) hE hv hvs hf).2 op hi

/-! ## Examples -/

/-- After the block in which validator 3 changes its credentials and leaves, and after an upgrade,
another exit of it and another change for it are refused. -/
example (t u : State)
    (h : upgrade_to Toy.env .Deneb (after .Capella lateState leavingBody) = .ok t)
    (hslot : t.slot < 2 ^ 64) (sig : Signature) (address : ExecutionAddress) (key : PublicKey) :
    process_voluntary_exit Toy.env .Deneb ⟨⟨0, 3⟩, sig⟩ t ≠ .ok () u ∧
    process_bls_to_execution_change Toy.env ⟨⟨3, key, address⟩, sig⟩ t ≠ .ok () u := by
  have hF : Future Toy.env .Capella (after .Capella lateState leavingBody) .Deneb t :=
    .upgrade .start rfl h
  obtain ⟨a, a', -, h1, h2⟩ := operation_ran toy_far.2 toy_leaving
    (m := process_voluntary_exit Toy.env .Capella exitOp) (by
      simp only [operationParts, List.mem_append, List.mem_map]
      exact .inl (.inl (.inr ⟨exitOp, List.mem_cons_self, rfl⟩)))
  obtain ⟨c, c', -, h3, h4⟩ := operation_ran toy_far.2 toy_leaving
    (m := process_bls_to_execution_change Toy.env change) (by
      simp only [operationParts, List.mem_append, List.mem_map,
        if_pos (show Fork.withdraws .Capella = true from rfl)]
      exact .inl (.inr ⟨change, List.mem_cons_self, rfl⟩))
  exact ⟨C105_exit toy_sane h1 (history_future h2 hF) hslot rfl,
    C105_change toy_sane h3 (history_future h4 hF) rfl⟩

/-- There is such an upgrade. -/
example : (upgrade_to Toy.env .Deneb (after .Capella lateState leavingBody)).isOk = true := by
  decide +kernel

/-- Two blocks in a row are accepted, the second is not accepted in place of the first, and the first
is not accepted again. -/
example :
    let s := finalState (process_slots Toy.env .Deneb (dueState.slot + 1))
      (after .Deneb dueState fullBody)
    Toy.succeeds (process_block Toy.env .Deneb (Toy.block s (Toy.body s))) s = true ∧
    Toy.errorOf (process_block Toy.env .Deneb (Toy.block s (Toy.body s))) dueState =
      some .headerStateSlotMismatch ∧
    Toy.errorOf (process_block Toy.env .Deneb (Toy.block dueState fullBody))
      (after .Deneb dueState fullBody) = some .headerOlderThanLatestBlockHeader := by
  decide +kernel

/-- The validators that this block slashes are not slashed again. -/
example (t u : State) (h : Future Toy.env .Deneb (after .Deneb dueState fullBody) .Electra t) :
    process_proposer_slashing Toy.env .Electra equivocation t ≠ .ok () u := by
  obtain ⟨w, hw, hs⟩ := C86_proposer_slashings toy_sane toy_far.2 toy_due equivocation
    List.mem_cons_self
  exact (C105_slashed_once toy_sane hw hs h).1 _ rfl

/-- Two slashings or two changes of one validator in a block, and the second is refused. -/
example :
    Toy.errorOf (process_block Toy.env .Deneb (Toy.block dueState { fullBody with
      proposer_slashings := [equivocation, equivocation] })) dueState =
      some .proposerSlashingProposerIsNotSlashable ∧
    Toy.errorOf (process_block Toy.env .Capella (Toy.block lateState { leavingBody with
      bls_to_execution_changes := [change, change] })) lateState =
      some .blsChangeWithdrawalCredentialsPrefix := by
  decide +kernel

end Verif.Props
