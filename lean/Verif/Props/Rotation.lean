import Verif.Proofs.Rotation
import Verif.Props.Deposits
import Verif.Props.Genesis

/-! # C62, C63, and C25 for blocks: participation records, history, deposits of a block -/

namespace Verif.Props

open Spec

/-! ## C62 -/

/-- **C62** When the slot processed is the last of its epoch, what was recorded as current becomes
the record of the previous epoch, and the current record starts empty, with an entry for every
validator: attestations in phase0, flags from altair on. -/
theorem C62_epoch_end (E : Env) (f : Fork) (s s' : State)
    (hl : (s.slot + 1) % E.slots_per_epoch = 0)
    (h : process_slots E f (s.slot + 1) s = .ok () s') :
    (f = .Phase0 → s'.previous_epoch_attestations = s.current_epoch_attestations ∧
      s'.current_epoch_attestations = []) ∧
    (f ≠ .Phase0 → s'.previous_epoch_participation = s.current_epoch_participation ∧
      s'.current_epoch_participation = List.replicate s'.validators.length 0) := by
  obtain ⟨s₁, s₂, h1, h2, h3, h4, rfl⟩ := slot_step_eq_ok.1 (process_slots_one h)
  have m := slot_mod.ok h1
  have m1 : s₁.current_epoch_attestations = s.current_epoch_attestations := m .current_epoch_attestations (by decide)
  have m2 : s₁.current_epoch_participation = s.current_epoch_participation :=
    m .current_epoch_participation (by decide)
  rcases h4 with ⟨_, h4⟩ | ⟨h4, _⟩
  · obtain ⟨r1, r2⟩ := epoch_rotates h4
    rw [m1] at r1
    rw [m2] at r2
    exact ⟨r1, r2⟩
  · exact absurd hl h4

/-- **C62** In any other slot nothing is moved. -/
theorem C62_within_epoch (E : Env) (f : Fork) (s s' : State)
    (hl : (s.slot + 1) % E.slots_per_epoch ≠ 0)
    (h : process_slots E f (s.slot + 1) s = .ok () s') :
    s'.previous_epoch_attestations = s.previous_epoch_attestations ∧
    s'.current_epoch_attestations = s.current_epoch_attestations ∧
    s'.previous_epoch_participation = s.previous_epoch_participation ∧
    s'.current_epoch_participation = s.current_epoch_participation := by
  obtain ⟨s₁, s₂, h1, h2, h3, h4, rfl⟩ := slot_step_eq_ok.1 (process_slots_one h)
  have m := slot_mod.ok h1
  rcases h4 with ⟨h4, _⟩ | ⟨_, rfl⟩
  · exact absurd h4 hl
  · exact ⟨m .previous_epoch_attestations (by decide), m .current_epoch_attestations (by decide),
      m .previous_epoch_participation (by decide), m .current_epoch_participation (by decide)⟩

/-- Flags 1, 3 and 7 set in the last slot of epoch 1. -/
def flagged : State := { Toy.state 8 15 with
  current_epoch_participation := [1, 3, 7, 0, 0, 0, 0, 0] }

example :
    let s := finalState (process_slots Toy.env .Deneb 16) flagged
    Toy.succeeds (process_slots Toy.env .Deneb 16) flagged = true ∧
    s.previous_epoch_participation = [1, 3, 7, 0, 0, 0, 0, 0] ∧
    s.current_epoch_participation = [0, 0, 0, 0, 0, 0, 0, 0] := by
  decide +kernel

/-! ## C63 -/

/-- **C63** A slot that completes a period of `SLOTS_PER_HISTORICAL_ROOT` slots appends one entry,
for the block and state roots of the period: before capella to `historical_roots`, from capella on to
`historical_summaries`; any other slot appends nothing. -/
theorem C63_slot (E : Env) (hE : SaneConfig E)
    (hd : E.slots_per_epoch ∣ E.slots_per_historical_root) (f : Fork) (s s' : State)
    (h : process_slots E f (s.slot + 1) s = .ok () s') :
    s'.historical_roots = s.historical_roots ++
      (if s'.slot % E.slots_per_historical_root = 0 ∧ f.ord < Fork.Capella.ord then
        [E.historical_batch_root (E.roots_root s'.block_roots) (E.roots_root s'.state_roots)]
      else []) ∧
    s'.historical_summaries = s.historical_summaries ++
      (if s'.slot % E.slots_per_historical_root = 0 ∧ Fork.Capella.ord ≤ f.ord then
        [⟨E.roots_root s'.block_roots, E.roots_root s'.state_roots⟩] else []) :=
  slot_step_history hE.slots_per_epoch.1 hd (process_slots_one h)

/-- **C63** Follow a chain from genesis, through blocks and forks. The two lists together have one
entry for every completed period, in order, and the entry of period `k` commits to the roots of all
the blocks and states of that period, as they were when their slots were left. -/
theorem C63_commits (E : Env) (hE : SaneConfig E)
    (hd : E.slots_per_epoch ∣ E.slots_per_historical_root) (f : Fork) (s : State)
    (log : List (Root × Root)) (h : ChainLog E f s log) :
    s.historical_roots.length + s.historical_summaries.length =
      s.slot / E.slots_per_historical_root ∧
    log.length = s.slot ∧
    ∀ k, k < s.slot / E.slots_per_historical_root →
      if k < s.historical_roots.length then
        s.historical_roots[k]? = some (E.historical_batch_root
          (summaryOf E log k).block_summary_root (summaryOf E log k).state_summary_root)
      else
        s.historical_summaries[k - s.historical_roots.length]? = some (summaryOf E log k) := by
  have hi := chainLog_inv hE hd h
  refine ⟨hi.count, hi.slot.symm, fun k hk => ?_⟩
  have hc := hi.count
  split
  · rename_i hlt
    rw [List.getElem?_eq_getElem hlt, hi.roots k _ (List.getElem?_eq_getElem hlt)]
  · rename_i hlt
    have hlt' : k - s.historical_roots.length < s.historical_summaries.length := by omega
    rw [List.getElem?_eq_getElem hlt', hi.summaries _ _ (List.getElem?_eq_getElem hlt')]
    congr 2
    omega

/-- **C63** A period that is completed has all its entries in the log. -/
theorem C63_complete (E : Env) (hE : SaneConfig E)
    (hd : E.slots_per_epoch ∣ E.slots_per_historical_root) (f : Fork) (s : State)
    (log : List (Root × Root)) (h : ChainLog E f s log) (k : Nat)
    (hk : k < s.slot / E.slots_per_historical_root) :
    (periodOf E log k).length = E.slots_per_historical_root ∧
    ∀ j, j < E.slots_per_historical_root →
      (periodOf E log k)[j]? = log[k * E.slots_per_historical_root + j]? := by
  have hi := chainLog_inv hE hd h
  have hle : (k + 1) * E.slots_per_historical_root ≤ log.length := by
    rw [← hi.slot]
    exact Nat.le_trans (Nat.mul_le_mul_right _ hk) (Nat.div_mul_le_self _ _)
  rw [Nat.add_mul, Nat.one_mul] at hle
  constructor
  · unfold periodOf
    rw [List.length_take, List.length_drop]; omega
  · intro j hj
    unfold periodOf
    rw [List.getElem?_take_of_lt hj, List.getElem?_drop]

/-! ### A chain with two periods, the second in capella -/

def shortEnv : Env := { lastLeafEnv with
  slots_per_historical_root := 16
  roots_root := fun rs => Toy.hash (rs.flatMap fun r => r.toList.take 4) }

/-- `n` slots, with their log. -/
def loggedSlots (E : Env) (f : Fork) : Nat → Option (State × List (Root × Root)) →
    Option (State × List (Root × Root))
  | 0, x => x
  | n + 1, x => match x with
    | none => none
    | some (s, log) => match process_slots E f (s.slot + 1) s with
      | .ok _ s' => loggedSlots E f n
          (some (s', log ++ [(E.header_root (closedHeader E f s), E.state_root f s)]))
      | .error _ _ => none

def loggedUpgrade (E : Env) (g : Fork) : Option (State × List (Root × Root)) →
    Option (State × List (Root × Root))
  | none => none
  | some (s, log) => match upgrade_to E g s with
    | .ok s' => some (s', log)
    | .error _ => none

theorem loggedSlots_log {E : Env} {f : Fork} {n : Nat} {x : Option (State × List (Root × Root))}
    {s' : State} {log' : List (Root × Root)} (hx : ∀ s log, x = some (s, log) → ChainLog E f s log)
    (h : loggedSlots E f n x = some (s', log')) : ChainLog E f s' log' := by
  induction n generalizing x with
  | zero => exact hx _ _ h
  | succ n ih =>
    unfold loggedSlots at h
    split at h
    · cases h
    · split at h
      · rename_i s log _ _ hs
        refine ih ?_ h
        intro _ _ he
        cases he
        exact .slot (hx _ _ rfl) hs
      · cases h

theorem loggedUpgrade_log {E : Env} {f g : Fork} {x : Option (State × List (Root × Root))}
    {s' : State} {log' : List (Root × Root)} (hx : ∀ s log, x = some (s, log) → ChainLog E f s log)
    (hg : g.ord = f.ord + 1) (h : loggedUpgrade E g x = some (s', log')) :
    ChainLog E g s' log' := by
  unfold loggedUpgrade at h
  split at h
  · cases h
  · split at h
    · rename_i hs
      cases h
      exact .upgrade (hx _ _ rfl) hg hs
    · cases h

/-- A genesis in bellatrix, a period in it, then a period in capella. -/
def twoPeriods : Option (State × List (Root × Root)) :=
  loggedSlots shortEnv .Capella 17 (loggedUpgrade shortEnv .Capella
    (loggedSlots shortEnv .Bellatrix 16
      ((initialize_beacon_state_from_eth1 shortEnv .Bellatrix (Toy.root 4) 10 lastLeafDeposits
        none).toOption.map fun s => (s, []))))

theorem twoPeriods_log {s : State} {log : List (Root × Root)} (h : twoPeriods = some (s, log)) :
    ChainLog shortEnv .Capella s log := by
  refine loggedSlots_log (fun _ _ h => ?_) h
  refine loggedUpgrade_log (fun _ _ h => ?_) (f := .Bellatrix) rfl h
  refine loggedSlots_log (fun s log h => ?_) h
  cases hg : initialize_beacon_state_from_eth1 shortEnv .Bellatrix (Toy.root 4) 10
      lastLeafDeposits none with
  | error e => rw [hg] at h; cases h
  | ok g => rw [hg] at h; cases h; exact .genesis hg

example : twoPeriods.isSome = true ∧
    (∀ s log, twoPeriods = some (s, log) → ChainLog shortEnv .Capella s log) ∧
    (match twoPeriods with
      | some (s, log) => decide (s.slot = 33 ∧ log.length = 33 ∧
          s.historical_roots.length = 1 ∧ s.historical_summaries.length = 1 ∧
          s.historical_summaries[0]? = some (summaryOf shortEnv log 1) ∧
          summaryOf shortEnv log 0 ≠ summaryOf shortEnv log 1)
      | none => false) = true ∧
    shortEnv.slots_per_epoch ∣ shortEnv.slots_per_historical_root :=
  ⟨by decide +kernel, fun _ _ => twoPeriods_log, by decide +kernel, by decide⟩

/-! ## C25 -/

theorem forEach_mod {α : Type} {W : List Field} {body : α → M Unit} {l : List α}
    (h : ∀ x, Modifies W (body x)) : Modifies W (forEach l body) := by
  mods
  exact h _

/-- **C25** The deposits of a block are those with the next indices of the deposit contract: the
`k`-th is proven, against the `eth1_data` of the state, for the index `k` places after the state's,
and the state's index advances by their number. -/
theorem C25_block (E : Env) (hE : SaneConfig E) (f : Fork) (body : BeaconBlockBody)
    (s s' : State) (h : process_operations E f body s = .ok () s') :
    (∀ k d, body.deposits[k]? = some d →
      DepositProven E { s with eth1_deposit_index := s.eth1_deposit_index + k } d) ∧
    s'.eth1_deposit_index = s.eth1_deposit_index + body.deposits.length ∧
    s'.eth1_data = s.eth1_data := by
  unfold process_operations at h
  simp only [M_bind_unit_eq_ok] at h
  obtain ⟨t0, h0, t1, h1, t2, h2, t3, h3, t4, h4, t5, h5, h6⟩ := h
  have c0 : t0 = s := by simp only [run] at h0; exact h0.2.symm
  subst c0
  have m1 : Modifies [.validators, .balances, .slashings, .exit_balance_to_consume,
      .earliest_exit_epoch] (forEach body.proposer_slashings (process_proposer_slashing E f)) := by
    mods [proposer_slashing_mod]
  have m2 : Modifies [.validators, .balances, .slashings, .exit_balance_to_consume,
      .earliest_exit_epoch] (forEach body.attester_slashings (process_attester_slashing E f)) := by
    mods [attester_slashing_mod]
  have m3 : Modifies [.current_epoch_attestations, .previous_epoch_attestations,
      .current_epoch_participation, .previous_epoch_participation, .balances]
      (forEach body.attestations (process_attestation E f)) := by
    mods [attestation_mod]
  have m5 : Modifies [.validators, .exit_balance_to_consume, .earliest_exit_epoch]
      (forEach body.voluntary_exits (process_voluntary_exit E f)) := by
    mods [voluntary_exit_mod]
  have pre : t3.eth1_data = t0.eth1_data ∧ t3.eth1_deposit_index = t0.eth1_deposit_index := by
    have a1 := m1.ok h1
    have a2 := m2.ok h2
    have a3 := m3.ok h3
    exact ⟨(a3 .eth1_data (by decide)).trans ((a2 .eth1_data (by decide)).trans
        (a1 .eth1_data (by decide))),
      (a3 .eth1_deposit_index (by decide)).trans ((a2 .eth1_deposit_index (by decide)).trans
        (a1 .eth1_deposit_index (by decide)))⟩
  obtain ⟨p1, p2⟩ := process_deposits_frame (Nat.ne_of_gt hE.effective_balance_increment) h4
  have post : s'.eth1_data = t4.eth1_data ∧ s'.eth1_deposit_index = t4.eth1_deposit_index := by
    have a5 := m5.ok h5
    have b1 : t5.eth1_data = t4.eth1_data := a5 .eth1_data (by decide)
    have b2 : t5.eth1_deposit_index = t4.eth1_deposit_index := a5 .eth1_deposit_index (by decide)
    have b3 : s'.eth1_data = t5.eth1_data ∧ s'.eth1_deposit_index = t5.eth1_deposit_index := by
      cases f <;> dsimp only at h6
      case Capella | Deneb =>
        have a6 := (forEach_mod (l := body.bls_to_execution_changes)
          fun op => bls_change_mod (E := E) (op := op)).ok h6
        exact ⟨a6 .eth1_data (by decide), a6 .eth1_deposit_index (by decide)⟩
      case Electra =>
        simp only [M_bind_unit_eq_ok] at h6
        obtain ⟨u1, h1, u2, h2, u3, h3, h4⟩ := h6
        have c1 := (forEach_mod (l := body.bls_to_execution_changes)
          fun op => bls_change_mod (E := E) (op := op)).ok h1
        have c2 := (forEach_mod (l := body.execution_payload.withdrawal_requests)
          fun op => withdrawal_request_mod (E := E) (r := op)).ok h2
        have c3 := (forEach_mod (l := body.execution_payload.deposit_receipts)
          fun op => deposit_receipt_mod (E := E) (r := op)).ok h3
        have c4 := (forEach_mod (l := body.consolidations)
          fun op => consolidation_mod (E := E) (op := op)).ok h4
        exact ⟨(c4 .eth1_data (by decide)).trans ((c3 .eth1_data (by decide)).trans
            ((c2 .eth1_data (by decide)).trans (c1 .eth1_data (by decide)))),
          (c4 .eth1_deposit_index (by decide)).trans ((c3 .eth1_deposit_index (by decide)).trans
            ((c2 .eth1_deposit_index (by decide)).trans (c1 .eth1_deposit_index (by decide))))⟩
      all_goals
        simp only [run] at h6
        rw [← h6.2]
        exact ⟨rfl, rfl⟩
    exact ⟨b3.1.trans b1, b3.2.trans b2⟩
  refine ⟨?_, ?_, ?_⟩
  · intro k d hk
    have := p1 k d hk
    unfold DepositProven at *
    simp only [pre.1, pre.2] at this
    exact this
  · rw [post.2, p2.index]
    simp only [pre.2]
  · rw [post.1, p2.eth1]
    exact pre.1

/-- Two deposits in a block. -/
example :
    let s := { Toy.state 8 20 with eth1_deposit_index := 10 }
    let body := { header.body with deposits := [depositOf 3 Toy.badSig, depositOf 9 Toy.goodSig] }
    Toy.succeeds (process_operations Toy.env .Altair body) s = true ∧
    (finalState (process_operations Toy.env .Altair body) s).eth1_deposit_index = 12 := by
  decide +kernel

end Verif.Props
