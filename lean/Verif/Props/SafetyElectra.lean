import Verif.Proofs.Overflow
import Verif.Props.Progress
import Verif.Props.Requests
import Verif.Props.Upgrade

/-!
# C78: Electra's blocks and epochs do not panic

"On a state as the chain produces it, block processing, epoch processing, the advance to a later slot
and the whole state transition of Electra return Ok or Err and never panic, and the queues of the state
they leave are about validators that exist." What is assumed of the state is in
`Verif/Spec/Safety.lean` and `Verif/Spec/SafetyElectra.lean`.

The claim is false of blocks with a consolidation, `C78_consolidation_panics`, and when a lot of stake is
slashed, `C78_slashings_overflow`.
-/

namespace Verif.Props

open Spec

variable {E : Env} {s : State}

/-- A whole block never panics, whatever it contains except consolidations. -/
theorem C78_block (hE : SaneConfig E) (hq : SaneQuotients E) (hz : SaneElectra E)
    (h : Wellformed E s) (hs : Queues E s) (b : BeaconBlock)
    (hb : ElectraBlockReady E s b.body) :
    NeverPanics (process_block E .Electra b) s :=
  (electra_block_calm hE hq hz h hs hb).neverPanics

/-- And the state it leaves is well-formed again, with queues about validators that exist. -/
theorem C78_block_wellformed (hE : SaneConfig E) (hq : SaneQuotients E) (hz : SaneElectra E)
    (h : Wellformed E s) (hs : Queues E s) {b : BeaconBlock}
    (hb : ElectraBlockReady E s b.body) {s' : State}
    (hok : process_block E .Electra b s = .ok () s') : Wellformed E s' ∧ Queues E s' :=
  ((electra_block_calm hE hq hz h hs hb).ok hok).1

/-- Epoch processing never panics. -/
theorem C78_epoch (hE : SaneConfig E) (hq : SaneQuotients E) (hx : SaneEpochs E)
    (hz : SaneElectra E) (h : Wellformed E s) (hs : Queues E s) (he : ElectraEpochReady E s) :
    NeverPanics (process_epoch E .Electra) s :=
  (electra_epoch_calm hE hq hx hz h hs he).neverPanics

/-- And the state it leaves is well-formed again, with queues about validators that exist. -/
theorem C78_epoch_wellformed (hE : SaneConfig E) (hq : SaneQuotients E) (hx : SaneEpochs E)
    (hz : SaneElectra E) (h : Wellformed E s) (hs : Queues E s) (he : ElectraEpochReady E s)
    {s' : State} (hok : process_epoch E .Electra s = .ok () s') : Wellformed E s' ∧ Queues E s' :=
  ((electra_epoch_calm hE hq hx hz h hs he).ok hok).1

/-- The advance over any number of slots and epochs never panics, if the states at the ends of the
epochs on the way are ready for epoch processing. -/
theorem C78_slots (hE : SaneConfig E) (hq : SaneQuotients E) (hx : SaneEpochs E)
    (hz : SaneElectra E) (h : Wellformed E s) (hs : Queues E s) {slot : Nat} (hn : slot < 2 ^ 48)
    (he : ∀ t, (t = s ∨ ∃ k < slot, process_slots E .Electra k s = .ok () t) →
      (t.slot + 1) % E.slots_per_epoch = 0 → ElectraEpochReady E t) :
    NeverPanics (process_slots E .Electra slot) s :=
  (slots_calm hE (electra_steady hE hq hx hz) ⟨h, hs⟩ hn he).neverPanics

/-- In particular to any slot of this epoch or of the next, if the state is ready now. -/
theorem C78_next_epoch (hE : SaneConfig E) (hq : SaneQuotients E) (hx : SaneEpochs E)
    (hz : SaneElectra E) (h : Wellformed E s) (hs : Queues E s) (he : ElectraEpochReady E s)
    {slot : Nat} (hn : slot < 2 ^ 48) (hle : epochOf E slot ≤ epochOf E s.slot + 1) :
    NeverPanics (process_slots E .Electra slot) s :=
  (next_epoch_calm hE (electra_steady hE hq hx hz) ⟨h, hs⟩ he hn hle).neverPanics

/-- The state transition for a block in this epoch or the next never panics, whatever the block and
its signature. -/
theorem C78_transition (hE : SaneConfig E) (hq : SaneQuotients E) (hx : SaneEpochs E)
    (hz : SaneElectra E) (h : Wellformed E s) (hs : Queues E s) (he : ElectraEpochReady E s)
    (b : SignedBeaconBlock) (v : Validation) (hn : b.message.slot < 2 ^ 48)
    (hle : epochOf E b.message.slot ≤ epochOf E s.slot + 1)
    (hb : ∀ t, process_slots E .Electra b.message.slot s = .ok () t →
      ElectraBlockReady E t b.message.body) :
    NeverPanics (state_transition E .Electra b v) s :=
  (transition_calm hE (next_epoch_calm hE (electra_steady hE hq hx hz) ⟨h, hs⟩ he hn hle)
    fun t ht wt => electra_block_calm hE hq hz wt.1 wt.2 (hb t ht)).neverPanics

/-- The same over any number of epochs. -/
theorem C78_transition_far (hE : SaneConfig E) (hq : SaneQuotients E) (hx : SaneEpochs E)
    (hz : SaneElectra E) (h : Wellformed E s) (hs : Queues E s) (b : SignedBeaconBlock)
    (v : Validation) (hn : b.message.slot < 2 ^ 48)
    (he : ∀ t, (t = s ∨ ∃ k < b.message.slot, process_slots E .Electra k s = .ok () t) →
      (t.slot + 1) % E.slots_per_epoch = 0 → ElectraEpochReady E t)
    (hb : ∀ t, process_slots E .Electra b.message.slot s = .ok () t →
      ElectraBlockReady E t b.message.body) :
    NeverPanics (state_transition E .Electra b v) s :=
  (transition_calm hE (slots_calm hE (electra_steady hE hq hx hz) ⟨h, hs⟩ hn he)
    fun t ht wt => electra_block_calm hE hq hz wt.1 wt.2 (hb t ht)).neverPanics

/-- A well-formed state goes to a well-formed state. -/
theorem C78_transition_wellformed (hE : SaneConfig E) (hq : SaneQuotients E) (hx : SaneEpochs E)
    (hz : SaneElectra E) (h : Wellformed E s) (hs : Queues E s) (b : SignedBeaconBlock)
    (v : Validation) (hn : b.message.slot < 2 ^ 48)
    (he : ∀ t, (t = s ∨ ∃ k < b.message.slot, process_slots E .Electra k s = .ok () t) →
      (t.slot + 1) % E.slots_per_epoch = 0 → ElectraEpochReady E t)
    (hb : ∀ t, process_slots E .Electra b.message.slot s = .ok () t →
      ElectraBlockReady E t b.message.body)
    {s' : State} (hok : state_transition E .Electra b v s = .ok () s') :
    Wellformed E s' ∧ Queues E s' :=
  (transition_calm hE (slots_calm hE (electra_steady hE hq hx hz) ⟨h, hs⟩ hn he)
    fun t ht wt => electra_block_calm hE hq hz wt.1 wt.2 (hb t ht)).ok hok

/-! ## Where it starts -/

/-- The upgrade from Deneb leaves a well-formed state with queues about validators that exist. -/
theorem C78_upgrade (hz : E.min_activation_balance < 2 ^ 64) (h : Wellformed E s) {s' : State}
    (hok : upgrade_to E .Electra s = .ok s') : Wellformed E s' ∧ Queues E s' := by
  have hi := C34_electra E s s' hok
  have hc := (C34_carried E .Electra s s' hok).1
  have e1 : s'.block_roots = s.block_roots := hc .block_roots (by decide)
  have e2 : s'.state_roots = s.state_roots := hc .state_roots (by decide)
  have e3 : s'.randao_mixes = s.randao_mixes := hc .randao_mixes (by decide)
  have e4 : s'.slashings = s.slashings := hc .slashings (by decide)
  have e5 : s'.justification_bits = s.justification_bits := hc .justification_bits (by decide)
  have e6 : s'.slot = s.slot := hc .slot (by decide)
  have hlen : s'.validators.length = s.validators.length := by rw [hi.validators]; simp
  have hfar : FAR_FUTURE_EPOCH = 2 ^ 64 - 1 := rfl
  have hmem : ∀ v' ∈ s'.validators, ∃ v ∈ s.validators, v' = resetValidator v := by
    intro v' hv'
    rw [hi.validators] at hv'
    obtain ⟨v, hv, rfl⟩ := List.mem_map.1 hv'
    exact ⟨v, hv, rfl⟩
  refine ⟨⟨⟨by rw [e1]; exact h.shaped.1, by rw [e2]; exact h.shaped.2, by rw [e3]; exact h.shaped.3,
    by rw [e4]; exact h.shaped.4, by rw [hlen]; exact h.shaped.5, by rw [e5]; exact h.shaped.6⟩,
    by rw [hlen, hi.balances_length]; exact h.balances, by rw [e6]; exact h.slot, ?_, ?_, ?_⟩,
    ?_, ?_, ?_, ?_⟩
  · intro v' hv'
    obtain ⟨v, hv, rfl⟩ := hmem v' hv'
    unfold resetValidator
    split
    · exact Nat.zero_le _
    · exact h.effective v hv
  · intro v' hv'
    obtain ⟨v, hv, rfl⟩ := hmem v' hv'
    unfold resetValidator
    split <;> exact h.exit v hv
  · intro v' hv'
    obtain ⟨v, hv, rfl⟩ := hmem v' hv'
    unfold resetValidator
    split
    · rename_i hn; unfold NotActivated at hn; simp only; omega
    · exact h.eligible v hv
  · intro d hd
    obtain ⟨q₁, q₂, hq, -, h1, -, h2⟩ := hi.queue.split
    rw [hq] at hd
    rw [hlen]
    rcases List.mem_append.1 hd with hd | hd
    · obtain ⟨v, ⟨hv, -⟩, -⟩ := (h1 d).1 hd
      exact (List.getElem?_eq_some_iff.1 hv).1
    · obtain ⟨v, b, ⟨hv, -⟩, -⟩ := (h2 d).1 hd
      exact (List.getElem?_eq_some_iff.1 hv).1
  · rw [hi.withdrawals]; simp
  · rw [hi.consolidations]; simp
  · intro i
    unfold pendingWithdrawalsOf
    rw [hi.withdrawals]
    simpa using hz

/-- Every network the repository configures has sensible constants. -/
theorem C78_presets (hE : E.toContext ∈ [Context.mainnet, Context.minimal, Context.goerli,
    Context.sepolia, Context.holesky, Context.hoodi]) :
    SaneConfig E ∧ SaneQuotients E ∧ SaneEpochs E ∧ SaneElectra E := by
  simp only [List.mem_cons, List.not_mem_nil, or_false] at hE
  rcases hE with h | h | h | h | h | h <;>
    exact ⟨by constructor <;> (rw [h]; decide +kernel), by constructor <;> (rw [h]; decide +kernel),
      by constructor <;> (rw [h]; decide +kernel), by constructor <;> (rw [h]; decide +kernel)⟩

/-! ## Where it fails -/

/-- Four compounding validators that withdraw to one address, in epoch 65. -/
def mergeState : State :=
  let s := Toy.state 4 520
  let creds : Bytes32 := Vector.ofFn fun i : Fin 32 => if i.val = 0 then 2 else if i.val < 12 then 0 else 9
  { s with
    validators := s.validators.map fun v =>
      { v with withdrawal_credentials := creds, effective_balance := 2048000000000 }
    balances := [32000000000, 40000000000, 2048000000000, 64000000000]
    deposit_receipts_start_index := 2 ^ 64 - 1 }

/-- A block with a consolidation that passes every check. -/
def mergeBlock : BeaconBlock :=
  Toy.block mergeState { Toy.body mergeState with
    consolidations := [⟨⟨0, 1, 65⟩, Toy.goodSig⟩] }

/-- The negation of C78 with consolidations: a well-formed state, and a block that is valid but for the
panic, which an empty block does not cause. -/
theorem C78_consolidation_panics :
    Wellformed Toy.env mergeState ∧ Queues Toy.env mergeState ∧
      Toy.errorOf (process_block Toy.env .Electra mergeBlock) mergeState =
        some (.panic .overflow) ∧
      Toy.succeeds (process_block Toy.env .Electra
        (Toy.block mergeState (Toy.body mergeState))) mergeState = true := by
  refine ⟨⟨by constructor <;> decide +kernel, ?_, ?_, ?_, ?_, ?_⟩, ⟨?_, ?_, ?_, ?_⟩, ?_, ?_⟩
  case refine_9 =>
    intro i
    have : mergeState.pending_partial_withdrawals = [] := by decide +kernel
    unfold pendingWithdrawalsOf
    rw [this]
    show _ + 0 < _
    decide +kernel
  all_goals decide +kernel

/-- Slashing penalties panic when the effective balance of a validator, in increments, times the slashed
balances does not fit a `u64`. -/
theorem C78_slashings_overflow (he : E.slots_per_epoch ≠ 0)
    (hT : totalEffective s (activeIndices s (epochOf E s.slot)) < 2 ^ 64) {v : Validator}
    (hv : v ∈ s.validators) (hd : PenaltyDue E s v)
    (hover : 2 ^ 64 ≤ v.effective_balance / E.effective_balance_increment *
      min (s.slashings.sum * E.proportional_slashing_multiplier_bellatrix) (activeBalance E s)) :
    ∃ p t, process_slashings E .Electra s = .error (.panic p) t := by
  obtain ⟨i, hi⟩ := List.mem_iff_getElem?.1 hv
  cases h : process_slashings E .Electra s with
  | ok a t =>
    have := slashings_ok_fits h hi hd
    exact absurd this (Nat.not_lt.2 hover)
  | error e t =>
    obtain ⟨p, rfl⟩ := slashings_only he hT e t h
    exact ⟨p, t, rfl⟩

theorem uniform_total {e b : Nat}
    (h : ∀ v ∈ s.validators, ActiveAt v e ∧ v.effective_balance = b) :
    totalEffective s (activeIndices s e) = s.validators.length * b := by
  have h1 : activeIndices s e = List.range s.validators.length := by
    unfold activeIndices
    rw [List.filter_eq_self]
    intro i hi
    have hlt := List.mem_range.1 hi
    rw [List.getElem?_eq_getElem hlt]
    exact decide_eq_true (h _ (List.getElem_mem hlt)).1
  have h2 : (List.range s.validators.length).map (effectiveBalance s) =
      List.replicate s.validators.length b := by
    rw [List.eq_replicate_iff]
    refine ⟨by simp, fun x hx => ?_⟩
    obtain ⟨i, hi, rfl⟩ := List.mem_map.1 hx
    have hlt := List.mem_range.1 hi
    unfold effectiveBalance
    rw [List.getElem?_eq_getElem hlt]
    exact (h _ (List.getElem_mem hlt)).2
  unfold totalEffective
  rw [h1, h2]
  generalize s.validators.length = n
  induction n with
  | zero => simp
  | succ n ih => rw [List.replicate_succ, List.sum_cons, ih, Nat.add_mul]; omega

/-- Validators with the highest effective balance, 2048 ether; the first was slashed with so many
others, 32 epochs ago, that 3 million ether were. -/
def massSlashing (n : Nat) : State :=
  let v := { Toy.validator 0 with effective_balance := 2048000000000 }
  { Toy.state 0 511 with
    validators := { v with slashed := true, withdrawable_epoch := 63 + 32 } :: List.replicate n v
    balances := List.replicate (n + 1) 2048000000000
    slashings := 3004000000000000 :: List.replicate 63 0 }

theorem massSlashing_active (n : Nat) :
    totalEffective (massSlashing n) (activeIndices (massSlashing n) 63) =
      (n + 1) * 2048000000000 := by
  rw [uniform_total (b := 2048000000000)]
  · unfold massSlashing
    rw [List.length_cons, List.length_replicate]
  · intro v hv
    rcases List.mem_cons.1 hv with rfl | hv
    · exact ⟨by decide +kernel, rfl⟩
    · rw [(List.mem_replicate.1 hv).2]
      exact ⟨by decide +kernel, rfl⟩

theorem massSlashing_overflows {n : Nat} (hn : 4400 ≤ n) (hn' : n ≤ 2 ^ 20) :
    ∃ p t, process_slashings Toy.env .Electra (massSlashing n) = .error (.panic p) t := by
  have he : epochOf Toy.env (massSlashing n).slot = 63 := by
    show epochOf Toy.env 511 = 63
    decide +kernel
  have hi : Toy.env.effective_balance_increment = 1000000000 := by decide +kernel
  have hm : Toy.env.proportional_slashing_multiplier_bellatrix = 3 := by decide +kernel
  have hs : (massSlashing n).slashings.sum = 3004000000000000 := by
    show (3004000000000000 :: List.replicate 63 0).sum = 3004000000000000
    decide +kernel
  refine C78_slashings_overflow (v := { Toy.validator 0 with
      effective_balance := 2048000000000, slashed := true, withdrawable_epoch := 63 + 32 })
    (by decide) ?_ (List.mem_cons_self ..) ⟨rfl, by rw [he]; decide +kernel⟩ ?_
  · rw [he, massSlashing_active]; omega
  · unfold activeBalance
    rw [he, massSlashing_active, hi, hm, hs]
    simp only
    omega

/-- With 4400 of them the stake is far below a `u64`, and a penalty overflows. -/
example : ∃ p t, process_slashings Toy.env .Electra (massSlashing 4400) = .error (.panic p) t :=
  massSlashing_overflows (by decide) (by decide)

/-! ## The hypotheses hold of concrete states -/

theorem toy_electra : SaneElectra Toy.env := (C78_presets (by simp [Toy.env])).2.2.2

/-- In epoch 65, with something in every queue. -/
def queuedState : State := { mergeState with
  pending_balance_deposits := [⟨1, 1000000000⟩, ⟨3, 32000000000⟩]
  pending_partial_withdrawals := [⟨1, 2000000000, 60⟩, ⟨1, 1000000000, 70⟩]
  pending_consolidations := [⟨0, 2⟩] }

def queuedBody : BeaconBlockBody :=
  let b := Toy.body queuedState
  { b with
    proposer_slashings := [equivocation]
    execution_payload := { b.execution_payload with
      withdrawals := [⟨0, 0, Vector.ofFn fun _ : Fin 20 => 9, 2000000000⟩]
      deposit_receipts := [⟨Toy.pk 1, zeroBytes 32, 1000000000, Toy.goodSig, 17⟩,
        ⟨Toy.pk 7, zeroBytes 32, 32000000000, Toy.goodSig, 18⟩]
      withdrawal_requests := [requestFor 1 3000000000, requestFor 3 0] } }

theorem queues_of {s : State} (h : (∀ d ∈ s.pending_balance_deposits, d.index < s.validators.length) ∧
    (∀ w ∈ s.pending_partial_withdrawals, w.index < s.validators.length) ∧
    (∀ c ∈ s.pending_consolidations,
      c.source_index < s.validators.length ∧ c.target_index < s.validators.length) ∧
    E.min_activation_balance + (s.pending_partial_withdrawals.map (·.amount)).sum < 2 ^ 64) :
    Queues E s := by
  refine ⟨h.1, h.2.1, h.2.2.1, fun i => Nat.lt_of_le_of_lt (Nat.add_le_add_left ?_ _) h.2.2.2⟩
  unfold pendingWithdrawalsOf
  generalize s.pending_partial_withdrawals = l
  induction l with
  | nil => exact Nat.le_refl _
  | cons w l ih =>
    rw [List.filter_cons]
    split <;> simp only [List.map_cons, List.sum_cons] <;> omega

theorem queued_wellformed : Wellformed Toy.env queuedState := by
  refine ⟨by constructor <;> decide +kernel, ?_, ?_, ?_, ?_, ?_⟩ <;> decide +kernel

theorem queued_queues : Queues Toy.env queuedState := queues_of (by decide +kernel)

theorem queued_ready : ElectraBlockReady Toy.env queuedState queuedBody := by
  refine ⟨?_, ?_, ?_, ?_, ?_, ?_, ?_, ?_, ?_, ?_, ?_, ?_, ?_, ?_⟩
  case refine_8 => unfold Parallel; decide +kernel
  case refine_9 => unfold ClockFits; decide +kernel
  case refine_10 => constructor <;> decide +kernel
  all_goals decide +kernel

example : NeverPanics (process_block Toy.env .Electra (Toy.block queuedState queuedBody))
    queuedState :=
  C78_block toy_sane toy_quotients toy_electra queued_wellformed queued_queues _ queued_ready

/-- and that block is in fact accepted -/
example : Toy.succeeds (process_block Toy.env .Electra (Toy.block queuedState queuedBody))
    queuedState = true := by decide +kernel

/-- The end of epoch 63, with something in every queue and a validator to slash for. -/
def queuedEpoch : State := { busyEpoch with
  pending_balance_deposits := [⟨1, 1000000000⟩, ⟨3, 32000000000⟩]
  pending_partial_withdrawals := [⟨1, 2000000000, 60⟩]
  pending_consolidations := [⟨1, 2⟩]
  earliest_exit_epoch := 66 }

theorem queuedEpoch_wellformed : Wellformed Toy.env queuedEpoch := by
  refine ⟨by constructor <;> decide +kernel, ?_, ?_, ?_, ?_, ?_⟩ <;> decide +kernel

theorem queuedEpoch_queues : Queues Toy.env queuedEpoch := queues_of (by decide +kernel)

theorem queuedEpoch_ready : ElectraEpochReady Toy.env queuedEpoch := by
  refine ⟨?_, ?_, ?_, ?_, ?_, ?_, ?_, ?_, ?_, ?_, ?_, ?_, ?_⟩
  case refine_8 => unfold Parallel; decide +kernel
  case refine_10 => exact ⟨Toy.validator 0, by decide +kernel, by decide +kernel⟩
  all_goals decide +kernel

example : NeverPanics (process_slots Toy.env .Electra 512) queuedEpoch :=
  C78_next_epoch toy_sane toy_quotients toy_epochs toy_electra queuedEpoch_wellformed
    queuedEpoch_queues queuedEpoch_ready (by decide) (by decide)

example : Toy.succeeds (process_slots Toy.env .Electra 512) queuedEpoch = true := by decide +kernel

end Verif.Props
