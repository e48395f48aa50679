import Verif.Spec.Ends
import Verif.Proofs.EpochSteps
import Verif.Proofs.Casper
import Verif.Proofs.Activation
import Verif.Proofs.Pending
import Verif.Proofs.Effective
import Verif.Proofs.QueueHistory
import Verif.Proofs.Proposer
import Verif.Proofs.Rotation

/-! # The end of an epoch as a whole -/

namespace Verif

open Spec

theorem state_ext {a b : State} (h : ∀ x : Field, x.same a b) : b = a := by
  have h := fun x => h x
  have h0 : b.genesis_time = a.genesis_time := h .genesis_time
  have h1 : b.genesis_validators_root = a.genesis_validators_root := h .genesis_validators_root
  have h2 : b.slot = a.slot := h .slot
  have h3 : b.fork = a.fork := h .fork
  have h4 : b.latest_block_header = a.latest_block_header := h .latest_block_header
  have h5 : b.block_roots = a.block_roots := h .block_roots
  have h6 : b.state_roots = a.state_roots := h .state_roots
  have h7 : b.historical_roots = a.historical_roots := h .historical_roots
  have h8 : b.eth1_data = a.eth1_data := h .eth1_data
  have h9 : b.eth1_data_votes = a.eth1_data_votes := h .eth1_data_votes
  have h10 : b.eth1_deposit_index = a.eth1_deposit_index := h .eth1_deposit_index
  have h11 : b.validators = a.validators := h .validators
  have h12 : b.balances = a.balances := h .balances
  have h13 : b.randao_mixes = a.randao_mixes := h .randao_mixes
  have h14 : b.slashings = a.slashings := h .slashings
  have h15 : b.previous_epoch_attestations = a.previous_epoch_attestations := h .previous_epoch_attestations
  have h16 : b.current_epoch_attestations = a.current_epoch_attestations := h .current_epoch_attestations
  have h17 : b.previous_epoch_participation = a.previous_epoch_participation := h .previous_epoch_participation
  have h18 : b.current_epoch_participation = a.current_epoch_participation := h .current_epoch_participation
  have h19 : b.justification_bits = a.justification_bits := h .justification_bits
  have h20 : b.previous_justified_checkpoint = a.previous_justified_checkpoint := h .previous_justified_checkpoint
  have h21 : b.current_justified_checkpoint = a.current_justified_checkpoint := h .current_justified_checkpoint
  have h22 : b.finalized_checkpoint = a.finalized_checkpoint := h .finalized_checkpoint
  have h23 : b.inactivity_scores = a.inactivity_scores := h .inactivity_scores
  have h24 : b.current_sync_committee = a.current_sync_committee := h .current_sync_committee
  have h25 : b.next_sync_committee = a.next_sync_committee := h .next_sync_committee
  have h26 : b.latest_execution_payload_header = a.latest_execution_payload_header := h .latest_execution_payload_header
  have h27 : b.next_withdrawal_index = a.next_withdrawal_index := h .next_withdrawal_index
  have h28 : b.next_withdrawal_validator_index = a.next_withdrawal_validator_index := h .next_withdrawal_validator_index
  have h29 : b.historical_summaries = a.historical_summaries := h .historical_summaries
  have h30 : b.deposit_receipts_start_index = a.deposit_receipts_start_index := h .deposit_receipts_start_index
  have h31 : b.deposit_balance_to_consume = a.deposit_balance_to_consume := h .deposit_balance_to_consume
  have h32 : b.exit_balance_to_consume = a.exit_balance_to_consume := h .exit_balance_to_consume
  have h33 : b.earliest_exit_epoch = a.earliest_exit_epoch := h .earliest_exit_epoch
  have h34 : b.consolidation_balance_to_consume = a.consolidation_balance_to_consume := h .consolidation_balance_to_consume
  have h35 : b.earliest_consolidation_epoch = a.earliest_consolidation_epoch := h .earliest_consolidation_epoch
  have h36 : b.pending_balance_deposits = a.pending_balance_deposits := h .pending_balance_deposits
  have h37 : b.pending_partial_withdrawals = a.pending_partial_withdrawals := h .pending_partial_withdrawals
  have h38 : b.pending_consolidations = a.pending_consolidations := h .pending_consolidations
  clear h
  cases a; cases b
  dsimp only at *
  congr

theorem state_patch {W : List Field} {s a b : State} (h : ChangesOnly W s b)
    (ha : ChangesOnly W s a) (hw : ∀ x ∈ W, Field.same x a b) : b = a :=
  state_ext fun x => by
    by_cases hx : x ∈ W
    · exact hw x hx
    · have h1 := h x hx
      have h2 := ha x hx
      cases x <;> exact Eq.trans h1 (Eq.symm h2)

/-! ## The active balance -/

theorem activeBalance_same {E : Env} {s t : State} (hslot : t.slot = s.slot)
    (hlen : t.validators.length = s.validators.length)
    (h : ∀ (i : Nat) v, s.validators[i]? = some v → ∃ w, t.validators[i]? = some w ∧
      (ActiveAt w (epochOf E s.slot) ↔ ActiveAt v (epochOf E s.slot)) ∧
      w.effective_balance = v.effective_balance) :
    activeBalance E t = activeBalance E s := by
  have h1 : activeIndices t (epochOf E t.slot) = activeIndices s (epochOf E s.slot) := by
    unfold activeIndices
    rw [hlen, hslot]
    apply List.filter_congr
    intro i hi
    obtain ⟨w, hw, ha, -⟩ := h i _ (List.getElem?_eq_getElem (List.mem_range.1 hi))
    rw [hw, List.getElem?_eq_getElem (List.mem_range.1 hi)]
    simp only [ha]
  have h2 : effectiveBalance t = effectiveBalance s := by
    funext i
    unfold effectiveBalance
    cases hs : s.validators[i]? with
    | none =>
      rw [List.getElem?_eq_none_iff, ← hlen, ← List.getElem?_eq_none_iff] at hs
      rw [hs]
    | some v =>
      obtain ⟨w, hw, -, hb⟩ := h i v hs
      rw [hw]; exact hb
  unfold activeBalance totalEffective
  rw [h1, h2]

/-- The registry updates leave alone who is active now. -/
theorem queueStep_active {E : Env} {f : Fork} {s : State} {A : List Nat} {i : Nat} {v w : Validator}
    (hs : epochOf E s.slot < FAR_FUTURE_EPOCH) (hv : s.validators[i]? = some v)
    (hA : ∀ i ∈ A, WaitsInQueue s i) (h : QueueStep E f s A i v w) :
    ActiveAt w (epochOf E s.slot) ↔ ActiveAt v (epochOf E s.slot) := by
  have h1 : w.activation_epoch ≤ epochOf E s.slot ↔ v.activation_epoch ≤ epochOf E s.slot := by
    rw [h.activation]
    split
    · next hi =>
      obtain ⟨u, hu, -, hf⟩ := hA i hi
      rw [hv] at hu; cases hu
      unfold nextFreeEpoch
      constructor <;> intro <;> omega
    · exact Iff.rfl
  have h2 : epochOf E s.slot < w.exit_epoch ↔ epochOf E s.slot < v.exit_epoch := by
    by_cases hl : LowStake E s v
    · have h3 := (h.ejected hl).1
      have h4 := hl.2.2
      unfold nextFreeEpoch at h3
      constructor <;> intro <;> omega
    · rw [(h.stays hl).1]
  unfold ActiveAt
  rw [h1, h2]

/-! ## The steps -/

namespace EpochSteps

variable {E : Env} {f : Fork} {s s' : State}

theorem judged_eq (e : EpochSteps E f s s') : e.s₁ = judged s s' :=
  state_patch e.to1 (fun x hx => by cases x <;> first | exact rfl | exact absurd (by decide) hx)
    fun x hx => by
    cases x
    case justification_bits => exact Eq.symm (e.from1 .justification_bits (by decide))
    case finalized_checkpoint => exact Eq.symm (e.from1 .finalized_checkpoint (by decide))
    case previous_justified_checkpoint =>
      exact Eq.symm (e.from1 .previous_justified_checkpoint (by decide))
    case current_justified_checkpoint =>
      exact Eq.symm (e.from1 .current_justified_checkpoint (by decide))
    all_goals exact absurd hx (by decide)

theorem scored_eq (e : EpochSteps E f s s') : e.s₂ = scored s s' :=
  state_patch e.to2 (fun x hx => by cases x <;> first | exact rfl | exact absurd (by decide) hx)
    fun x hx => by
    cases x
    case justification_bits => exact Eq.symm (e.from2 .justification_bits (by decide))
    case finalized_checkpoint => exact Eq.symm (e.from2 .finalized_checkpoint (by decide))
    case previous_justified_checkpoint =>
      exact Eq.symm (e.from2 .previous_justified_checkpoint (by decide))
    case current_justified_checkpoint =>
      exact Eq.symm (e.from2 .current_justified_checkpoint (by decide))
    case inactivity_scores => exact Eq.symm (e.from2 .inactivity_scores (by decide))
    all_goals exact absurd hx (by decide)

theorem slot_eq (e : EpochSteps E f s s') : s'.slot = s.slot := e.to14 .slot (by decide)

theorem epoch_lt (e : EpochSteps E f s s') : epochOf E s.slot < FAR_FUTURE_EPOCH := by
  have h := e.eth1
  have hs : e.s₅.slot = s.slot := e.to5 .slot (by decide)
  simp only [process_eth1_data_reset, run, current_epoch_eq_ok] at h
  obtain ⟨_, ⟨rfl, -⟩, n, h2, -⟩ := h
  have := h2.2
  rw [hs] at this
  unfold FAR_FUTURE_EPOCH
  simp only [U64_BOUND] at this
  omega

theorem finality (e : EpochSteps E f s s') (hlen : s.justification_bits.length = 4) :
    epochOf E s.slot ≤ 1 ∧ judged s s' = s ∨
    1 < epochOf E s.slot ∧ ∃ jp jc, Weighed E s s' jp jc ∧
      (jp = true ↔ Supermajority E f s (epochOf E s.slot - 1)) ∧
      (jc = true ↔ Supermajority E f s (epochOf E s.slot)) := by
  have h := e.justification
  rw [e.judged_eq] at h
  rcases justification_ok hlen h with h | ⟨h1, jp, jc, h2, h3⟩
  · exact Or.inl h
  · exact Or.inr ⟨h1, jp, jc, ⟨h2.previous, h2.bits, h2.both, h2.one, h2.none, h2.finalized⟩, h3⟩

theorem finalized_le (e : EpochSteps E f s s') (hp : Proper E s) :
    s'.finalized_checkpoint.epoch ≤ epochOf E s.slot := by
  rcases e.finality hp.bits with ⟨-, h⟩ | ⟨-, jp, jc, h, -⟩
  · have : (judged s s').finalized_checkpoint = s.finalized_checkpoint := by rw [h]
    change s'.finalized_checkpoint = _ at this
    rw [this]; exact hp.finalized
  · rw [h.finalized]
    unfold finalizedBy
    dsimp only
    split_ifs
    · exact hp.current
    · exact hp.current
    · exact hp.previous
    · exact hp.previous
    · exact hp.finalized

theorem booked (e : EpochSteps E f s s') (hB : E.effective_balance_increment < U64_BOUND)
    (hfin : s'.finalized_checkpoint.epoch ≤ epochOf E s.slot) :
    ∃ A, Booked E f s s' A e.s₆ ∧ Activated E f (judged s s') A := by
  have s3 : e.s₃ = { scored s s' with balances := e.s₃.balances } := by
    have := e.m3
    rw [e.scored_eq] at this
    exact state_patch this
      (fun x hx => by cases x <;> first | exact rfl | exact absurd (by decide) hx) fun x hx => by
        cases x
        case balances => exact rfl
        all_goals exact absurd hx (by decide)
  have h3 : ∀ (i : Nat) b, i < s.validators.length → s.balances[i]? = some b →
      ∃ r, Rewarded E f (scored s s') i b r ∧ e.s₃.balances[i]? = some r := by
    intro i b hi hb
    have h := e.rewards
    rw [e.scored_eq] at h
    unfold Rewarded
    by_cases hf : f = .Phase0
    · subst hf
      rcases phase0_rewards_ok hB h with ⟨h1, h2⟩ | ⟨h1, h2, bs, h3, -, h4⟩
      · exact ⟨b, by rw [if_pos h1], by rw [h2]; exact hb⟩
      · obtain ⟨b', h5, h6⟩ := (h4 i).1 hi
        have : b' = b := by
          have : some b' = some b := h5.symm.trans hb
          injection this
        subst this
        exact ⟨_, by rw [if_neg h1, if_pos rfl]; exact ⟨_, h2, rfl⟩, by rw [h3]; exact h6⟩
    · rcases altair_rewards_ok hf h with ⟨h1, h2⟩ | ⟨h1, bs, h3, -, h4⟩
      · exact ⟨b, by rw [if_pos h1], by rw [h2]; exact hb⟩
      · obtain ⟨b', h5, h6⟩ := (h4 i).1 hi
        have : b' = b := by
          have : some b' = some b := h5.symm.trans hb
          injection this
        subst this
        exact ⟨_, by rw [if_neg h1, if_neg hf], by rw [h3]; exact h6⟩
  have l3 : e.s₃.balances.length = s.balances.length := by
    have h := e.rewards
    rw [e.scored_eq] at h
    by_cases hf : f = .Phase0
    · subst hf
      rcases phase0_rewards_ok hB h with ⟨h1, h2⟩ | ⟨h1, h2, bs, h3, h4, -⟩
      · rw [h2]; rfl
      · rw [h3]; exact h4
    · rcases altair_rewards_ok hf h with ⟨h1, h2⟩ | ⟨h1, bs, h3, h4, -⟩
      · rw [h2]; rfl
      · rw [h3]; exact h4
  have h4 := e.registry
  have hf3 : e.s₃.finalized_checkpoint.epoch ≤ epochOf E e.s₃.slot := by
    rw [s3]; exact hfin
  obtain ⟨A, ⟨vs, a, b, k1, k2, k3⟩, k4, k5, k6, k7, k8⟩ := registry_updates_ok hf3 h4
  have w3 : ∀ i, WaitsInQueue e.s₃ i ↔ WaitsInQueue (judged s s') i := fun i => by
    rw [s3]; exact Iff.rfl
  have v3 : e.s₃.validators = s.validators := by rw [s3]; rfl
  have st3 : ∀ i v w, QueueStep E f e.s₃ A i v w → QueueStep E f (judged s s') A i v w := by
    intro i v w h
    rw [s3] at h
    exact ⟨h.eligibility, h.activation, h.ejected, h.stays, h.key, h.credentials, h.balance,
      h.slashed⟩
  have lim : activationLimit E f e.s₃ = activationLimit E f (judged s s') := by rw [s3]; rfl
  have slot4 : e.s₄.slot = s.slot := e.to4 .slot (by decide)
  have v6 : e.s₆.validators = e.s₄.validators :=
    (e.m6 .validators (by decide) : _ = _).trans (e.m5 .validators (by decide))
  have b6 : e.s₆.balances = e.s₅.balances := e.m6 .balances (by decide)
  have l4 : e.s₄.validators.length = s.validators.length := by
    rw [k1]; dsimp only; rw [k2, v3]
  have step : ∀ (i : Nat) v, s.validators[i]? = some v →
      ∃ w, e.s₄.validators[i]? = some w ∧ QueueStep E f (judged s s') A i v w := by
    intro i v hv
    obtain ⟨w, hw, h⟩ := k4 i v (by rw [v3]; exact hv)
    exact ⟨w, hw, st3 i v w h⟩
  have act : activeBalance E e.s₄ = activeBalance E s := by
    refine activeBalance_same slot4 l4 fun i v hv => ?_
    obtain ⟨w, hw, h⟩ := step i v hv
    refine ⟨w, hw, ?_, h.balance⟩
    exact queueStep_active (s := judged s s') e.epoch_lt hv (fun i hi => (w3 i).1 (k6 i hi)) h
  have sl4 : e.s₄.slashings = s.slashings := e.to4 .slashings (by decide)
  obtain ⟨bs, p1, p2, p3⟩ := process_slashings_ok e.slashings
  have b4 : e.s₄.balances = e.s₃.balances := e.m4 .balances (by decide)
  refine ⟨A, ⟨?_, by rw [v6, l4], ?_, ?_, ?_⟩, k5, fun i hi => (w3 i).1 (k6 i hi),
    fun hf => lim ▸ k7 hf, fun j hj hjA => ?_⟩
  · exact state_patch e.to6
      (fun x hx => by cases x <;> first | exact rfl | exact absurd (by decide) hx) fun x hx => by
      cases x
      case validators => exact rfl
      case balances => exact rfl
      case exit_balance_to_consume => exact rfl
      case earliest_exit_epoch => exact rfl
      case eth1_data_votes => exact Eq.symm (e.from6 .eth1_data_votes (by decide))
      case justification_bits => exact Eq.symm (e.from6 .justification_bits (by decide))
      case finalized_checkpoint => exact Eq.symm (e.from6 .finalized_checkpoint (by decide))
      case previous_justified_checkpoint =>
        exact Eq.symm (e.from6 .previous_justified_checkpoint (by decide))
      case current_justified_checkpoint =>
        exact Eq.symm (e.from6 .current_justified_checkpoint (by decide))
      case inactivity_scores => exact Eq.symm (e.from6 .inactivity_scores (by decide))
      all_goals exact absurd hx (by decide)
  · intro i v hv
    rw [v6]; exact step i v hv
  · rw [b6, p1]; dsimp only; rw [p2, b4, l3]
  · intro i w b hw hb
    rw [v6] at hw
    have hi : i < s.validators.length := l4 ▸ (List.getElem?_eq_some_iff.1 hw).1
    obtain ⟨r, hr, hr'⟩ := h3 i b hi hb
    refine ⟨r, hr, ?_⟩
    have := p3 i
    rw [hw] at this
    dsimp only at this
    rw [b6, p1]
    dsimp only
    rw [this, b4, hr']
    have hd : PenaltyDue E e.s₄ w ↔ PenaltyDue E s w := by unfold PenaltyDue; rw [slot4]
    have hc : correlationPenalty E f e.s₄ w = correlationPenalty E f s w := by
      unfold correlationPenalty; rw [act, sl4]
    unfold punished
    rw [hc]
    by_cases h : PenaltyDue E s w
    · rw [if_pos h, if_pos (hd.2 h)]; rfl
    · rw [if_neg h, if_neg fun h' => h (hd.1 h')]
  · obtain ⟨g1, g2, g3⟩ := k8 j ((w3 j).2 hj) hjA
    refine ⟨g1, lim ▸ g2, fun i hi => ?_⟩
    have := g3 i hi
    unfold Before at this ⊢
    rw [v3] at this
    exact this

theorem cleared (e : EpochSteps E f s s') (hE : SaneConfig E)
    (hlen : e.s₆.balances.length = e.s₆.validators.length) :
    if f = .Electra then Cleared E e.s₆ e.s₈ else e.s₈ = e.s₆ := by
  have h1 := e.deposits
  have h2 := e.consolidations
  by_cases hf : f = .Electra
  · rw [if_pos hf] at h1 h2 ⊢
    obtain ⟨k, k1, -⟩ := pending_deposits_ok h1
    have hl : e.s₇.balances.length = e.s₇.validators.length := by
      have : e.s₇.validators = e.s₆.validators := e.m7 .validators (by decide)
      rw [this, ← hlen]
      have hb := k1.balances
      apply Nat.le_antisymm
      · rw [← List.getElem?_eq_none_iff, hb, List.getElem?_eq_none (Nat.le_refl _)]; rfl
      · by_contra hc
        have := hb e.s₇.balances.length
        rw [List.getElem?_eq_none (Nat.le_refl _), List.getElem?_eq_getElem (by omega)] at this
        cases this
    obtain ⟨m, m1, m2, m3, m4, -⟩ := pending_consolidations_ok hE hl h2
    exact ⟨k, _, m, k1, m1, m2, m3, m4⟩
  · rw [if_neg hf] at h1 h2 ⊢
    rw [h2, h1]

theorem reweighed (e : EpochSteps E f s s') (hB : SaneBalances E) : Reweighed E f e.s₈ s' := by
  obtain ⟨vs, h1, h2, h3⟩ := effective_updates_ok hB e.effective
  have h4 : s'.validators = e.s₉.validators := e.from9 .validators (by decide)
  unfold Reweighed
  rw [h4, h1]
  refine ⟨h2, fun i w hw => ?_⟩
  obtain ⟨b, x, h5, h6, h7, h8⟩ := h3 i w hw
  exact ⟨b, x, h5, h6, h7, h8⟩

theorem finished (e : EpochSteps E f s s') : s' = { e.s₈ with
    validators := s'.validators
    slashings := s'.slashings
    randao_mixes := s'.randao_mixes
    historical_roots := s'.historical_roots
    historical_summaries := s'.historical_summaries
    previous_epoch_attestations := s'.previous_epoch_attestations
    current_epoch_attestations := s'.current_epoch_attestations
    previous_epoch_participation := s'.previous_epoch_participation
    current_epoch_participation := s'.current_epoch_participation
    current_sync_committee := s'.current_sync_committee
    next_sync_committee := s'.next_sync_committee } :=
  state_patch e.from8
    (fun x hx => by cases x <;> first | exact rfl | exact absurd (by decide) hx)
    fun x hx => by cases x <;> first | exact rfl | exact absurd hx (by decide)

/-! ## The rest -/

theorem votes (e : EpochSteps E f s s') : s'.eth1_data_votes =
    if (epochOf E s.slot + 1) % E.epochs_per_eth1_voting_period = 0 then []
    else s.eth1_data_votes := by
  have h := e.eth1
  have h1 : e.s₅.slot = s.slot := e.to5 .slot (by decide)
  have h2 : e.s₅.eth1_data_votes = s.eth1_data_votes := e.to5 .eth1_data_votes (by decide)
  have h3 : s'.eth1_data_votes = e.s₆.eth1_data_votes := e.from6 .eth1_data_votes (by decide)
  simp only [process_eth1_data_reset, run, current_epoch_eq_ok] at h
  obtain ⟨_, ⟨rfl, -⟩, _, ⟨rfl, -⟩, _, ⟨rfl, -⟩, h⟩ := h
  rw [h3, ← h1, ← h2]
  rcases h with ⟨h4, h⟩ | ⟨h4, -, h⟩
  · rw [if_pos h4, ← h]
  · rw [if_neg h4, ← h]

theorem mixes (e : EpochSteps E f s s') : MixCarried E s s' := by
  have h := e.randao
  have h1 : e.s₁₀.slot = s.slot := e.to10 .slot (by decide)
  have h2 : e.s₁₀.randao_mixes = s.randao_mixes := e.to10 .randao_mixes (by decide)
  have h3 : s'.randao_mixes = e.s₁₁.randao_mixes := e.from11 .randao_mixes (by decide)
  simp only [process_randao_mixes_reset, run, current_epoch_eq_ok, get_randao_mix_eq_ok] at h
  obtain ⟨_, ⟨rfl, -⟩, _, ⟨rfl, -⟩, _, ⟨rfl, -⟩, m, ⟨h4, -⟩, _, ⟨h5, rfl⟩, h⟩ := h
  simp only [mixAt] at h4
  rw [h1, h2] at h4
  rw [h1, h2] at h5
  have h6 : s'.randao_mixes = s.randao_mixes.set
      ((epochOf E s.slot + 1) % E.epochs_per_historical_vector) m := by
    rw [h3, ← h, ← h1, ← h2]
  refine ⟨?_, fun x hx hx' => ?_⟩
  · simp only [mixAt]
    rw [h4, h6, List.getElem?_set_self h5]
  · simp only [mixAt]
    rw [h6, List.getElem?_set_ne]
    intro hc
    obtain ⟨k, hk⟩ : ∃ k, epochOf E s.slot + 1 = x + k :=
      ⟨_, (Nat.add_sub_cancel' (by omega)).symm⟩
    rw [hk] at hc
    have : (x + k - x) % E.epochs_per_historical_vector = 0 := Nat.sub_mod_eq_zero_of_mod_eq hc
    rw [Nat.add_sub_cancel_left, Nat.mod_eq_of_lt (by omega)] at this
    omega

end EpochSteps

/-! ## Consolidations and the registry -/

theorem compounded_idem (v : Validator) : compounded (compounded v) = compounded v := by
  unfold compounded
  split
  · rw [if_neg]
    simp
  · rfl

theorem consolidated_entries {E : Env} {s t : State} {l : List PendingConsolidation}
    (h : ConsolidatedAll E s l t) :
    t.validators.length = s.validators.length ∧
    ∀ (i : Nat) v, s.validators[i]? = some v →
      ∃ w, t.validators[i]? = some w ∧ (w = v ∨ w = compounded v) := by
  induction h with
  | done => exact ⟨rfl, fun i v hv => ⟨v, hv, Or.inl rfl⟩⟩
  | void _ _ ih => exact ih
  | @step s t u c l x m h _ ih =>
    obtain ⟨v0, b, h1, -, -, h2⟩ := h.target
    refine ⟨by rw [ih.1, h2, List.length_set], fun i v hv => ?_⟩
    by_cases hi : c.target_index = i
    · subst hi
      rw [h1] at hv; cases hv
      obtain ⟨w, hw, hw'⟩ := ih.2 c.target_index (compounded v0) (by
        rw [h2, List.getElem?_set_self (List.getElem?_eq_some_iff.1 h1).1])
      refine ⟨w, hw, Or.inr ?_⟩
      rcases hw' with h | h
      · exact h
      · rw [h, compounded_idem]
    · exact ih.2 i v (by rw [h2, List.getElem?_set_ne hi]; exact hv)

/-! ## No checkpoint is in the future -/

/-- The epochs of the checkpoints are at most `B`. -/
def Upto (B : Nat) (s : State) : Prop :=
  s.previous_justified_checkpoint.epoch ≤ B ∧ s.current_justified_checkpoint.epoch ≤ B ∧
    s.finalized_checkpoint.epoch ≤ B

def UptoR (B : Nat) (s s' : State) : Prop := Upto B s → Upto B s'

theorem uptoPre (B : Nat) : Preorder' (UptoR B) := ⟨fun _ => id, fun h h' x => h' (h x)⟩

theorem justify_upto {E : Env} {B e b t a : Nat} (he : e ≤ B) :
    Pres (UptoR B) (justify_epoch E e b t a) := by
  have pre := uptoPre B
  unfold justify_epoch
  walk pre
  exact Pres.upd fun s h => ⟨h.1, he, h.2.2⟩

theorem finalizations_upto {B e : Nat} {p c : Checkpoint} (hp : p.epoch ≤ B) (hc : c.epoch ≤ B) :
    Pres (UptoR B) (process_finalizations p c e) := by
  have pre := uptoPre B
  unfold process_finalizations
  walk pre
  all_goals
    refine Pres.upd fun s h => ⟨h.1, h.2.1, ?_⟩
    first
      | assumption
      | exact h.2.2

/-- Time does not go back, and checkpoints stay in the past. -/
def Past (E : Env) (s s' : State) : Prop :=
  s.slot ≤ s'.slot ∧ (Upto (epochOf E s.slot) s → Upto (epochOf E s'.slot) s')

theorem pastPre (E : Env) : Preorder' (Past E) :=
  ⟨fun _ => ⟨Nat.le_refl _, id⟩, fun h h' => ⟨Nat.le_trans h.1 h'.1, fun x => h'.2 (h.2 x)⟩⟩

theorem past_of_same {E : Env} {s s' : State} (h0 : s.slot ≤ s'.slot)
    (h1 : s'.previous_justified_checkpoint = s.previous_justified_checkpoint)
    (h2 : s'.current_justified_checkpoint = s.current_justified_checkpoint)
    (h3 : s'.finalized_checkpoint = s.finalized_checkpoint) : Past E s s' := by
  have := epochOf_mono E h0
  refine ⟨h0, fun h => ?_⟩
  unfold Upto at *
  rw [h1, h2, h3]
  omega

theorem past_mod {α : Type} {E : Env} {W : List Field} {m : M α} (h : Modifies W m)
    (hW : ∀ x ∈ [Field.slot, .previous_justified_checkpoint, .current_justified_checkpoint,
      .finalized_checkpoint], x ∉ W) : Pres (Past E) m :=
  Pres.mono h fun _ _ h => past_of_same (Nat.le_of_eq (h _ (hW .slot (by decide))).symm)
    (h _ (hW .previous_justified_checkpoint (by decide)))
    (h _ (hW .current_justified_checkpoint (by decide)))
    (h _ (hW .finalized_checkpoint (by decide)))

theorem justification_past {E : Env} {f : Fork} :
    Pres (Past E) (process_justification_and_finalization E f) := by
  have pre := pastPre E
  have hw : ∀ a b c, Pres (Past E) (weigh_justification_and_finalization E a b c) := by
    intro a b c s
    have hm : wp (weigh_justification_and_finalization E a b c)
        (fun _ t => t.slot = s.slot) (fun _ t => t.slot = s.slot) s :=
      wp_mono (weigh_mod s) (fun _ _ h => h .slot (by decide)) (fun _ _ h => h .slot (by decide))
    by_cases hu : Upto (epochOf E s.slot) s
    · have hk : wp (weigh_justification_and_finalization E a b c)
          (fun _ t => Upto (epochOf E s.slot) t) (fun _ t => Upto (epochOf E s.slot) t) s := by
        unfold weigh_justification_and_finalization
        rw [wp_bind, wp_get, wp_bind, wp_liftM]
        refine ⟨fun p hp => ?_, fun _ _ => hu⟩
        rw [wp_bind, wp_liftM]
        refine ⟨fun q hq => ?_, fun _ _ => hu⟩
        have hq := (current_epoch_eq_ok.1 hq).1
        have hp := (previous_epoch_eq_ok.1 hp).1
        have hpB : p ≤ epochOf E s.slot := by omega
        have hqB : q ≤ epochOf E s.slot := by omega
        have p0 := uptoPre (epochOf E s.slot)
        have hr : Pres (UptoR (epochOf E s.slot)) (do
            upd fun s => { s with
              previous_justified_checkpoint := s.current_justified_checkpoint
              justification_bits := false :: s.justification_bits.take 3 }
            justify_epoch E p 1 b a
            justify_epoch E q 0 c a
            process_finalizations s.previous_justified_checkpoint s.current_justified_checkpoint
              q) := by
          walk p0 [justify_upto hpB, justify_upto hqB, finalizations_upto hu.1 hu.2.1]
          · exact Pres.upd fun s h => ⟨h.2.1, h.2.1, h.2.2⟩
          · exact finalizations_upto hu.1 hu.2.1
        exact wp_mono (hr s) (fun _ _ h => h hu) (fun _ _ h => h hu)
      exact wp_mono (wp_and hm hk) (fun _ t h => ⟨Nat.le_of_eq h.1.symm, fun _ => h.1 ▸ h.2⟩)
        (fun _ t h => ⟨Nat.le_of_eq h.1.symm, fun _ => h.1 ▸ h.2⟩)
    · exact wp_mono hm (fun _ t h => ⟨Nat.le_of_eq h.symm, fun h' => absurd h' hu⟩)
        (fun _ t h => ⟨Nat.le_of_eq h.symm, fun h' => absurd h' hu⟩)
  unfold process_justification_and_finalization
  walk pre [hw]

theorem epoch_past {E : Env} {f : Fork} : Pres (Past E) (process_epoch E f) := by
  have pre := pastPre E
  unfold process_epoch process_epoch_first
  walk pre [justification_past, past_mod inactivity_mod (by decide),
    past_mod rewards_mod (by decide), past_mod registry_mod (by decide),
    past_mod slashings_mod (by decide), past_mod eth1_reset_mod (by decide),
    past_mod pending_deposits_mod (by decide), past_mod pending_consolidations_mod (by decide),
    past_mod effective_mod (by decide), past_mod slashings_reset_mod (by decide),
    past_mod randao_reset_mod (by decide), past_mod historical_mod (by decide),
    past_mod record_updates_mod (by decide), past_mod flag_updates_mod (by decide),
    past_mod sync_committees_mod (by decide)]

theorem slots_past {E : Env} {f : Fork} {t : Nat} : Pres (Past E) (process_slots E f t) :=
  slots_pres (pastPre E) <| slot_step_pres (pastPre E) (past_mod slot_mod (by decide)) epoch_past
    fun _ => past_of_same (Nat.le_succ _) rfl rfl rfl

theorem entry_past {E : Env} {f : Fork} {m : M Unit} (h : EntryPoint E f m) :
    Pres (Past E) m := by
  have hb : ∀ b, Pres (Past E) (process_block E f b) := fun b => past_mod block_mod (by decide)
  cases h with
  | process_slots => exact slots_past
  | state_transition => exact (transition_pres (pastPre E) slots_past (hb _)).2
  | state_transition_block_in_slot => exact (transition_pres (pastPre E) slots_past (hb _)).1
  | process_slot => exact past_mod slot_mod (by decide)
  | process_epoch => exact epoch_past
  | process_block => exact hb _
  | process_block_header => exact past_mod header_mod (by decide)
  | process_randao => exact past_mod randao_mod (by decide)
  | process_eth1_data => exact past_mod eth1_mod (by decide)
  | process_operations => exact past_mod operations_mod (by decide)
  | process_execution_payload => exact past_mod payload_mod (by decide)
  | process_withdrawals => exact past_mod withdrawals_mod (by decide)
  | process_sync_aggregate => exact past_mod sync_aggregate_mod (by decide)
  | process_proposer_slashing => exact past_mod proposer_slashing_mod (by decide)
  | process_attester_slashing => exact past_mod attester_slashing_mod (by decide)
  | process_attestation => exact past_mod attestation_mod (by decide)
  | process_deposit => exact past_mod deposit_mod (by decide)
  | process_voluntary_exit => exact past_mod voluntary_exit_mod (by decide)
  | process_bls_to_execution_change => exact past_mod bls_change_mod (by decide)
  | process_execution_layer_withdrawal_request => exact past_mod withdrawal_request_mod (by decide)
  | process_deposit_receipt => exact past_mod deposit_receipt_mod (by decide)
  | process_consolidation => exact past_mod consolidation_mod (by decide)
  | initiate_validator_exit => exact past_mod exit_mod (by decide)
  | slash_validator => exact past_mod slash_mod (by decide)
  | increase_balance => exact past_mod increase_mod (by decide)
  | decrease_balance => exact past_mod decrease_mod (by decide)

theorem upgrade_past {E : Env} {g : Fork} {s s' : State} (h : upgrade_to E g s = .ok s') :
    Past E s s' := by
  cases g <;> unfold upgrade_to at h <;> dsimp only at h
  case Phase0 => cases h
  case Electra =>
    obtain ⟨-, -, h2, -⟩ := into_electra h
    exact past_of_same (Nat.le_of_eq (h2 .slot (by decide) : _ = _).symm)
      (h2 .previous_justified_checkpoint (by decide))
      (h2 .current_justified_checkpoint (by decide)) (h2 .finalized_checkpoint (by decide))
  case Altair =>
    have h2 := (altair_carried h).1
    exact past_of_same (Nat.le_of_eq (h2 .slot (by decide) : _ = _).symm)
      (h2 .previous_justified_checkpoint (by decide))
      (h2 .current_justified_checkpoint (by decide)) (h2 .finalized_checkpoint (by decide))
  case Bellatrix =>
    have h2 := (into_bellatrix h).2.2
    exact past_of_same (Nat.le_of_eq (h2 .slot (by decide) : _ = _).symm)
      (h2 .previous_justified_checkpoint (by decide))
      (h2 .current_justified_checkpoint (by decide)) (h2 .finalized_checkpoint (by decide))
  case Capella =>
    have h2 := (into_capella h).2.2
    exact past_of_same (Nat.le_of_eq (h2 .slot (by decide) : _ = _).symm)
      (h2 .previous_justified_checkpoint (by decide))
      (h2 .current_justified_checkpoint (by decide)) (h2 .finalized_checkpoint (by decide))
  case Deneb =>
    have h2 := (into_deneb h).2.2
    exact past_of_same (Nat.le_of_eq (h2 .slot (by decide) : _ = _).symm)
      (h2 .previous_justified_checkpoint (by decide))
      (h2 .current_justified_checkpoint (by decide)) (h2 .finalized_checkpoint (by decide))

theorem past_upd {E : Env} {g : State → State} (h0 : ∀ s, (g s).slot = s.slot)
    (h1 : ∀ s, (g s).previous_justified_checkpoint = s.previous_justified_checkpoint)
    (h2 : ∀ s, (g s).current_justified_checkpoint = s.current_justified_checkpoint)
    (h3 : ∀ s, (g s).finalized_checkpoint = s.finalized_checkpoint) : Pres (Past E) (upd g) :=
  Pres.upd fun s => past_of_same (Nat.le_of_eq (h0 s).symm) (h1 s) (h2 s) (h3 s)

theorem genesis_fill_past {E : Env} {f : Fork} {ds : List Deposit} :
    Pres (Past E) (genesis_fill E f ds) := by
  have p := pastPre E
  unfold genesis_fill genesis_pending_deposits genesis_sync_committees
  have h1 : ∀ l, Pres (Past E) (genesis_deposits E f l ds) := by
    induction ds with
    | nil => intro l; unfold genesis_deposits; walk p
    | cons d ds ih =>
      intro l
      unfold genesis_deposits
      walk p [past_mod deposit_mod (by decide), ih, past_upd]
  have h2 : ∀ i, Modifies [.validators] (genesis_activate E i) := by
    intro i; unfold genesis_activate; mods
  walk p [past_mod increase_mod (by decide), h1, past_mod (h2 _) (by decide), past_upd]

theorem reachable_upto {E : Env} {f : Fork} {s : State} (h : Reachable E f s) :
    Upto (epochOf E s.slot) s := by
  induction h with
  | genesis hs =>
    unfold initialize_beacon_state_from_eth1 genesis_candidate at hs
    simp only [run] at hs
    obtain ⟨_, ⟨gt, _, rfl⟩, hs⟩ := hs
    rw [runLocal_eq_ok] at hs
    have h1 := (genesis_fill_past).ok hs
    exact h1.2 ⟨Nat.zero_le _, Nat.zero_le _, Nat.zero_le _⟩
  | call _ hm ih => exact ((entry_past hm).final _).2 ih
  | upgrade _ hg h ih => exact (upgrade_past h).2 ih

end Verif
