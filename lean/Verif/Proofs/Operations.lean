import Verif.Spec.Operations
import Verif.Proofs.Evidence

/-! # Block operations: when they succeed and what they do -/

namespace Verif

open Spec

theorem process_block_header_eq_ok {E : Env} {f : Fork} {b : BeaconBlock} {s s' : State} :
    process_block_header E f b s = .ok () s' ↔
      ValidHeader E s b ∧ s' = { s with latest_block_header := headerOf E f b } := by
  simp only [process_block_header, run, decide_eq_false_iff_not, ne_eq, Decidable.not_not]
  constructor
  · rintro ⟨h1, h2, p, h3, h4, h5, v, h6, h7, rfl⟩
    subst h4
    exact ⟨⟨h1, by omega, h3, h5, v, h6, h7⟩, rfl⟩
  · rintro ⟨⟨h1, h2, h3, h4, v, h5, h6⟩, rfl⟩
    exact ⟨h1, by omega, _, h3, rfl, h4, v, h5, h6, rfl⟩

theorem get_randao_mix_eq_ok {E : Env} {s : State} {e : Nat} {m : Bytes32} :
    get_randao_mix E s e = .ok m ↔
      mixAt E s e = some m ∧ E.epochs_per_historical_vector ≠ 0 := by
  simp only [get_randao_mix, run, mixAt]
  constructor
  · rintro ⟨_, ⟨rfl, h⟩, h'⟩; exact ⟨h', h⟩
  · rintro ⟨h, h'⟩; exact ⟨_, ⟨rfl, h'⟩, h⟩

theorem process_randao_eq_ok {E : Env} {body : BeaconBlockBody} {s s' : State} :
    process_randao E body s = .ok () s' ↔
      E.slots_per_epoch ≠ 0 ∧ E.epochs_per_historical_vector ≠ 0 ∧
      ValidReveal E s body.randao_reveal ∧
      ∃ mix, mixAt E s (epochOf E s.slot) = some mix ∧
        s' = { s with
          randao_mixes := s.randao_mixes.set
            (epochOf E s.slot % E.epochs_per_historical_vector)
            (Vector.zipWith (· ^^^ ·) mix (E.hash body.randao_reveal.toList)) } := by
  simp only [process_randao, run, current_epoch_eq_ok, get_domain_some, get_randao_mix_eq_ok,
    compute_signing_root, Bool.not_eq_false']
  constructor
  · rintro ⟨_, ⟨rfl, h1⟩, p, h2, v, h3, _, rfl, h4, m, ⟨h5, h6⟩, _, ⟨rfl, _⟩, _, ⟨h7, rfl⟩, rfl⟩
    exact ⟨h1, h6, ⟨p, v, h2, h3, h4⟩, m, h5, rfl⟩
  · rintro ⟨h1, h6, ⟨p, v, h2, h3, h4⟩, m, h5, rfl⟩
    exact ⟨_, ⟨rfl, h1⟩, p, h2, v, h3, _, rfl, h4, m, ⟨h5, h6⟩, _, ⟨rfl, h6⟩, _,
      ⟨(List.getElem?_eq_some_iff.1 h5).1, rfl⟩, rfl⟩

theorem process_eth1_data_eq_ok {E : Env} {body : BeaconBlockBody} {s s' : State} :
    process_eth1_data E body s = .ok () s' ↔
      (votesFor s body.eth1_data + 1) * 2 < U64_BOUND ∧ votingPeriodSlots E < U64_BOUND ∧
      s' = { s with
        eth1_data_votes := s.eth1_data_votes ++ [body.eth1_data]
        eth1_data := if votingPeriodSlots E < 2 * (votesFor s body.eth1_data + 1)
          then body.eth1_data else s.eth1_data } := by
  have hc : (s.eth1_data_votes ++ [body.eth1_data]).countP
      (fun vote => decide (vote = body.eth1_data)) = votesFor s body.eth1_data + 1 := by
    rw [List.countP_append, votesFor, List.count_eq_countP]
    congr 1
    simp
  have hv : votingPeriodSlots E = E.epochs_per_eth1_voting_period * E.slots_per_epoch := rfl
  simp only [process_eth1_data, run, hc]
  constructor
  · rintro ⟨_, ⟨rfl, h1⟩, _, ⟨rfl, h2⟩, (⟨h3, rfl⟩ | ⟨h3, -, rfl⟩)⟩
    · refine ⟨h1, h2, ?_⟩; rw [if_pos (by omega)]
    · refine ⟨h1, h2, ?_⟩; rw [if_neg (by omega)]
  · rintro ⟨h1, h2, rfl⟩
    refine ⟨_, ⟨rfl, h1⟩, _, ⟨rfl, h2⟩, ?_⟩
    split
    · left; exact ⟨by omega, rfl⟩
    · right; exact ⟨by omega, trivial, rfl⟩

theorem sumU64_eq_ok {l : List Nat} {n : Nat} :
    sumU64 l = .ok n ↔ l.sum < U64_BOUND ∧ n = l.sum := by
  suffices h : ∀ (l : List Nat) (a : Nat), a < U64_BOUND →
      (l.foldlM (fun a x => a +? x) a = (.ok n : R Nat) ↔
        a + l.sum < U64_BOUND ∧ n = a + l.sum) by
    have := h l 0 (by decide)
    simpa [sumU64] using this
  intro l
  induction l with
  | nil =>
    intro a ha
    simp only [List.foldlM_nil, R_pure_eq_ok, List.sum_nil, Nat.add_zero, ha, true_and]
    exact eq_comm
  | cons x l ih =>
    intro a ha
    simp only [List.foldlM_cons, run, List.sum_cons]
    constructor
    · rintro ⟨_, ⟨rfl, h⟩, h'⟩
      have := (ih _ h).1 h'
      exact ⟨by omega, by omega⟩
    · rintro ⟨h, h'⟩
      exact ⟨_, ⟨rfl, by omega⟩, (ih _ (by omega)).2 ⟨by omega, by omega⟩⟩

theorem pending_balance_eq_ok {s : State} {i n : Nat} :
    Electra.get_pending_balance_to_withdraw s i = .ok n ↔
      pendingWithdrawalsOf s i < U64_BOUND ∧ n = pendingWithdrawalsOf s i := by
  have : (fun w : PendingPartialWithdrawal => w.index == i) = fun w => decide (w.index = i) := by
    funext w; exact beq_eq_decide ..
  rw [Electra.get_pending_balance_to_withdraw, sumU64_eq_ok, pendingWithdrawalsOf, this]

theorem is_active_iff {v : Validator} {e : Nat} :
    is_active_validator v e = true ↔ ActiveAt v e := by
  simp [is_active_validator, ActiveAt]

theorem voluntary_exit_domain_eq (E : Env) (f : Fork) (s : State) (e : Nat) :
    voluntary_exit_domain E f s e = .ok (exitDomain E f s e) := by
  cases f <;> rfl

theorem process_voluntary_exit_eq_ok {E : Env} {f : Fork} {op : SignedVoluntaryExit}
    {s s' : State} (hp : E.slots_per_epoch ≠ 0) (hs : s.slot < U64_BOUND) :
    process_voluntary_exit E f op s = .ok () s' ↔
      (∃ v, ExitAllowed E f s op v) ∧
      f.initiate_validator_exit E op.message.validator_index s = .ok () s' := by
  have hep : epochOf E s.slot < U64_BOUND := Nat.lt_of_le_of_lt (Nat.div_le_self _ _) hs
  have hpend : ∀ n t, (match f with
      | .Electra => liftM (Electra.get_pending_balance_to_withdraw s op.message.validator_index)
      | _ => pure 0 : M Nat) s = .ok n t ∧ n = 0 ↔
      (n = 0 ∧ t = s ∧
        (f = .Electra → pendingWithdrawalsOf s op.message.validator_index = 0)) := by
    intro n t
    have : (0:Nat) < U64_BOUND := by decide
    cases f <;> simp only [run, reduceCtorEq, false_imp_iff, and_true, pending_balance_eq_ok,
      true_imp_iff]
    case Electra =>
      constructor
      · rintro ⟨⟨⟨h1, h2⟩, h3⟩, h4⟩; exact ⟨h4, h3.symm, by omega⟩
      · rintro ⟨h1, h2, h3⟩; exact ⟨⟨⟨by omega, by omega⟩, h2.symm⟩, h1⟩
    all_goals
      constructor
      · rintro ⟨⟨h1, h2⟩, h3⟩; exact ⟨h3, h2.symm⟩
      · rintro ⟨h1, h2⟩; exact ⟨⟨h1.symm, h2.symm⟩, h1⟩
  simp only [process_voluntary_exit, run, current_epoch_eq_ok, voluntary_exit_domain_eq,
    compute_signing_root, Bool.not_eq_false', is_active_iff, decide_eq_false_iff_not, ne_eq,
    Decidable.not_not]
  constructor
  · rintro ⟨v, h1, _, ⟨rfl, -⟩, h2, h3, h4, _, ⟨rfl, -⟩, h5, n, t, h6, h7, _, rfl, h8, h9⟩
    obtain ⟨-, rfl, h10⟩ := (hpend n t).1 ⟨h6, h7⟩
    exact ⟨⟨v, h1, h2, h3, by omega, by omega, h10, h8⟩, h9⟩
  · rintro ⟨⟨v, h1, h2, h3, h4, h5, h6, h8⟩, h9⟩
    have := (hpend 0 s).2 ⟨rfl, rfl, h6⟩
    exact ⟨v, h1, _, ⟨rfl, hp⟩, h2, h3, by omega, _, ⟨rfl, by omega⟩, by omega, 0, s, this.1, rfl, _, rfl,
      h8, h9⟩

theorem list_of_head_tail {c : Bytes32} {l : List UInt8} :
    (c[0] = 0 ∧ c.toList.drop 1 = l) ↔ c.toList = 0 :: l := by
  have h : c.toList = c[0] :: c.toList.drop 1 := by
    have hl : c.toList.length = 32 := by simp
    cases hc : c.toList with
    | nil => simp [hc] at hl
    | cons a t =>
      have : c[0] = c.toList[0]'(by simp) := by simp
      rw [this]; simp [hc]
  constructor
  · rintro ⟨h1, h2⟩; rw [h, h1, h2]
  · intro h'; rw [h] at h'
    simp only [List.cons.injEq] at h'
    exact h'

theorem process_bls_change_eq_ok {E : Env} {op : SignedBlsToExecutionChange} {s s' : State} :
    process_bls_to_execution_change E op s = .ok () s' ↔
      ∃ v, ChangeAllowed E s op v ∧
        s' = { s with
          validators := s.validators.set op.message.validator_index
            { v with
              withdrawal_credentials := eth1Credentials op.message.to_execution_address } } := by
  simp only [process_bls_to_execution_change, run, verify_signed_data, compute_signing_root,
    compute_domain_none_some, Bool.not_eq_false', decide_eq_false_iff_not, ne_eq,
    Decidable.not_not, BLS_WITHDRAWAL_PREFIX]
  constructor
  · rintro ⟨v, h1, h2, h3, h4, v', h5, rfl⟩
    rw [h1] at h5; cases h5
    have h2 := Decidable.not_not.1 (of_decide_eq_false h2)
    exact ⟨v, ⟨h1, list_of_head_tail.1 ⟨h2, h3⟩, h4⟩, rfl⟩
  · rintro ⟨v, ⟨h1, h2, h4⟩, rfl⟩
    have := list_of_head_tail.2 h2
    exact ⟨v, h1, decide_eq_false (Decidable.not_not.2 this.1), this.2, h4, v, h1, rfl⟩

theorem eth1Credentials_toList (a : ExecutionAddress) :
    (eth1Credentials a).toList = executionCredentials a := by
  unfold eth1Credentials executionCredentials ETH1_ADDRESS_WITHDRAWAL_PREFIX
  apply List.ext_getElem
  · simp
  · intro i h1 h2
    simp only [Vector.getElem_toList, Vector.getElem_ofFn]
    match i with
    | 0 => rfl
    | i + 1 =>
      simp only [List.getElem_cons_succ, Nat.add_one_ne_zero, if_false]
      by_cases hi : i < 11
      · rw [List.getElem_append_left (by simpa using hi)]
        simp only [List.getElem_replicate]
        rw [dif_neg (by omega)]
      · rw [List.getElem_append_right (by simpa using hi)]
        rw [dif_pos (by omega)]
        simp

theorem compute_timestamp_eq_ok {E : Env} {s : State} {slot t : Nat} :
    compute_timestamp_at_slot E s slot = .ok t ↔
      t = s.genesis_time + slot * E.seconds_per_slot ∧
        s.genesis_time + slot * E.seconds_per_slot < U64_BOUND := by
  simp only [compute_timestamp_at_slot, run, GENESIS_SLOT]
  constructor
  · rintro ⟨_, ⟨rfl, -⟩, _, ⟨rfl, h1⟩, rfl, h2⟩; exact ⟨rfl, h2⟩
  · rintro ⟨rfl, h⟩
    refine ⟨_, ⟨rfl, Nat.zero_le _⟩, _, ⟨rfl, ?_⟩, rfl, h⟩
    simp only [Nat.sub_zero]; omega

theorem process_execution_payload_eq_ok {E : Env} {f : Fork} {body : BeaconBlockBody}
    {s s' : State} :
    process_execution_payload E f body s = .ok () s' ↔
      E.slots_per_epoch ≠ 0 ∧ E.epochs_per_historical_vector ≠ 0 ∧ PayloadFits E f s body ∧
      s' = { s with
        latest_execution_payload_header := header_of_payload E f body.execution_payload } := by
  have hm : ∀ b : Bool, (b && decide (body.execution_payload.parent_hash ≠
        s.latest_execution_payload_header.block_hash)) = false ↔
      (b = true → body.execution_payload.parent_hash =
        s.latest_execution_payload_header.block_hash) := by
    intro b
    cases b <;> simp
  have hc : is_merge_transition_complete s = true ↔ MergeComplete s := by
    unfold is_merge_transition_complete MergeComplete; exact decide_eq_true_iff
  have hx : PayloadFits E f s body ↔
      (((f = .Bellatrix → MergeComplete s) → body.execution_payload.parent_hash =
        s.latest_execution_payload_header.block_hash) ∧
      mixAt E s (epochOf E s.slot) = some body.execution_payload.prev_randao ∧
      body.execution_payload.timestamp = s.genesis_time + s.slot * E.seconds_per_slot ∧
      s.genesis_time + s.slot * E.seconds_per_slot < U64_BOUND ∧
      (f = .Deneb ∨ f = .Electra →
        body.blob_kzg_commitments.length ≤ E.max_blobs_per_block) ∧
      E.engine_accepts (payload_request E f s body) = true) :=
    ⟨fun ⟨a, b, c, d, e, f⟩ => ⟨a, b, c, d, e, f⟩,
      fun ⟨a, b, c, d, e, f⟩ => ⟨a, b, c, d, e, f⟩⟩
  rw [hx]
  clear hx
  unfold process_execution_payload
  simp only [run, current_epoch_eq_ok, get_randao_mix_eq_ok,
    compute_timestamp_eq_ok, hm, Bool.not_eq_false', ne_eq, decide_eq_false_iff_not,
    Decidable.not_not]
  generalize hH : header_of_payload E f body.execution_payload = H
  generalize hR : E.engine_accepts (payload_request E f s body) = R'
  constructor
  · rintro ⟨h1, _, ⟨rfl, h2⟩, m, ⟨h3, h4⟩, h5, _, ⟨rfl, h6⟩, h7, h8, h9, rfl⟩
    subst h5
    refine ⟨h2, h4, ⟨?_, h3, h7, h6, ?_, h9⟩, rfl⟩
    · clear hH hR
      cases f
      case Bellatrix => intro h; exact h1 (hc.2 (h rfl))
      all_goals exact fun _ => h1 rfl
    · clear hH hR
      cases f <;> simp only [reduceCtorEq, or_self, or_false, or_true, false_imp_iff,
        true_imp_iff] <;> have := of_decide_eq_false h8 <;> omega
  · rintro ⟨h2, h4, ⟨h1, h3, h7, h6, h8, h9⟩, rfl⟩
    refine ⟨?_, _, ⟨rfl, h2⟩, _, ⟨h3, h4⟩, rfl, _, ⟨rfl, h6⟩, h7, ?_, h9, rfl⟩
    · clear hH hR
      cases f
      case Bellatrix => intro h; exact h1 fun _ => hc.1 h
      all_goals exact fun _ => h1 (fun h => by cases h)
    · clear hH hR
      cases f <;> first
        | rfl
        | (refine decide_eq_false ?_; have := h8 (by simp); omega)

theorem header_of_payload_summarises (E : Env) (f : Fork) (p : ExecutionPayload) :
    Summarises E f p (header_of_payload E f p) := by
  cases f <;> constructor <;> first
    | rfl
    | (intro h; first
        | rfl
        | exact ⟨rfl, rfl⟩
        | cases h; done
        | (rcases h with h | h <;> cases h; done)
        | (rcases h with h | h | h <;> cases h))

end Verif
