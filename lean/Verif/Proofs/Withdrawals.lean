import Verif.Spec.Withdrawals
import Verif.Proofs.Wp
import Verif.Proofs.Slashings
import Verif.Proofs.Deposits
import Verif.Proofs.Activation
import Verif.Proofs.Rings

/-! # Withdrawals -/

namespace Verif
open Spec

/-- `sweepOrder` from an arbitrary position. -/
def ring (N c n : Nat) : List Nat := (List.range n).map fun k => (c + k) % N

theorem ring_succ {N c n : Nat} (h : c < N) : ring N c (n + 1) = c :: ring N ((c + 1) % N) n := by
  unfold ring
  rw [List.range_succ_eq_map, List.map_cons, List.map_map]
  refine congrArg₂ List.cons ?_ ?_
  · simp [Nat.mod_eq_of_lt h]
  · apply List.map_congr_left
    intro k _
    simp only [Function.comp_apply, Nat.succ_eq_add_one, Nat.mod_add_mod]
    congr 1
    omega

theorem full_iff {f : Fork} {v : Validator} {b e : Nat} :
    is_fully_withdrawable_validator f v b e = true ↔
      (Withdraws f v ∧ v.withdrawable_epoch ≤ e) ∧ 0 < b := by
  unfold is_fully_withdrawable_validator
  cases f <;> simp [Withdraws, Compounding, has_eth1_withdrawal_credential,
    Electra.has_execution_withdrawal_credential, Electra.has_compounding_withdrawal_credential,
    Electra.is_compounding_withdrawal_credential,
    ETH1_ADDRESS_WITHDRAWAL_PREFIX, COMPOUNDING_WITHDRAWAL_PREFIX, and_assoc]
  exact fun _ _ => or_comm

theorem compounding_limit_eq {E : Env} {v : Validator} :
    Electra.get_validator_max_effective_balance E v = effectiveLimit E .Electra v := by
  simp [effectiveLimit, Electra.get_validator_max_effective_balance,
      Electra.has_compounding_withdrawal_credential, Electra.is_compounding_withdrawal_credential,
      COMPOUNDING_WITHDRAWAL_PREFIX]

theorem partial_iff {E : Env} {f : Fork} {v : Validator} {b : Nat} :
    is_partially_withdrawable_validator E f v b = true ↔
      (Withdraws f v ∧ v.effective_balance = effectiveLimit E f v) ∧
        effectiveLimit E f v < b := by
  unfold is_partially_withdrawable_validator
  simp only [compounding_limit_eq]
  cases f <;> simp [Withdraws, Compounding, has_eth1_withdrawal_credential,
    Electra.has_execution_withdrawal_credential, Electra.has_compounding_withdrawal_credential,
    Electra.is_compounding_withdrawal_credential,
    ETH1_ADDRESS_WITHDRAWAL_PREFIX, COMPOUNDING_WITHDRAWAL_PREFIX, and_assoc,
    effectiveLimit]
  exact fun _ _ => or_comm

theorem sweep_amount_eq {E : Env} {f : Fork} {v : Validator} {b e : Nat} :
    sweep_amount E f v b e =
      .ok (if 0 < owed E f e v b then some (owed E f e v b) else none) := by
  have hsub : effectiveLimit E f v < b → (do
      let a ← b -? (match f with
        | .Electra => Electra.get_validator_max_effective_balance E v
        | _ => E.max_effective_balance)
      return some a : R (Option Nat)) = .ok (some (b - effectiveLimit E f v)) := by
    intro h
    have : b -? effectiveLimit E f v = .ok (b - effectiveLimit E f v) := by
      rw [sub_eq_ok]; exact ⟨rfl, Nat.le_of_lt h⟩
    cases f <;> simp only [compounding_limit_eq] <;> rw [show ∀ x, x = effectiveLimit E _ v → b -? x = _ from
      fun x hx => hx ▸ this] <;> rfl
  unfold sweep_amount owed
  simp only [full_iff, partial_iff]
  by_cases hA : Withdraws f v ∧ v.withdrawable_epoch ≤ e
  · by_cases hD : 0 < b
    · simp [hA, hD]
    · have : b = 0 := by omega
      simp [hA, this]
  · by_cases hC : Withdraws f v ∧ v.effective_balance = effectiveLimit E f v
    · by_cases hF : effectiveLimit E f v < b
      · rw [if_neg (fun h => hA h.1), if_pos ⟨hC, hF⟩, if_neg hA, if_pos hC, if_pos (by omega)]
        exact hsub hF
      · rw [if_neg (fun h => hA h.1), if_neg (fun h => hF h.2), if_neg hA, if_pos hC,
          if_neg (by omega)]
    · rw [if_neg (fun h => hA h.1), if_neg (fun h => hC h.1), if_neg hA, if_neg hC,
        if_neg (by omega)]

theorem address_eq {c : Bytes32} : (credentialsAddress c).toList = c.toList.drop 12 := by
  apply List.ext_getElem
  · simp
  · intro i h1 h2
    simp [credentialsAddress]

theorem pays_nil {E : Env} {f : Fork} {s : State} {wi : Nat} : Pays E f s [] wi [] :=
  ⟨rfl, rfl, by simp⟩

theorem pays_cons {E : Env} {f : Fork} {s : State} {wi i : Nat} {v : Validator} {l : List Nat}
    {ws : List Withdrawal} (h : Pays E f s l (wi + 1) ws) (hv : s.validators[i]? = some v) :
    Pays E f s (i :: l) wi
      (⟨wi, i, credentialsAddress v.withdrawal_credentials, owedTo E f s i⟩ :: ws) := by
  refine ⟨by simp [h.payees], ?_, ?_⟩
  · simp [h.indices, List.range'_succ]
  · intro w hw
    rcases List.mem_cons.mp hw with rfl | hw
    · exact ⟨rfl, v, hv, address_eq⟩
    · exact h.exact w hw

/-- The sweep over `n` validators from `vi` on. -/
theorem sweep_loop_eq {E : Env} {f : Fork} {s : State} (hN : s.validators.length ≤ 2 ^ 40)
    (hb : s.balances.length = s.validators.length) :
    ∀ (n wi vi : Nat) (acc : List Withdrawal), vi < s.validators.length →
      acc.length < E.max_withdrawals_per_payload →
      wi + (E.max_withdrawals_per_payload - acc.length) < 2 ^ 64 →
      ∃ ws, sweep_loop E f s (epochOf E s.slot) n wi vi acc = .ok (acc ++ ws) ∧
        Pays E f s (((ring s.validators.length vi n).filter fun i => 0 < owedTo E f s i).take
          (E.max_withdrawals_per_payload - acc.length)) wi ws
  | 0, wi, vi, acc, _, _, _ => ⟨[], by simp [sweep_loop], by simpa [ring] using pays_nil⟩
  | n + 1, wi, vi, acc, hvi, hacc, hwi => by
    obtain ⟨v, hv⟩ : ∃ v, s.validators[vi]? = some v := ⟨_, List.getElem?_eq_getElem hvi⟩
    obtain ⟨b, hbal⟩ : ∃ b, s.balances[vi]? = some b :=
      ⟨_, List.getElem?_eq_getElem (by omega)⟩
    have ho : owedTo E f s vi = owed E f (epochOf E s.slot) v b := by simp [owedTo, hv, hbal]
    have hi1 : idx s.validators vi = .ok v := by rw [idx_eq_ok]; exact hv
    have hi2 : idx s.balances vi = .ok b := by rw [idx_eq_ok]; exact hbal
    have hadd : vi +? 1 = .ok (vi + 1) := by rw [add_eq_ok, U64_BOUND_eq]; omega
    have hmod : (vi + 1) %? s.validators.length = .ok ((vi + 1) % s.validators.length) := by
      rw [mod_eq_ok]; exact ⟨rfl, by omega⟩
    have hlt : (vi + 1) % s.validators.length < s.validators.length := Nat.mod_lt _ (by omega)
    rw [ring_succ hvi, sweep_loop]
    simp only [hi1, hi2, sweep_amount_eq, ← ho, bind, Except.bind]
    by_cases hpos : 0 < owedTo E f s vi
    · have hw1 : wi +? 1 = .ok (wi + 1) := by rw [add_eq_ok, U64_BOUND_eq]; omega
      simp only [hpos, if_true, hw1, pure, Except.pure]
      rw [List.filter_cons_of_pos (by simpa using hpos)]
      obtain ⟨m, hm⟩ : ∃ m, E.max_withdrawals_per_payload - acc.length = m + 1 :=
        ⟨E.max_withdrawals_per_payload - acc.length - 1, by omega⟩
      rw [hm, List.take_succ_cons]
      by_cases hfull : acc.length + 1 = E.max_withdrawals_per_payload
      · refine ⟨[_], ?_, pays_cons (l := _) (ws := []) ?_ hv⟩
        · simp [hfull]
        · have : m = 0 := by omega
          rw [this]; simpa using pays_nil
      · obtain ⟨ws, h1, h2⟩ := sweep_loop_eq (E := E) (f := f) hN hb n (wi + 1) ((vi + 1) % s.validators.length)
          (acc ++ [⟨wi, vi, credentialsAddress v.withdrawal_credentials, owedTo E f s vi⟩])
          hlt (by simp; omega) (by simp; omega)
        refine ⟨_ :: ws, ?_, pays_cons (l := _) (ws := ws) ?_ hv⟩
        · simp only [List.length_append, List.length_cons, List.length_nil, hfull, if_false,
            hadd, hmod, Nat.zero_add, h1, List.append_assoc, List.cons_append, List.nil_append]
        · simp only [List.length_append, List.length_cons, List.length_nil] at h2
          rwa [show E.max_withdrawals_per_payload - (acc.length + (0 + 1)) = m by omega] at h2
    · simp only [hpos, if_false, pure, Except.pure]
      rw [List.filter_cons_of_neg (by simpa using hpos)]
      obtain ⟨ws, h1, h2⟩ := sweep_loop_eq (E := E) (f := f) hN hb n wi ((vi + 1) % s.validators.length) acc
          hlt hacc hwi
      refine ⟨ws, ?_, h2⟩
      simp only [Nat.ne_of_lt hacc, if_false, hadd, hmod, h1]

/-- There is only one such list. -/
theorem pays_unique {E : Env} {f : Fork} {s : State} {l : List Nat} {wi : Nat}
    {ws ws' : List Withdrawal} (h : Pays E f s l wi ws) (h' : Pays E f s l wi ws') : ws = ws' := by
  have hl : ws.length = ws'.length := by
    have h1 := congrArg List.length h.payees
    have h2 := congrArg List.length h'.payees
    simp only [List.length_map] at h1 h2
    omega
  apply List.ext_getElem hl
  intro k hk hk'
  have e1 : ws[k].validator_index = ws'[k].validator_index := by
    have h3 := h.payees.trans h'.payees.symm
    have := List.getElem_of_eq h3 (i := k) (by simpa using hk)
    simpa using this
  have e2 : ws[k].index = ws'[k].index := by
    have h3 := h.indices
    rw [hl, ← h'.indices] at h3
    have := List.getElem_of_eq h3 (i := k) (by simpa using hk)
    simpa using this
  obtain ⟨a1, v1, g1, g2⟩ := h.exact _ (List.getElem_mem hk)
  obtain ⟨a2, v2, g3, g4⟩ := h'.exact _ (List.getElem_mem hk')
  rw [e1] at a1 g1
  cases g1.symm.trans g3
  have e3 : ws[k].address = ws'[k].address := by
    apply Vector.toList_inj.mp
    rw [g2, g4]
  have e4 := a1.trans a2.symm
  revert e1 e2 e3 e4
  generalize ws[k] = x
  generalize ws'[k] = y
  rcases x with ⟨_, _, _, _⟩
  rcases y with ⟨_, _, _, _⟩
  simp only
  rintro rfl rfl rfl rfl
  rfl

theorem sweepOrder_eq {E : Env} {s : State} : sweepOrder E s =
    ring s.validators.length s.next_withdrawal_validator_index
      (min s.validators.length E.max_validators_per_withdrawals_sweep) := rfl

theorem current_epoch_is {E : Env} (hE : SaneConfig E) (s : State) :
    get_current_epoch E s = .ok (epochOf E s.slot) := by
  rw [current_epoch_eq_ok]
  have := hE.slots_per_epoch.1
  exact ⟨rfl, by omega⟩

/-- What `get_expected_withdrawals` returns before electra. -/
theorem expected_eq {E : Env} (hE : SaneConfig E) {f : Fork} (hf : f ≠ .Electra) {s : State}
    (hs : SweepReady E s) : ∃ ws, get_expected_withdrawals E f s = .ok (ws, 0) ∧
      Pays E f s ((creditors E f s).take E.max_withdrawals_per_payload)
        s.next_withdrawal_index ws := by
  obtain ⟨ws, h1, h2⟩ := sweep_loop_eq (E := E) (f := f) hs.registry hs.balances
    (min s.validators.length E.max_validators_per_withdrawals_sweep) s.next_withdrawal_index
    s.next_withdrawal_validator_index [] hs.cursor hs.payload hs.index
  refine ⟨ws, ?_, h2⟩
  unfold get_expected_withdrawals
  simp only [current_epoch_is hE, bind, Except.bind]
  cases f <;> first
    | exact absurd rfl hf
    | (simp only [pure, Except.pure, h1, List.nil_append]; rfl)

/-- Takes the amounts off the balances one after the other. -/
def debit : List Nat → List Withdrawal → List Nat
  | bs, [] => bs
  | bs, w :: ws => debit (bs.set w.validator_index ((bs[w.validator_index]?.getD 0) - w.amount)) ws

theorem debit_length (bs : List Nat) (ws : List Withdrawal) :
    (debit bs ws).length = bs.length := by
  induction ws generalizing bs with
  | nil => rfl
  | cons w ws ih => rw [debit, ih, List.length_set]

theorem debit_get (ws : List Withdrawal) : ∀ (bs : List Nat) (i : Nat),
    (debit bs ws)[i]? = bs[i]?.map (· - paidTo ws i) := by
  induction ws with
  | nil => intro bs i; simp [debit, paidTo]
  | cons w ws ih =>
    intro bs i
    rw [debit, ih, List.getElem?_set]
    by_cases h : w.validator_index = i
    · subst h
      by_cases hlt : w.validator_index < bs.length
      · simp [paidTo, hlt, Nat.sub_sub]
      · simp [hlt]
    · simp [paidTo, h]

theorem debit_loop (ws : List Withdrawal) : ∀ (s : State),
    (∀ w ∈ ws, w.validator_index < s.balances.length) →
    forEach ws (fun w => decrease_balance w.validator_index w.amount) s =
      .ok () { s with balances := debit s.balances ws } := by
  induction ws with
  | nil => intro s _; rfl
  | cons w ws ih =>
    intro s h
    have hlt := h w (by simp)
    have h1 : decrease_balance w.validator_index w.amount s = .ok ()
        { s with balances :=
          s.balances.set w.validator_index (s.balances[w.validator_index] - w.amount) } := by
      rw [decrease_balance_eq_ok]
      exact ⟨_, List.getElem?_eq_getElem hlt, rfl⟩
    rw [forEach_cons]
    refine ⟨_, h1, ?_⟩
    rw [ih]
    · simp [debit, hlt]
    · intro w' hw'
      simpa using h w' (by simp [hw'])

theorem debit_sum (ws : List Withdrawal) : ∀ (bs : List Nat),
    (ws.map (·.validator_index)).Nodup →
    (∀ w ∈ ws, ∃ b, bs[w.validator_index]? = some b ∧ w.amount ≤ b) →
    (debit bs ws).sum + (ws.map (·.amount)).sum = bs.sum := by
  induction ws with
  | nil => intro bs _ _; simp [debit]
  | cons w ws ih =>
    intro bs hn h
    obtain ⟨b, hb, hle⟩ := h w (by simp)
    rw [List.map_cons, List.nodup_cons] at hn
    have h2 := ih (bs.set w.validator_index (b - w.amount)) hn.2 (by
      intro w' hw'
      obtain ⟨b', hb', hle'⟩ := h w' (by simp [hw'])
      refine ⟨b', ?_, hle'⟩
      rw [List.getElem?_set_ne, hb']
      intro he
      exact hn.1 (he ▸ List.mem_map_of_mem hw'))
    have h3 := sum_set bs w.validator_index b (b - w.amount) hb
    simp only [debit, hb, Option.getD_some, List.map_cons, List.sum_cons]
    omega

theorem pays_last {E : Env} {f : Fork} {s : State} {l : List Nat} {first : Nat}
    {ws : List Withdrawal} (h : Pays E f s l first ws) {w : Withdrawal}
    (hw : ws.getLast? = some w) : w.index + 1 = first + ws.length := by
  have h1 := congrArg List.getLast? h.indices
  rw [List.getLast?_map, hw] at h1
  have hne : ws.length ≠ 0 := by
    intro h0
    rw [List.length_eq_zero_iff.mp h0] at hw
    cases hw
  rw [List.getLast?_range'] at h1
  simp only [Option.map_some, hne, if_false, Option.some.injEq] at h1
  omega

theorem pays_bound {E : Env} {f : Fork} {s : State} {l : List Nat} {first : Nat}
    {ws : List Withdrawal} (h : Pays E f s l first ws) {w : Withdrawal}
    (hw : w ∈ ws) : w.validator_index < s.validators.length := by
  obtain ⟨-, v, hv, -⟩ := h.exact w hw
  exact (List.getElem?_eq_some_iff.mp hv).1

/-- The state after paying `ws`. -/
def settled (E : Env) (s : State) (ws : List Withdrawal) : State :=
  { s with
    balances := debit s.balances ws
    next_withdrawal_index := s.next_withdrawal_index + ws.length
    next_withdrawal_validator_index := nextCursor E s ws }

theorem debited_iff {E : Env} {s s' : State} {ws : List Withdrawal} :
    Debited E s ws s' ↔ s' = settled E s ws := by
  constructor
  · intro h
    have hb : s'.balances = debit s.balances ws := by
      apply List.ext_getElem?
      intro i
      rw [h.balances, debit_get]
    rw [h.rest, hb, h.index, h.cursor, settled]
  · rintro rfl
    exact ⟨fun i => debit_get ws _ _, rfl, rfl, rfl⟩

theorem process_withdrawals_eq {E : Env} (hE : SaneConfig E) {f : Fork} (hf : f ≠ .Electra)
    {s : State} (hs : SweepReady E s) {p : ExecutionPayload} {ws : List Withdrawal}
    (hw : Pays E f s ((creditors E f s).take E.max_withdrawals_per_payload)
        s.next_withdrawal_index ws) :
    process_withdrawals E f p s =
      if p.withdrawals = ws then .ok () (settled E s ws)
      else .error .incorrectWithdrawals s := by
  obtain ⟨ws', h1, h2⟩ := expected_eq hE hf hs
  cases pays_unique hw h2
  by_cases hp : p.withdrawals = ws
  · rw [if_pos hp]
    unfold process_withdrawals
    simp only [run, h1, Except.ok.injEq]
    have hN := hs.registry
    have hc := hs.cursor
    have hi := hs.index
    have hwd := hs.width
    have hlen : ws.length ≤ E.max_withdrawals_per_payload := by
      have := congrArg List.length hw.payees
      simp only [List.length_map, List.length_take] at this
      omega
    have hl : ∀ w ∈ ws, w.validator_index < s.balances.length := by
      intro w hm
      rw [hs.balances]
      exact pays_bound hw hm
    have hni (t : State) (ht : t.next_withdrawal_index = s.next_withdrawal_index) :
        next_withdrawal_index_of t ws = .ok (s.next_withdrawal_index + ws.length) := by
      unfold next_withdrawal_index_of
      cases hlast : ws.getLast? with
      | none =>
        rw [List.getLast?_eq_none_iff.mp hlast]
        simp [ht]
      | some w =>
        have := pays_last hw hlast
        simp only [add_eq_ok, U64_BOUND_eq]
        omega
    have hns (t : State) (ht : t.next_withdrawal_validator_index =
        s.next_withdrawal_validator_index) (ht' : t.validators = s.validators) :
        next_sweep_start E f t ws = .ok (nextCursor E s ws) := by
      have hN0 : s.validators.length ≠ 0 := by omega
      unfold next_sweep_start nextCursor
      rw [ht, ht']
      cases hlast : ws.getLast? with
      | none =>
        rw [List.getLast?_eq_none_iff.mp hlast]
        rw [if_neg (by have := hs.payload; simp only [List.length_nil]; omega)]
        simp only [run, add_eq_ok, mod_eq_ok, U64_BOUND_eq]
        exact ⟨_, ⟨rfl, by omega⟩, rfl, hN0⟩
      | some w =>
        have := pays_bound hw (List.mem_of_getLast? hlast)
        by_cases hfull : ws.length = E.max_withdrawals_per_payload
        · rw [if_pos hfull]
          simp only [if_pos hfull]
          cases f <;> first
            | exact absurd rfl hf
            | (simp only [run, add_eq_ok, mod_eq_ok, U64_BOUND_eq]
               exact ⟨_, ⟨rfl, by omega⟩, rfl, hN0⟩)
        · rw [if_neg hfull]
          simp only [if_neg hfull, run, add_eq_ok, mod_eq_ok, U64_BOUND_eq]
          exact ⟨_, ⟨rfl, by omega⟩, rfl, hN0⟩
    refine ⟨_, rfl, ?_⟩
    refine ⟨by simp [hp], _, debit_loop ws s hl, _, hni _ rfl, _, hns _ rfl rfl, ?_⟩
    cases f <;> first
      | exact absurd rfl hf
      | rfl
  · rw [if_neg hp]
    have hrej : rejectIf (decide (p.withdrawals ≠ ws)) .incorrectWithdrawals =
        .error .incorrectWithdrawals := by simp [rejectIf, hp]
    unfold process_withdrawals
    show EStateM.bind _ _ s = _
    simp only [EStateM.bind, get, getThe, MonadStateOf.get, EStateM.get, liftM, monadLift, MonadLift.monadLift, liftR, h1, bind, hrej, rd]

/-! ## The cursor -/

theorem wrap {N c j : Nat} (hc : c < N) (hj : j ≤ N) :
    (c + j) % N = if c + j < N then c + j else c + j - N := by
  split
  · rename_i h; exact Nat.mod_eq_of_lt h
  · rename_i h
    rw [Nat.mod_eq_sub_mod (by omega), Nat.mod_eq_of_lt (by omega)]

theorem ring_nodup {N c n : Nat} (hc : c < N) (hn : n ≤ N) : (ring N c n).Nodup := by
  unfold ring
  rw [List.nodup_iff_pairwise_ne, List.pairwise_map]
  have := List.pairwise_lt_range (n := n)
  refine this.imp_of_mem ?_
  intro a b ha hb hab he
  rw [List.mem_range] at ha hb
  rw [wrap hc (by omega), wrap hc (by omega)] at he
  split at he <;> split at he <;> omega

theorem creditors_nodup {E : Env} {f : Fork} {s : State} (hs : SweepReady E s) :
    (creditors E f s).Nodup := by
  unfold creditors
  rw [sweepOrder_eq]
  exact (ring_nodup hs.cursor (by omega)).filter _

/-- The last element taken stands at some position; everything that qualifies up to there is taken
as well. -/
theorem take_filter_last {α : Type} (p : α → Bool) : ∀ (l : List α) (m : Nat) (x : α),
    ((l.filter p).take m).getLast? = some x →
    ∃ j, l[j]? = some x ∧ ∀ (k : Nat) (y : α), k ≤ j → l[k]? = some y → p y = true →
      y ∈ (l.filter p).take m
  | [], m, x, h => by simp at h
  | a :: l, m, x, h => by
    cases m with
    | zero => simp at h
    | succ m =>
      by_cases ha : p a = true
      · rw [List.filter_cons_of_pos ha, List.take_succ_cons] at h ⊢
        cases hl : ((l.filter p).take m).getLast? with
        | none =>
          rw [List.getLast?_eq_none_iff] at hl
          rw [hl] at h ⊢
          simp only [List.getLast?_singleton, Option.some.injEq] at h
          refine ⟨0, by simp [h], fun k y hk hy _ => ?_⟩
          have : k = 0 := by omega
          subst this
          simp at hy
          simp [hy]
        | some z =>
          rw [List.getLast?_cons, hl] at h
          simp only [Option.getD_some, Option.some.injEq] at h
          subst h
          obtain ⟨j, hj, hall⟩ := take_filter_last p l m z hl
          refine ⟨j + 1, by simpa using hj, fun k y hk hy hp => ?_⟩
          cases k with
          | zero => simp at hy; simp [hy]
          | succ k =>
            rw [List.getElem?_cons_succ] at hy
            exact List.mem_cons_of_mem _ (hall k y (by omega) hy hp)
      · rw [List.filter_cons_of_neg ha] at h ⊢
        obtain ⟨j, hj, hall⟩ := take_filter_last p l (m + 1) x h
        refine ⟨j + 1, by simpa using hj, fun k y hk hy hp => ?_⟩
        cases k with
        | zero => simp at hy; subst hy; exact absurd hp ha
        | succ k =>
          rw [List.getElem?_cons_succ] at hy
          exact hall k y (by omega) hy hp

theorem ring_get {N c n j : Nat} (h : j < n) : (ring N c n)[j]? = some ((c + j) % N) := by
  simp [ring, h]

theorem no_skip {E : Env} {f : Fork} {s : State} (hs : SweepReady E s) {ws : List Withdrawal}
    (hw : Pays E f s ((creditors E f s).take E.max_withdrawals_per_payload)
        s.next_withdrawal_index ws) :
    ∃ k, 0 < k ∧ k ≤ E.max_validators_per_withdrawals_sweep ∧
      nextCursor E s ws = (s.next_withdrawal_validator_index + k) % s.validators.length ∧
      ∀ j < k, 0 < owedTo E f s
          ((s.next_withdrawal_validator_index + j) % s.validators.length) →
        (s.next_withdrawal_validator_index + j) % s.validators.length ∈
          ws.map (·.validator_index) := by
  have hc := hs.cursor
  have hsw := hs.sweep
  by_cases hfull : ws.length = E.max_withdrawals_per_payload
  · have hne : ws ≠ [] := by
      rintro rfl
      have := hs.payload
      simp at hfull
      omega
    obtain ⟨w, hlast⟩ : ∃ w, ws.getLast? = some w := ⟨_, List.getLast?_eq_getLast_of_ne_nil hne⟩
    have hl : ((creditors E f s).take E.max_withdrawals_per_payload).getLast? =
        some w.validator_index := by
      rw [← hw.payees, List.getLast?_map, hlast]
      rfl
    obtain ⟨j, hj, hall⟩ := take_filter_last _ _ _ _ hl
    rw [sweepOrder_eq] at hj hall
    have hjl : j < min s.validators.length E.max_validators_per_withdrawals_sweep := by
      have := (List.getElem?_eq_some_iff.mp hj).1
      simpa [ring] using this
    rw [ring_get hjl] at hj
    refine ⟨j + 1, by omega, by omega, ?_, ?_⟩
    · unfold nextCursor
      simp only [hlast, if_pos hfull]
      rw [← Option.some.inj hj, Nat.mod_add_mod]
      congr 1
    · intro k hk ho
      rw [hw.payees]
      exact hall k _ (by omega) (ring_get (by omega)) (by simpa using ho)
  · have htake : (creditors E f s).take E.max_withdrawals_per_payload = creditors E f s := by
      apply List.take_of_length_le
      have := congrArg List.length hw.payees
      simp only [List.length_map, List.length_take] at this
      omega
    refine ⟨E.max_validators_per_withdrawals_sweep, hsw, Nat.le_refl _, ?_, ?_⟩
    · unfold nextCursor
      simp only [if_neg hfull]
      split <;> rfl
    · intro j hj ho
      rw [hw.payees, htake, creditors, List.mem_filter, sweepOrder_eq]
      refine ⟨?_, by simpa using ho⟩
      by_cases hjN : j < s.validators.length
      · exact List.mem_of_getElem? (ring_get (by omega))
      · have hm : (s.next_withdrawal_validator_index + j) % s.validators.length =
            (s.next_withdrawal_validator_index + j % s.validators.length) %
              s.validators.length := by rw [Nat.add_mod_mod]
        rw [hm]
        have := Nat.mod_lt j (show 0 < s.validators.length by omega)
        exact List.mem_of_getElem? (ring_get (by omega))

/-- How far the cursor is from position `i` if it wraps at `M`. -/
def gap (M c i : Nat) : Nat := if c ≤ i then i - c else M - c + i

theorem gap_step {N M c k i : Nat} (hc : c < N) (hi : i < N) (hM : N ≤ M) (hk : 0 < k)
    (h : ∀ j < k, (c + j) % N ≠ i) : gap M ((c + k) % N) i + 1 ≤ gap M c i := by
  have hkN : k < N := by
    by_cases hlt : k < N
    · exact hlt
    · exfalso
      by_cases hci : c ≤ i
      · exact h (i - c) (by omega) (by rw [wrap hc (by omega), if_pos (by omega)]; omega)
      · exact h (N - c + i) (by omega) (by rw [wrap hc (by omega), if_neg (by omega)]; omega)
  rw [wrap hc (by omega)]
  unfold gap
  by_cases hci : c ≤ i
  · have h1 : c + k ≤ i := by
      by_cases hlt : c + k ≤ i
      · exact hlt
      · exact absurd (by rw [wrap hc (by omega), if_pos (by omega)]; omega) (h (i - c) (by omega))
    rw [if_pos (show c + k < N by omega), if_pos h1, if_pos hci]
    omega
  · rw [if_neg hci]
    by_cases hw : c + k < N
    · rw [if_pos hw, if_neg (by omega)]
      omega
    · have h1 : c + k - N ≤ i := by
        by_cases hlt : c + k - N ≤ i
        · exact hlt
        · exact absurd (by rw [wrap hc (by omega), if_neg (by omega)]; omega)
            (h (N - c + i) (by omega))
      rw [if_neg hw, if_pos h1]
      omega

theorem owedTo_congr {E : Env} {f : Fork} {s t : State} {i : Nat}
    (h1 : t.validators = s.validators) (h2 : t.balances = s.balances) (h3 : t.slot = s.slot) :
    owedTo E f t i = owedTo E f s i := by
  unfold owedTo
  rw [h1, h2, h3]

theorem left_unpaid {E : Env} (hE : SaneConfig E) {f : Fork} (hf : f = .Capella ∨ f = .Deneb)
    {i M n : Nat} {s s' : State} (h : LeftUnpaid E f i s n s') (hpl : Parallel f s)
    (hp : 0 < E.max_withdrawals_per_payload) (hsw : 0 < E.max_validators_per_withdrawals_sweep)
    (hwd : E.max_validators_per_withdrawals_sweep ≤ 2 ^ 40)
    (hc : s.next_withdrawal_validator_index < s.validators.length)
    (hM : M ≤ 2 ^ 40) (hMs : s'.validators.length ≤ M)
    (hi : s.next_withdrawal_index + (n + 1) * E.max_withdrawals_per_payload < 2 ^ 64) :
    Parallel f s' ∧ s'.next_withdrawal_validator_index < s'.validators.length ∧
    s'.next_withdrawal_index ≤ s.next_withdrawal_index + n * E.max_withdrawals_per_payload ∧
    n + gap M s'.next_withdrawal_validator_index i ≤ gap M s.next_withdrawal_validator_index i := by
  induction h with
  | start => exact ⟨hpl, hc, by omega, by omega⟩
  | @slots n slot t u _ hx ih =>
    have hl := slots_len (f := f).ok hx
    obtain ⟨a, b, c, d⟩ := ih (Nat.le_trans hl.grow hMs) hi
    have e1 := slots_mod.ok hx .next_withdrawal_validator_index (by decide)
    have e2 := slots_mod.ok hx .next_withdrawal_index (by decide)
    simp only [Field.same] at e1 e2
    rw [e1, e2]
    exact ⟨hl.parallel a, Nat.lt_of_lt_of_le b hl.grow, c, d⟩
  | @block n b t u _ hx ho hnp ih =>
    have hl := block_len (f := f).ok hx
    have hexp : (n + 1 + 1) * E.max_withdrawals_per_payload =
      (n + 1) * E.max_withdrawals_per_payload + E.max_withdrawals_per_payload := by
        rw [Nat.add_mul (n + 1) 1, Nat.one_mul]
    have hexp' : (n + 1) * E.max_withdrawals_per_payload =
      n * E.max_withdrawals_per_payload + E.max_withdrawals_per_payload := by
        rw [Nat.add_mul n 1, Nat.one_mul]
    obtain ⟨a, hct, c, d⟩ := ih (Nat.le_trans hl.grow hMs) (by omega)
    have hgr := hl.grow
    unfold process_block at hx
    rw [M_bind_unit_eq_ok] at hx
    obtain ⟨t1, h1, hx⟩ := hx
    rw [M_bind_unit_eq_ok] at hx
    obtain ⟨t3, h2, hx⟩ := hx
    obtain ⟨t2, h2, h3⟩ : ∃ t2, process_withdrawals E f b.body.execution_payload t1 = .ok () t2 ∧
        process_execution_payload E f b.body t2 = .ok () t3 := by
      unfold process_block_payload at h2
      rcases hf with rfl | rfl <;> exact M_bind_unit_eq_ok.mp h2
    have hrest : u.next_withdrawal_index = t3.next_withdrawal_index ∧
        u.next_withdrawal_validator_index = t3.next_withdrawal_validator_index := by
      rw [M_bind_unit_eq_ok] at hx
      obtain ⟨t4, h4, hx⟩ := hx
      rw [M_bind_unit_eq_ok] at hx
      obtain ⟨t5, h5, hx⟩ := hx
      rw [M_bind_unit_eq_ok] at hx
      obtain ⟨t6, h6, hx⟩ := hx
      have h7 : process_sync_aggregate E b.body.sync_aggregate t6 = .ok () u := by
        rcases hf with rfl | rfl <;> exact hx
      have e4 := randao_mod.ok h4 .next_withdrawal_index (by decide)
      have e5 := eth1_mod.ok h5 .next_withdrawal_index (by decide)
      have e6 := operations_mod.ok h6 .next_withdrawal_index (by decide)
      have e7 := sync_aggregate_mod.ok h7 .next_withdrawal_index (by decide)
      have e4' := randao_mod.ok h4 .next_withdrawal_validator_index (by decide)
      have e5' := eth1_mod.ok h5 .next_withdrawal_validator_index (by decide)
      have e6' := operations_mod.ok h6 .next_withdrawal_validator_index (by decide)
      have e7' := sync_aggregate_mod.ok h7 .next_withdrawal_validator_index (by decide)
      simp only [Field.same] at e4 e5 e6 e7 e4' e5' e6' e7'
      exact ⟨by rw [e7, e6, e5, e4], by rw [e7', e6', e5', e4']⟩
    have k1 := header_mod.ok h1 .validators (by decide)
    have k2 := header_mod.ok h1 .balances (by decide)
    have k3 := header_mod.ok h1 .slot (by decide)
    have k4 := header_mod.ok h1 .next_withdrawal_index (by decide)
    have k5 := header_mod.ok h1 .next_withdrawal_validator_index (by decide)
    have k6 := payload_mod.ok h3 .next_withdrawal_index (by decide)
    have k7 := payload_mod.ok h3 .next_withdrawal_validator_index (by decide)
    simp only [Field.same] at k1 k2 k3 k4 k5 k6 k7
    have hready : SweepReady E t1 := by
      refine ⟨hp, hsw, by rw [k5, k1]; exact hct, by rw [k1]; omega, by rw [k1, k2]; exact a.1,
        by rw [k4]; omega, hwd⟩
    have hf' : f ≠ .Electra := by rcases hf with rfl | rfl <;> decide
    obtain ⟨ws, -, hw⟩ := expected_eq hE hf' hready
    rw [process_withdrawals_eq hE hf' hready hw] at h2
    split at h2
    · rename_i hpw
      have hset := (EStateM.Result.ok.inj h2).2
      obtain ⟨k, hk0, -, hk2, hk3⟩ := no_skip hready hw
      have hcur : u.next_withdrawal_validator_index =
          (t.next_withdrawal_validator_index + k) % t.validators.length := by
        rw [hrest.2, k7, ← hset, ← k5, ← k1, ← hk2]
        rfl
      have hidx : u.next_withdrawal_index = t.next_withdrawal_index + ws.length := by
        rw [hrest.1, k6, ← hset, ← k4]
        rfl
      have hlen : ws.length ≤ E.max_withdrawals_per_payload := by
        have := congrArg List.length hw.payees
        simp only [List.length_map, List.length_take] at this
        omega
      have hit : i < t.validators.length := by
        unfold owedTo at ho
        split at ho
        · rename_i hv _
          exact (List.getElem?_eq_some_iff.mp hv).1
        · omega
      refine ⟨hl.parallel a, ?_, by omega, ?_⟩
      · rw [hcur]
        exact Nat.lt_of_lt_of_le (Nat.mod_lt _ (by omega)) hgr
      · have hg := gap_step (M := M) hct hit (by omega) hk0 (i := i) (by
          intro j hj he
          apply hnp
          unfold PaidBy
          rw [hpw]
          have := hk3 j hj
          rw [k5, k1, he, owedTo_congr k1 k2 k3] at this
          exact this ho)
        rw [hcur]
        omega
    · cases h2

/-! ## Electra -/

theorem partials_loop_eq {E : Env} {s : State} {c : Nat}
    (hb : s.balances.length = s.validators.length) :
    ∀ (q : List PendingPartialWithdrawal) (wi : Nat) (acc : List Withdrawal),
      (∀ r ∈ q, r.index < s.validators.length) →
      acc.length ≤ E.max_pending_partials_per_withdrawals_sweep →
      wi + (E.max_pending_partials_per_withdrawals_sweep - acc.length) < 2 ^ 64 →
      ∃ ws, Electra.partials_loop E s (epochOf E s.slot) c q wi acc =
          .ok (wi + ws.length, acc ++ ws) ∧
        PaysRequests E s (((q.takeWhile (·.withdrawable_epoch ≤ epochOf E s.slot)).filter
          (honoured E s)).take (E.max_pending_partials_per_withdrawals_sweep - acc.length)) wi ws ∧
        ∀ w ∈ ws, w.validator_index = c
  | [], wi, acc, _, _, _ => ⟨[], by simp [Electra.partials_loop], ⟨by simp, by simp, by simp⟩, by simp⟩
  | r :: q, wi, acc, hq, hacc, hwi => by
    rw [Electra.partials_loop]
    by_cases hdue : r.withdrawable_epoch > epochOf E s.slot
    · rw [if_pos hdue]
      refine ⟨[], by simp, ?_, by simp⟩
      rw [List.takeWhile_cons_of_neg (by simpa using hdue)]
      exact ⟨by simp, by simp, by simp⟩
    · rw [if_neg hdue, List.takeWhile_cons_of_pos (by simpa using hdue)]
      by_cases hfull : acc.length = E.max_pending_partials_per_withdrawals_sweep
      · rw [if_pos hfull]
        refine ⟨[], by simp, ?_, by simp⟩
        rw [hfull, Nat.sub_self, List.take_zero]
        exact ⟨by simp, by simp, by simp⟩
      · rw [if_neg hfull]
        have hlt := hq r (by simp)
        obtain ⟨v, hv⟩ : ∃ v, s.validators[r.index]? = some v := ⟨_, List.getElem?_eq_getElem hlt⟩
        obtain ⟨b, hbal⟩ : ∃ b, s.balances[r.index]? = some b :=
          ⟨_, List.getElem?_eq_getElem (by omega)⟩
        have hi1 : idx s.validators r.index = .ok v := by rw [idx_eq_ok]; exact hv
        have hi2 : idx s.balances r.index = .ok b := by rw [idx_eq_ok]; exact hbal
        simp only [hi1, hi2, bind, Except.bind]
        have hq' : ∀ r ∈ q, r.index < s.validators.length := fun x hx => hq x (by simp [hx])
        by_cases hh : honoured E s r = true
        · have hcond := hh
          simp only [honoured, hv, hbal, decide_eq_true_eq] at hcond
          have hsub : b -? E.min_activation_balance = .ok (b - E.min_activation_balance) := by
            rw [sub_eq_ok]; omega
          have hadd : wi +? 1 = .ok (wi + 1) := by rw [add_eq_ok, U64_BOUND_eq]; omega
          rw [if_pos (by simp [hcond])]
          simp only [hsub, hadd]
          rw [List.filter_cons_of_pos hh]
          obtain ⟨m, hm⟩ : ∃ m, E.max_pending_partials_per_withdrawals_sweep - acc.length = m + 1 :=
            ⟨E.max_pending_partials_per_withdrawals_sweep - acc.length - 1, by omega⟩
          obtain ⟨ws, h1, h2, h3⟩ := partials_loop_eq (E := E) (c := c) hb q (wi + 1)
            (acc ++ [⟨wi, c, credentialsAddress v.withdrawal_credentials,
              min (b - E.min_activation_balance) r.amount⟩]) hq' (by simp; omega) (by simp; omega)
          refine ⟨⟨wi, c, credentialsAddress v.withdrawal_credentials,
              min (b - E.min_activation_balance) r.amount⟩ :: ws, ?_, ?_, ?_⟩
          · rw [h1]
            simp [Nat.add_assoc, Nat.add_comm 1]
          · simp only [List.length_append, List.length_cons, List.length_nil] at h2
            rw [show E.max_pending_partials_per_withdrawals_sweep - (acc.length + (0 + 1)) = m by
              omega] at h2
            rw [hm, List.take_succ_cons]
            refine ⟨?_, ?_, ?_⟩
            · simp [h2.amounts, requestAmount, List.getD_eq_getElem?_getD, hbal]
            · simp [h2.indices, List.range'_succ]
            · intro k r' w' hr hw
              cases k with
              | zero =>
                simp only [List.getElem?_cons_zero, Option.some.injEq] at hr hw
                subst hr hw
                exact ⟨v, hv, address_eq⟩
              | succ k =>
                rw [List.getElem?_cons_succ] at hr hw
                exact h2.addresses k r' w' hr hw
          · intro w hw
            rcases List.mem_cons.mp hw with rfl | hw
            · rfl
            · exact h3 w hw
        · have hcond := hh
          simp only [honoured, hv, hbal, decide_eq_true_eq] at hcond
          rw [if_neg (by simpa using hcond), List.filter_cons_of_neg hh]
          exact partials_loop_eq (E := E) (c := c) hb q wi acc hq' hacc hwi

/-- What `get_expected_withdrawals` returns in electra. -/
theorem electra_expected_eq {E : Env} (hE : SaneConfig E) {s : State} (hs : SweepReady E s)
    (hq : ∀ r ∈ s.pending_partial_withdrawals, r.index < s.validators.length)
    (hlim : E.max_pending_partials_per_withdrawals_sweep < E.max_withdrawals_per_payload) :
    ∃ ps ws, get_expected_withdrawals E .Electra s = .ok (ps ++ ws, ps.length) ∧
      PaysRequests E s (nextRequests E s) s.next_withdrawal_index ps ∧
      (∀ w ∈ ps, w.validator_index = s.next_withdrawal_validator_index) ∧
      Pays E .Electra s ((creditors E .Electra s).take
          (E.max_withdrawals_per_payload - ps.length))
        (s.next_withdrawal_index + ps.length) ws := by
  have hidx := hs.index
  obtain ⟨ps, h1, h2, h3⟩ := partials_loop_eq (E := E) (c := s.next_withdrawal_validator_index)
    hs.balances s.pending_partial_withdrawals s.next_withdrawal_index [] hq (by simp)
    (by simp; omega)
  simp only [List.length_nil, Nat.sub_zero, List.nil_append] at h1 h2
  have hlen : ps.length ≤ E.max_pending_partials_per_withdrawals_sweep := by
    have := congrArg List.length h2.amounts
    simp only [List.length_map, List.length_take] at this
    omega
  obtain ⟨ws, h4, h5⟩ := sweep_loop_eq (E := E) (f := .Electra) hs.registry hs.balances
    (min s.validators.length E.max_validators_per_withdrawals_sweep)
    (s.next_withdrawal_index + ps.length)
    s.next_withdrawal_validator_index ps hs.cursor (by omega) (by omega)
  refine ⟨ps, ws, ?_, h2, h3, h5⟩
  unfold get_expected_withdrawals
  simp only [current_epoch_is hE, bind, Except.bind, h1, h4]
  rfl

theorem electra_process_ok {E : Env} {s s' : State} {p : ExecutionPayload} {ws : List Withdrawal}
    {n : Nat} (hex : get_expected_withdrawals E .Electra s = .ok (ws, n))
    (hl : ∀ w ∈ ws, w.validator_index < s.balances.length)
    (h : process_withdrawals E .Electra p s = .ok () s') :
    p.withdrawals = ws ∧ ∃ a c, next_withdrawal_index_of s ws = .ok a ∧
      next_sweep_start E .Electra s ws = .ok c ∧
      s' = { s with
        balances := debit s.balances ws
        pending_partial_withdrawals := s.pending_partial_withdrawals.drop n
        next_withdrawal_index := a
        next_withdrawal_validator_index := c } := by
  unfold process_withdrawals at h
  simp only [run, hex, Except.ok.injEq] at h
  obtain ⟨r, rfl, h1, t, h2, a, h3, c, h4, rfl⟩ := h
  have h2' := debit_loop ws s hl
  rw [h2'] at h2
  cases h2
  exact ⟨by simpa using h1, a, c, h3, h4, rfl⟩

/-! ## The cursor stays within the registry -/

/-- What calls do to the cursor. -/
def Cur (f : Fork) (s s' : State) : Prop :=
  Len f s s' ∧
    (s'.next_withdrawal_validator_index = s.next_withdrawal_validator_index ∨
      s'.next_withdrawal_validator_index < s'.validators.length)

theorem curPre (f : Fork) : Preorder' (Cur f) := by
  refine ⟨fun s => ⟨(lenPre f).refl s, .inl rfl⟩, ?_⟩
  rintro s t u ⟨h1, h2⟩ ⟨h3, h4⟩
  refine ⟨(lenPre f).trans h1 h3, ?_⟩
  rcases h4 with h4 | h4
  · rcases h2 with h2 | h2
    · exact .inl (h4.trans h2)
    · exact .inr (by have := h3.grow; omega)
  · exact .inr h4

theorem cur_mod {f : Fork} {α : Type} {W : List Field} {m : M α} (hl : Pres (Len f) m)
    (h : Modifies W m) (hW : Field.next_withdrawal_validator_index ∉ W) : Pres (Cur f) m := by
  intro s
  unfold Pres Modifies at *
  have h1 := hl s
  have h2 := h s
  rw [wp_iff] at *
  exact ⟨fun a s' e => ⟨h1.1 a s' e, .inl (h2.1 a s' e _ hW)⟩,
    fun a s' e => ⟨h1.2 a s' e, .inl (h2.2 a s' e _ hW)⟩⟩

theorem sweep_start_lt {E : Env} {f : Fork} {s : State} {ws : List Withdrawal} {c : Nat}
    (h : next_sweep_start E f s ws = .ok c) :
    c = s.next_withdrawal_validator_index ∨ c < s.validators.length := by
  unfold next_sweep_start at h
  split at h
  · split at h
    · simp only [run] at h
      exact .inl h.symm
    · simp only [run, mod_eq_ok] at h
      obtain ⟨a, _, rfl, h0⟩ := h
      exact .inr (Nat.mod_lt _ (by omega))
    · cases h
    · simp only [run, mod_eq_ok] at h
      obtain ⟨a, _, rfl, h0⟩ := h
      exact .inr (Nat.mod_lt _ (by omega))
  · simp only [run, mod_eq_ok] at h
    obtain ⟨a, _, rfl, h0⟩ := h
    exact .inr (Nat.mod_lt _ (by omega))

theorem withdrawals_cur {E : Env} {f g : Fork} {p : ExecutionPayload} :
    Pres (Cur g) (process_withdrawals E f p) := by
  unfold process_withdrawals
  have q := curPre g
  refine Pres.bind q (Pres.get q) fun s0 => Pres.bind q (Pres.liftM q _) fun r =>
    Pres.bind q (Pres.liftM q _) fun _ => Pres.bind q
      (cur_mod (Pres.forEach (lenPre g) fun _ => decrease_len) (W := [.balances])
        (Pres.forEach (changesPre _) fun _ => decrease_mod) (by decide)) fun _ => ?_
  refine Pres.bind q (Pres.upd fun s => ⟨?_, .inl rfl⟩) fun _ => ?_
  · lens
  refine Pres.bind q (Pres.get q) fun s1 => Pres.bind q (Pres.liftM q _) fun n =>
    Pres.bind q (Pres.upd fun s => ⟨?_, .inl rfl⟩) fun _ => ?_
  · lens
  intro s
  simp only [wps]
  refine ⟨fun c hc => ⟨?_, sweep_start_lt hc⟩, fun e _ => q.refl s⟩
  lens

theorem block_cur {E : Env} {f : Fork} {b : BeaconBlock} :
    Pres (Cur f) (process_block E f b) := by
  unfold process_block process_block_payload
  have p := curPre f
  walk p [cur_mod (len_mod header_mod (by decide)) header_mod (by decide),
    withdrawals_cur, cur_mod (len_mod payload_mod (by decide)) payload_mod (by decide),
    cur_mod randao_len randao_mod (by decide),
    cur_mod (len_mod eth1_mod (by decide)) eth1_mod (by decide),
    cur_mod operations_len operations_mod (by decide),
    cur_mod sync_aggregate_len sync_aggregate_mod (by decide)]

theorem entry_cur {E : Env} {f : Fork} {m : M Unit} (h : EntryPoint E f m) : Pres (Cur f) m := by
  have hs : ∀ t, Pres (Cur f) (process_slots E f t) := fun t =>
    cur_mod slots_len slots_mod (by decide)
  have hl := entry_len h
  cases h with
  | process_slots => exact hs _
  | state_transition => exact (transition_pres (curPre f) (hs _) block_cur).2
  | state_transition_block_in_slot => exact (transition_pres (curPre f) (hs _) block_cur).1
  | process_slot => exact cur_mod hl slot_mod (by decide)
  | process_epoch => exact cur_mod hl epoch_mod (by decide)
  | process_block => exact block_cur
  | process_block_header => exact cur_mod hl header_mod (by decide)
  | process_randao => exact cur_mod hl randao_mod (by decide)
  | process_eth1_data => exact cur_mod hl eth1_mod (by decide)
  | process_operations => exact cur_mod hl operations_mod (by decide)
  | process_execution_payload => exact cur_mod hl payload_mod (by decide)
  | process_withdrawals => exact withdrawals_cur
  | process_sync_aggregate => exact cur_mod hl sync_aggregate_mod (by decide)
  | process_proposer_slashing => exact cur_mod hl proposer_slashing_mod (by decide)
  | process_attester_slashing => exact cur_mod hl attester_slashing_mod (by decide)
  | process_attestation => exact cur_mod hl attestation_mod (by decide)
  | process_deposit => exact cur_mod hl deposit_mod (by decide)
  | process_voluntary_exit => exact cur_mod hl voluntary_exit_mod (by decide)
  | process_bls_to_execution_change => exact cur_mod hl bls_change_mod (by decide)
  | process_execution_layer_withdrawal_request =>
    exact cur_mod hl withdrawal_request_mod (by decide)
  | process_deposit_receipt => exact cur_mod hl deposit_receipt_mod (by decide)
  | process_consolidation => exact cur_mod hl consolidation_mod (by decide)
  | initiate_validator_exit => exact cur_mod hl exit_mod (by decide)
  | slash_validator => exact cur_mod hl slash_mod (by decide)
  | increase_balance => exact cur_mod hl increase_mod (by decide)
  | decrease_balance => exact cur_mod hl decrease_mod (by decide)

theorem reachable_cursor {E : Env} {f : Fork} {s : State} (h : Reachable E f s) :
    s.next_withdrawal_validator_index = 0 ∨
      s.next_withdrawal_validator_index < s.validators.length := by
  induction h with
  | @genesis f h t ds p s hs =>
    left
    unfold initialize_beacon_state_from_eth1 genesis_candidate at hs
    simp only [run] at hs
    obtain ⟨_, ⟨gt, _, rfl⟩, hs⟩ := hs
    rw [runLocal_eq_ok] at hs
    have hdep : ∀ (ds : List Deposit) (l : List DepositData),
        Modifies [.eth1_data, .eth1_deposit_index, .validators, .balances,
          .previous_epoch_participation, .current_epoch_participation, .inactivity_scores,
          .pending_balance_deposits] (genesis_deposits E f l ds) := by
      intro ds
      induction ds with
      | nil => intro l; unfold genesis_deposits; mods
      | cons d ds ih => intro l; unfold genesis_deposits; mods [deposit_mod, ih _]
    have hm : Modifies [.eth1_data, .eth1_deposit_index, .validators, .balances,
        .previous_epoch_participation, .current_epoch_participation, .inactivity_scores,
        .pending_balance_deposits, .genesis_validators_root, .current_sync_committee,
        .next_sync_committee] (genesis_fill E f ds) := by
      unfold genesis_fill genesis_pending_deposits genesis_activate genesis_sync_committees
      mods [hdep _ _, increase_mod]
    exact hm.ok hs .next_withdrawal_validator_index (by decide)
  | @call f s m _ hm ih =>
    obtain ⟨hl, h⟩ := (entry_cur hm).final s
    have := hl.grow
    rcases h with h | h
    · rw [h]
      omega
    · exact .inr h
  | @upgrade f g s s' _ hg h ih =>
    cases g <;> unfold upgrade_to at h <;> dsimp only at h
    case Phase0 => cases h
    case Altair =>
      unfold upgrade_to_altair at h
      simp only [run, runLocal_eq_ok] at h
      obtain ⟨e, _, post, hpost, c, _, rfl⟩ := h
      left
      exact (translate_mod.ok hpost) .next_withdrawal_validator_index (by decide)
    case Electra =>
      unfold upgrade_to_electra at h
      simp only [run, runLocal_eq_ok] at h
      obtain ⟨e, _, x, _, y, _, h⟩ := h
      have hm : Modifies [.validators, .balances, .pending_balance_deposits,
          .exit_balance_to_consume, .consolidation_balance_to_consume]
          (electra_init_queues E) := by
        unfold electra_init_queues
        mods [queue_entire_mod, queue_excess_mod]
      have h1 := hm.ok h .next_withdrawal_validator_index (by decide)
      have h2 := (init_queues_len (f := .Electra)).ok h
      have h3 := h2.grow
      simp only [Field.same] at h1
      rw [h1]
      rcases ih with ih | ih
      · exact .inl ih
      · exact .inr (Nat.lt_of_lt_of_le ih h3)
    all_goals
      first
        | unfold upgrade_to_bellatrix at h
        | unfold upgrade_to_capella at h
        | unfold upgrade_to_deneb at h
      simp only [run] at h
      obtain ⟨e, _, rfl⟩ := h
      first
        | exact .inl rfl
        | exact ih

end Verif
