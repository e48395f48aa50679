import Verif.Proofs.Withdrawals
import Verif.Props.Shuffling
import Verif.Examples.Blocks

/-! # C44, C45, C54, C60: withdrawals -/

namespace Verif.Props

open Spec

/-! ## C44 -/

/-- **C44** `get_expected_withdrawals` pays the first creditors in sweep order exactly what they are
owed, up to the number that fits a payload, with consecutive indices. -/
theorem C44_expected (E : Env) (hE : SaneConfig E) (f : Fork) (hf : f = .Capella ∨ f = .Deneb)
    (s : State) (hs : SweepReady E s) :
    ∃ ws, get_expected_withdrawals E f s = .ok (ws, 0) ∧
      Pays E f s ((creditors E f s).take E.max_withdrawals_per_payload)
        s.next_withdrawal_index ws :=
  expected_eq hE (by rcases hf with rfl | rfl <;> decide) hs

/-- **C44** So there are at most so many, all for different validators, and each takes either the
whole balance of a withdrawable validator or the excess of one at the maximum. -/
theorem C44_bounded (E : Env) (hE : SaneConfig E) (f : Fork) (hf : f = .Capella ∨ f = .Deneb)
    (s : State) (hs : SweepReady E s) (ws : List Withdrawal) (n : Nat)
    (h : get_expected_withdrawals E f s = .ok (ws, n)) :
    ws.length ≤ E.max_withdrawals_per_payload ∧
    (ws.map (·.validator_index)).Nodup ∧
    ∀ w ∈ ws, ∃ v b, s.validators[w.validator_index]? = some v ∧
      s.balances[w.validator_index]? = some b ∧ v.withdrawal_credentials[0] = 0x01 ∧
      (v.withdrawable_epoch ≤ epochOf E s.slot ∧ 0 < b ∧ w.amount = b ∨
       epochOf E s.slot < v.withdrawable_epoch ∧ v.effective_balance = E.max_effective_balance ∧
         E.max_effective_balance < b ∧ w.amount + E.max_effective_balance = b) := by
  have hf' : f ≠ .Electra := by rcases hf with rfl | rfl <;> decide
  obtain ⟨ws', h1, h2⟩ := expected_eq hE hf' hs
  rw [h] at h1
  cases h1
  refine ⟨?_, ?_, ?_⟩
  · have := congrArg List.length h2.payees
    simp only [List.length_map, List.length_take] at this
    omega
  · rw [h2.payees]
    exact (creditors_nodup hs).sublist (List.take_sublist _ _)
  · intro w hw
    have hm : w.validator_index ∈ creditors E f s := by
      apply List.mem_of_mem_take (i := E.max_withdrawals_per_payload)
      rw [← h2.payees]
      exact List.mem_map_of_mem hw
    obtain ⟨ha, v, hv, -⟩ := h2.exact w hw
    have hpos : 0 < owedTo E f s w.validator_index := by
      simpa using (List.mem_filter.mp hm).2
    have hlt := (List.getElem?_eq_some_iff.mp hv).1
    obtain ⟨b, hb⟩ : ∃ b, s.balances[w.validator_index]? = some b :=
      ⟨_, List.getElem?_eq_getElem (by rw [hs.balances]; exact hlt)⟩
    have hlim : effectiveLimit E f v = E.max_effective_balance := by
      simp [effectiveLimit, hf']
    simp only [owedTo, hv, hb, owed, hlim, Withdraws, hf', false_and, or_false] at ha hpos
    refine ⟨v, b, hv, hb, ?_⟩
    split at ha
    · rename_i hc
      rw [if_pos hc] at hpos
      exact ⟨hc.1, .inl ⟨hc.2, hpos, ha⟩⟩
    · rename_i hc
      rw [if_neg hc] at hpos
      split at ha
      · rename_i hc'
        rw [if_pos hc'] at hpos
        exact ⟨hc'.1, .inr ⟨Nat.lt_of_not_le fun hle => hc ⟨hc'.1, hle⟩, hc'.2, by omega, by omega⟩⟩
      · rename_i hc'
        rw [if_neg hc'] at hpos
        omega

/-- **C44** Processing accepts exactly the payloads that pay this list, and then takes exactly these
amounts from the balances, advances the two counters and changes nothing else. -/
theorem C44_processed (E : Env) (hE : SaneConfig E) (f : Fork) (hf : f = .Capella ∨ f = .Deneb)
    (s s' : State) (hs : SweepReady E s) (p : ExecutionPayload) :
    process_withdrawals E f p s = .ok () s' ↔
      Pays E f s ((creditors E f s).take E.max_withdrawals_per_payload)
        s.next_withdrawal_index p.withdrawals ∧ Debited E s p.withdrawals s' := by
  have hf' : f ≠ .Electra := by rcases hf with rfl | rfl <;> decide
  obtain ⟨ws, -, h2⟩ := expected_eq hE hf' hs
  rw [process_withdrawals_eq hE hf' hs h2, debited_iff]
  constructor
  · intro h
    split at h
    · rename_i hp
      subst hp
      exact ⟨h2, (EStateM.Result.ok.inj h).2.symm⟩
    · cases h
  · rintro ⟨h3, rfl⟩
    rw [if_pos (pays_unique h3 h2), pays_unique h3 h2]

/-- **C44** Every other payload is rejected and changes nothing. -/
theorem C44_rejected (E : Env) (hE : SaneConfig E) (f : Fork) (hf : f = .Capella ∨ f = .Deneb)
    (s : State) (hs : SweepReady E s) (p : ExecutionPayload)
    (h : ¬ Pays E f s ((creditors E f s).take E.max_withdrawals_per_payload)
        s.next_withdrawal_index p.withdrawals) :
    process_withdrawals E f p s = .error .incorrectWithdrawals s := by
  have hf' : f ≠ .Electra := by rcases hf with rfl | rfl <;> decide
  obtain ⟨ws, -, h2⟩ := expected_eq hE hf' hs
  rw [process_withdrawals_eq hE hf' hs h2, if_neg]
  rintro rfl
  exact h h2

/-- **C44** What leaves the balances is what the withdrawals pay out. -/
theorem C44_conserved (E : Env) (hE : SaneConfig E) (f : Fork) (hf : f = .Capella ∨ f = .Deneb)
    (s s' : State) (hs : SweepReady E s) (p : ExecutionPayload)
    (h : process_withdrawals E f p s = .ok () s') :
    s'.balances.sum + (p.withdrawals.map (·.amount)).sum = s.balances.sum := by
  obtain ⟨h1, h2⟩ := (C44_processed E hE f hf s s' hs p).mp h
  rw [debited_iff.mp h2]
  apply debit_sum
  · rw [h1.payees]
    exact (creditors_nodup hs).sublist (List.take_sublist _ _)
  · intro w hw
    obtain ⟨ha, v, hv, -⟩ := h1.exact w hw
    have hlt := (List.getElem?_eq_some_iff.mp hv).1
    obtain ⟨b, hb⟩ : ∃ b, s.balances[w.validator_index]? = some b :=
      ⟨_, List.getElem?_eq_getElem (by rw [hs.balances]; exact hlt)⟩
    refine ⟨b, hb, ?_⟩
    simp only [owedTo, hv, hb, owed] at ha
    rw [ha]
    split
    · exact Nat.le_refl _
    · split <;> omega

/-- **C44** On every reachable state the cursor lies within the registry, unless that is empty. -/
theorem C44_cursor_in_registry (E : Env) (f : Fork) (s : State) (h : Reachable E f s)
    (hne : s.validators ≠ []) :
    s.next_withdrawal_validator_index < s.validators.length := by
  have := List.length_pos_of_ne_nil hne
  rcases reachable_cursor h with h | h
  · omega
  · exact h

/-! ## C45 -/

/-- **C45** Each processed payload moves the cursor on by some positions, and all validators at
these positions that are owed something are paid by it. -/
theorem C45_no_skip (E : Env) (hE : SaneConfig E) (f : Fork) (hf : f = .Capella ∨ f = .Deneb)
    (s s' : State) (hs : SweepReady E s) (p : ExecutionPayload)
    (h : process_withdrawals E f p s = .ok () s') :
    ∃ k, 0 < k ∧ k ≤ E.max_validators_per_withdrawals_sweep ∧
      s'.next_withdrawal_validator_index =
        (s.next_withdrawal_validator_index + k) % s.validators.length ∧
      ∀ j < k, 0 < owedTo E f s
          ((s.next_withdrawal_validator_index + j) % s.validators.length) →
        (s.next_withdrawal_validator_index + j) % s.validators.length ∈
          p.withdrawals.map (·.validator_index) := by
  obtain ⟨h1, h2⟩ := (C44_processed E hE f hf s s' hs p).mp h
  obtain ⟨k, a, b, c, d⟩ := no_skip hs h1
  exact ⟨k, a, b, h2.cursor.trans c, d⟩

/-- **C45** So however the chain goes on, fewer blocks than there are validators can in a row owe
something to a validator and leave it unpaid. -/
theorem C45_paid_in_time (E : Env) (hE : SaneConfig E) (f : Fork)
    (hf : f = .Capella ∨ f = .Deneb) (s s' : State) (hs : SweepReady E s) (hp : Parallel f s)
    (i n : Nat) (hi : i < s.validators.length) (h : LeftUnpaid E f i s n s')
    (hreg : s'.validators.length ≤ 2 ^ 40)
    (hidx : s.next_withdrawal_index + (n + 1) * E.max_withdrawals_per_payload < 2 ^ 64) :
    n < s'.validators.length := by
  have hgrow : s.validators.length ≤ s'.validators.length := by
    clear hreg hidx
    induction h with
    | start => exact Nat.le_refl _
    | slots _ hx ih => exact Nat.le_trans ih (slots_len (f := f).ok hx).grow
    | block _ hx _ _ ih => exact Nat.le_trans ih (block_len (f := f).ok hx).grow
  obtain ⟨-, -, -, hg⟩ := left_unpaid hE hf h hp hs.payload hs.sweep hs.width hs.cursor hreg
    (Nat.le_refl _) hidx
  have hc := hs.cursor
  unfold gap at hg
  split at hg <;> split at hg <;> omega

/-! ## C54 -/

/-- The claim: the withdrawals that pay the requests next in the queue name the validators that
made them. -/
def DebitsRequesters (E : Env) (s : State) : Prop :=
  ∀ ws n, get_expected_withdrawals E .Electra s = .ok (ws, n) →
    ∀ (k : Nat) r w, (nextRequests E s)[k]? = some r → ws[k]? = some w →
      w.validator_index = r.index

/-- **C54** What holds of the claim: the requests next in the queue are paid first, in order, in the
right amounts and to the right addresses, then the sweep is, all with consecutive indices and no
more than fit. Missing is who is debited: it is the validator at the cursor of the sweep
(`C54_debits_cursor`), which need not be the one that made the request
(`C54_wrong_validator`). -/
theorem C54_requests_partial (E : Env) (hE : SaneConfig E) (s : State) (hs : SweepReady E s)
    (hq : ∀ r ∈ s.pending_partial_withdrawals, r.index < s.validators.length)
    (hlim : E.max_pending_partials_per_withdrawals_sweep < E.max_withdrawals_per_payload) :
    ∃ ps ws, get_expected_withdrawals E .Electra s = .ok (ps ++ ws, ps.length) ∧
      PaysRequests E s (nextRequests E s) s.next_withdrawal_index ps ∧
      Pays E .Electra s ((creditors E .Electra s).take (E.max_withdrawals_per_payload - ps.length))
        (s.next_withdrawal_index + ps.length) ws ∧
      (ps ++ ws).length ≤ E.max_withdrawals_per_payload := by
  obtain ⟨ps, ws, h1, h2, -, h4⟩ := electra_expected_eq hE hs hq hlim
  refine ⟨ps, ws, h1, h2, h4, ?_⟩
  have e1 := congrArg List.length h2.amounts
  have e2 := congrArg List.length h4.payees
  simp only [List.length_map, List.length_take, nextRequests] at e1 e2
  simp only [List.length_append]
  omega

/-- **C54** All of them are charged to the validator at the cursor. -/
theorem C54_debits_cursor (E : Env) (hE : SaneConfig E) (s : State) (hs : SweepReady E s)
    (hq : ∀ r ∈ s.pending_partial_withdrawals, r.index < s.validators.length)
    (hlim : E.max_pending_partials_per_withdrawals_sweep < E.max_withdrawals_per_payload)
    (ws : List Withdrawal) (n : Nat)
    (h : get_expected_withdrawals E .Electra s = .ok (ws, n)) :
    n = (nextRequests E s).length ∧
    ∀ w ∈ ws.take n, w.validator_index = s.next_withdrawal_validator_index := by
  obtain ⟨ps, ws', h1, h2, h3, -⟩ := electra_expected_eq hE hs hq hlim
  rw [h] at h1
  cases h1
  have e1 := congrArg List.length h2.amounts
  simp only [List.length_map] at e1
  refine ⟨e1, ?_⟩
  rw [List.take_left' rfl]
  exact h3

/-- Eight validators; validator 2 compounds, has 40 ETH and has asked for 5 of them. -/
def requesting : State :=
  let s := Toy.state 8 8
  { s with
    validators := s.validators.modify 2 fun v => { v with
      withdrawal_credentials := v.withdrawal_credentials.set 0 2
      effective_balance := 40000000000 }
    balances := s.balances.set 2 40000000000
    pending_partial_withdrawals := [⟨2, 5000000000, 0⟩] }

/-- The only payload that is accepted next. -/
def requestPayload : ExecutionPayload :=
  { (Toy.body requesting).execution_payload with
    withdrawals := [⟨0, 0, zeroBytes 20, 5000000000⟩] }

/-- **C54** The claim is false: here the payment asked for by validator 2 is taken from
validator 0. -/
theorem C54_wrong_validator :
    SaneConfig Toy.env ∧ SweepReady Toy.env requesting ∧
    nextRequests Toy.env requesting = [⟨2, 5000000000, 0⟩] ∧
    ¬ DebitsRequesters Toy.env requesting ∧
    ∃ s', process_withdrawals Toy.env .Electra requestPayload requesting = .ok () s' ∧
      s'.balances[2]? = requesting.balances[2]? ∧
      requesting.balances[0]? = some 32000000000 ∧ s'.balances[0]? = some 27000000000 ∧
      s'.pending_partial_withdrawals = [] := by
  refine ⟨toy_sane, by constructor <;> decide +kernel, by decide +kernel, ?_, _,
    Toy.ok_of_succeeds (by decide +kernel), by decide +kernel, by decide +kernel,
    by decide +kernel, by decide +kernel⟩
  intro h
  have h1 := h [⟨0, 0, zeroBytes 20, 5000000000⟩] 1 (by decide +kernel) 0 ⟨2, 5000000000, 0⟩
    ⟨0, 0, zeroBytes 20, 5000000000⟩ (by decide +kernel) rfl
  exact absurd h1 (by decide)

/-! ## C60 -/

/-- **C60** As long as payloads are not full, the sweep of electra does not skip anyone either. -/
theorem C60_no_skip_partial (E : Env) (hE : SaneConfig E) (s s' : State) (hs : SweepReady E s)
    (hq : ∀ r ∈ s.pending_partial_withdrawals, r.index < s.validators.length)
    (hlim : E.max_pending_partials_per_withdrawals_sweep < E.max_withdrawals_per_payload)
    (p : ExecutionPayload) (h : process_withdrawals E .Electra p s = .ok () s')
    (hp : p.withdrawals.length < E.max_withdrawals_per_payload) :
    s'.next_withdrawal_validator_index =
      (s.next_withdrawal_validator_index + E.max_validators_per_withdrawals_sweep) %
        s.validators.length ∧
    ∀ j < E.max_validators_per_withdrawals_sweep, 0 < owedTo E .Electra s
        ((s.next_withdrawal_validator_index + j) % s.validators.length) →
      ∃ w ∈ p.withdrawals,
        w.validator_index = (s.next_withdrawal_validator_index + j) % s.validators.length ∧
        w.amount = owedTo E .Electra s w.validator_index := by
  obtain ⟨ps, ws, h1, h2, h3, h4⟩ := electra_expected_eq hE hs hq hlim
  have hc := hs.cursor
  have hwd := hs.width
  have hreg := hs.registry
  have hl : ∀ w ∈ ps ++ ws, w.validator_index < s.balances.length := by
    intro w hw
    rw [hs.balances]
    rcases List.mem_append.mp hw with hw | hw
    · rw [h3 w hw]; exact hc
    · exact pays_bound h4 hw
  obtain ⟨hpw, a, c, -, h5, rfl⟩ := electra_process_ok h1 hl h
  rw [hpw] at hp
  rw [hpw]
  constructor
  · unfold next_sweep_start at h5
    rw [if_neg (by omega)] at h5
    simp only [run, add_eq_ok, mod_eq_ok] at h5
    obtain ⟨_, ⟨rfl, -⟩, rfl, -⟩ := h5
    rfl
  · intro j hj ho
    have htake : (creditors E .Electra s).take (E.max_withdrawals_per_payload - ps.length) =
        creditors E .Electra s := by
      apply List.take_of_length_le
      have := congrArg List.length h4.payees
      simp only [List.length_map, List.length_take, List.length_append] at this hp
      omega
    have hmem : (s.next_withdrawal_validator_index + j) % s.validators.length ∈
        ws.map (·.validator_index) := by
      rw [h4.payees, htake, creditors, List.mem_filter, sweepOrder_eq]
      refine ⟨?_, by simpa using ho⟩
      have hm : (s.next_withdrawal_validator_index + j) % s.validators.length =
          (s.next_withdrawal_validator_index + j % s.validators.length) %
            s.validators.length := by rw [Nat.add_mod_mod]
      rw [hm]
      have h6 := Nat.mod_lt j (show 0 < s.validators.length by omega)
      have h7 := Nat.mod_le j s.validators.length
      exact List.mem_of_getElem? (ring_get (by omega))
    obtain ⟨w, hw, he⟩ := List.mem_map.mp hmem
    exact ⟨w, by simp [hw], he, (h4.exact w hw).1⟩

/-- Sixteen validators of which the first eight can be paid out. -/
def leaving (n : Nat) : State :=
  let s := Toy.state 16 16
  { s with
    validators := (s.validators.take 8).map (fun v => { v with
      withdrawal_credentials := v.withdrawal_credentials.set 0 1
      exit_epoch := 1
      withdrawable_epoch := 2 }) ++ s.validators.drop 8
    next_withdrawal_index := n }

/-- The payload with the first four of them. -/
def fourPaid (n : Nat) : ExecutionPayload :=
  { (Toy.body (leaving n)).execution_payload with
    withdrawals := (List.range 4).map fun k => ⟨n + k, k, zeroBytes 20, 32000000000⟩ }

/-- **C60** When they are full, it can be skipped: electra continues at the index of the last
withdrawal plus one, where the earlier forks continue behind the validator last paid. Here
validator 4 is owed its balance, the first four are paid, and the sweep continues at 5. -/
theorem C60_skips :
    SaneConfig Toy.env ∧ SweepReady Toy.env (leaving 1) ∧
    0 < owedTo Toy.env .Electra (leaving 1) 4 ∧
    (∃ s', process_withdrawals Toy.env .Electra (fourPaid 1) (leaving 1) = .ok () s' ∧
      (leaving 1).next_withdrawal_validator_index = 0 ∧
      (fourPaid 1).withdrawals.map (·.validator_index) = [0, 1, 2, 3] ∧
      s'.next_withdrawal_validator_index = 5) ∧
    (∃ s', process_withdrawals Toy.env .Capella (fourPaid 1) (leaving 1) = .ok () s' ∧
      s'.next_withdrawal_validator_index = 4) :=
  ⟨toy_sane, by constructor <;> decide +kernel, by decide +kernel,
    ⟨_, Toy.ok_of_succeeds (by decide +kernel), by decide +kernel, by decide +kernel,
      by decide +kernel⟩,
    ⟨_, Toy.ok_of_succeeds (by decide +kernel), by decide +kernel⟩⟩

/-! ## Examples -/

/-- A full payload: everything is withdrawable and the first four fit. -/
example : ∃ ws, get_expected_withdrawals Toy.env .Capella (leaving 7) = .ok (ws, 0) ∧
    ws.map (·.validator_index) = [0, 1, 2, 3] ∧ ws.map (·.index) = [7, 8, 9, 10] ∧
    creditors Toy.env .Capella (leaving 7) = List.range 8 ∧ SweepReady Toy.env (leaving 7) :=
  ⟨(fourPaid 7).withdrawals, by decide +kernel, by decide +kernel, by decide +kernel,
    by decide +kernel, by constructor <;> decide +kernel⟩

/-- Validator 3 can leave with everything, validator 6 has 1 ETH too much, and the cursor is at 5,
so that the sweep wraps. -/
def mixed : State :=
  let s := Toy.state 8 16
  { s with
    validators := (s.validators.modify 3 fun v => { v with
      withdrawal_credentials := v.withdrawal_credentials.set 0 1
      exit_epoch := 1
      withdrawable_epoch := 2 }).modify 6 fun v => { v with
      withdrawal_credentials := v.withdrawal_credentials.set 0 1 }
    balances := s.balances.set 6 33000000000
    next_withdrawal_validator_index := 5
    next_withdrawal_index := 9 }

def mixedPayload : ExecutionPayload :=
  { (Toy.body mixed).execution_payload with
    withdrawals := [⟨9, 6, zeroBytes 20, 1000000000⟩, ⟨10, 3, zeroBytes 20, 32000000000⟩] }

example : SweepReady Toy.env mixed ∧ Parallel .Capella mixed ∧
    creditors Toy.env .Capella mixed = [6, 3] ∧
    ∃ s', process_withdrawals Toy.env .Capella mixedPayload mixed = .ok () s' ∧
      s'.balances[6]? = some 32000000000 ∧ s'.balances[3]? = some 0 ∧
      s'.next_withdrawal_index = 11 ∧ s'.next_withdrawal_validator_index = 5 :=
  ⟨by constructor <;> decide +kernel,
    ⟨by decide, fun _ => by decide⟩, by decide +kernel,
    _, Toy.ok_of_succeeds (by decide +kernel), by decide +kernel, by decide +kernel,
    by decide +kernel, by decide +kernel⟩

/-- The two withdrawals in the other order, or a missing one, are rejected. -/
example : Toy.errorOf (process_withdrawals Toy.env .Capella
      { mixedPayload with withdrawals := mixedPayload.withdrawals.reverse }) mixed =
        some .incorrectWithdrawals ∧
    Toy.errorOf (process_withdrawals Toy.env .Capella
      { mixedPayload with withdrawals := mixedPayload.withdrawals.take 1 }) mixed =
        some .incorrectWithdrawals := by decide +kernel

/-- A block that pays four others and leaves the fifth validator unpaid. -/
example : ∃ s', LeftUnpaid Toy.env .Capella 4 (leaving 7) 1 s' :=
  ⟨_, .block .start (b := Toy.block (leaving 7)
      { Toy.body (leaving 7) with execution_payload := fourPaid 7 })
    (Toy.ok_of_succeeds (by decide +kernel)) (by decide +kernel) (by decide +kernel)⟩

end Verif.Props
