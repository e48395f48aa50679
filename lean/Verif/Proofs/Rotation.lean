import Verif.Spec.Rotation
import Verif.Proofs.Rings
import Verif.Proofs.Deposits

/-! # What the end of an epoch or of a historical period does -/

namespace Verif

open Spec

/-! ## Participation -/

theorem epoch_rotates {E : Env} {f : Fork} {s s' : State} (h : process_epoch E f s = .ok () s') :
    (f = .Phase0 → s'.previous_epoch_attestations = s.current_epoch_attestations ∧
      s'.current_epoch_attestations = []) ∧
    (f ≠ .Phase0 → s'.previous_epoch_participation = s.current_epoch_participation ∧
      s'.current_epoch_participation = List.replicate s'.validators.length 0) := by
  obtain ⟨e⟩ := epoch_steps h
  have h1 := e.participation
  have h2 := e.sync
  constructor
  · intro hf
    rw [if_pos hf] at h1 h2
    have a1 := e.to12 .current_epoch_attestations (by subst hf; decide)
    simp only [process_participation_record_updates, run] at h1
    rw [h2, ← h1]
    exact ⟨a1, rfl⟩
  · intro hf
    rw [if_neg hf] at h1
    have a1 := e.to12 .current_epoch_participation (by decide)
    have b1 := e.from13 .previous_epoch_participation (by decide)
    have b2 := e.from13 .current_epoch_participation (by decide)
    have b3 := e.from13 .validators (by decide)
    simp only [process_participation_flag_updates, run] at h1
    have c1 : s'.previous_epoch_participation = e.s₁₃.previous_epoch_participation := b1
    have c2 : s'.current_epoch_participation = e.s₁₃.current_epoch_participation := b2
    have c3 : s'.validators = e.s₁₃.validators := b3
    rw [c1, c2, c3, ← h1]
    exact ⟨a1, rfl⟩

/-! ## History -/

theorem historical_ok {E : Env} {f : Fork} {s s' : State}
    (h : process_historical_update E f s = .ok () s') :
    s' = if (epochOf E s.slot + 1) % (E.slots_per_historical_root / E.slots_per_epoch) = 0 then
      if f.ord < 3 then { s with historical_roots := s.historical_roots ++
        [E.historical_batch_root (E.roots_root s.block_roots) (E.roots_root s.state_roots)] }
      else { s with historical_summaries := s.historical_summaries ++
        [⟨E.roots_root s.block_roots, E.roots_root s.state_roots⟩] }
      else s := by
  unfold process_historical_update at h
  simp only [run, current_epoch_eq_ok] at h
  obtain ⟨_, ⟨rfl, -⟩, _, ⟨rfl, -⟩, _, ⟨rfl, -⟩, _, ⟨rfl, -⟩, h⟩ := h
  rcases h with ⟨h1, h⟩ | ⟨h1, -, rfl⟩
  · rw [if_pos h1]
    cases f <;> simp only [run] at h <;> rw [← h] <;> rfl
  · rw [if_neg h1]

/-- The history after one slot. -/
theorem slot_step_history {E : Env} (hp : 0 < E.slots_per_epoch)
    (hd : E.slots_per_epoch ∣ E.slots_per_historical_root) {f : Fork}
    {s s' : State} (h : slot_step E f s = .ok () s') :
    s'.historical_roots = s.historical_roots ++
      (if s'.slot % E.slots_per_historical_root = 0 ∧ f.ord < 3 then
        [E.historical_batch_root (E.roots_root s'.block_roots) (E.roots_root s'.state_roots)]
      else []) ∧
    s'.historical_summaries = s.historical_summaries ++
      (if s'.slot % E.slots_per_historical_root = 0 ∧ 3 ≤ f.ord then
        [⟨E.roots_root s'.block_roots, E.roots_root s'.state_roots⟩] else []) := by
  obtain ⟨s₁, s₂, h1, h2, h3, h4, rfl⟩ := slot_step_eq_ok.1 h
  dsimp only
  have m1 := slot_mod.ok h1
  have e1 : s₁.slot = s.slot := m1 .slot (by decide)
  have e2 : s₁.historical_roots = s.historical_roots := m1 .historical_roots (by decide)
  have e3 : s₁.historical_summaries = s.historical_summaries :=
    m1 .historical_summaries (by decide)
  rcases h4 with ⟨h4, h5⟩ | ⟨h4, rfl⟩
  · obtain ⟨e⟩ := epoch_steps h5
    have a1 : e.s₁₁.slot = s₁.slot := e.to11 .slot (by decide)
    have a2 : e.s₁₁.historical_roots = s₁.historical_roots := e.to11 .historical_roots (by decide)
    have a3 : e.s₁₁.historical_summaries = s₁.historical_summaries :=
      e.to11 .historical_summaries (by decide)
    have a4 : e.s₁₁.block_roots = s₁.block_roots := e.to11 .block_roots (by decide)
    have a5 : e.s₁₁.state_roots = s₁.state_roots := e.to11 .state_roots (by decide)
    have b2 : s₂.historical_roots = e.s₁₂.historical_roots := e.from12 .historical_roots (by decide)
    have b3 : s₂.historical_summaries = e.s₁₂.historical_summaries :=
      e.from12 .historical_summaries (by decide)
    have m2 := epoch_mod.ok h5
    have b4 : s₂.block_roots = s₁.block_roots := m2 .block_roots (by decide)
    have b5 : s₂.state_roots = s₁.state_roots := m2 .state_roots (by decide)
    have hh := historical_ok e.historical
    have hper : (epochOf E e.s₁₁.slot + 1) %
        (E.slots_per_historical_root / E.slots_per_epoch) = 0 ↔
        (s.slot + 1) % E.slots_per_historical_root = 0 := by
      rw [a1, e1]
      obtain ⟨c, hc⟩ := Nat.dvd_of_mod_eq_zero h4
      obtain ⟨q, hq⟩ := hd
      have he : epochOf E s.slot + 1 = c := by
        have h := Nat.succ_div (a := s.slot) (b := E.slots_per_epoch)
        rw [if_pos (Nat.dvd_of_mod_eq_zero h4), hc, Nat.mul_div_cancel_left _ hp] at h
        exact h.symm
      rw [he, hq, hc, Nat.mul_div_cancel_left _ hp, Nat.mul_mod_mul_left]
      constructor
      · intro h; rw [h, Nat.mul_zero]
      · intro h
        rcases Nat.mul_eq_zero.1 h with h | h
        · omega
        · exact h
    rw [b2, b3, b4, b5, hh]
    by_cases hz : (s.slot + 1) % E.slots_per_historical_root = 0
    · rw [if_pos (hper.2 hz)]
      by_cases hf : f.ord < 3
      · simp only [hz, hf, Nat.not_le.2 hf, if_true, and_self, and_false, if_false, List.append_nil]
        rw [a2, a3, a4, a5, e2, e3]
        exact ⟨rfl, rfl⟩
      · simp only [hz, hf, Nat.not_lt.1 hf, if_true, and_self, and_false, if_false,
          List.append_nil]
        rw [a2, a3, a4, a5, e2, e3]
        exact ⟨rfl, rfl⟩
    · rw [if_neg (fun h => hz (hper.1 h))]
      simp only [hz, false_and, if_false, List.append_nil]
      exact ⟨a2.trans e2, a3.trans e3⟩
  · have hz : ¬ (s.slot + 1) % E.slots_per_historical_root = 0 := by
      intro hz
      exact h4 (Nat.mod_eq_zero_of_dvd (Nat.dvd_trans hd (Nat.dvd_of_mod_eq_zero hz)))
    simp only [hz, false_and, if_false, List.append_nil]
    exact ⟨e2, e3⟩

/-- Upgrades keep the roots, and the summaries where there are any. -/
theorem upgrade_history {E : Env} {g : Fork} {s s' : State} (h : upgrade_to E g s = .ok s') :
    s'.slot = s.slot ∧ s'.block_roots = s.block_roots ∧ s'.state_roots = s.state_roots ∧
    s'.historical_roots = s.historical_roots ∧
    s'.historical_summaries = if g.ord ≤ 3 then [] else s.historical_summaries := by
  cases g <;> unfold upgrade_to at h <;> dsimp only at h
  case Phase0 => cases h
  case Altair =>
    unfold upgrade_to_altair at h
    simp only [run, runLocal_eq_ok] at h
    obtain ⟨e, _, post, hpost, c, _, rfl⟩ := h
    have hm := translate_mod.ok hpost
    exact ⟨hm .slot (by decide), hm .block_roots (by decide),
      hm .state_roots (by decide), hm .historical_roots (by decide),
      hm .historical_summaries (by decide)⟩
  case Electra =>
    unfold upgrade_to_electra at h
    simp only [run, runLocal_eq_ok] at h
    obtain ⟨e, _, x, _, y, _, h⟩ := h
    have hm : Modifies [.validators, .balances, .pending_balance_deposits,
        .exit_balance_to_consume, .consolidation_balance_to_consume] (electra_init_queues E) := by
      unfold electra_init_queues
      mods [queue_entire_mod, queue_excess_mod]
    have hm := hm.ok h
    exact ⟨hm .slot (by decide), hm .block_roots (by decide),
      hm .state_roots (by decide), hm .historical_roots (by decide),
      hm .historical_summaries (by decide)⟩
  all_goals
    first
      | unfold upgrade_to_bellatrix at h
      | unfold upgrade_to_capella at h
      | unfold upgrade_to_deneb at h
    simp only [run] at h
    obtain ⟨e, _, rfl⟩ := h
    exact ⟨rfl, rfl, rfl, rfl, rfl⟩

theorem genesis_history {E : Env} {f : Fork} {h : Bytes32} {t : Nat} {ds : List Deposit}
    {p : Option ExecutionPayloadHeader} {s : State}
    (hs : initialize_beacon_state_from_eth1 E f h t ds p = .ok s) :
    s.slot = 0 ∧ s.historical_roots = [] ∧ s.historical_summaries = [] ∧
    s.block_roots = List.replicate E.slots_per_historical_root (zeroBytes 32) ∧
    s.state_roots = List.replicate E.slots_per_historical_root (zeroBytes 32) := by
  unfold initialize_beacon_state_from_eth1 genesis_candidate at hs
  simp only [run] at hs
  obtain ⟨_, ⟨gt, _, rfl⟩, hs⟩ := hs
  rw [runLocal_eq_ok] at hs
  have hdep : ∀ (ds : List Deposit) (l : List DepositData),
      Modifies [.eth1_data, .eth1_deposit_index, .validators, .balances,
        .previous_epoch_participation, .current_epoch_participation, .inactivity_scores,
        .pending_balance_deposits] (genesis_deposits E f l ds) := by
    intro ds
    induction ds with
    | nil => intro l; unfold genesis_deposits; mods
    | cons d ds ih => intro l; unfold genesis_deposits; mods [deposit_mod, ih _]
  have hm : Modifies [.eth1_data, .eth1_deposit_index, .validators, .balances,
      .previous_epoch_participation, .current_epoch_participation, .inactivity_scores,
      .pending_balance_deposits, .genesis_validators_root, .current_sync_committee,
      .next_sync_committee] (genesis_fill E f ds) := by
    unfold genesis_fill genesis_pending_deposits genesis_activate genesis_sync_committees
    mods [hdep _ _, increase_mod]
  have hm := hm.ok hs
  exact ⟨hm .slot (by decide), hm .historical_roots (by decide),
    hm .historical_summaries (by decide), hm .block_roots (by decide), hm .state_roots (by decide)⟩

/-- What is known along a chain. -/
structure LogInv (E : Env) (f : Fork) (s : State) (log : List (Root × Root)) : Prop where
  slot : s.slot = log.length
  block_len : s.block_roots.length = E.slots_per_historical_root
  state_len : s.state_roots.length = E.slots_per_historical_root
  window : ∀ (k : Nat) r, log[k]? = some r → s.slot ≤ k + E.slots_per_historical_root →
    s.block_roots[k % E.slots_per_historical_root]? = some r.1 ∧
    s.state_roots[k % E.slots_per_historical_root]? = some r.2
  early : f.ord < 3 → s.historical_summaries = []
  count : s.historical_roots.length + s.historical_summaries.length =
    s.slot / E.slots_per_historical_root
  roots : ∀ (k : Nat) r, s.historical_roots[k]? = some r → r = E.historical_batch_root
    (summaryOf E log k).block_summary_root (summaryOf E log k).state_summary_root
  summaries : ∀ (k : Nat) r, s.historical_summaries[k]? = some r →
    r = summaryOf E log (s.historical_roots.length + k)

/-- A period that is over does not depend on what follows. -/
theorem summaryOf_append {E : Env} {log : List (Root × Root)} {x : Root × Root} {k : Nat}
    (h : (k + 1) * E.slots_per_historical_root ≤ log.length) :
    summaryOf E (log ++ [x]) k = summaryOf E log k := by
  have : periodOf E (log ++ [x]) k = periodOf E log k := by
    unfold periodOf
    rw [Nat.add_mul, Nat.one_mul] at h
    rw [List.drop_append_of_le_length (by omega), List.take_append_of_le_length]
    rw [List.length_drop]; omega
  unfold summaryOf
  rw [this]

/-- At the end of a period the vectors are the log of the period. -/
theorem window_full {E : Env} {l : List Root} {log : List Root} {k : Nat}
    (hl : l.length = E.slots_per_historical_root)
    (hn : log.length = (k + 1) * E.slots_per_historical_root)
    (hw : ∀ (j : Nat) r, log[j]? = some r → log.length ≤ j + E.slots_per_historical_root →
      l[j % E.slots_per_historical_root]? = some r) :
    l = periodOf E log k := by
  rw [Nat.add_mul, Nat.one_mul] at hn
  apply List.ext_getElem?
  intro j
  unfold periodOf
  by_cases hj : j < E.slots_per_historical_root
  · rw [List.getElem?_take_of_lt hj, List.getElem?_drop]
    have hlt : k * E.slots_per_historical_root + j < log.length := by omega
    have := hw _ _ (List.getElem?_eq_getElem hlt) (by omega)
    have hm : (k * E.slots_per_historical_root + j) % E.slots_per_historical_root = j := by
      rw [Nat.mul_comm k, Nat.mul_add_mod, Nat.mod_eq_of_lt hj]
    rw [hm] at this
    rw [this]
    exact (List.getElem?_eq_getElem _).symm
  · rw [List.getElem?_eq_none (by omega), List.getElem?_eq_none]
    rw [List.length_take, List.length_drop]; omega

theorem chainLog_inv {E : Env} (hE : SaneConfig E)
    (hd : E.slots_per_epoch ∣ E.slots_per_historical_root) {f : Fork} {s : State}
    {log : List (Root × Root)} (h : ChainLog E f s log) : LogInv E f s log := by
  have hP : 0 < E.slots_per_historical_root := by
    have := hE.slots_per_historical_root; omega
  induction h with
  | genesis h =>
    obtain ⟨h1, h2, h3, h4, h5⟩ := genesis_history h
    refine ⟨h1, by rw [h4, List.length_replicate], by rw [h5, List.length_replicate], ?_,
      fun _ => h3, ?_, ?_, ?_⟩
    · intro k r hk; cases hk
    · rw [h1, h2, h3, Nat.zero_div]; rfl
    · rw [h2]; intro k r hk; cases hk
    · rw [h3]; intro k r hk; cases hk
  | @block f s log b _ ih =>
    have hb := (block_mod (E := E) (f := f) (b := b)).final s
    have e1 : (finalState (process_block E f b) s).slot = s.slot := hb .slot (by decide)
    have e2 : (finalState (process_block E f b) s).state_roots = s.state_roots :=
      hb .state_roots (by decide)
    have e3 : (finalState (process_block E f b) s).block_roots = s.block_roots :=
      hb .block_roots (by decide)
    have e4 : (finalState (process_block E f b) s).historical_roots = s.historical_roots :=
      hb .historical_roots (by decide)
    have e5 : (finalState (process_block E f b) s).historical_summaries = s.historical_summaries :=
      hb .historical_summaries (by decide)
    constructor <;> (try rw [e1]) <;> (try rw [e2]) <;> (try rw [e3]) <;> (try rw [e4]) <;>
      (try rw [e5])
    · exact ih.slot
    · exact ih.block_len
    · exact ih.state_len
    · exact ih.window
    · exact ih.early
    · exact ih.count
    · exact ih.roots
    · exact ih.summaries
  | @upgrade f g s s' log _ ho h ih =>
    obtain ⟨e1, e3, e2, e4, e5⟩ := upgrade_history h
    have e6 : s'.historical_summaries = s.historical_summaries := by
      rw [e5]
      split
      · rw [ih.early (by omega)]
      · rfl
    constructor <;> (try rw [e1]) <;> (try rw [e2]) <;> (try rw [e3]) <;> (try rw [e4]) <;>
      (try rw [e6])
    · exact ih.slot
    · exact ih.block_len
    · exact ih.state_len
    · exact ih.window
    · intro hg; exact ih.early (by omega)
    · exact ih.count
    · exact ih.roots
    · exact ih.summaries
  | @slot f s s' log _ h ih =>
    have hst := process_slots_one h
    obtain ⟨e1, e2, e3, _⟩ := slot_step_roots hst
    obtain ⟨e4, e5⟩ := slot_step_history hE.slots_per_epoch.1 hd hst
    generalize hx : (E.header_root (closedHeader E f s), E.state_root f s) = x at *
    have hx1 : E.header_root (closedHeader E f s) = x.1 := by rw [← hx]
    have hx2 : E.state_root f s = x.2 := by rw [← hx]
    rw [hx1] at e3
    rw [hx2] at e2
    have hslot : s'.slot = (log ++ [x]).length := by
      rw [e1, ih.slot, List.length_append, List.length_singleton]
    have hbl : s'.block_roots.length = E.slots_per_historical_root := by
      rw [e3, List.length_set, ih.block_len]
    have hsl : s'.state_roots.length = E.slots_per_historical_root := by
      rw [e2, List.length_set, ih.state_len]
    have hwin : ∀ (k : Nat) r, (log ++ [x])[k]? = some r →
        s'.slot ≤ k + E.slots_per_historical_root →
        s'.block_roots[k % E.slots_per_historical_root]? = some r.1 ∧
        s'.state_roots[k % E.slots_per_historical_root]? = some r.2 := by
      intro k r hk hw
      rw [e1] at hw
      rw [e2, e3]
      by_cases hlt : k < log.length
      · rw [List.getElem?_append_left hlt] at hk
        have hne := mod_ne_of_window (P := E.slots_per_historical_root) (k := k) (n := s.slot)
          (by rw [ih.slot]; exact hlt) (by omega)
        rw [List.getElem?_set_ne hne, List.getElem?_set_ne hne]
        exact ih.window k r hk (by omega)
      · have hk' : k = log.length := by
          have := (List.getElem?_eq_some_iff.1 hk).1
          rw [List.length_append, List.length_singleton] at this
          omega
        subst hk'
        rw [List.getElem?_concat_length] at hk
        cases hk
        rw [ih.slot]
        have hm := Nat.mod_lt log.length hP
        exact ⟨List.getElem?_set_self (by rw [ih.block_len]; exact hm),
          List.getElem?_set_self (by rw [ih.state_len]; exact hm)⟩
    -- the periods recorded so far are over
    have hdone : s.slot / E.slots_per_historical_root * E.slots_per_historical_root ≤ log.length := by
      rw [← ih.slot]; exact Nat.div_mul_le_self _ _
    have hsame : ∀ k, k < s.slot / E.slots_per_historical_root →
        summaryOf E (log ++ [x]) k = summaryOf E log k := by
      intro k hk
      exact summaryOf_append (Nat.le_trans (Nat.mul_le_mul_right _ hk) hdone)
    have hq := Nat.succ_div (a := s.slot) (b := E.slots_per_historical_root)
    by_cases hz : s'.slot % E.slots_per_historical_root = 0
    · have hdv : E.slots_per_historical_root ∣ s.slot + 1 := by
        rw [← e1]; exact Nat.dvd_of_mod_eq_zero hz
      rw [if_pos hdv] at hq
      have hnew : s.slot / E.slots_per_historical_root + 1 =
          s'.slot / E.slots_per_historical_root := by rw [e1]; exact hq.symm
      have hlen : (log ++ [x]).length =
          (s.slot / E.slots_per_historical_root + 1) * E.slots_per_historical_root := by
        rw [← hslot, hnew, Nat.div_mul_cancel (Nat.dvd_of_mod_eq_zero hz)]
      have hsum : summaryOf E (log ++ [x]) (s.slot / E.slots_per_historical_root) =
          ⟨E.roots_root s'.block_roots, E.roots_root s'.state_roots⟩ := by
        have w1 := window_full (E := E) (l := s'.block_roots) (log := (log ++ [x]).map (·.1)) hbl
          (by rw [List.length_map]; exact hlen) (by
            intro j r hj hw
            rw [List.length_map, ← hslot] at hw
            rw [List.getElem?_map, Option.map_eq_some_iff] at hj
            obtain ⟨y, hy, rfl⟩ := hj
            exact (hwin j y hy hw).1)
        have w2 := window_full (E := E) (l := s'.state_roots) (log := (log ++ [x]).map (·.2)) hsl
          (by rw [List.length_map]; exact hlen) (by
            intro j r hj hw
            rw [List.length_map, ← hslot] at hw
            rw [List.getElem?_map, Option.map_eq_some_iff] at hj
            obtain ⟨y, hy, rfl⟩ := hj
            exact (hwin j y hy hw).2)
        unfold summaryOf
        rw [w1, w2]
        unfold periodOf
        rw [List.map_take, List.map_drop, List.map_take, List.map_drop]
      by_cases hf : f.ord < 3
      · have hs0 := ih.early hf
        simp only [hz, hf, Nat.not_le.2 hf, true_and, if_true, and_false, if_false,
          List.append_nil] at e4 e5
        have hc := ih.count
        rw [hs0, List.length_nil, Nat.add_zero] at hc
        refine ⟨hslot, hbl, hsl, hwin, fun _ => by rw [e5, hs0], ?_, ?_, ?_⟩
        · rw [e4, e5, hs0, List.length_append, List.length_nil, List.length_singleton, hc, e1]
          exact hq.symm
        · intro k r hk
          rw [e4] at hk
          by_cases hlt : k < s.historical_roots.length
          · rw [List.getElem?_append_left hlt] at hk
            rw [hsame k (by omega)]
            exact ih.roots k r hk
          · have hk' : k = s.historical_roots.length := by
              have := (List.getElem?_eq_some_iff.1 hk).1
              rw [List.length_append, List.length_singleton] at this
              omega
            subst hk'
            rw [List.getElem?_concat_length] at hk
            cases hk
            rw [hc, hsum]
        · rw [e5, hs0]; intro k r hk; cases hk
      · simp only [hz, hf, Nat.not_lt.1 hf, true_and, if_true, and_false, if_false,
          List.append_nil] at e4 e5
        have hc := ih.count
        refine ⟨hslot, hbl, hsl, hwin, fun h => absurd h hf, ?_, ?_, ?_⟩
        · rw [e4, e5, List.length_append, List.length_singleton, e1, ← Nat.add_assoc, hc]
          exact hq.symm
        · intro k r hk
          rw [e4] at hk
          have := (List.getElem?_eq_some_iff.1 hk).1
          rw [hsame k (by omega)]
          exact ih.roots k r hk
        · intro k r hk
          rw [e5] at hk
          rw [e4]
          by_cases hlt : k < s.historical_summaries.length
          · rw [List.getElem?_append_left hlt] at hk
            rw [hsame _ (by omega)]
            exact ih.summaries k r hk
          · have hk' : k = s.historical_summaries.length := by
              have := (List.getElem?_eq_some_iff.1 hk).1
              rw [List.length_append, List.length_singleton] at this
              omega
            subst hk'
            rw [List.getElem?_concat_length] at hk
            cases hk
            rw [hc, hsum]
    · have hdv : ¬ E.slots_per_historical_root ∣ s.slot + 1 := by
        rw [← e1]; exact fun h => hz (Nat.mod_eq_zero_of_dvd h)
      rw [if_neg hdv, Nat.add_zero] at hq
      simp only [hz, false_and, if_false, List.append_nil] at e4 e5
      have hc := ih.count
      refine ⟨hslot, hbl, hsl, hwin, fun h => by rw [e5]; exact ih.early h, ?_, ?_, ?_⟩
      · rw [e4, e5, e1, hc]; exact hq.symm
      · intro k r hk
        rw [e4] at hk
        have := (List.getElem?_eq_some_iff.1 hk).1
        rw [hsame k (by omega)]
        exact ih.roots k r hk
      · intro k r hk
        rw [e5] at hk
        have := (List.getElem?_eq_some_iff.1 hk).1
        rw [e4, hsame _ (by omega)]
        exact ih.summaries k r hk

end Verif
