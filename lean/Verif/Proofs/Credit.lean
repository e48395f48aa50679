import Verif.Spec.Credit
import Verif.Proofs.Turn
import Verif.Proofs.Parts
import Verif.Props.Queues

/-! # Waiting for a deposit to be credited -/

namespace Verif

open Spec Props

/-! ## Between the ends of epochs the queue only grows -/

/-- The queue is only appended to. -/
def Lines (s s' : State) : Prop :=
  s.pending_balance_deposits <+: s'.pending_balance_deposits

theorem linesPre : Preorder' Lines := ⟨fun _ => List.prefix_refl _, fun h h' => h.trans h'⟩

theorem lines_of_same {s s' : State}
    (h : s'.pending_balance_deposits = s.pending_balance_deposits) : Lines s s' := by
  unfold Lines; rw [h]; exact List.prefix_refl _

theorem lines_mod {α : Type} {W : List Field} {m : M α} (h : Modifies W m)
    (hW : Field.pending_balance_deposits ∉ W) : Pres Lines m :=
  Pres.mono h fun _ _ h => lines_of_same (h _ hW)

theorem upd_lines {g : State → State}
    (h : ∀ s, s.pending_balance_deposits <+: (g s).pending_balance_deposits) :
    Pres Lines (upd g) := Pres.upd fun s => h s

theorem updv_lines {i : Nat} {g : Validator → Validator} : Pres Lines (updValidator i g) :=
  Pres.updValidator linesPre fun _ _ _ => lines_of_same rfl

section

variable {E : Env} {f : Fork}

theorem queue_excess_lines {i : Nat} : Pres Lines (Electra.queue_excess_active_balance E i) := by
  have p := linesPre
  unfold Electra.queue_excess_active_balance
  walk p [upd_lines]
  all_goals exact List.prefix_append _ _

theorem switch_lines {i : Nat} : Pres Lines (Electra.switch_to_compounding_validator E i) := by
  have p := linesPre
  unfold Electra.switch_to_compounding_validator
  walk p [queue_excess_lines, updv_lines]

theorem add_validator_lines {k : PublicKey} {w : Bytes32} {n : Nat} :
    Pres Lines (add_validator_to_registry E f k w n) := by
  intro s
  unfold add_validator_to_registry
  rw [wp_bind, wp_liftM]
  refine ⟨fun v hv => ?_, fun _ _ => linesPre.refl s⟩
  cases f <;> first | exact List.prefix_append _ _ | exact List.prefix_refl _

theorem electra_apply_deposit_lines {k : PublicKey} {w : Bytes32} {n : Nat} {sig : Signature} :
    Pres Lines (Electra.apply_deposit E k w n sig) := by
  have p := linesPre
  unfold Electra.apply_deposit
  walk p [switch_lines, add_validator_lines, upd_lines]
  all_goals exact List.prefix_append _ _

theorem apply_deposit_lines {k : PublicKey} {w : Bytes32} {n : Nat} {sig : Signature} :
    Pres Lines (apply_deposit E f k w n sig) := by
  have p := linesPre
  have h : Pres Lines (Phase0.apply_deposit E f k w n sig) := by
    unfold Phase0.apply_deposit
    walk p [lines_mod increase_mod (by decide), add_validator_lines]
  unfold apply_deposit
  cases f
  case Electra => exact electra_apply_deposit_lines
  all_goals exact h

theorem deposit_lines {d : Deposit} : Pres Lines (process_deposit E f d) := by
  have p := linesPre
  unfold process_deposit; walk p [apply_deposit_lines, upd_lines]
  all_goals exact List.prefix_refl _

theorem deposit_receipt_lines {r : DepositReceipt} :
    Pres Lines (Electra.process_deposit_receipt E r) := by
  have p := linesPre
  unfold Electra.process_deposit_receipt
  walk p [electra_apply_deposit_lines, upd_lines]
  all_goals exact List.prefix_refl _

theorem operations_lines {b : BeaconBlockBody} : Pres Lines (process_operations E f b) := by
  have p := linesPre
  unfold process_operations
  cases f <;>
  walk p [lines_mod proposer_slashing_mod (by decide), lines_mod attester_slashing_mod (by decide),
    lines_mod attestation_mod (by decide), deposit_lines, lines_mod voluntary_exit_mod (by decide),
    lines_mod bls_change_mod (by decide), lines_mod withdrawal_request_mod (by decide),
    deposit_receipt_lines, lines_mod consolidation_mod (by decide)]

theorem block_lines {b : BeaconBlock} : Pres Lines (process_block E f b) := by
  have p := linesPre
  unfold process_block
  walk p [lines_mod header_mod (by decide), lines_mod block_payload_mod (by decide),
    lines_mod randao_mod (by decide), lines_mod eth1_mod (by decide), operations_lines,
    lines_mod sync_aggregate_mod (by decide)]

theorem consolidations_loop_lines {a : Nat} {l : List PendingConsolidation} :
    Pres Lines (Electra.pending_consolidations_loop E l a) := by
  have p := linesPre
  induction l generalizing a with
  | nil => unfold Electra.pending_consolidations_loop; walk p
  | cons c l ih =>
    unfold Electra.pending_consolidations_loop
    walk p [ih, switch_lines, lines_mod increase_mod (by decide), lines_mod decrease_mod (by decide)]

theorem consolidations_lines : Pres Lines (Electra.process_pending_consolidations E) := by
  have p := linesPre
  unfold Electra.process_pending_consolidations
  walk p [consolidations_loop_lines, upd_lines]
  all_goals exact List.prefix_refl _

/-! ## Slots -/

variable {s t u : State}

/-- What comes before the deposits does not touch the queue. -/
theorem before_queue {a : State} (h : Runs ((epochParts E .Electra).take 6) t a) :
    a.pending_balance_deposits = t.pending_balance_deposits ∧
      a.deposit_balance_to_consume = t.deposit_balance_to_consume := by
  simp only [epochParts, List.take, runs_cons, runs_nil] at h
  obtain ⟨t1, h1, t2, h2, t3, h3, t4, h4, t5, h5, t6, h6, rfl⟩ := h
  constructor
  · have e1 := justification_mod.ok h1 .pending_balance_deposits (by decide)
    have e2 := inactivity_mod.ok h2 .pending_balance_deposits (by decide)
    have e3 := rewards_mod.ok h3 .pending_balance_deposits (by decide)
    have e4 := registry_mod.ok h4 .pending_balance_deposits (by decide)
    have e5 := slashings_mod.ok h5 .pending_balance_deposits (by decide)
    have e6 := eth1_reset_mod.ok h6 .pending_balance_deposits (by decide)
    exact e6.trans (e5.trans (e4.trans (e3.trans (e2.trans e1))))
  · have e1 := justification_mod.ok h1 .deposit_balance_to_consume (by decide)
    have e2 := inactivity_mod.ok h2 .deposit_balance_to_consume (by decide)
    have e3 := rewards_mod.ok h3 .deposit_balance_to_consume (by decide)
    have e4 := registry_mod.ok h4 .deposit_balance_to_consume (by decide)
    have e5 := slashings_mod.ok h5 .deposit_balance_to_consume (by decide)
    have e6 := eth1_reset_mod.ok h6 .deposit_balance_to_consume (by decide)
    exact e6.trans (e5.trans (e4.trans (e3.trans (e2.trans e1))))

/-- What comes after them may append to it. -/
theorem after_queue {b : State} (h : Runs ((epochParts E .Electra).drop 7) b u) :
    Lines b u ∧ u.deposit_balance_to_consume = b.deposit_balance_to_consume := by
  simp only [epochParts, List.drop, runs_cons, runs_nil] at h
  obtain ⟨t8, h8, t9, h9, t10, h10, t11, h11, t12, h12, t13, h13, t14, h14, rfl⟩ := h
  constructor
  · have e8 : Lines b t8 := consolidations_lines.ok h8
    have e9 := effective_mod.ok h9 .pending_balance_deposits (by decide)
    have e10 := slashings_reset_mod.ok h10 .pending_balance_deposits (by decide)
    have e11 := randao_reset_mod.ok h11 .pending_balance_deposits (by decide)
    have e12 := historical_mod.ok h12 .pending_balance_deposits (by decide)
    have e13 := flag_updates_mod.ok h13 .pending_balance_deposits (by decide)
    have e14 := sync_committees_mod.ok h14 .pending_balance_deposits (by decide)
    have := e14.trans (e13.trans (e12.trans (e11.trans (e10.trans e9))))
    exact e8.trans (lines_of_same this)
  · have e8 := pending_consolidations_mod.ok h8 .deposit_balance_to_consume (by decide)
    have e9 := effective_mod.ok h9 .deposit_balance_to_consume (by decide)
    have e10 := slashings_reset_mod.ok h10 .deposit_balance_to_consume (by decide)
    have e11 := randao_reset_mod.ok h11 .deposit_balance_to_consume (by decide)
    have e12 := historical_mod.ok h12 .deposit_balance_to_consume (by decide)
    have e13 := flag_updates_mod.ok h13 .deposit_balance_to_consume (by decide)
    have e14 := sync_committees_mod.ok h14 .deposit_balance_to_consume (by decide)
    exact e14.trans (e13.trans (e12.trans (e11.trans (e10.trans (e9.trans e8)))))

theorem slot_credits (hE : SaneConfig E) (h : process_slots E .Electra (t.slot + 1) t = .ok () u) :
    (epochOf E u.slot = epochOf E t.slot ∧
      u.pending_balance_deposits = t.pending_balance_deposits ∧
      u.balances = t.balances ∧
      u.deposit_balance_to_consume = t.deposit_balance_to_consume) ∨
    epochOf E u.slot = epochOf E t.slot + 1 ∧ ∃ k, CreditedAt E t u k := by
  obtain ⟨t₁, t₂, h1, -, -, h2, rfl⟩ := slot_step_eq_ok.1 (process_slots_one h)
  have c1 := slot_mod.ok h1
  have hpos := hE.slots_per_epoch.1
  rcases h2 with ⟨h2, h3⟩ | ⟨h2, rfl⟩
  · right
    refine ⟨?_, ?_⟩
    · unfold epochOf
      show (t.slot + 1) / _ = _
      rw [Nat.succ_div, if_pos (Nat.dvd_of_mod_eq_zero h2)]
    · have h3 := epoch_parts.1 h3
      simp only [epochParts, runs_cons, runs_nil] at h3
      obtain ⟨t1, g1, t2, g2, t3, g3, t4, g4, t5, g5, t6, g6, t7, g7, t8, g8, t9, g9, t10, g10,
        t11, g11, t12, g12, t13, g13, t14, g14, rfl⟩ := h3
      obtain ⟨k, hk⟩ := C51_credited E t6 t7 g7
      refine ⟨k, t₁, t6, t7, _, h1, ?_, hk, ?_, rfl⟩
      · simp only [epochParts, List.take, runs_cons, runs_nil]
        exact ⟨t1, g1, t2, g2, t3, g3, t4, g4, t5, g5, t6, g6, rfl⟩
      · simp only [epochParts, List.drop, runs_cons, runs_nil]
        exact ⟨t8, g8, t9, g9, t10, g10, t11, g11, t12, g12, t13, g13, _, g14, rfl⟩
  · left
    refine ⟨?_, c1 .pending_balance_deposits (by decide), c1 .balances (by decide),
      c1 .deposit_balance_to_consume (by decide)⟩
    unfold epochOf
    show (t.slot + 1) / _ = _
    rw [Nat.succ_div, if_neg fun h => h2 (Nat.mod_eq_zero_of_dvd h), Nat.add_zero]

theorem follows_credits (hE : SaneConfig E) (h : Follows E .Electra s t) :
    ∃ n, Credits E s t n := by
  induction h with
  | start => exact ⟨0, .start⟩
  | slot _ h ih =>
    obtain ⟨n, ih⟩ := ih
    rcases slot_credits hE h with ⟨q, -⟩ | ⟨q, k, hk⟩
    · exact ⟨n, .slot ih h q⟩
    · exact ⟨_, .epoch ih h q hk⟩
  | block _ h ih =>
    obtain ⟨n, ih⟩ := ih
    exact ⟨n, .block ih h⟩

/-! ## The pace -/

theorem rounded_mono {a b n : Nat} (h : a ≤ b) : a - a % n ≤ b - b % n := by
  have h1 := Nat.div_add_mod a n
  have h2 := Nat.div_add_mod b n
  have := Nat.mul_le_mul_left n (Nat.div_le_div_right (c := n) h)
  omega

theorem slowest_credit (s : State) : slowestCredit E ≤ exitChurn E s := by
  unfold slowestCredit exitChurn balanceChurn
  have := rounded_mono (n := E.effective_balance_increment)
    (Nat.le_max_left E.min_per_epoch_churn_limit_electra (activeBalance E s / E.churn_limit_quotient))
  exact Nat.le_min.2 ⟨Nat.min_le_left _ _, Nat.le_trans (Nat.min_le_right _ _) this⟩

theorem depositSum_append {a b : List PendingBalanceDeposit} :
    depositSum (a ++ b) = depositSum a + depositSum b := by
  unfold depositSum; simp

theorem depositSum_take {l : List PendingBalanceDeposit} {m n : Nat} (h : m ≤ n) :
    depositSum (l.take m) ≤ depositSum (l.take n) := by
  have : l.take n = l.take m ++ (l.drop m).take (n - m) := by
    rw [← List.take_add]; congr 1; omega
  rw [this, depositSum_append]; omega

/-- How far the service of the queue of `s` has come at `t`. -/
def Pace (E : Env) (s t : State) (k : Nat) : Prop :=
  InLine s t k ∧ epochOf E s.slot ≤ epochOf E t.slot ∧
  (k < s.pending_balance_deposits.length →
    (epochOf E t.slot - epochOf E s.slot) * slowestCredit E ≤
      depositSum (s.pending_balance_deposits.take k) + t.deposit_balance_to_consume ∧
    (epochOf E s.slot < epochOf E t.slot →
      depositSum (s.pending_balance_deposits.take k) + t.deposit_balance_to_consume <
        depositSum (s.pending_balance_deposits.take (k + 1))))

theorem pace_same {k : Nat} (h : Pace E s t k) (hg : Lines t u)
    (hc : u.deposit_balance_to_consume = t.deposit_balance_to_consume)
    (he : epochOf E u.slot = epochOf E t.slot) : Pace E s u k := by
  obtain ⟨h2, h3, h4⟩ := h
  refine ⟨h2.trans hg, by rw [he]; exact h3, ?_⟩
  rw [he, hc]; exact h4

theorem pace_epoch {k m : Nat} {a b : State} (h : Pace E s t k)
    (e1 : a.pending_balance_deposits = t.pending_balance_deposits)
    (e2 : a.deposit_balance_to_consume = t.deposit_balance_to_consume)
    (hd : DepositsCredited E a m b)
    (e3 : b.pending_balance_deposits <+: u.pending_balance_deposits)
    (e4 : u.deposit_balance_to_consume = b.deposit_balance_to_consume)
    (he : epochOf E u.slot = epochOf E t.slot + 1) :
    Pace E s u (k + m) := by
  obtain ⟨⟨new, h2⟩, h3, h4⟩ := h
  have hq : b.pending_balance_deposits = t.pending_balance_deposits.drop m := by
    rw [hd.queue, e1]
  refine ⟨?_, by omega, fun hkm => ?_⟩
  · unfold InLine
    refine List.IsPrefix.trans ?_ e3
    rw [hq, ← h2]
    by_cases hm : k + m ≤ s.pending_balance_deposits.length
    · rw [List.drop_append_of_le_length (by simp; omega), List.drop_drop]
      exact List.prefix_append _ _
    · rw [List.drop_of_length_le (by omega)]
      exact List.nil_prefix
  · obtain ⟨g1, -⟩ := h4 (by omega)
    have hlen : t.pending_balance_deposits.length =
        s.pending_balance_deposits.length - k + new.length := by
      rw [← h2]; simp
    have htake : ∀ n, k + n ≤ s.pending_balance_deposits.length →
        depositSum (s.pending_balance_deposits.take (k + n)) =
          depositSum (s.pending_balance_deposits.take k) +
            depositSum (a.pending_balance_deposits.take n) := by
      intro n hn
      rw [e1, ← h2, List.take_append_of_le_length (by simp; omega), List.take_add,
        depositSum_append]
    have hmax := hd.maximal (by rw [e1, hlen]; omega)
    have hc := hd.carried
    rw [if_neg (by rw [e1, hlen]; omega)] at hc
    have hw := hd.within
    have hs := slowest_credit (E := E) a
    have t1 := htake m (by omega)
    have t2 := htake (m + 1) (by omega)
    rw [e4, hc, he, e2]
    rw [e2] at hmax hw
    constructor
    · rw [show epochOf E t.slot + 1 - epochOf E s.slot =
        epochOf E t.slot - epochOf E s.slot + 1 by omega, Nat.add_mul, Nat.one_mul]
      omega
    · intro _
      rw [show k + m + 1 = k + (m + 1) by omega]
      omega

theorem credits_pace (hE : SaneConfig E) {n : Nat} (h : Credits E s t n) : Pace E s t n := by
  induction h with
  | start =>
    exact ⟨List.prefix_refl _, Nat.le_refl _, fun _ =>
      ⟨by simp, fun h => absurd h (Nat.lt_irrefl _)⟩⟩
  | slot _ h he ih =>
    rcases slot_credits hE h with ⟨q1, q2, -, q3⟩ | ⟨q1, -⟩
    · exact pace_same ih (lines_of_same q2) q3 q1
    · omega
  | @epoch t u _ _ _ _ he hc ih =>
    obtain ⟨t₀, a, b, u₀, h1, h2, h3, h4, rfl⟩ := hc
    have c1 := slot_mod.ok h1
    obtain ⟨b1, b2⟩ := before_queue h2
    obtain ⟨a1, a2⟩ := after_queue h4
    exact pace_epoch ih (b1.trans (c1 .pending_balance_deposits (by decide)))
      (b2.trans (c1 .deposit_balance_to_consume (by decide))) h3 a1 a2 he
  | block _ h ih =>
    have h1 := block_mod.ok h
    exact pace_same ih (block_lines.ok h) (h1 .deposit_balance_to_consume (by decide))
      (by rw [show _ = _ from h1 .slot (by decide)])

end

end Verif
