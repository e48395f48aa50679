import Verif.Proofs.SafetyTransition
import Verif.Proofs.ElectraVotes
import Verif.Spec.SafetyElectra

/-! # Electra's exit queue does not panic -/

namespace Verif

open Spec Props

variable {E : Env} {s s' : State}

/-! ## The queue invariant -/

/-- The balances that have not been sent through the exit queue. -/
def exitable (s : State) : Nat :=
  (s.validators.map fun v => if v.exit_epoch = FAR_FUTURE_EPOCH then v.effective_balance else 0).sum

/-- The epochs of the exit queue have room for every exit and `k` more epochs. -/
def ExitRoom (k : Nat) (s : State) : Prop :=
  max s.earliest_exit_epoch (2 ^ 49) + exitable s + k < 2 ^ 63

/-- The invariant of a block. -/
def Exits (E : Env) (k : Nat) (s : State) : Prop := Queues E s ∧ ExitRoom k s

theorem exitable_eq : exitable s = ((s.validators.map fun v =>
    (v.effective_balance, v.exit_epoch)).map fun p =>
      if p.2 = FAR_FUTURE_EPOCH then p.1 else 0).sum := by
  rw [List.map_map]; rfl

theorem Spec.Queues.congr {t : State} (h : Queues E s)
    (hl : t.validators.length = s.validators.length)
    (hd : t.pending_balance_deposits = s.pending_balance_deposits)
    (hw : t.pending_partial_withdrawals = s.pending_partial_withdrawals)
    (hc : t.pending_consolidations = s.pending_consolidations) : Queues E t :=
  ⟨fun d hx => by rw [hl]; exact h.deposits d (hd ▸ hx),
    fun d hx => by rw [hl]; exact h.withdrawals d (hw ▸ hx),
    fun d hx => by rw [hl]; exact h.consolidations d (hc ▸ hx),
    fun i => by have := h.amounts i; unfold pendingWithdrawalsOf at *; rw [hw]; exact this⟩

theorem quiet_queues : Unmoved (Queues E) := by
  intro t u h he
  simp only [qview, Prod.mk.injEq] at he
  exact h.congr (by simpa using congrArg List.length he.2.1) he.2.2.1 he.2.2.2.1 he.2.2.2.2

theorem quiet_room {k : Nat} : Unmoved (ExitRoom k) := by
  intro t u h he
  simp only [qview, Prod.mk.injEq] at he
  unfold ExitRoom at *
  rw [exitable_eq, he.2.1, he.1, ← exitable_eq]
  exact h

theorem quiet_exits {k : Nat} : Unmoved (Exits E k) := fun t u h he =>
  ⟨quiet_queues t u h.1 he, quiet_room t u h.2 he⟩

theorem Unmoved.indifferent {I : State → Prop} (h : Unmoved I) : Indifferent I := by
  intro t i v w hi hv he hx
  refine h _ _ hi ?_
  simp only [qview, List.map_set, he, hx, Prod.mk.injEq, true_and, and_true]
  exact set_self (by rw [List.getElem?_map, hv]; rfl)

theorem Exits.le {k k' : Nat} (h : Exits E k s) (hk : k' ≤ k) : Exits E k' s :=
  ⟨h.1, by have := h.2; unfold ExitRoom at *; omega⟩

theorem exitable_le : exitable s ≤ effectiveSum s := by
  unfold exitable effectiveSum
  induction s.validators with
  | nil => simp
  | cons v l ih => simp only [List.map_cons, List.sum_cons]; split <;> omega

/-! ## The churn -/

theorem balance_churn_calm (hE : SaneConfig E) (hq : SaneQuotients E) (hz : SaneElectra E) :
    Calm (Electra.get_activation_exit_churn_limit E s) fun n => 2 ^ 16 ≤ n ∧ n ≤ 2 ^ 56 := by
  have h1 := hE.churn_limit_quotient
  have h2 := hE.effective_balance_increment
  have h3 := hz.increment
  have h4 := hz.min_churn
  have h5 := hz.max_churn
  unfold Electra.get_activation_exit_churn_limit Electra.get_balance_churn_limit
  simp only [calm]
  refine (total_active_calm hE hq).mono fun A _ => ⟨by omega, by omega, Nat.mod_le _ _, ?_⟩
  generalize hc : max E.min_per_epoch_churn_limit_electra (A / E.churn_limit_quotient) = c
  have hcge : E.effective_balance_increment ≤ c := by omega
  have hd : 1 ≤ c / E.effective_balance_increment := (Nat.one_le_div_iff h2).2 hcge
  have hm := Nat.div_add_mod c E.effective_balance_increment
  have := Nat.mul_le_mul_left E.effective_balance_increment hd
  exact ⟨by omega, by omega⟩

/-- The epoch of an exit is after the next ones, and each exit moves the end of the queue by at most
its balance, and by at most a 2^16th of its balance and one more epoch. -/
theorem churn_calm (hE : SaneConfig E) (hq : SaneQuotients E) (hz : SaneElectra E)
    (h : Wellformed E s) {e c b : Nat} (he : e < 2 ^ 63) (hb : b ≤ 2 ^ 64 - 2 ^ 57) :
    Calm (Electra.churn_step E s e c b) fun r => b ≤ r.2 ∧
      epochOf E s.slot + 1 + E.max_seed_lookahead ≤ r.1 ∧
      r.1 ≤ max e (2 ^ 49) + min b (b / 2 ^ 16 + 1) := by
  have hU : U64_BOUND = 2 ^ 64 := rfl
  have hslot := h.slot
  have hep := epochOf_le E s.slot
  have hls := hE.max_seed_lookahead
  unfold Electra.churn_step compute_activation_exit_epoch
  simp only [calm]
  refine current_epoch_calm hE ⟨by omega, by omega, ?_⟩
  refine (balance_churn_calm hE hq hz).mono fun p ⟨hp, hp'⟩ => ?_
  generalize hm : max e (epochOf E s.slot + 1 + E.max_seed_lookahead) = m
  generalize (if e < m then p else c) = t
  refine ⟨fun hgt => ⟨by omega, by omega, by omega, ?_⟩, fun hle => ⟨by omega, by omega, by omega⟩⟩
  have hd1 : (b - t - 1) / p ≤ (b - t - 1) / 2 ^ 16 := Nat.div_le_div_left hp (by decide)
  have hd2 : (b - t - 1) / 2 ^ 16 ≤ b / 2 ^ 16 := Nat.div_le_div_right (by omega)
  have hd3 : (b - t - 1) / p ≤ b - t - 1 := Nat.div_le_self _ _
  have hdm := Nat.div_add_mod (b - t - 1) p
  have hml := Nat.mod_lt (b - t - 1) (show 0 < p by omega)
  have hb16 : b / 2 ^ 16 ≤ 2 ^ 48 := Nat.div_le_of_le_mul (by omega)
  have hmul : ((b - t - 1) / p + 1) * p = p * ((b - t - 1) / p) + p := by
    rw [Nat.add_mul, Nat.one_mul, Nat.mul_comm]
  rw [hmul]
  generalize hq' : (b - t - 1) / p = q at *
  generalize p * q = z at *
  refine ⟨by omega, by omega, by omega, by omega, by omega, by omega, by omega⟩

theorem electra_exit_epoch_calm (hE : SaneConfig E) (hq : SaneQuotients E) (hz : SaneElectra E)
    (h : Wellformed E s) {b : Nat} (he : s.earliest_exit_epoch < 2 ^ 63) (hb : b ≤ 2 ^ 64 - 2 ^ 57)
    {Q : Nat → State → Prop}
    (hQ : ∀ e r, epochOf E s.slot + 1 + E.max_seed_lookahead ≤ e →
      e ≤ max s.earliest_exit_epoch (2 ^ 49) + min b (b / 2 ^ 16 + 1) →
      Q e { s with exit_balance_to_consume := r, earliest_exit_epoch := e }) :
    CalmM (Electra.compute_exit_epoch_and_update_churn E b) Q s := by
  unfold Electra.compute_exit_epoch_and_update_churn
  simp only [calm]
  exact (churn_calm hE hq hz h he hb).mono fun r ⟨h1, h2, h3⟩ => ⟨h1, hQ _ _ h2 h3⟩

theorem exitable_set {i : Nat} {v : Validator} (w : Validator) (h : s.validators[i]? = some v) :
    exitable { s with validators := s.validators.set i w } +
        (if v.exit_epoch = FAR_FUTURE_EPOCH then v.effective_balance else 0) =
      exitable s + (if w.exit_epoch = FAR_FUTURE_EPOCH then w.effective_balance else 0) :=
  sum_set_swap (fun v : Validator => if v.exit_epoch = FAR_FUTURE_EPOCH then v.effective_balance
    else 0) w h

theorem electra_initiate_calm (hE : SaneConfig E) (hq : SaneQuotients E) (hz : SaneElectra E)
    {k : Nat} (h : Wellformed E s) (hx : Exits E k s) {i : Nat} {v : Validator}
    (hv : s.validators[i]? = some v) :
    CalmM (Fork.initiate_validator_exit E .Electra i)
      (fun _ s' => Exited E i v s s' ∧ Exits E k s') s := by
  have hm := List.mem_of_getElem? hv
  have hlt := (List.getElem?_eq_some_iff.1 hv).1
  have heff := h.effective v hm
  have hfar : FAR_FUTURE_EPOCH = 2 ^ 64 - 1 := rfl
  have hroom := hx.2
  unfold ExitRoom at hroom
  unfold Fork.initiate_validator_exit Electra.initiate_validator_exit
  simp only [calm]
  refine ⟨v, hv, fun _ => ?_, fun hf => ?_⟩
  · exact ⟨⟨h, v, _, _, by rw [set_self hv], rfl, rfl, rfl, rfl, h.exit v hm, Or.inl rfl⟩, hx⟩
  · have hf : v.exit_epoch = FAR_FUTURE_EPOCH := by simpa using hf
    refine electra_exit_epoch_calm hE hq hz h (by omega) (by omega) fun e r h1 h2 => ?_
    have hle : v.effective_balance ≤ exitable s := by
      have := exitable_set v hv
      rw [if_pos hf] at this
      have hh := le_sum_map (fun v : Validator =>
        if v.exit_epoch = FAR_FUTURE_EPOCH then v.effective_balance else 0) hm
      simp only [hf, if_true] at hh
      exact hh
    refine ⟨v, hv, fun _ => ⟨_, List.getElem?_set_self (by simpa using hlt), ?_⟩⟩
    simp only [List.set_set]
    have h0 : Wellformed E { s with exit_balance_to_consume := r, earliest_exit_epoch := e } :=
      ⟨⟨h.shaped.1, h.shaped.2, h.shaped.3, h.shaped.4, h.shaped.5, h.shaped.6⟩, h.balances,
        h.slot, h.effective, h.exit, h.eligible⟩
    refine ⟨⟨h0.set hv rfl (by simp only; omega) rfl rfl, _, _, _, rfl, rfl, rfl, rfl, rfl, ?_,
      Or.inr h1⟩, hx.1.congr (by simp) rfl rfl rfl, ?_⟩
    · simp only; omega
    · unfold ExitRoom
      have := exitable_set (s := s) { v with
        exit_epoch := e
        withdrawable_epoch := e + E.min_validator_withdrawability_delay } hv
      rw [if_pos hf] at this
      simp only at this
      rw [if_neg (by omega)] at this
      simp only
      show max e _ + exitable { s with validators := _ } + k < _
      omega

theorem electra_exiter (hE : SaneConfig E) (hq : SaneQuotients E) (hz : SaneElectra E) {k x : Nat} :
    Exiter E .Electra k (Exits E x) :=
  fun _ _ _ h hr hx hv => (electra_initiate_calm hE hq hz h hx hv).mono fun _ _ g =>
    ⟨g.1.kept hr hv, g.2⟩

theorem electra_slasher (hE : SaneConfig E) (hq : SaneQuotients E) (hz : SaneElectra E)
    {k x : Nat} : Slasher E .Electra k (Exits E x) :=
  fun _ _ _ h hr hx hv hs => slash_validator_calm_of hE hq (f := .Electra)
    (Nat.pos_iff_ne_zero.1 hz.slashing) (Nat.pos_iff_ne_zero.1 hz.whistleblower) quiet_exits h hr hv hs
    (electra_initiate_calm hE hq hz h hx hv)

theorem pending_balance_calm (hx : Queues E s) (i : Nat) :
    Calm (Electra.get_pending_balance_to_withdraw s i) fun n => n = pendingWithdrawalsOf s i := by
  have := hx.amounts i
  have hU : U64_BOUND = 2 ^ 64 := rfl
  have h : pendingWithdrawalsOf s i < U64_BOUND := by omega
  rw [pending_balance_eq_ok.2 ⟨h, rfl⟩]; rfl

end Verif
