import Verif.Proofs.Calm
import Verif.Model.Block
import Verif.Proofs.Slash
import Verif.Proofs.Evidence
import Verif.Props.Shuffling
import Verif.Proofs.Parallel
import Verif.Proofs.Isqrt

/-! # Operations do not panic -/

namespace Verif

open Spec Props

variable {E : Env} {s s' : State}

/-! ## Sums over the registry -/

theorem sum_set_swap {α : Type} (g : α → Nat) {l : List α} {i : Nat} {x : α} (w : α)
    (h : l[i]? = some x) : ((l.set i w).map g).sum + g x = (l.map g).sum + g w := by
  induction l generalizing i with
  | nil => simp at h
  | cons y l ih =>
    cases i with
    | zero => simp only [List.getElem?_cons_zero, Option.some.injEq] at h; subst h; simp; omega
    | succ i =>
      simp only [List.getElem?_cons_succ] at h
      have := ih h
      simp only [List.set_cons_succ, List.map_cons, List.sum_cons]; omega

theorem le_sum_map {α : Type} (g : α → Nat) {l : List α} {x : α} (h : x ∈ l) :
    g x ≤ (l.map g).sum := by
  induction l with
  | nil => simp at h
  | cons y l ih =>
    rcases List.mem_cons.1 h with rfl | h
    · simp
    · have := ih h; simp only [List.map_cons, List.sum_cons]; omega

theorem atStake_set {i : Nat} {v : Validator} (w : Validator) (h : s.validators[i]? = some v) :
    atStake { s with validators := s.validators.set i w } +
        (if v.slashed then 0 else v.effective_balance) =
      atStake s + (if w.slashed then 0 else w.effective_balance) :=
  sum_set_swap (fun v : Validator => if v.slashed then 0 else v.effective_balance) w h

theorem atStake_le {v : Validator} (h : v ∈ s.validators) (hs : v.slashed = false) :
    v.effective_balance ≤ atStake s := by
  have := le_sum_map (fun v : Validator => if v.slashed then 0 else v.effective_balance) h
  simpa [hs, atStake] using this

theorem mem_set_cases {α : Type} {l : List α} {i : Nat} {x w : α} (h : x ∈ l.set i w) :
    x ∈ l ∨ x = w := List.mem_or_eq_of_mem_set h

/-! ## Well-formedness is preserved -/

theorem Spec.Wellformed.set {i : Nat} {v w : Validator} (h : Wellformed E s)
    (hv : s.validators[i]? = some v) (he : w.effective_balance = v.effective_balance)
    (hx : w.exit_epoch < 2 ^ 64) (ha : w.activation_epoch = v.activation_epoch)
    (hq : w.activation_eligibility_epoch = v.activation_eligibility_epoch) :
    Wellformed E { s with validators := s.validators.set i w } := by
  have hm := List.mem_of_getElem? hv
  refine ⟨⟨h.shaped.block_roots, h.shaped.state_roots, h.shaped.randao_mixes, h.shaped.slashings,
    ?_, h.shaped.justification_bits⟩, ?_, h.slot, ?_, ?_, ?_⟩
  · simpa using h.shaped.registry
  · simpa using h.balances
  · intro u hu
    rcases mem_set_cases hu with hu | rfl
    · exact h.effective u hu
    · rw [he]; exact h.effective v hm
  · intro u hu
    rcases mem_set_cases hu with hu | rfl
    · exact h.exit u hu
    · exact hx
  · intro u hu
    rcases mem_set_cases hu with hu | rfl
    · exact h.eligible u hu
    · rw [ha, hq] at *; exact h.eligible v hm

theorem Spec.Wellformed.balance {i b : Nat} (h : Wellformed E s) :
    Wellformed E { s with balances := s.balances.set i b } :=
  ⟨⟨h.shaped.block_roots, h.shaped.state_roots, h.shaped.randao_mixes, h.shaped.slashings,
    h.shaped.registry, h.shaped.justification_bits⟩, by simpa using h.balances, h.slot,
    h.effective, h.exit, h.eligible⟩

theorem Spec.Wellformed.slashing {i b : Nat} (h : Wellformed E s) :
    Wellformed E { s with slashings := s.slashings.set i b } :=
  ⟨⟨h.shaped.block_roots, h.shaped.state_roots, h.shaped.randao_mixes,
    by simpa using h.shaped.slashings, h.shaped.registry, h.shaped.justification_bits⟩,
    h.balances, h.slot, h.effective, h.exit, h.eligible⟩

/-- `Room` with separate amounts for the balances and the slashings vector. -/
structure Room2 (kb ks : Nat) (s : State) : Prop where
  stake : atStake s + ks < 2 ^ 64
  balances : ∀ b ∈ s.balances, b + atStake s + kb < 2 ^ 64
  slashings : ∀ x ∈ s.slashings, x + atStake s + ks < 2 ^ 64

theorem Room2.room {k : Nat} (h : Room2 k k s) : Room k s := ⟨h.stake, h.balances, h.slashings⟩

theorem Spec.Room.two {k : Nat} (h : Room k s) : Room2 k k s := ⟨h.stake, h.balances, h.slashings⟩

/-- Lowering a balance leaves room. -/
theorem Room2.lower {kb ks i b c : Nat} (h : Room2 kb ks s) (hc : s.balances[i]? = some c)
    (hle : b ≤ c) : Room2 kb ks { s with balances := s.balances.set i b } := by
  refine ⟨h.stake, fun x hx => ?_, h.slashings⟩
  show x + atStake s + kb < 2 ^ 64
  rcases mem_set_cases hx with hx | rfl
  · exact h.balances x hx
  · have := h.balances c (List.mem_of_getElem? hc)
    omega

/-- Raising a balance uses up room. -/
theorem Room2.raise {kb ks i b d : Nat} (h : Room2 (kb + d) ks s) (hb : s.balances[i]? = some b) :
    Room2 kb ks { s with balances := s.balances.set i (b + d) } := by
  refine ⟨h.stake, fun x hx => ?_, h.slashings⟩
  show x + atStake s + kb < 2 ^ 64
  rcases mem_set_cases hx with hx | rfl
  · have := h.balances x hx; omega
  · have := h.balances b (List.mem_of_getElem? hb); omega

theorem Room2.slash {kb ks i b d : Nat} (h : Room2 kb (ks + d) s) (hb : s.slashings[i]? = some b) :
    Room2 kb ks { s with slashings := s.slashings.set i (b + d) } := by
  refine ⟨?_, h.balances, fun x hx => ?_⟩
  · have := h.stake; show atStake s + ks < 2 ^ 64; omega
  show x + atStake s + ks < 2 ^ 64
  rcases mem_set_cases hx with hx | rfl
  · have := h.slashings x hx; omega
  · have := h.slashings b (List.mem_of_getElem? hb); omega

theorem Room2.le {kb ks kb' ks' : Nat} (h : Room2 kb ks s) (hb : kb' ≤ kb) (hs : ks' ≤ ks) :
    Room2 kb' ks' s :=
  ⟨by have := h.stake; omega, fun x hx => by have := h.balances x hx; omega,
    fun x hx => by have := h.slashings x hx; omega⟩

theorem Spec.Room.le {k k' : Nat} (h : Room k s) (hk : k' ≤ k) : Room k' s :=
  (h.two.le hk hk).room

/-- An update of a validator that does not add to what can be slashed. -/
theorem Spec.Room.set {k i : Nat} {v w : Validator} (h : Room k s) (hv : s.validators[i]? = some v)
    (he : w.effective_balance = v.effective_balance) (hw : v.slashed = true → w.slashed = true) :
    Room k { s with validators := s.validators.set i w } := by
  have key : atStake { s with validators := s.validators.set i w } ≤ atStake s := by
    have := atStake_set w hv
    rw [he] at this
    cases h1 : v.slashed <;> cases h2 : w.slashed <;> simp_all
    omega
  exact ⟨by have := h.stake; omega,
    fun x hx => by have := h.balances x hx; show x + _ + k < _; omega,
    fun x hx => by have := h.slashings x hx; show x + _ + k < _; omega⟩

/-- Slashing a validator frees its effective balance. -/
theorem Spec.Room.slashed {k i : Nat} {v w : Validator} (h : Room k s)
    (hv : s.validators[i]? = some v) (hs : v.slashed = false) (hw : w.slashed = true) :
    Room2 (k + v.effective_balance) (k + v.effective_balance)
      { s with validators := s.validators.set i w } := by
  have key := atStake_set w hv
  rw [if_pos hw, if_neg (by simp [hs])] at key
  exact ⟨by have := h.stake; omega,
    fun x hx => by have := h.balances x hx; show x + _ + _ < _; omega,
    fun x hx => by have := h.slashings x hx; show x + _ + _ < _; omega⟩

/-! ## Readers -/

theorem current_epoch_calm (hE : SaneConfig E) {Q : Nat → Prop} (h : Q (epochOf E s.slot)) :
    Calm (get_current_epoch E s) Q := by
  have := hE.slots_per_epoch
  unfold get_current_epoch compute_epoch_at_slot
  simp only [calm]
  exact ⟨by omega, h⟩

theorem epochOf_le (E : Env) (slot : Nat) : epochOf E slot ≤ slot := Nat.div_le_self _ _

theorem proposer_loop_calm {seed : Bytes32} {cand : Nat → R Nat} {fuel k : Nat}
    (hm : E.max_effective_balance ≤ 2 ^ 48)
    (hc : ∀ k, ∃ c v, cand k = .ok c ∧ s.validators[c]? = some v ∧
      v.effective_balance ≤ 2 ^ 48) :
    Calm (proposer_loop E s seed cand fuel k) fun p => p < s.validators.length := by
  have hU := U64_BOUND_eq
  induction fuel generalizing k with
  | zero => simp [proposer_loop, Calm, Err.isPanic]
  | succ fuel ih =>
    obtain ⟨c, v, h1, h2, h3⟩ := hc k
    rw [proposer_loop, h1]
    unfold sample_proposer_index
    simp only [calm]
    have hlen : (E.hash (seed.toList ++ leBytes 8 (k / 32))).toList.length = 32 := by simp
    have hk32 : k % 32 < 32 := Nat.mod_lt _ (by decide)
    refine ⟨_, List.getElem?_eq_getElem (by rw [hlen]; exact hk32), v, h2, by omega, ?_, ?_⟩
    · generalize hb : UInt8.toNat _ = b
      have : b < 256 := by rw [← hb]; exact UInt8.toNat_lt _
      have : E.max_effective_balance * b ≤ 2 ^ 48 * 256 := Nat.mul_le_mul hm (by omega)
      omega
    · refine ⟨fun _ => (List.getElem?_eq_some_iff.1 h2).1, fun _ => ih⟩

theorem proposer_calm (hE : SaneConfig E) (h : Wellformed E s) :
    Calm (get_beacon_proposer_index E s) fun p => p < s.validators.length := by
  have hspe := hE.slots_per_epoch
  have hU : U64_BOUND = 2 ^ 64 := rfl
  have hslot := h.slot
  have hep : s.slot / E.slots_per_epoch ≤ s.slot := Nat.div_le_self _ _
  by_cases hne : activeIndices s (epochOf E s.slot) = []
  · rw [C05_no_active_validator E hE s h.shaped (by omega) hne]
    rfl
  have hlen : (activeIndices s (epochOf E s.slot)).length ≤ 2 ^ 40 := by
    rw [← activeIndices_eq]; exact Nat.le_trans (length_active_le s _) h.shaped.registry
  have key : get_beacon_proposer_index E s =
      proposer_loop E s (proposerSeed E s)
        (fun k => .ok (candidate E (activeIndices s (epochOf E s.slot)) (proposerSeed E s) k))
        E.fuel 0 := by
    unfold get_beacon_proposer_index get_current_epoch compute_epoch_at_slot
    rw [div_ok (by omega), R_bind_ok, get_seed_eq hE h.shaped (by omega), R_bind_ok]
    simp only
    rw [activeIndices_eq]
    exact compute_proposer_index_eq_loop E s _ _ hne (by rw [hU]; unfold epochOf at hlen; omega)
      hE.shuffle_round_count
  rw [key]
  refine proposer_loop_calm hE.max_effective_balance fun k => ?_
  obtain ⟨v, hv, -⟩ := candidate_active E s (proposerSeed E s) _ hne k
  exact ⟨_, v, rfl, hv, h.effective v (List.mem_of_getElem? hv)⟩

theorem exit_queue_epoch_calm (hE : SaneConfig E) (h : Wellformed E s) :
    Calm (exit_queue_epoch E s) fun e =>
      e < 2 ^ 64 ∧ epochOf E s.slot + 1 + E.max_seed_lookahead ≤ e := by
  have h1 := hE.slots_per_epoch
  have h2 := hE.max_seed_lookahead
  have h3 := hE.churn_limit_quotient
  have hb : U64_BOUND = 2 ^ 64 := rfl
  have h4 := h.slot
  have h5 := epochOf_le E s.slot
  have hfar : FAR_FUTURE_EPOCH = 2 ^ 64 - 1 := rfl
  unfold exit_queue_epoch get_validator_churn_limit compute_activation_exit_epoch
  simp only [calm]
  refine current_epoch_calm hE ⟨by omega, by omega, ?_⟩
  generalize hl : (List.map (fun x => x.exit_epoch)
    (List.filter (fun v => decide (v.exit_epoch ≠ FAR_FUTURE_EPOCH)) s.validators)) ++
      [epochOf E s.slot + 1 + E.max_seed_lookahead] = l
  have hm : l.foldl max 0 < 2 ^ 64 - 1 := by
    apply foldl_max_lt (by omega)
    rw [← hl]
    intro x hx
    rcases List.mem_append.1 hx with hx | hx
    · obtain ⟨v, hv', rfl⟩ := List.mem_map.1 hx
      obtain ⟨hv1, hv2⟩ := List.mem_filter.1 hv'
      have := h.exit v hv1
      have : v.exit_epoch ≠ FAR_FUTURE_EPOCH := by simpa using hv2
      omega
    · simp only [List.mem_singleton] at hx; omega
  have hge : epochOf E s.slot + 1 + E.max_seed_lookahead ≤ l.foldl max 0 := by
    rw [← hl, List.foldl_append]
    simp only [List.foldl_cons, List.foldl_nil]
    omega
  refine current_epoch_calm hE ⟨by omega, fun _ => ⟨by omega, by omega, by omega⟩,
    fun _ => ⟨by omega, by omega⟩⟩

/-! ## Writers -/

theorem decrease_balance_calm {i d b : Nat} (hb : s.balances[i]? = some b)
    {Q : Unit → State → Prop}
    (h : ∀ c, c ≤ b → Q () { s with balances := s.balances.set i c }) :
    CalmM (decrease_balance i d) Q s := by
  unfold decrease_balance
  simp only [calm]
  refine ⟨b, hb, fun _ => h 0 (Nat.zero_le _), fun hn => ⟨by omega, h _ (by omega)⟩⟩

theorem increase_balance_calm {i d b : Nat} (hb : s.balances[i]? = some b) (hd : b + d < 2 ^ 64)
    {Q : Unit → State → Prop}
    (h : Q () { s with balances := s.balances.set i (b + d) }) :
    CalmM (increase_balance i d) Q s := by
  unfold increase_balance
  simp only [calm]
  exact ⟨b, hb, hd, h⟩

/-- What the exit queue and the queues of Electra are about. -/
def qview (s : State) : Nat × List (Nat × Nat) × List PendingBalanceDeposit ×
    List PendingPartialWithdrawal × List PendingConsolidation :=
  (s.earliest_exit_epoch, s.validators.map fun v => (v.effective_balance, v.exit_epoch),
    s.pending_balance_deposits, s.pending_partial_withdrawals, s.pending_consolidations)

/-- Properties of the state that depend on nothing else. -/
def Unmoved (I : State → Prop) : Prop := ∀ t u, I t → qview u = qview t → I u

theorem quiet_true : Unmoved fun _ => True := fun _ _ _ _ => trivial

/-- What initiating an exit leaves behind: the same state up to exit and withdrawable epoch of
validator `i` and the exit queue. -/
structure Exited (E : Env) (i : Nat) (v : Validator) (s s' : State) : Prop where
  wf : Wellformed E s'
  new : ∃ w e r, s' = { s with
      validators := s.validators.set i w
      earliest_exit_epoch := e
      exit_balance_to_consume := r } ∧
    w.effective_balance = v.effective_balance ∧ w.slashed = v.slashed ∧
    w.activation_epoch = v.activation_epoch ∧
    w.activation_eligibility_epoch = v.activation_eligibility_epoch ∧ w.exit_epoch < 2 ^ 64 ∧
    (w.exit_epoch = v.exit_epoch ∨ epochOf E s.slot + 1 + E.max_seed_lookahead ≤ w.exit_epoch)

theorem initiate_calm (hE : SaneConfig E) {f : Fork} (hf : f ≠ .Electra) (h : Wellformed E s)
    {i : Nat} {v : Validator} (hv : s.validators[i]? = some v) :
    CalmM (Fork.initiate_validator_exit E f i) (fun _ s' => Exited E i v s s') s := by
  have hm := List.mem_of_getElem? hv
  have hlt := (List.getElem?_eq_some_iff.1 hv).1
  have hd : Fork.initiate_validator_exit E f i = Verif.initiate_validator_exit E i := by
    cases f <;> first | rfl | exact absurd rfl hf
  rw [hd]
  unfold Verif.initiate_validator_exit
  simp only [calm]
  refine ⟨v, hv, fun _ => ?_, fun _ => ?_⟩
  · exact ⟨h, v, _, _, by rw [set_self hv], rfl, rfl, rfl, rfl, h.exit v hm, Or.inl rfl⟩
  · refine (exit_queue_epoch_calm hE h).mono fun e ⟨he, hge⟩ => ?_
    refine ⟨v, hv, fun _ => ⟨_, List.getElem?_set_self (by simpa using hlt), ?_⟩⟩
    simp only [List.set_set]
    refine ⟨h.set hv rfl he rfl rfl, _, _, _, rfl, rfl, rfl, rfl, rfl, he, Or.inr hge⟩

theorem penalty_quotient_pos (hq : SaneQuotients E) {f : Fork} (hf : f ≠ .Electra) :
    min_slashing_penalty_quotient_of E f ≠ 0 := by
  have := hq.slashing_phase0
  have := hq.slashing_altair
  have := hq.slashing_bellatrix
  cases f <;> simp_all [min_slashing_penalty_quotient_of] <;> omega

theorem whistleblower_quotient_pos (hq : SaneQuotients E) {f : Fork} (hf : f ≠ .Electra) :
    whistleblower_reward_quotient_of E f ≠ 0 := by
  have := hq.whistleblower
  cases f <;> simp_all [whistleblower_reward_quotient_of] <;> omega

theorem slashing_proposer_reward_calm (hq : SaneQuotients E) (f : Fork) (r : Nat) :
    Calm (slashing_proposer_reward E f r) fun p => p ≤ r := by
  have := hq.proposer
  unfold slashing_proposer_reward
  cases f <;> simp only [calm]
  · exact ⟨by omega, Nat.div_le_self _ _⟩
  all_goals
    refine ⟨by decide, ?_⟩
    have : PROPOSER_WEIGHT / WEIGHT_DENOMINATOR = 0 := by decide
    rw [this, Nat.mul_zero]
    exact ⟨by decide, Nat.zero_le _⟩

theorem two_rewards_calm {k r p pr : Nat} (h : Wellformed E s) (hr : Room2 (k + r) k s)
    (hp : p < s.validators.length) (hpr : pr ≤ r) {Q : Unit → State → Prop}
    (hQ : ∀ s', Wellformed E s' → Room k s' → s'.validators = s.validators →
      s'.slot = s.slot → qview s' = qview s → Q () s') :
    CalmM (increase_balance p pr)
      (fun _ s' => pr ≤ r ∧ CalmM (increase_balance p (r - pr)) Q s') s := by
  have hlt : p < s.balances.length := by rw [h.balances]; exact hp
  obtain ⟨b, hb⟩ : ∃ b, s.balances[p]? = some b := ⟨_, List.getElem?_eq_getElem hlt⟩
  have hbd := hr.balances b (List.mem_of_getElem? hb)
  refine increase_balance_calm hb (by omega) ⟨hpr, ?_⟩
  have hr1 : Room2 (k + (r - pr)) k { s with balances := s.balances.set p (b + pr) } :=
    Room2.raise (by rwa [show k + (r - pr) + pr = k + r by omega]) hb
  have hb1 : (s.balances.set p (b + pr))[p]? = some (b + pr) := List.getElem?_set_self hlt
  refine increase_balance_calm hb1 (by omega) (hQ _ (h.balance.balance) (hr1.raise hb1).room rfl rfl rfl)

/-- What an operation that neither touches the clock nor adds validators guarantees. -/
structure Kept (E : Env) (k : Nat) (s s' : State) : Prop where
  wf : Wellformed E s'
  room : Room k s'
  effective : s'.validators.map Validator.effective_balance =
    s.validators.map Validator.effective_balance
  slot : s'.slot = s.slot

theorem Kept.length {k : Nat} (h : Kept E k s s') : s'.validators.length = s.validators.length := by
  simpa using congrArg List.length h.effective

theorem Kept.total {k : Nat} (h : Kept E k s s') : effectiveSum s' = effectiveSum s := by
  unfold effectiveSum; rw [h.effective]

theorem Kept.trans {k k' : Nat} {s'' : State} (h : Kept E k s s') (h' : Kept E k' s' s'') :
    Kept E k' s s'' :=
  ⟨h'.wf, h'.room, h'.effective.trans h.effective, h'.slot.trans h.slot⟩

theorem map_effective_set {l : List Validator} {i : Nat} {v w : Validator} (h : l[i]? = some v)
    (he : w.effective_balance = v.effective_balance) :
    (l.set i w).map Validator.effective_balance = l.map Validator.effective_balance := by
  rw [List.map_set, he]
  exact set_self (by rw [List.getElem?_map, h]; rfl)

/-- Slashing does not panic if exits do not. -/
theorem slash_validator_calm_of (hE : SaneConfig E) (hq : SaneQuotients E) {f : Fork}
    (hpq : min_slashing_penalty_quotient_of E f ≠ 0) (hwq : whistleblower_reward_quotient_of E f ≠ 0)
    {k : Nat} {I : State → Prop} (hI : Unmoved I) (h : Wellformed E s) (hr : Room k s) {i : Nat}
    {v : Validator} (hv : s.validators[i]? = some v) (hs : v.slashed = false)
    (hinit : CalmM (Fork.initiate_validator_exit E f i) (fun _ t => Exited E i v s t ∧ I t) s) :
    CalmM (slash_validator E f i none) (fun _ s' => Kept E k s s' ∧ I s') s := by
  have hb : U64_BOUND = 2 ^ 64 := rfl
  have hslot := h.slot
  have hep := epochOf_le E s.slot
  have hsv := hE.epochs_per_slashings_vector
  have hlt := (List.getElem?_eq_some_iff.1 hv).1
  unfold slash_validator
  simp only [calm]
  refine current_epoch_calm hE ?_
  refine hinit.mono ?_
  rintro - - ⟨⟨h1, w, xe, xr, rfl, he, hs', ha, hel, hx, -⟩, hIt⟩
  refine ⟨w, List.getElem?_set_self hlt, by omega, _, List.getElem?_set_self (by simpa using hlt),
    by omega, _, List.getElem?_set_self (by simpa using hlt), ?_⟩
  simp only [List.set_set]
  generalize hw : ({ w with
    slashed := true
    withdrawable_epoch := max w.withdrawable_epoch
      (epochOf E s.slot + E.epochs_per_slashings_vector) } : Validator) = w'
  have hwe : w'.effective_balance = v.effective_balance := by rw [← hw]; exact he
  have hwx : w'.exit_epoch = w.exit_epoch := by rw [← hw]
  have h0 : Wellformed E { s with earliest_exit_epoch := xe, exit_balance_to_consume := xr } :=
    ⟨⟨h.shaped.1, h.shaped.2, h.shaped.3, h.shaped.4, h.shaped.5, h.shaped.6⟩, h.balances, h.slot,
      h.effective, h.exit, h.eligible⟩
  have hr0 : Room k { s with earliest_exit_epoch := xe, exit_balance_to_consume := xr } :=
    ⟨hr.stake, hr.balances, hr.slashings⟩
  have h2 : Wellformed E { s with
      validators := s.validators.set i w'
      earliest_exit_epoch := xe
      exit_balance_to_consume := xr } :=
    h0.set hv hwe (by rw [← hw]; exact hx) (by rw [← hw]; exact ha) (by rw [← hw]; exact hel)
  have hr2 := hr0.slashed (w := w') hv hs (by rw [← hw])
  have hm : epochOf E s.slot % E.epochs_per_slashings_vector < s.slashings.length := by
    rw [h.shaped.slashings]; exact Nat.mod_lt _ hsv.1
  obtain ⟨old, hold⟩ : ∃ old, s.slashings[epochOf E s.slot % E.epochs_per_slashings_vector]? =
    some old := ⟨_, List.getElem?_eq_getElem hm⟩
  have hbd := hr2.slashings old (List.mem_of_getElem? hold)
  obtain ⟨b, hbal⟩ : ∃ b, s.balances[i]? = some b :=
    ⟨_, List.getElem?_eq_getElem (by rw [h.balances]; exact hlt)⟩
  refine ⟨old, hold, by rw [he]; omega, hpq, ?_⟩
  rw [he]
  have h3 := h2.slashing (i := epochOf E s.slot % E.epochs_per_slashings_vector)
    (b := old + v.effective_balance)
  have hr3 := hr2.slash (ks := k) hold
  refine decrease_balance_calm (s := { s with
    validators := s.validators.set i w'
    earliest_exit_epoch := xe
    exit_balance_to_consume := xr
    slashings := s.slashings.set (epochOf E s.slot % E.epochs_per_slashings_vector)
      (old + v.effective_balance) }) hbal fun c hc => ?_
  have h4 := h3.balance (i := i) (b := c)
  have hr4 := hr3.lower hbal hc
  refine (proposer_calm hE h4).mono fun p hp => ?_
  refine ⟨hwq, ?_⟩
  have hle : v.effective_balance / whistleblower_reward_quotient_of E f ≤ v.effective_balance :=
    Nat.div_le_self _ _
  refine (slashing_proposer_reward_calm hq f _).mono fun pr hpr => ?_
  refine two_rewards_calm h4 (by simpa using hr4.le (Nat.add_le_add_left hle k) (Nat.le_refl _))
    hp hpr fun s' g1 g2 g3 g4 g5 => ⟨⟨g1, g2, ?_, g4⟩, hI _ _ hIt (g5.trans ?_)⟩
  · rw [g3]; exact map_effective_set hv hwe
  · simp only [qview, List.map_set, hwe, hwx, he]

theorem slash_validator_calm (hE : SaneConfig E) (hq : SaneQuotients E) {f : Fork}
    (hf : f ≠ .Electra) {k : Nat} (h : Wellformed E s) (hr : Room k s) {i : Nat} {v : Validator}
    (hv : s.validators[i]? = some v) (hs : v.slashed = false) :
    CalmM (slash_validator E f i none) (fun _ s' => Kept E k s s' ∧ True) s :=
  slash_validator_calm_of hE hq (penalty_quotient_pos hq hf) (whistleblower_quotient_pos hq hf)
    quiet_true h hr hv hs ((initiate_calm hE hf h hv).mono fun _ _ g => ⟨g, trivial⟩)

/-- Slashing keeps `I`. -/
def Slasher (E : Env) (f : Fork) (k : Nat) (I : State → Prop) : Prop :=
  ∀ s i v, Wellformed E s → Room k s → I s → s.validators[i]? = some v → v.slashed = false →
    CalmM (slash_validator E f i none) (fun _ s' => Kept E k s s' ∧ I s') s

/-- Exits keep `I`. -/
def Exiter (E : Env) (f : Fork) (k : Nat) (I : State → Prop) : Prop :=
  ∀ s i v, Wellformed E s → Room k s → I s → s.validators[i]? = some v →
    CalmM (Fork.initiate_validator_exit E f i) (fun _ s' => Kept E k s s' ∧ I s') s

theorem Exited.kept {k i : Nat} {v : Validator} (h : Exited E i v s s') (hr : Room k s)
    (hv : s.validators[i]? = some v) : Kept E k s s' := by
  obtain ⟨g1, w, xe, xr, rfl, he, hs', ha, hel, hx⟩ := h
  have hr0 : Room k { s with earliest_exit_epoch := xe, exit_balance_to_consume := xr } :=
    ⟨hr.stake, hr.balances, hr.slashings⟩
  exact ⟨g1, hr0.set hv he (by rw [hs']; exact id), map_effective_set hv he, rfl⟩

theorem slasher (hE : SaneConfig E) (hq : SaneQuotients E) {f : Fork} (hf : f ≠ .Electra)
    {k : Nat} : Slasher E f k fun _ => True :=
  fun _ _ _ h hr _ hv hs => slash_validator_calm hE hq hf h hr hv hs

theorem exiter (hE : SaneConfig E) {f : Fork} (hf : f ≠ .Electra) {k : Nat} :
    Exiter E f k fun _ => True :=
  fun _ _ _ h hr _ hv => (initiate_calm hE hf h hv).mono fun _ _ g => ⟨g.kept hr hv, trivial⟩

/-! ## Slashings -/

theorem check_sorted_calm {p : Nat} {d : Bool} {l : List Nat} :
    Calm (check_sorted p d l) fun _ => True := by
  induction l generalizing p d with
  | nil => simp [check_sorted, calm, Err.isPanic]
  | cons x l ih =>
    rw [check_sorted]
    simp only [calm]
    exact ⟨fun _ => rfl, fun _ => ih⟩

theorem get_domain_calm (hE : SaneConfig E) {t : DomainType} {o : Option Nat} :
    Calm (get_domain E s t o) fun _ => True := by
  unfold get_domain
  cases o <;> simp only [calm]
  exact current_epoch_calm hE trivial

theorem indexed_calm (hE : SaneConfig E) {a : IndexedAttestation} :
    Calm (is_valid_indexed_attestation E s a)
      fun _ => ∀ i ∈ a.attesting_indices, i < s.validators.length := by
  have key : Calm (is_valid_indexed_attestation E s a) fun _ => True := by
    unfold is_valid_indexed_attestation
    split
    · rfl
    · simp only [calm]
      refine check_sorted_calm.mono fun _ _ => Calm_mapM (fun i _ => ?_) fun _ _ =>
        (get_domain_calm hE).mono fun _ _ => ⟨fun _ => rfl, fun _ => trivial⟩
      simp only [calm]
      exact ⟨fun _ _ => trivial, fun _ => rfl⟩
  exact key.mono' fun _ h _ i hi => (valid_indexed_iff.1 h).in_range i hi

theorem slash_all_calm {f : Fork} {k e : Nat} {I : State → Prop} (hsl : Slasher E f k I)
    {l : List Nat} (any : Bool) (h : Wellformed E s) (hr : Room k s) (hi : I s)
    (hl : ∀ i ∈ l, i < s.validators.length) :
    CalmM (slash_all E f e l any) (fun _ s' => Kept E k s s' ∧ I s') s := by
  induction l generalizing s any with
  | nil => exact ⟨⟨h, hr, rfl, rfl⟩, hi⟩
  | cons i l ih =>
    rw [slash_all]
    simp only [calm]
    obtain ⟨v, hv⟩ : ∃ v, s.validators[i]? = some v :=
      ⟨_, List.getElem?_eq_getElem (hl i (by simp))⟩
    refine ⟨v, hv, fun hs => ?_, fun _ => ih any h hr hi fun j hj => hl j (by simp [hj])⟩
    have hs : v.slashed = false := by
      unfold is_slashable_validator at hs
      cases hc : v.slashed <;> simp_all
    refine (hsl _ _ _ h hr hi hv hs).mono ?_
    rintro - s1 ⟨h1, i1⟩
    exact (ih true h1.wf h1.room i1 fun j hj => by rw [h1.length]; exact hl j (by simp [hj])).mono
      fun _ _ g => ⟨h1.trans g.1, g.2⟩

theorem proposer_slashing_calm_of (hE : SaneConfig E) {f : Fork} {k : Nat} {I : State → Prop}
    (hsl : Slasher E f k I) (h : Wellformed E s) (hr : Room k s) (hi : I s)
    (op : ProposerSlashing) :
    CalmM (process_proposer_slashing E f op) (fun _ s' => Kept E k s s' ∧ I s') s := by
  have hspe := hE.slots_per_epoch
  unfold process_proposer_slashing compute_epoch_at_slot
  simp only [calm]
  refine ⟨fun _ => rfl, fun _ => ⟨fun _ => rfl, fun _ => ⟨fun _ => rfl, fun _ =>
    ⟨fun v hv => ?_, fun _ => rfl⟩⟩⟩⟩
  refine current_epoch_calm hE ⟨fun _ => rfl, fun hs => ⟨by omega, ?_⟩⟩
  refine (get_domain_calm hE).mono fun _ _ => ⟨fun _ => rfl, fun _ => ⟨fun _ => rfl, fun _ => ?_⟩⟩
  have hs : v.slashed = false := by
    unfold is_slashable_validator at hs
    cases hc : v.slashed <;> simp_all
  exact hsl _ _ _ h hr hi hv hs

theorem attester_slashing_calm_of (hE : SaneConfig E) {f : Fork} {k : Nat} {I : State → Prop}
    (hsl : Slasher E f k I) (h : Wellformed E s) (hr : Room k s) (hi : I s)
    (op : AttesterSlashing) :
    CalmM (process_attester_slashing E f op) (fun _ s' => Kept E k s s' ∧ I s') s := by
  unfold process_attester_slashing
  simp only [calm]
  refine ⟨fun _ => rfl, fun _ => ?_⟩
  refine (indexed_calm hE).mono fun _ h1 => (indexed_calm hE).mono fun _ _ => ?_
  refine current_epoch_calm hE ?_
  refine (slash_all_calm hsl false h hr hi fun i hi => h1 i ?_).mono fun b s' g =>
    ⟨fun _ => rfl, fun _ => g⟩
  rw [mem_sortBy, mem_iterate] at hi
  exact (mem_setOfList).1 (List.mem_filter.1 hi).1

theorem proposer_slashing_calm (hE : SaneConfig E) (hq : SaneQuotients E) {f : Fork}
    (hf : f ≠ .Electra) {k : Nat} (h : Wellformed E s) (hr : Room k s) (op : ProposerSlashing) :
    CalmM (process_proposer_slashing E f op) (fun _ s' => Kept E k s s') s :=
  (proposer_slashing_calm_of hE (slasher hE hq hf) h hr trivial op).mono fun _ _ g => g.1

theorem attester_slashing_calm (hE : SaneConfig E) (hq : SaneQuotients E) {f : Fork}
    (hf : f ≠ .Electra) {k : Nat} (h : Wellformed E s) (hr : Room k s) (op : AttesterSlashing) :
    CalmM (process_attester_slashing E f op) (fun _ s' => Kept E k s s') s :=
  (attester_slashing_calm_of hE (slasher hE hq hf) h hr trivial op).mono fun _ _ g => g.1

/-! ## Exits -/

theorem voluntary_exit_calm_of (hE : SaneConfig E) (hq : SaneQuotients E) {f : Fork} {k : Nat}
    {I : State → Prop} (hex : Exiter E f k I)
    (hp : f = .Electra → ∀ i, Calm (Electra.get_pending_balance_to_withdraw s i) fun _ => True)
    (h : Wellformed E s) (hr : Room k s) (hi : I s) (op : SignedVoluntaryExit) :
    CalmM (process_voluntary_exit E f op) (fun _ s' => Kept E k s s' ∧ I s') s := by
  have hb : U64_BOUND = 2 ^ 64 := rfl
  have hslot := h.slot
  have hep := epochOf_le E s.slot
  have hsh := hq.shard_committee_period
  unfold process_voluntary_exit
  simp only [calm]
  refine ⟨fun v hv => current_epoch_calm hE ⟨fun _ => rfl, fun ha => ⟨fun _ => rfl, fun _ =>
    ⟨fun _ => rfl, fun _ => ?_⟩⟩⟩, fun _ => rfl⟩
  have hact : v.activation_epoch ≤ epochOf E s.slot := by
    unfold is_active_validator at ha; simp at ha; exact ha.1
  have := h.eligible v (List.mem_of_getElem? hv)
  refine ⟨by omega, fun _ => rfl, fun _ => ?_⟩
  have hd : Calm (voluntary_exit_domain E f s op.message.epoch) fun _ => True := by
    unfold voluntary_exit_domain
    cases f <;> trivial
  have hrest := hex _ _ _ h hr hi hv
  cases f
  case Electra =>
    simp only [calm]
    exact (hp rfl _).mono fun _ _ => ⟨fun _ => rfl, fun _ => hd.mono fun _ _ =>
      ⟨fun _ => rfl, fun _ => hrest⟩⟩
  all_goals
    exact ⟨fun _ => rfl, fun _ => hd.mono fun _ _ => ⟨fun _ => rfl, fun _ => hrest⟩⟩

theorem voluntary_exit_calm (hE : SaneConfig E) (hq : SaneQuotients E) {f : Fork}
    (hf : f ≠ .Electra) {k : Nat} (h : Wellformed E s) (hr : Room k s) (op : SignedVoluntaryExit) :
    CalmM (process_voluntary_exit E f op) (fun _ s' => Kept E k s s') s :=
  (voluntary_exit_calm_of hE hq (exiter hE hf) (fun e => absurd e hf) h hr trivial op).mono
    fun _ _ g => g.1

/-! ## Attestations -/

theorem previous_epoch_calm (hE : SaneConfig E) {Q : Nat → Prop}
    (h : Q (epochOf E s.slot - 1)) : Calm (get_previous_epoch E s) Q := by
  unfold get_previous_epoch
  simp only [calm]
  refine current_epoch_calm hE ⟨fun h0 => ?_, fun h0 => ⟨?_, h⟩⟩
  · rw [h0] at h; exact h
  · have : epochOf E s.slot ≠ 0 := h0
    omega

/-- A checked attestation is of the current or the previous epoch and not from the future. -/
theorem attestation_data_calm (hE : SaneConfig E) (h : Wellformed E s) {f : Fork}
    {d : AttestationData} :
    Calm (check_attestation_data E f s d) fun c =>
      d.target.epoch = epochOf E d.slot ∧ d.target.epoch ≤ epochOf E s.slot ∧
        d.slot + E.min_attestation_inclusion_delay ≤ s.slot ∧
        (c = decide (d.target.epoch = epochOf E s.slot)) ∧
        (d.target.epoch = epochOf E s.slot ∨ d.target.epoch = epochOf E s.slot - 1) := by
  have hb : U64_BOUND = 2 ^ 64 := rfl
  have hspe := hE.slots_per_epoch
  have hslot := h.slot
  have hdel := hE.min_attestation_inclusion_delay
  unfold check_attestation_data compute_epoch_at_slot
  simp only [calm]
  refine previous_epoch_calm hE (current_epoch_calm hE ⟨fun _ => rfl, fun h1 =>
    ⟨by omega, fun _ => rfl, fun h2 => ?_⟩⟩)
  have h1' : d.target.epoch = epochOf E s.slot ∨ d.target.epoch = epochOf E s.slot - 1 := by
    simp at h1; tauto
  have h2' : d.target.epoch = d.slot / E.slots_per_epoch := by simpa using h2
  have hle : d.target.epoch ≤ epochOf E s.slot := by omega
  have hds : d.slot < (epochOf E s.slot + 1) * E.slots_per_epoch := by
    rw [← Nat.div_lt_iff_lt_mul (by omega)]; omega
  have hss : epochOf E s.slot * E.slots_per_epoch ≤ s.slot := Nat.div_mul_le_self _ _
  rw [Nat.add_mul] at hds
  refine ⟨by omega, ?_⟩
  cases f <;> simp only [calm]
  all_goals try refine ⟨by omega, ?_⟩
  all_goals refine ⟨fun _ => rfl, fun h3 => ⟨h2', hle, ?_, trivial, h1'⟩⟩
  all_goals simp at h3; omega

theorem committee_calm (hE : SaneConfig E) (h : Wellformed E s) {slot index count : Nat}
    (hs : slot < 2 ^ 48) (hc : get_committee_count_per_slot E s (epochOf E slot) = .ok count)
    (hi : index < count) :
    Calm (get_beacon_committee E s slot index) fun c => ∀ i ∈ c, i < s.validators.length := by
  have hspe := hE.slots_per_epoch
  have := epochOf_le E slot
  have key := get_beacon_committee_eq E hE s h.shaped (epochOf E slot) (by omega) count hc
    (slot % E.slots_per_epoch) index (Nat.mod_lt _ hspe.1) hi
  have hdm : epochOf E slot * E.slots_per_epoch + slot % E.slots_per_epoch = slot :=
    Nat.div_add_mod' _ _
  rw [hdm] at key
  rw [key]
  intro i hi
  obtain ⟨v, hv, -⟩ := mem_activeIndices.1
    ((shuffledList_perm _ _ _).mem_iff.1 (List.mem_of_mem_take (List.mem_of_mem_drop hi)))
  exact (List.getElem?_eq_some_iff.1 hv).1

theorem count_calm (hE : SaneConfig E) {epoch : Nat} :
    Calm (get_committee_count_per_slot E s epoch) fun _ => True := by
  rw [committee_count_eq hE]; trivial

/-- After the checks, the committee of the attestation is known. -/
theorem attestation_committee_calm (hE : SaneConfig E) (h : Wellformed E s) {a : Attestation}
    (ht : a.data.target.epoch = epochOf E a.data.slot) (hs : a.data.slot < 2 ^ 48) :
    Calm (check_attestation_committee E s a) fun _ =>
      Calm (get_attesting_indices E s a.data a.aggregation_bits)
        fun l => l.Nodup ∧ ∀ i ∈ l, i < s.validators.length := by
  unfold check_attestation_committee
  simp only [calm]
  refine (count_calm hE).mono' fun count hc _ => ⟨fun _ => rfl, fun hi => ?_⟩
  rw [ht] at hc
  have hcom := committee_calm hE h hs hc (by simpa using hi)
  refine hcom.mono fun c _ => ⟨fun _ => rfl, fun _ => ?_⟩
  unfold get_attesting_indices
  simp only [calm]
  refine hcom.mono fun c hc' => ⟨fun _ => rfl, fun _ => ⟨nodup_iterate nodup_setOfList, fun i hi => ?_⟩⟩
  unfold attesters_of at hi
  rw [mem_iterate, mem_setOfList] at hi
  obtain ⟨⟨j, b⟩, hj, hb⟩ := List.mem_filterMap.1 hi
  have hji : j = i := by cases b <;> simp_all
  exact hc' i (hji ▸ (List.of_mem_zip hj).1)

theorem phase0_attestation_calm (hE : SaneConfig E) {k : Nat} (h : Wellformed E s) (hr : Room k s)
    (a : Attestation) :
    CalmM (Phase0.process_attestation E a) (fun _ s' => Kept E k s s') s := by
  have hslot := h.slot
  unfold Phase0.process_attestation
  simp only [calm]
  refine (attestation_data_calm hE h).mono fun c ⟨h1, h2, h3, _, _⟩ => ?_
  refine (attestation_committee_calm hE h h1 (by omega)).mono fun _ hatt => ?_
  unfold get_indexed_attestation
  simp only [calm]
  refine hatt.mono fun l _ => ?_
  refine (indexed_calm hE).mono fun _ _ => ⟨by omega, ?_⟩
  refine (proposer_calm hE h).mono fun p _ => ?_
  refine ⟨fun _ => ⟨fun _ => rfl, fun _ => ?_⟩, fun _ => ⟨fun _ => rfl, fun _ => ?_⟩⟩
  all_goals
    exact ⟨⟨⟨h.shaped.1, h.shaped.2, h.shaped.3, h.shaped.4, h.shaped.5, h.shaped.6⟩, h.balances,
      h.slot, h.effective, h.exit, h.eligible⟩, ⟨hr.stake, hr.balances, hr.slashings⟩, rfl, rfl⟩

/-! ## Header, RANDAO, eth1 votes -/

theorem header_calm (hE : SaneConfig E) {f : Fork} {k : Nat} (h : Wellformed E s) (hr : Room k s)
    (b : BeaconBlock) :
    CalmM (process_block_header E f b) (fun _ s' => Kept E k s s') s := by
  unfold process_block_header
  simp only [calm]
  refine ⟨fun _ => rfl, fun _ => ⟨fun _ => rfl, fun _ => (proposer_calm hE h).mono fun p hp =>
    ⟨fun _ => rfl, fun hpp => ⟨fun _ => rfl, fun _ => ?_⟩⟩⟩⟩
  have : b.proposer_index = p := by simpa using hpp
  refine ⟨_, List.getElem?_eq_getElem (by rw [this]; exact hp), fun _ => rfl, fun _ => ?_⟩
  exact ⟨⟨⟨h.shaped.1, h.shaped.2, h.shaped.3, h.shaped.4, h.shaped.5, h.shaped.6⟩, h.balances,
      h.slot, h.effective, h.exit, h.eligible⟩, ⟨hr.stake, hr.balances, hr.slashings⟩, rfl, rfl⟩

theorem randao_mix_calm (hE : SaneConfig E) (h : Wellformed E s) {e : Nat} :
    Calm (get_randao_mix E s e) fun _ => True := by
  have hv := hE.epochs_per_historical_vector
  unfold get_randao_mix
  simp only [calm]
  exact ⟨by omega, _, List.getElem?_eq_getElem (by
    rw [h.shaped.randao_mixes]; exact Nat.mod_lt _ (by omega)), trivial⟩

theorem randao_calm (hE : SaneConfig E) {k : Nat} (h : Wellformed E s) (hr : Room k s)
    (b : BeaconBlockBody) :
    CalmM (process_randao E b) (fun _ s' => Kept E k s s') s := by
  have hv := hE.epochs_per_historical_vector
  unfold process_randao
  simp only [calm]
  refine current_epoch_calm hE ((proposer_calm hE h).mono fun p hp =>
    ⟨_, List.getElem?_eq_getElem hp, (get_domain_calm hE).mono fun _ _ => ⟨fun _ => rfl, fun _ =>
      (randao_mix_calm hE h).mono fun m _ => ⟨by omega, ?_, ?_⟩⟩⟩)
  · rw [h.shaped.randao_mixes]; exact Nat.mod_lt _ (by omega)
  · exact ⟨⟨⟨h.shaped.1, h.shaped.2, by simpa using h.shaped.3, h.shaped.4, h.shaped.5,
      h.shaped.6⟩, h.balances, h.slot, h.effective, h.exit, h.eligible⟩,
      ⟨hr.stake, hr.balances, hr.slashings⟩, rfl, rfl⟩

theorem eth1_calm (hE : SaneConfig E) (hq : SaneQuotients E) {k : Nat} (h : Wellformed E s)
    (hr : Room k s) (hvotes : s.eth1_data_votes.length < 2 ^ 62) (b : BeaconBlockBody) :
    CalmM (process_eth1_data E b) (fun _ s' => Kept E k s s' ∧
      s'.eth1_deposit_index = s.eth1_deposit_index ∧
      (s'.eth1_data = s.eth1_data ∨ s'.eth1_data = b.eth1_data)) s := by
  have hb : U64_BOUND = 2 ^ 64 := rfl
  have hspe := hE.slots_per_epoch
  have hp := hq.eth1_voting_period
  unfold process_eth1_data
  simp only [calm]
  have hc : (s.eth1_data_votes ++ [b.eth1_data]).countP (fun vote => decide (vote = b.eth1_data)) ≤
      s.eth1_data_votes.length + 1 := by
    refine Nat.le_trans List.countP_le_length ?_
    simp
  have hm : E.epochs_per_eth1_voting_period * E.slots_per_epoch ≤ 2 ^ 32 * 2 ^ 8 :=
    Nat.mul_le_mul hp hspe.2
  refine ⟨by omega, by omega, fun _ => ?_, fun _ => ?_⟩
  all_goals
    refine ⟨⟨⟨⟨h.shaped.1, h.shaped.2, h.shaped.3, h.shaped.4, h.shaped.5,
      h.shaped.6⟩, h.balances, h.slot, h.effective, h.exit, h.eligible⟩,
      ⟨hr.stake, hr.balances, hr.slashings⟩, rfl, rfl⟩, trivial, ?_⟩
    simp

end Verif
