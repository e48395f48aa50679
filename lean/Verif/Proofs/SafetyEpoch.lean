import Verif.Proofs.SafetyRewards
import Verif.Proofs.Activation

/-! # Epoch processing does not panic -/

namespace Verif

open Spec Props

variable {E : Env} {s s' : State}

/-! ## Justification -/

theorem justify_calm (hE : SaneConfig E) (h : Wellformed E s) {epoch bit target total : Nat}
    (hs : 0 < s.slot) (he : epoch ≤ epochOf E s.slot) (h1 : target ≤ 2 ^ 56) (h2 : total ≤ 2 ^ 56) :
    CalmM (justify_epoch E epoch bit target total) (fun _ s' => ∃ c b, s' = { s with
      current_justified_checkpoint := c
      justification_bits := b } ∧ b.length = s.justification_bits.length) s := by
  have hU : U64_BOUND = 2 ^ 64 := rfl
  have hslot := h.slot
  have hm : epoch * E.slots_per_epoch ≤ s.slot :=
    Nat.le_trans (Nat.mul_le_mul_right _ he) (Nat.div_mul_le_self _ _)
  unfold justify_epoch get_block_root compute_start_slot_at_epoch
  simp only [calm]
  refine ⟨by omega, by omega, fun _ => ⟨by omega, (block_root_at_calm hE h hs).mono fun r _ =>
    ⟨_, _, rfl, by simp⟩⟩, fun _ => ⟨_, _, rfl, rfl⟩⟩

theorem finalizes_calm {bits : List Bool} {lo hi k cur : Nat} {c : Checkpoint}
    (hc : c.epoch < 2 ^ 63) (hk : k ≤ 3) :
    Calm (finalizes bits lo hi c k cur) fun b => b = true → c.epoch + k = cur := by
  have hU : U64_BOUND = 2 ^ 64 := rfl
  unfold finalizes
  simp only [calm]
  exact ⟨fun _ => ⟨by omega, of_decide_eq_true⟩, fun _ => by simp⟩

theorem finalizations_calm {p c : Checkpoint} {cur : Nat} (hp : p.epoch < 2 ^ 63)
    (hc : c.epoch < 2 ^ 63) (hf : s.finalized_checkpoint.epoch ≤ cur - 1) :
    CalmM (process_finalizations p c cur) (fun _ s' => ∃ d, s' = { s with
      finalized_checkpoint := d } ∧ d.epoch ≤ cur - 1) s := by
  unfold process_finalizations
  simp only [calm]
  refine (finalizes_calm hp (by decide)).mono fun b1 h1 => (finalizes_calm hp (by decide)).mono
    fun b2 h2 => (finalizes_calm hc (by decide)).mono fun b3 h3 =>
      (finalizes_calm hc (by decide)).mono fun b4 h4 => ⟨_, rfl, ?_⟩
  cases b1 <;> cases b2 <;> cases b3 <;> cases b4 <;> simp_all <;> omega

/-- Changing only checkpoints and bits. -/
theorem wf_checkpoints {a b c : Checkpoint} {bits : List Bool} (h : Wellformed E s)
    (hb : bits.length = 4) : Wellformed E { s with
      previous_justified_checkpoint := a
      current_justified_checkpoint := b
      finalized_checkpoint := c
      justification_bits := bits } :=
  ⟨⟨h.shaped.1, h.shaped.2, h.shaped.3, h.shaped.4, h.shaped.5, hb⟩, h.balances, h.slot,
    h.effective, h.exit, h.eligible⟩

theorem justification_calm (hE : SaneConfig E) {f : Fork} (h : Wellformed E s)
    (hbal : epochOf E s.slot ≠ 0 → Calm (justification_balances E f s) fun b =>
      b.1 ≤ 2 ^ 56 ∧ b.2.1 ≤ 2 ^ 56 ∧ b.2.2 ≤ 2 ^ 56)
    (hp : s.previous_justified_checkpoint.epoch < 2 ^ 63)
    (hc : s.current_justified_checkpoint.epoch < 2 ^ 63)
    (hf : s.finalized_checkpoint.epoch ≤ epochOf E s.slot - 1) :
    CalmM (process_justification_and_finalization E f) (fun _ s' => ∃ a b c bits, s' = { s with
      previous_justified_checkpoint := a
      current_justified_checkpoint := b
      finalized_checkpoint := c
      justification_bits := bits } ∧ bits.length = 4 ∧ c.epoch ≤ epochOf E s.slot - 1) s := by
  have hbits := h.shaped.justification_bits
  have hep := epochOf_le E s.slot
  unfold process_justification_and_finalization
  simp only [calm]
  refine current_epoch_calm hE ⟨fun _ => ⟨_, _, _, _, rfl, hbits, hf⟩, fun hgt => ?_⟩
  have hge : GENESIS_EPOCH = 0 := rfl
  refine (hbal (by omega)).mono fun b ⟨b1, b2, b3⟩ => ?_
  unfold weigh_justification_and_finalization
  simp only [calm]
  refine previous_epoch_calm hE (current_epoch_calm hE ?_)
  have hw : Wellformed E { s with
      previous_justified_checkpoint := s.current_justified_checkpoint
      justification_bits := false :: s.justification_bits.take 3 } :=
    wf_checkpoints (b := s.current_justified_checkpoint) (c := s.finalized_checkpoint) h
      (by simp [hbits])
  refine (justify_calm hE (s := { s with
    previous_justified_checkpoint := s.current_justified_checkpoint
    justification_bits := false :: s.justification_bits.take 3 }) hw (show 0 < s.slot by omega)
    (show epochOf E s.slot - 1 ≤ epochOf E s.slot by omega) b2 b1).mono ?_
  rintro - - ⟨c1, bits1, rfl, g1⟩
  simp only at g1
  have hb1 : bits1.length = 4 := by rw [g1]; simp [hbits]
  have hw1 := wf_checkpoints (a := s.current_justified_checkpoint) (b := c1)
    (c := s.finalized_checkpoint) h hb1
  refine (justify_calm hE (s := { s with
    previous_justified_checkpoint := s.current_justified_checkpoint
    current_justified_checkpoint := c1
    justification_bits := bits1 }) hw1 (show 0 < s.slot by omega)
    (show epochOf E s.slot ≤ epochOf E s.slot from Nat.le_refl _) b3 b1).mono ?_
  rintro - - ⟨c2, bits2, rfl, g2⟩
  simp only at g2
  refine (finalizations_calm (s := { s with
    previous_justified_checkpoint := s.current_justified_checkpoint
    current_justified_checkpoint := c2
    justification_bits := bits2 }) hp hc hf).mono ?_
  rintro - - ⟨d, rfl, g3⟩
  exact ⟨_, _, _, _, rfl, g2.trans hb1, g3⟩

theorem altair_balances_calm (hE : SaneConfig E) (hq : SaneQuotients E) (hx : SaneEpochs E)
    {f : Fork} (hf : f ≠ .Phase0) (hT : effectiveSum s ≤ 2 ^ 56) (hpar : Parallel f s) :
    Calm (justification_balances E f s) fun b =>
      b.1 ≤ 2 ^ 56 ∧ b.2.1 ≤ 2 ^ 56 ∧ b.2.2 ≤ 2 ^ 56 := by
  obtain ⟨hp, hc, -⟩ := hpar.2 hf
  have htot := total_le (s := s) hx hT
  have key : Calm (do
      let current_epoch ← get_current_epoch E s
      let previous_epoch ← get_previous_epoch E s
      let previous_indices ←
        get_unslashed_participating_indices E s TIMELY_TARGET_FLAG_INDEX previous_epoch
      let current_indices ←
        get_unslashed_participating_indices E s TIMELY_TARGET_FLAG_INDEX current_epoch
      let total ← get_total_active_balance E s
      let previous ← get_total_balance E s previous_indices
      let current ← get_total_balance E s current_indices
      return (total, previous, current) : R (Nat × Nat × Nat)) fun b =>
      b.1 ≤ 2 ^ 56 ∧ b.2.1 ≤ 2 ^ 56 ∧ b.2.2 ≤ 2 ^ 56 := by
    simp only [calm]
    refine current_epoch_calm hE (previous_epoch_calm hE ?_)
    refine (participating_calm hE (by decide) hp hc).mono fun ps ⟨n1, n2⟩ => ?_
    refine (participating_calm hE (by decide) hp hc).mono fun cs ⟨m1, m2⟩ => ?_
    refine (total_active_calm hE hq).mono fun A ⟨_, _, hA⟩ => ?_
    refine (total_balance_calm hq n2).mono fun P ⟨_, _, hP⟩ => ?_
    refine (total_balance_calm hq m2).mono fun C ⟨_, _, hC⟩ => ?_
    have := effSum_le (s := s) n1
    have := effSum_le (s := s) m1
    exact ⟨by omega, by omega, by omega⟩
  unfold justification_balances
  cases f <;> first | exact absurd rfl hf | exact key

/-! ## Registry updates -/

/-- The same state up to validators and the exit queue, with the same effective balances; whoever is
active in the next epoch stays so. -/
structure Turnover (E : Env) (s t : State) : Prop where
  only : ∃ vs e r, t = { s with
    validators := vs
    earliest_exit_epoch := e
    exit_balance_to_consume := r }
  wf : Wellformed E t
  effective : t.validators.map Validator.effective_balance =
    s.validators.map Validator.effective_balance
  active : (∃ v ∈ s.validators, ActiveAt v (epochOf E s.slot + 1)) →
    ∃ v ∈ t.validators, ActiveAt v (epochOf E s.slot + 1)

theorem Turnover.slot {t : State} (h : Turnover E s t) : t.slot = s.slot := by
  obtain ⟨vs, e, r, rfl⟩ := h.only; rfl

theorem Turnover.finalized {t : State} (h : Turnover E s t) :
    t.finalized_checkpoint = s.finalized_checkpoint := by
  obtain ⟨vs, e, r, rfl⟩ := h.only; rfl

theorem Turnover.length {t : State} (h : Turnover E s t) :
    t.validators.length = s.validators.length := by
  simpa using congrArg List.length h.effective

/-- One validator and the exit queue change. -/
theorem Turnover.exit {t : State} {i : Nat} {v w : Validator} (h : Turnover E s t)
    (hv : t.validators[i]? = some v) (he : w.effective_balance = v.effective_balance)
    (hx : w.exit_epoch < 2 ^ 64) (hel : w.activation_eligibility_epoch ≤ w.activation_epoch)
    (ha : ActiveAt v (epochOf E s.slot + 1) → ActiveAt w (epochOf E s.slot + 1))
    {e r : Nat} : Turnover E s { t with
      validators := t.validators.set i w
      earliest_exit_epoch := e
      exit_balance_to_consume := r } := by
  have hm := List.mem_of_getElem? hv
  have hlt := (List.getElem?_eq_some_iff.1 hv).1
  have hw := h.wf
  refine ⟨?_, ⟨⟨hw.shaped.1, hw.shaped.2, hw.shaped.3, hw.shaped.4, by simpa using hw.shaped.5,
    hw.shaped.6⟩, by simpa using hw.balances, hw.slot, ?_, ?_, ?_⟩, ?_, ?_⟩
  · obtain ⟨vs, e, r, rfl⟩ := h.only; exact ⟨_, _, _, rfl⟩
  · intro u hu
    rcases mem_set_cases hu with hu | rfl
    · exact hw.effective u hu
    · rw [he]; exact hw.effective v hm
  · intro u hu
    rcases mem_set_cases hu with hu | rfl
    · exact hw.exit u hu
    · exact hx
  · intro u hu
    rcases mem_set_cases hu with hu | rfl
    · exact hw.eligible u hu
    · exact hel
  · exact (map_effective_set hv he).trans h.effective
  · intro hex
    obtain ⟨u, hu, hu'⟩ := h.active hex
    obtain ⟨j, hj⟩ := List.mem_iff_getElem?.1 hu
    by_cases hij : i = j
    · subst hij
      rw [hv] at hj; cases hj
      exact ⟨w, List.mem_of_getElem? (List.getElem?_set_self hlt), ha hu'⟩
    · exact ⟨u, List.mem_of_getElem? (i := j) (by rw [List.getElem?_set_ne hij]; exact hj), hu'⟩

/-- One validator changes. -/
theorem Turnover.set {t : State} {i : Nat} {v w : Validator} (h : Turnover E s t)
    (hv : t.validators[i]? = some v) (he : w.effective_balance = v.effective_balance)
    (hx : w.exit_epoch < 2 ^ 64) (hel : w.activation_eligibility_epoch ≤ w.activation_epoch)
    (ha : ActiveAt v (epochOf E s.slot + 1) → ActiveAt w (epochOf E s.slot + 1)) :
    Turnover E s { t with validators := t.validators.set i w } :=
  h.exit hv he hx hel ha (e := t.earliest_exit_epoch) (r := t.exit_balance_to_consume)

/-- Properties of the state that do not depend on when validators become active. -/
def Indifferent (I : State → Prop) : Prop :=
  ∀ t i v w, I t → t.validators[i]? = some v → w.effective_balance = v.effective_balance →
    w.exit_epoch = v.exit_epoch → I { t with validators := t.validators.set i w }

theorem mark_calm {f : Fork} {t : State} {I : State → Prop} (hI : Indifferent I)
    (h : Turnover E s t) (hit : I t) {i : Nat} (hi : i < t.validators.length) :
    CalmM (mark_eligible E f (epochOf E s.slot) i) (fun _ t' => Turnover E s t' ∧ I t') t := by
  have hU : U64_BOUND = 2 ^ 64 := rfl
  have hfar : FAR_FUTURE_EPOCH = 2 ^ 64 - 1 := rfl
  have hslot := h.wf.slot
  rw [h.slot] at hslot
  have hep := epochOf_le E s.slot
  have hv := List.getElem?_eq_getElem hi
  unfold mark_eligible
  simp only [calm]
  refine ⟨_, hv, fun hj => ⟨by omega, _, hv, ?_, hI _ _ _ _ hit hv rfl rfl⟩, fun _ => ⟨h, hit⟩⟩
  have hel : (t.validators[i]).activation_eligibility_epoch = FAR_FUTURE_EPOCH := by
    cases f <;> simp [Fork.is_eligible_for_activation_queue,
      Verif.is_eligible_for_activation_queue, Electra.is_eligible_for_activation_queue] at hj <;>
      exact hj.1
  have hle := h.wf.eligible _ (List.mem_of_getElem? hv)
  have hxe := h.wf.exit _ (List.mem_of_getElem? hv)
  exact h.set hv rfl hxe (by simp only; omega) fun h => h

theorem eject_calm (hE : SaneConfig E) (hx : SaneEpochs E) {f : Fork} (hf : f ≠ .Electra)
    {t : State} (h : Turnover E s t) {i : Nat} (hi : i < t.validators.length) :
    CalmM (eject_if_low E f (epochOf E s.slot) i) (fun _ t' => Turnover E s t') t := by
  have hla := hx.lookahead
  have hv := List.getElem?_eq_getElem hi
  unfold eject_if_low
  simp only [calm]
  refine ⟨_, hv, fun _ => ?_, fun _ => h⟩
  refine (initiate_calm hE hf h.wf hv).mono ?_
  rintro - - ⟨-, w, xe, xr, rfl, h1, h2, h3, h4, h5, h6⟩
  have hle := h.wf.eligible _ (List.mem_of_getElem? hv)
  refine h.exit hv h1 h5 (by omega) fun ⟨a1, a2⟩ => ⟨by omega, ?_⟩
  rw [h.slot] at h6
  omega

theorem to_activate_calm (hE : SaneConfig E) {f : Fork} :
    Calm (to_activate E f s) fun l => ∀ i ∈ l, WaitsInQueue s i := by
  have hc := hE.churn_limit_quotient
  have key : Calm (do
      let n ← activation_limit E f s
      return (activation_queue s).take n : R (List Nat)) fun l => ∀ i ∈ l, WaitsInQueue s i := by
    unfold activation_limit get_validator_churn_limit
    simp only [calm]
    exact current_epoch_calm hE ⟨by omega, fun i hi =>
      ((queue_spec s).1 i).1 (List.mem_of_mem_take hi)⟩
  unfold to_activate
  cases f <;> first | exact key | skip
  simp only [calm]
  intro i hi
  rw [List.mem_filterMap] at hi
  obtain ⟨⟨v, j⟩, h1, h2⟩ := hi
  rw [List.mem_zipIdx_iff_getElem?] at h1
  simp only at h1 h2
  split at h2
  · rename_i he
    simp only [Option.some.injEq] at h2
    subst h2
    simp only [is_eligible_for_activation, Bool.and_eq_true, decide_eq_true_eq, beq_iff_eq] at he
    exact ⟨v, h1, he.1, he.2⟩
  · cases h2

/-- Registry updates of any fork, given that ejections do not panic. -/
theorem registry_calm_of (hE : SaneConfig E) (hx : SaneEpochs E) {f : Fork} {I : State → Prop}
    (hI : Indifferent I)
    (heject : ∀ t i, Turnover E s t → I t → i < t.validators.length →
      CalmM (eject_if_low E f (epochOf E s.slot) i) (fun _ t' => Turnover E s t' ∧ I t') t)
    (h : Wellformed E s) (hi0 : I s) (hfin : s.finalized_checkpoint.epoch ≤ epochOf E s.slot - 1) :
    CalmM (process_registry_updates E f) (fun _ s' => Turnover E s s' ∧ I s') s := by
  have hU : U64_BOUND = 2 ^ 64 := rfl
  have hslot := h.slot
  have hep := epochOf_le E s.slot
  have hla := hx.lookahead
  have hla2 := hE.max_seed_lookahead
  unfold process_registry_updates
  simp only [calm]
  refine current_epoch_calm hE ?_
  refine CalmM_forEach (fun rest t => (Turnover E s t ∧ I t) ∧ ∀ i ∈ rest, i < s.validators.length)
    ?_ ?_ ⟨⟨⟨⟨_, _, _, rfl⟩, h, rfl, fun h => h⟩, hi0⟩, fun i hi => List.mem_range.1 hi⟩
  · rintro i rest t ⟨⟨g1, gi⟩, g2⟩
    have hi := g2 i (by simp)
    simp only [calm]
    refine (mark_calm hI g1 gi (by rw [g1.length]; exact hi)).mono fun _ t1 g3 => ?_
    exact (heject t1 i g3.1 g3.2 (by rw [g3.1.length]; exact hi)).mono fun _ t2 g4 =>
      ⟨g4, fun j hj => g2 j (by simp [hj])⟩
  · rintro t ⟨⟨g1, gi⟩, -⟩
    unfold compute_activation_exit_epoch
    simp only [calm]
    refine ⟨by omega, by omega, (to_activate_calm hE).mono fun l hl => ?_⟩
    refine CalmM_forEach (fun rest t' => (Turnover E s t' ∧ I t') ∧ ∀ i ∈ rest, ∃ v,
      t'.validators[i]? = some v ∧ v.activation_eligibility_epoch ≤ epochOf E s.slot ∧
        epochOf E s.slot + 1 < v.activation_epoch) ?_ (fun t' h => h.1) ⟨⟨g1, gi⟩, fun i hi => ?_⟩
    · rintro i rest t' ⟨⟨k1, ki⟩, k2⟩
      obtain ⟨v, hv, hv1, hv2⟩ := k2 i (by simp)
      have hlt := (List.getElem?_eq_some_iff.1 hv).1
      simp only [calm]
      have hxe := k1.wf.exit _ (List.mem_of_getElem? hv)
      refine ⟨v, hv, ⟨k1.set hv rfl hxe ?_ ?_, hI _ _ _ _ ki hv rfl rfl⟩, fun j hj => ?_⟩
      · simp only; omega
      · rintro ⟨a1, a2⟩; omega
      · by_cases hij : i = j
        · subst hij
          exact ⟨_, List.getElem?_set_self hlt, hv1, by simp only; omega⟩
        · obtain ⟨u, hu⟩ := k2 j (by simp [hj])
          exact ⟨u, by rw [List.getElem?_set_ne hij]; exact hu.1, hu.2⟩
    · obtain ⟨v, hv, h1, h2⟩ := hl i hi
      have hfar : FAR_FUTURE_EPOCH = 2 ^ 64 - 1 := rfl
      rw [g1.finalized] at h1
      exact ⟨v, hv, by omega, by omega⟩

theorem registry_calm (hE : SaneConfig E) (hx : SaneEpochs E) {f : Fork} (hf : f ≠ .Electra)
    (h : Wellformed E s) (hfin : s.finalized_checkpoint.epoch ≤ epochOf E s.slot - 1) :
    CalmM (process_registry_updates E f) (fun _ s' => Turnover E s s') s :=
  (registry_calm_of hE hx (I := fun _ => True) (fun _ _ _ _ _ _ _ _ => trivial)
    (fun _ _ ht _ hi => (eject_calm hE hx hf ht hi).mono fun _ _ h => ⟨h, trivial⟩) h trivial
    hfin).mono fun _ _ h => h.1

/-! ## Slashings -/

theorem sum_calm {l : List Nat} (h : l.sum < 2 ^ 64) : Calm (sumU64 l) fun n => n = l.sum := by
  have hU : U64_BOUND = 2 ^ 64 := rfl
  unfold sumU64
  refine Calm_foldlM (fun rest acc => acc + rest.sum = l.sum) ?_ (fun b hb => by simpa using hb)
    (by simp)
  intro x rest acc hacc
  rw [List.sum_cons] at hacc
  simp only [calm]
  exact ⟨by omega, by omega⟩

theorem multiplier_le (hx : SaneEpochs E) (f : Fork) :
    proportional_slashing_multiplier_of E f ≤ 2 ^ 6 := by
  have := hx.slashing_multipliers
  unfold proportional_slashing_multiplier_of
  cases f <;> dsimp only <;> omega

theorem slashing_penalty_calm (hE : SaneConfig E) {e a t : Nat}
    (he : e / E.effective_balance_increment * a < 2 ^ 64) (heb : e < 2 ^ 64) (ha : a ≤ t)
    (ht0 : 0 < t) : Calm (slashing_penalty E e a t) fun _ => True := by
  have hU : U64_BOUND = 2 ^ 64 := rfl
  have hpos := hE.effective_balance_increment
  unfold slashing_penalty
  simp only [calm]
  have h3 : e / E.effective_balance_increment * a / t ≤ e / E.effective_balance_increment := by
    apply Nat.div_le_of_le_mul
    rw [Nat.mul_comm t]
    exact Nat.mul_le_mul_left _ ha
  have h4 := Nat.mul_le_mul_right E.effective_balance_increment h3
  have h5 := Nat.div_mul_le_self e E.effective_balance_increment
  exact ⟨by omega, by omega, by omega, by omega, trivial⟩

theorem slashings_calm (hE : SaneConfig E) (hq : SaneQuotients E) (hx : SaneEpochs E) {f : Fork}
    (h : Wellformed E s) (hT : effectiveSum s ≤ 2 ^ 56)
    (heff : ∀ v ∈ s.validators, v.effective_balance / E.effective_balance_increment *
      min (s.slashings.sum * proportional_slashing_multiplier_of E f) (2 ^ 56) < 2 ^ 64)
    (hsl : s.slashings.sum ≤ 2 ^ 57) {K : Nat} (hK : ∀ b ∈ s.balances, b ≤ K) :
    CalmM (process_slashings E f) (fun _ s' => ∃ l, s' = withBalances s l ∧
      l.length = s.balances.length ∧ ∀ b ∈ l, b ≤ K) s := by
  have hU : U64_BOUND = 2 ^ 64 := rfl
  have hslot := h.slot
  have hep := epochOf_le E s.slot
  have hpos := hE.effective_balance_increment
  have hinc := hx.increment
  have hvec := hE.epochs_per_slashings_vector
  have htot := total_le (s := s) hx hT
  have hmul := multiplier_le hx f
  unfold process_slashings
  simp only [calm]
  refine current_epoch_calm hE ((total_active_calm hE hq).mono fun A ⟨hA, _, hA'⟩ =>
    (sum_calm (by omega)).mono fun n hn => ?_)
  have : n * proportional_slashing_multiplier_of E f ≤ 2 ^ 57 * 2 ^ 6 :=
    Nat.mul_le_mul (by omega) hmul
  refine ⟨by omega, ?_⟩
  refine CalmM_forEach (fun rest t => (∀ i ∈ rest, i < s.validators.length) ∧
    ∃ l, t = withBalances s l ∧ l.length = s.balances.length ∧ ∀ b ∈ l, b ≤ K) ?_
    (fun t h => h.2) ⟨fun i hi => List.mem_range.1 hi, s.balances, rfl, rfl, hK⟩
  rintro i rest - ⟨g1, l, rfl, g2, g3⟩
  have hi := g1 i (by simp)
  have hrest : ∀ j ∈ rest, j < s.validators.length := fun j hj => g1 j (by simp [hj])
  have hv := List.getElem?_eq_getElem hi
  have hb := List.getElem?_eq_getElem (show i < l.length by rw [g2, h.balances]; exact hi)
  have he : s.validators[i].effective_balance / E.effective_balance_increment *
      min (n * proportional_slashing_multiplier_of E f) A < 2 ^ 64 := by
    refine Nat.lt_of_le_of_lt (Nat.mul_le_mul_left _ ?_) (heff _ (List.mem_of_getElem? hv))
    rw [hn]; omega
  have hve := h.effective _ (List.mem_of_getElem? hv)
  unfold apply_slashing_penalty
  simp only [calm]
  refine ⟨s.validators[i], hv, fun _ => ⟨by decide, by omega, fun _ => ?_, fun _ =>
    ⟨hrest, l, rfl, g2, g3⟩⟩, fun _ => ⟨hrest, l, rfl, g2, g3⟩⟩
  refine (slashing_penalty_calm hE he (by omega) (Nat.min_le_right _ _) (by omega)).mono
    fun p _ => decrease_balance_calm (s := withBalances s l) hb fun c hc => ?_
  refine ⟨hrest, _, rfl, by simpa [withBalances] using g2, fun b hb' => ?_⟩
  rcases mem_set_cases hb' with hb' | rfl
  · exact g3 b hb'
  · have := g3 _ (List.mem_of_getElem? hb); omega

/-- With effective balances of at most 128 increments every penalty fits. -/
theorem penalties_fit {f : Fork}
    (heff : ∀ v ∈ s.validators, v.effective_balance ≤ 2 ^ 7 * E.effective_balance_increment)
    {vs : List Validator} (hvs : vs.map Validator.effective_balance =
      s.validators.map Validator.effective_balance) (n : Nat) :
    ∀ v ∈ vs, v.effective_balance / E.effective_balance_increment *
      min (n * proportional_slashing_multiplier_of E f) (2 ^ 56) < 2 ^ 64 := by
  intro v hv
  have hm : v.effective_balance ∈ s.validators.map Validator.effective_balance :=
    hvs ▸ List.mem_map.2 ⟨v, hv, rfl⟩
  obtain ⟨w, hw', hwe⟩ := List.mem_map.1 hm
  have h0 := heff w hw'
  rw [hwe] at h0
  have h1 : v.effective_balance / E.effective_balance_increment ≤ 2 ^ 7 :=
    Nat.div_le_of_le_mul (by rw [Nat.mul_comm]; exact h0)
  have h2 := Nat.mul_le_mul h1 (Nat.min_le_right
    (n * proportional_slashing_multiplier_of E f) (2 ^ 56))
  omega

/-! ## The remaining steps -/

theorem eth1_reset_calm (hE : SaneConfig E) (hx : SaneEpochs E) (h : Wellformed E s) :
    CalmM (process_eth1_data_reset E) (fun _ s' => ∃ l, s' = { s with eth1_data_votes := l }) s := by
  have hU : U64_BOUND = 2 ^ 64 := rfl
  have hslot := h.slot
  have hep := epochOf_le E s.slot
  have := hx.eth1_voting_period
  unfold process_eth1_data_reset
  simp only [calm]
  exact current_epoch_calm hE ⟨by omega, by omega, fun _ => ⟨_, rfl⟩, fun _ => ⟨_, rfl⟩⟩

theorem updated_effective_calm (hE : SaneConfig E) {f : Fork} {d u b : Nat} {v : Validator}
    (hlim : effective_balance_limit E f v ≤ 2 ^ 48) (hd : d ≤ 2 ^ 46) (hu : u ≤ 2 ^ 46)
    (hb : b ≤ 2 ^ 63) (hv : v.effective_balance ≤ 2 ^ 48) :
    Calm (updated_effective_balance E f d u v b) fun e => e ≤ 2 ^ 48 := by
  have hU : U64_BOUND = 2 ^ 64 := rfl
  have hpos := hE.effective_balance_increment
  have hmod := Nat.mod_le b E.effective_balance_increment
  unfold updated_effective_balance
  simp only [calm]
  have hfin : E.effective_balance_increment ≠ 0 ∧ b % E.effective_balance_increment ≤ b ∧
      min (b - b % E.effective_balance_increment) (effective_balance_limit E f v) ≤ 2 ^ 48 :=
    ⟨by omega, hmod, by omega⟩
  refine ⟨by omega, fun _ => ⟨fun _ => hfin, fun _ => hv⟩, fun _ => ⟨by omega, fun _ => hfin,
    fun _ => hv⟩⟩

theorem limit_le (hx : SaneEpochs E) {f : Fork} (hf : f ≠ .Electra) (v : Validator) :
    effective_balance_limit E f v ≤ 2 ^ 48 := by
  have hinc := hx.increment
  have hmax := hx.max_effective_balance
  have hlim : effective_balance_limit E f v = E.max_effective_balance := by
    cases f <;> first | exact absurd rfl hf | rfl
  omega

theorem effective_calm (hE : SaneConfig E) (hx : SaneEpochs E) {f : Fork}
    (hlim : ∀ v, effective_balance_limit E f v ≤ 2 ^ 48) (h : Wellformed E s) (hb : ∀ b ∈ s.balances, b ≤ 2 ^ 63) :
    CalmM (process_effective_balance_updates E f) (fun _ s' => Wellformed E s' ∧
      (∃ vs, s' = { s with validators := vs }) ∧ ((∃ v ∈ s.validators,
        ActiveAt v (epochOf E s.slot + 1)) → ∃ v ∈ s'.validators,
          ActiveAt v (epochOf E s.slot + 1))) s := by
  have hU : U64_BOUND = 2 ^ 64 := rfl
  have hinc := hx.increment
  have hq := hx.hysteresis_quotient
  obtain ⟨m1, m2⟩ := hx.hysteresis_multipliers
  have hle : E.effective_balance_increment / E.hysteresis_quotient ≤ 2 ^ 30 :=
    Nat.le_trans (Nat.div_le_self _ _) hinc
  have hd := Nat.mul_le_mul hle m1
  have hu := Nat.mul_le_mul hle m2
  unfold process_effective_balance_updates
  simp only [calm]
  refine ⟨by omega, by omega, by omega, ?_⟩
  refine CalmM_forEach (fun rest t => (∀ i ∈ rest, i < s.validators.length) ∧ Wellformed E t ∧
    t.validators.length = s.validators.length ∧ (∃ vs, t = { s with validators := vs }) ∧
    ((∃ v ∈ s.validators, ActiveAt v (epochOf E s.slot + 1)) → ∃ v ∈ t.validators,
      ActiveAt v (epochOf E s.slot + 1))) ?_ (fun t g => ⟨g.2.1, g.2.2.2⟩)
    ⟨fun i hi => List.mem_range.1 hi, h, rfl, ⟨_, rfl⟩, fun h => h⟩
  rintro i rest - ⟨g1, hw, g2, ⟨vs, rfl⟩, g3⟩
  simp only at g2 g3
  have hi := g1 i (by simp)
  have hlt : i < vs.length := by omega
  have hv := List.getElem?_eq_getElem hlt
  have hbi := List.getElem?_eq_getElem (show i < s.balances.length by rw [h.balances]; exact hi)
  simp only [calm]
  refine ⟨vs[i], hv, _, hbi, (updated_effective_calm hE (hlim _) (by omega) (by omega)
    (hb _ (List.mem_of_getElem? hbi)) (hw.effective _ (List.mem_of_getElem? hv))).mono
      fun e he => ⟨vs[i], hv, ?_⟩⟩
  refine ⟨fun j hj => g1 j (by simp [hj]), ⟨⟨hw.shaped.1, hw.shaped.2, hw.shaped.3, hw.shaped.4,
    by simpa using hw.shaped.5, hw.shaped.6⟩, by simpa using hw.balances, hw.slot, ?_, ?_, ?_⟩,
    by simpa using g2, ⟨_, rfl⟩, ?_⟩
  · intro u hu
    rcases mem_set_cases hu with hu | rfl
    · exact hw.effective u hu
    · exact he
  · intro u hu
    rcases mem_set_cases hu with hu | rfl
    · exact hw.exit u hu
    · have := hw.exit _ (List.mem_of_getElem? hv); exact this
  · intro u hu
    rcases mem_set_cases hu with hu | rfl
    · exact hw.eligible u hu
    · have := hw.eligible _ (List.mem_of_getElem? hv); exact this
  · intro hex
    obtain ⟨u, hu, hu'⟩ := g3 hex
    obtain ⟨j, hj⟩ := List.mem_iff_getElem?.1 hu
    by_cases hij : i = j
    · subst hij
      rw [hv] at hj; cases hj
      exact ⟨_, List.mem_of_getElem? (List.getElem?_set_self hlt), hu'⟩
    · exact ⟨u, List.mem_of_getElem? (i := j) (by rw [List.getElem?_set_ne hij]; exact hj), hu'⟩

theorem slashings_reset_calm (hE : SaneConfig E) (h : Wellformed E s) :
    CalmM (process_slashings_reset E) (fun _ s' => Wellformed E s' ∧
      ∃ l, s' = { s with slashings := l }) s := by
  have hU : U64_BOUND = 2 ^ 64 := rfl
  have hslot := h.slot
  have hep := epochOf_le E s.slot
  have hv := hE.epochs_per_slashings_vector
  unfold process_slashings_reset
  simp only [calm]
  refine current_epoch_calm hE ⟨by omega, by omega, ?_, h.slashing, _, rfl⟩
  rw [h.shaped.slashings]; exact Nat.mod_lt _ hv.1

theorem randao_reset_calm (hE : SaneConfig E) (h : Wellformed E s) :
    CalmM (process_randao_mixes_reset E) (fun _ s' => Wellformed E s' ∧
      ∃ l, s' = { s with randao_mixes := l }) s := by
  have hU : U64_BOUND = 2 ^ 64 := rfl
  have hslot := h.slot
  have hep := epochOf_le E s.slot
  have hv := hE.epochs_per_historical_vector
  unfold process_randao_mixes_reset
  simp only [calm]
  refine current_epoch_calm hE ⟨by omega, by omega, (randao_mix_calm hE h).mono fun m _ =>
    ⟨?_, ⟨⟨h.shaped.1, h.shaped.2, by simpa using h.shaped.3, h.shaped.4, h.shaped.5, h.shaped.6⟩,
      h.balances, h.slot, h.effective, h.exit, h.eligible⟩, _, rfl⟩⟩
  rw [h.shaped.randao_mixes]; exact Nat.mod_lt _ (by omega)

theorem historical_calm (hE : SaneConfig E) {f : Fork} (h : Wellformed E s) :
    CalmM (process_historical_update E f) (fun _ s' => Wellformed E s' ∧
      ∃ l m, s' = { s with
        historical_roots := l
        historical_summaries := m }) s := by
  have hU : U64_BOUND = 2 ^ 64 := rfl
  have hslot := h.slot
  have hep := epochOf_le E s.slot
  have hr := hE.slots_per_historical_root
  have hspe := hE.slots_per_epoch
  have hpos : 0 < E.slots_per_historical_root / E.slots_per_epoch := Nat.div_pos (by omega) hspe.1
  unfold process_historical_update
  simp only [calm]
  refine current_epoch_calm hE ⟨by omega, by omega, by omega, fun _ => ?_, fun _ =>
    ⟨h, _, _, rfl⟩⟩
  cases f <;> exact ⟨⟨⟨h.shaped.1, h.shaped.2, h.shaped.3, h.shaped.4, h.shaped.5, h.shaped.6⟩,
      h.balances, h.slot, h.effective, h.exit, h.eligible⟩, _, _, rfl⟩

theorem sync_loop_calm (hE : SaneConfig E) (h : Wellformed E s) {active : List Nat} {seed : Bytes32}
    (hne : active ≠ []) (hlt : ∀ i ∈ active, i < s.validators.length)
    (hlen : active.length ≤ 2 ^ 40) {fuel k : Nat} {acc : List Nat}
    (hacc : ∀ i ∈ acc, i < s.validators.length) :
    Calm (sync_committee_loop E s active seed fuel k acc)
      fun l => ∀ i ∈ l, i < s.validators.length := by
  have hU : U64_BOUND = 2 ^ 64 := rfl
  have hm := hE.max_effective_balance
  have hpos : 0 < active.length := List.length_pos_of_ne_nil hne
  induction fuel generalizing k acc with
  | zero =>
    unfold sync_committee_loop
    simp only [calm]
    exact ⟨fun _ => rfl, fun _ => hacc⟩
  | succ fuel ih =>
    unfold sync_committee_loop
    simp only [calm]
    refine ⟨fun _ => ⟨by omega, ?_⟩, fun _ => hacc⟩
    have hmod : k % active.length < active.length := Nat.mod_lt _ hpos
    rw [compute_shuffled_index_eq E seed (by omega) hmod]
    have hsh := shuffledIndex_lt E seed E.shuffle_round_count hmod
    have hc := List.getElem?_eq_getElem hsh
    have hcl := hlt _ (List.mem_of_getElem? hc)
    have hv := List.getElem?_eq_getElem hcl
    have hve := h.effective _ (List.mem_of_getElem? hv)
    simp only [calm]
    refine ⟨_, hc, _, List.getElem?_eq_getElem (by simp; omega), _, hv, by omega, ?_, ?_⟩
    · have : E.max_effective_balance * ((E.hash (seed.toList ++ leBytes 8 (k / 32))).toList[k % 32]'(by
          simp; omega)).toNat ≤ 2 ^ 48 * 2 ^ 8 :=
        Nat.mul_le_mul hm (Nat.le_of_lt (UInt8.toNat_lt _))
      omega
    · apply ih
      intro i hi
      split at hi
      · rcases List.mem_append.1 hi with hi | hi
        · exact hacc i hi
        · simp only [List.mem_singleton] at hi; rw [hi]; exact hcl
      · exact hacc i hi

theorem sync_updates_calm (hE : SaneConfig E) (hx : SaneEpochs E) (h : Wellformed E s)
    (ha : ∃ v ∈ s.validators, ActiveAt v (epochOf E s.slot + 1)) :
    CalmM (process_sync_committee_updates E)
      (fun _ s' => Wellformed E s' ∧ s'.slot = s.slot) s := by
  have hU : U64_BOUND = 2 ^ 64 := rfl
  have hslot := h.slot
  have hep := epochOf_le E s.slot
  have hp := hx.sync_committee_period
  unfold process_sync_committee_updates
  simp only [calm]
  refine current_epoch_calm hE ⟨by omega, by omega, fun _ => ?_, fun _ => ⟨h, trivial⟩⟩
  unfold get_next_sync_committee get_next_sync_committee_indices
  simp only [calm]
  refine current_epoch_calm hE ⟨by omega, ?_⟩
  rw [get_seed_eq hE h.shaped (by omega)]
  simp only [calm]
  have hne : get_active_validator_indices s (epochOf E s.slot + 1) ≠ [] := by
    obtain ⟨v, hv, hv'⟩ := ha
    obtain ⟨i, hi⟩ := List.mem_iff_getElem?.1 hv
    rw [activeIndices_eq]
    exact List.ne_nil_of_mem (mem_activeIndices.2 ⟨v, hi, hv'⟩)
  have hlen : (get_active_validator_indices s (epochOf E s.slot + 1)).length ≤ 2 ^ 40 :=
    Nat.le_trans (length_active_le s _) h.shaped.registry
  refine (sync_loop_calm hE h hne (fun i hi => active_lt hi) hlen (by simp)).mono fun l hl => ?_
  refine Calm_mapM (fun i hi => ?_) fun ks _ => ⟨fun _ => rfl, fun _ => ?_⟩
  · simp only [calm]
    exact ⟨_, List.getElem?_eq_getElem (hl i hi), trivial⟩
  · split
    · exact ⟨⟨⟨h.shaped.1, h.shaped.2, h.shaped.3, h.shaped.4, h.shaped.5, h.shaped.6⟩,
        h.balances, h.slot, h.effective, h.exit, h.eligible⟩, trivial⟩
    · rfl

end Verif
