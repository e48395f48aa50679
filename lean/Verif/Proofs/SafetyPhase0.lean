import Verif.Proofs.SafetyEpoch
import Verif.Proofs.Rewards

/-! # Phase0 epoch processing: recorded attestations and rewards do not panic -/

namespace Verif

open Spec Props

variable {E : Env} {s s' : State}

theorem recorded_calm (hE : SaneConfig E) (h : Wellformed E s) {a : PendingAttestation}
    (ha : RecordedVote E s a) :
    Calm (get_attesting_indices E s a.data a.aggregation_bits)
      fun l => l.Nodup ∧ ∀ i ∈ l, i < s.validators.length := by
  unfold get_attesting_indices
  simp only [calm]
  refine (committee_calm hE h ha.slot (committee_count_eq hE s _) ha.committee).mono fun c hc =>
    ⟨fun _ => rfl, fun _ => ⟨nodup_iterate nodup_setOfList, fun i hi => ?_⟩⟩
  unfold attesters_of at hi
  rw [mem_iterate, mem_setOfList] at hi
  obtain ⟨⟨j, b⟩, hj, hb⟩ := List.mem_filterMap.1 hi
  have hji : j = i := by cases b <;> simp_all
  exact hc i (hji ▸ (List.of_mem_zip hj).1)

theorem insert_calm {out l : List Nat} (hl : ∀ i ∈ l, i < s.validators.length) :
    Calm (Phase0.insertUnslashed s out l) fun _ => True := by
  induction l generalizing out with
  | nil => trivial
  | cons i l ih =>
    rw [Phase0.insertUnslashed]
    simp only [calm]
    exact ⟨_, List.getElem?_eq_getElem (hl i (by simp)), ih fun j hj => hl j (by simp [hj])⟩

theorem unslashedFrom_calm (hE : SaneConfig E) (h : Wellformed E s) {out : List Nat}
    {l : List PendingAttestation} (hl : ∀ a ∈ l, RecordedVote E s a) :
    Calm (Phase0.unslashedFrom E s out l) fun _ => True := by
  induction l generalizing out with
  | nil => trivial
  | cons a l ih =>
    rw [Phase0.unslashedFrom]
    simp only [calm]
    refine (recorded_calm hE h (hl a (by simp))).mono fun is ⟨_, hi⟩ =>
      (insert_calm hi).mono fun _ _ => ih fun b hb => hl b (by simp [hb])

theorem unslashed_calm (hE : SaneConfig E) (h : Wellformed E s) {l : List PendingAttestation}
    (hl : ∀ a ∈ l, RecordedVote E s a) :
    Calm (Phase0.get_unslashed_attesting_indices E s l) fun r =>
      r.Nodup ∧ (∀ i ∈ r, i < s.validators.length) ∧ ∀ i ∈ r, ∃ a ∈ l, Attested E s a i := by
  have key : Calm (Phase0.get_unslashed_attesting_indices E s l) fun _ => True := by
    unfold Phase0.get_unslashed_attesting_indices
    simp only [calm]
    exact unslashedFrom_calm hE h hl
  refine key.mono' fun r hr _ => ?_
  obtain ⟨h1, h2⟩ := unslashed_attesting_eq_ok hr
  refine ⟨h1, fun i hi => ?_, fun i hi => ((h2 i).1 hi).2⟩
  obtain ⟨⟨v, hv, -⟩, -⟩ := (h2 i).1 hi
  exact (List.getElem?_eq_some_iff.1 hv).1

theorem attesting_balance_calm (hE : SaneConfig E) (hq : SaneQuotients E) (hx : SaneEpochs E)
    (h : Wellformed E s) (hT : effectiveSum s ≤ 2 ^ 56) {l : List PendingAttestation}
    (hl : ∀ a ∈ l, RecordedVote E s a) :
    Calm (Phase0.get_attesting_balance E s l) fun b => b ≤ 2 ^ 56 := by
  have htot := total_le (s := s) hx hT
  unfold Phase0.get_attesting_balance
  simp only [calm]
  refine (unslashed_calm hE h hl).mono fun r ⟨h1, h2, _⟩ => (total_balance_calm hq h2).mono
    fun b ⟨_, _, hb⟩ => ?_
  have := effSum_le (s := s) h1
  omega

/-- Every attestation recorded in the state. -/
abbrev Recorded (E : Env) (s : State) : Prop :=
  ∀ a ∈ s.previous_epoch_attestations ++ s.current_epoch_attestations, RecordedVote E s a

theorem source_calm (hE : SaneConfig E) (hr : Recorded E s) {e : Nat} :
    Calm (Phase0.get_matching_source_attestations E s e) fun l =>
      (∀ a ∈ l, RecordedVote E s a) := by
  unfold Phase0.get_matching_source_attestations
  simp only [calm]
  refine previous_epoch_calm hE (current_epoch_calm hE ⟨fun _ => rfl, fun _ a ha => ?_⟩)
  split at ha
  · exact hr a (by simp [ha])
  · exact hr a (by simp [ha])

theorem target_calm (hE : SaneConfig E) (h : Wellformed E s) (hr : Recorded E s) {e : Nat}
    (he : e ≤ epochOf E s.slot) (hs : 0 < s.slot) :
    Calm (Phase0.get_matching_target_attestations E s e) fun l =>
      (∀ a ∈ l, RecordedVote E s a) := by
  have hU : U64_BOUND = 2 ^ 64 := rfl
  have hslot := h.slot
  have hm : e * E.slots_per_epoch ≤ s.slot :=
    Nat.le_trans (Nat.mul_le_mul_right _ he) (Nat.div_mul_le_self _ _)
  unfold Phase0.get_matching_target_attestations get_block_root compute_start_slot_at_epoch
  simp only [calm]
  refine (source_calm hE hr).mono fun l hl => ⟨fun _ => by simp, fun _ => ⟨by omega,
    (block_root_at_calm hE h hs).mono fun r _ a ha => hl a (List.mem_filter.1 ha).1⟩⟩

theorem head_calm (hE : SaneConfig E) (h : Wellformed E s) (hr : Recorded E s) {e : Nat}
    (he : e ≤ epochOf E s.slot) (hs : 0 < s.slot) :
    Calm (Phase0.get_matching_head_attestations E s e) fun l =>
      (∀ a ∈ l, RecordedVote E s a) := by
  unfold Phase0.get_matching_head_attestations
  simp only [calm]
  refine (target_calm hE h hr he hs).mono fun t ht => Calm_filterM (fun a _ => ?_) fun ys hys a ha => ?_
  · simp only [calm]
    exact (block_root_at_calm hE h hs).mono fun _ _ => trivial
  · have := filterM_eq_ok (p := fun a => match get_block_root_at_slot E s a.data.slot with
        | .ok r => decide (a.data.beacon_block_root = r)
        | _ => false) (by
      intro a _ b hb
      simp only [run] at hb
      obtain ⟨r, hr, rfl⟩ := hb
      simp only [hr]) hys
    rw [this] at ha
    exact ht a (List.mem_filter.1 ha).1

theorem phase0_balances_calm (hE : SaneConfig E) (hq : SaneQuotients E) (hx : SaneEpochs E)
    (h : Wellformed E s) (hT : effectiveSum s ≤ 2 ^ 56) (hr : Recorded E s) (hs : 0 < s.slot) :
    Calm (justification_balances E .Phase0 s) fun b =>
      b.1 ≤ 2 ^ 56 ∧ b.2.1 ≤ 2 ^ 56 ∧ b.2.2 ≤ 2 ^ 56 := by
  have htot := total_le (s := s) hx hT
  unfold justification_balances
  simp only [calm]
  refine previous_epoch_calm hE ((target_calm hE h hr (Nat.sub_le _ _) hs).mono fun pa hpa =>
    current_epoch_calm hE ((target_calm hE h hr (Nat.le_refl _) hs).mono fun ca hca => ?_))
  refine (total_active_calm hE hq).mono fun A ⟨_, _, hA⟩ => ?_
  refine (attesting_balance_calm hE hq hx h hT hpa).mono fun P hP => ?_
  exact (attesting_balance_calm hE hq hx h hT hca).mono fun C hC => ⟨by omega, hP, hC⟩

/-! ## Base rewards -/

theorem factor_le (hx : SaneEpochs E) : E.base_reward_factor ≤ 2 ^ 7 := by
  have h1 := hx.base_reward_factor
  have h2 := hx.increment
  by_contra hc
  have : 2 ^ 15 * 2 ^ 15 < 2 ^ 8 * E.base_reward_factor * (2 ^ 8 * E.base_reward_factor) :=
    Nat.mul_lt_mul'' (by omega) (by omega)
  omega

theorem quarter_calm (hE : SaneConfig E) (hq : SaneQuotients E) (hx : SaneEpochs E) {i : Nat}
    {v : Validator} (hv : s.validators[i]? = some v)
    (hb : v.effective_balance ≤ 2 ^ 7 * E.effective_balance_increment) :
    Calm (Phase0.get_base_reward E s i) fun r =>
      2 * r ≤ E.effective_balance_increment ∧ r ≤ v.effective_balance := by
  have hU : U64_BOUND = 2 ^ 64 := rfl
  have hpos := hE.effective_balance_increment
  have hinc := hx.increment
  have hF := factor_le hx
  have hf := hx.base_reward_factor
  have hm : v.effective_balance * E.base_reward_factor ≤ 2 ^ 37 * 2 ^ 7 :=
    Nat.mul_le_mul (by omega) hF
  unfold Phase0.get_base_reward
  simp only [calm]
  refine (total_active_calm hE hq).mono fun t ⟨h1, h2, _⟩ => ⟨v, hv, by omega, ?_⟩
  rw [isqrt_eq h2]
  have hsq : 2 ^ 8 * E.base_reward_factor ≤ Nat.sqrt t := Nat.le_sqrt.2 (by omega)
  have hsp : 0 < Nat.sqrt t := Nat.sqrt_pos.2 (by omega)
  refine ⟨by omega, by decide, ?_⟩
  have h3 : 2 ^ 8 * (v.effective_balance * E.base_reward_factor / Nat.sqrt t) ≤
      v.effective_balance := by
    refine Nat.le_of_mul_le_mul_right (c := Nat.sqrt t) ?_ hsp
    have h4 := Nat.div_mul_le_self (v.effective_balance * E.base_reward_factor) (Nat.sqrt t)
    calc 2 ^ 8 * (v.effective_balance * E.base_reward_factor / Nat.sqrt t) * Nat.sqrt t
        = 2 ^ 8 * (v.effective_balance * E.base_reward_factor / Nat.sqrt t * Nat.sqrt t) := by
          rw [Nat.mul_assoc]
      _ ≤ 2 ^ 8 * (v.effective_balance * E.base_reward_factor) := Nat.mul_le_mul_left _ h4
      _ = v.effective_balance * (2 ^ 8 * E.base_reward_factor) := by rw [Nat.mul_left_comm]
      _ ≤ v.effective_balance * Nat.sqrt t := Nat.mul_le_mul_left _ hsq
  have h5 : v.effective_balance * E.base_reward_factor / Nat.sqrt t / BASE_REWARDS_PER_EPOCH ≤
      v.effective_balance * E.base_reward_factor / Nat.sqrt t := Nat.div_le_self _ _
  exact ⟨by omega, by omega⟩

/-- The proposer's part is computed from the base reward. -/
theorem proposer_part_calm (hq : SaneQuotients E) {i : Nat} {Q : Nat → Prop} {B : Nat → Prop}
    (hb : Calm (Phase0.get_base_reward E s i) B)
    (h : ∀ r p, Phase0.get_base_reward E s i = .ok r → B r → p ≤ r → Q p) :
    Calm (Phase0.get_proposer_reward E s i) Q := by
  have := hq.proposer
  unfold Phase0.get_proposer_reward
  simp only [calm]
  exact hb.mono' fun r hr hB => ⟨by omega, h r _ hr hB (Nat.div_le_self _ _)⟩

/-! ## Deltas -/

theorem addAt_calm {xs : List Nat} {i d : Nat} {Q : List Nat → Prop}
    (h : ∃ x, xs[i]? = some x ∧ x + d < 2 ^ 64 ∧ Q (xs.set i (x + d))) : Calm (addAt xs i d) Q := by
  unfold addAt
  simp only [calm]
  exact h

theorem earliest_calm {l : List PendingAttestation} (hl : l ≠ []) :
    Calm (Phase0.earliest l) fun a => a ∈ l := by
  cases l with
  | nil => exact absurd rfl hl
  | cons x rest =>
    have key : Calm (Phase0.earliest (x :: rest)) fun _ => True := by
      unfold Phase0.earliest; simp only [calm]
    refine key.mono' fun a ha _ => ?_
    obtain ⟨p, q, e, -⟩ := earliest_ok ha
    rw [e]; simp

theorem filterAuxM_run {α : Type} {f : α → R Bool} {xs acc r : List α}
    (h : xs.filterAuxM f acc = .ok r) : ∀ a ∈ xs, ∃ b, f a = .ok b := by
  induction xs generalizing acc with
  | nil => simp
  | cons x xs ih =>
    rw [List.filterAuxM] at h
    simp only [run] at h
    obtain ⟨b, hb, h⟩ := h
    intro a ha
    rcases List.mem_cons.1 ha with rfl | ha
    · exact ⟨b, hb⟩
    · exact ih h a ha

theorem filterM_run {α : Type} {f : α → R Bool} {xs r : List α} (h : xs.filterM f = .ok r) :
    ∀ a ∈ xs, ∃ b, f a = .ok b := by
  simp only [List.filterM, run] at h
  obtain ⟨as, h, -⟩ := h
  exact filterAuxM_run h

theorem sum4_calm {n B C : Nat} {a b c d : List Nat} (ha : a.length = n) (hb : b.length = n)
    (hc : c.length = n) (hd : d.length = n) (ha' : ∀ x ∈ a, x ≤ B) (hb' : ∀ x ∈ b, x ≤ B)
    (hc' : ∀ x ∈ c, x ≤ B) (hd' : ∀ x ∈ d, x ≤ C) (hB : 3 * B + C < 2 ^ 64) :
    Calm (Phase0.sum4 n a b c d) fun l => l.length = n ∧ ∀ x ∈ l, x ≤ 3 * B + C := by
  have hU : U64_BOUND = 2 ^ 64 := rfl
  have key : ∀ i < n, Calm (do
      let w ← idx a i
      let x ← idx b i
      let wx ← w +? x
      let y ← idx c i
      let wxy ← wx +? y
      let z ← idx d i
      wxy +? z : R Nat) fun r => r ≤ 3 * B + C := by
    intro i hi
    simp only [calm]
    have h1 := List.getElem?_eq_getElem (show i < a.length by omega)
    have h2 := List.getElem?_eq_getElem (show i < b.length by omega)
    have h3 := List.getElem?_eq_getElem (show i < c.length by omega)
    have h4 := List.getElem?_eq_getElem (show i < d.length by omega)
    have k1 := ha' _ (List.mem_of_getElem? h1)
    have k2 := hb' _ (List.mem_of_getElem? h2)
    have k3 := hc' _ (List.mem_of_getElem? h3)
    have k4 := hd' _ (List.mem_of_getElem? h4)
    exact ⟨_, h1, _, h2, by omega, _, h3, by omega, _, h4, by omega, by omega⟩
  unfold Phase0.sum4
  refine Calm_mapM (fun i hi => (key i (List.mem_range.1 hi)).mono fun _ _ => trivial)
    fun ys hys => ?_
  have hl := mapM_entry_length hys
  refine ⟨by simpa using hl, fun x hx => ?_⟩
  obtain ⟨k, hk⟩ := List.mem_iff_getElem?.1 hx
  have hkl : k < n := by
    have := (List.getElem?_eq_some_iff.1 hk).1
    simp at hl; omega
  obtain ⟨y, h1, h2⟩ := mapM_entry hys k k (by simp [hkl])
  rw [hk] at h1; cases h1
  exact (key k hkl).ok h2

section
variable (hE : SaneConfig E) (hq : SaneQuotients E) (hx : SaneEpochs E) (h : Wellformed E s)
  (hT : effectiveSum s ≤ 2 ^ 56)
  (heff : ∀ v ∈ s.validators, v.effective_balance ≤ 2 ^ 7 * E.effective_balance_increment)
  (hfin : s.finalized_checkpoint.epoch ≤ epochOf E s.slot - 1)
include hE hq hx h hT heff hfin

theorem component_calm {l : List PendingAttestation} (hl : ∀ a ∈ l, RecordedVote E s a) :
    Calm (Phase0.get_attestation_component_deltas E s l)
      (Fresh s.validators.length (2 ^ 60) []) := by
  have hU : U64_BOUND = 2 ^ 64 := rfl
  have hpos := hE.effective_balance_increment
  have hinc := hx.increment
  have htot := total_le (s := s) hx hT
  unfold Phase0.get_attestation_component_deltas
  simp only [calm]
  refine (total_active_calm hE hq).mono fun A ⟨hA, _, hA'⟩ => ?_
  refine (unslashed_calm hE h hl).mono fun at' ⟨n1, n2, _⟩ => ?_
  refine (total_balance_calm hq n2).mono fun P ⟨_, _, hP⟩ => ?_
  have hPle : P ≤ 2 ^ 56 := by
    have := effSum_le (s := s) n1; omega
  refine (eligible_calm hE h).mono fun el ⟨e1, e2⟩ => ?_
  refine Calm_foldlM (fun rest d => Fresh s.validators.length (2 ^ 60) rest d ∧
    ∀ i ∈ rest, i < s.validators.length) ?_ (fun d hd => hd.1) ⟨Fresh.start e1 e2, e2⟩
  rintro i rest d ⟨g1, g2⟩
  have hi := g2 i (by simp)
  have hrest : ∀ k ∈ rest, k < s.validators.length := fun k hk => g2 k (by simp [hk])
  have hv := List.getElem?_eq_getElem hi
  have hbase := quarter_calm hE hq hx hv (heff _ (List.mem_of_getElem? hv))
  unfold Phase0.component_delta
  simp only [calm]
  refine ⟨fun _ => (leak_calm hE hfin).mono fun lk _ => ⟨fun _ => ?_, fun _ => ?_⟩, fun _ => ?_⟩
  · exact hbase.mono fun r ⟨hr, _⟩ =>
      (g1.reward (by omega) (by omega)).mono fun _ hd => ⟨hd, hrest⟩
  · refine hbase.mono fun r ⟨hr, _⟩ => ?_
    have hPP := Nat.div_mul_le_self P E.effective_balance_increment
    have hA0 : 0 < A / E.effective_balance_increment := Nat.div_pos hA hpos
    generalize P / E.effective_balance_increment = x at *
    have hrx : 2 * (r * x) ≤ P := by
      have : 2 * r * x ≤ E.effective_balance_increment * x := Nat.mul_le_mul_right _ hr
      rw [Nat.mul_assoc, Nat.mul_comm E.effective_balance_increment] at this
      omega
    have hd := Nat.div_le_self (r * x) (A / E.effective_balance_increment)
    exact ⟨by omega, by omega, by omega, by omega,
      (g1.reward (by omega) (by omega)).mono fun _ hd => ⟨hd, hrest⟩⟩
  · exact hbase.mono fun r ⟨hr, _⟩ =>
      (g1.penalize (by omega)).mono fun _ hd => ⟨hd, hrest⟩

omit hfin in
theorem inclusion_calm (hr : Recorded E s) :
    Calm (Phase0.get_inclusion_delay_deltas E s) fun l =>
      l.length = s.validators.length ∧ ∀ x ∈ l, x ≤ 2 ^ 56 := by
  have hinc := hx.increment
  unfold Phase0.get_inclusion_delay_deltas
  simp only [calm]
  refine previous_epoch_calm hE ((source_calm hE hr).mono fun src hsrc =>
    (unslashed_calm hE h hsrc).mono fun at' ⟨n1, n2, n3⟩ => ?_)
  have hle := effSum_le (s := s) n1
  refine Calm_foldlM (fun rest xs => xs.length = s.validators.length ∧
    (∀ i ∈ rest, i < s.validators.length ∧ ∃ a ∈ src, Attested E s a i) ∧
    (effSum s rest ≤ effSum s at') ∧
    ∀ x ∈ xs, x + effSum s rest ≤ effSum s at') ?_ ?_ ?_
  · rintro i rest xs ⟨g1, g2, g4, g3⟩
    obtain ⟨hi, a0, ha0, hat0⟩ := g2 i (by simp)
    have hv := List.getElem?_eq_getElem hi
    have hb := heff _ (List.mem_of_getElem? hv)
    have hbase := quarter_calm hE hq hx hv hb
    rw [effSum_cons hv] at g3 g4
    unfold Phase0.inclusion_delta
    simp only [calm]
    refine Calm_filterM (fun a ha => ?_) fun ys hys => ?_
    · simp only [calm]
      exact (recorded_calm hE h (hsrc a ha)).mono fun _ _ => trivial
    have hy := filterM_eq_ok (p := fun a => match
          get_attesting_indices E s a.data a.aggregation_bits with
        | .ok l => l.contains i
        | _ => false) (by
      intro a _ b hb
      simp only [run] at hb
      obtain ⟨r, hr, rfl⟩ := hb
      simp only [hr]) hys
    have hmem : a0 ∈ ys := by
      obtain ⟨b, hb'⟩ := filterM_run hys a0 ha0
      simp only [run] at hb'
      obtain ⟨l, hl, -⟩ := hb'
      rw [hy, List.mem_filter]
      simp [ha0, hl, (attested_of_ok hl i).2 hat0]
    refine (earliest_calm (List.ne_nil_of_mem hmem)).mono fun a ha => ?_
    rw [hy] at ha
    have harec := hsrc a (List.mem_filter.1 ha).1
    have hdel := harec.delay
    refine proposer_part_calm hq hbase fun r p hr ⟨_, hre⟩ hpr => addAt_calm ?_
    have hp := List.getElem?_eq_getElem (show a.proposer_index < xs.length by
      rw [g1]; exact harec.proposer)
    have hpx := g3 _ (List.mem_of_getElem? hp)
    refine ⟨_, hp, by omega, ?_⟩
    rw [hr]
    simp only [calm]
    refine ⟨hpr, by omega, addAt_calm ?_⟩
    have hdiv := Nat.div_le_self (r - p) a.inclusion_delay
    have hi2 : i < (xs.set a.proposer_index (xs[a.proposer_index]'(by
      rw [g1]; exact harec.proposer) + p)).length := by simpa [g1] using hi
    have hxi := List.getElem?_eq_getElem hi2
    have hbound : ∀ y ∈ xs.set a.proposer_index (xs[a.proposer_index]'(by
        rw [g1]; exact harec.proposer) + p), y + (s.validators[i].effective_balance +
          effSum s rest) ≤ effSum s at' + p := by
      intro y hy
      rcases mem_set_cases hy with hy | rfl
      · have := g3 y hy; omega
      · omega
    have hxb := hbound _ (List.mem_of_getElem? hxi)
    refine ⟨_, hxi, by omega, by simpa using g1, fun j hj => g2 j (by simp [hj]), by omega,
      fun y hy => ?_⟩
    rcases mem_set_cases hy with hy | rfl
    · have := hbound y hy; omega
    · omega
  · rintro xs ⟨g1, -, -, g3⟩
    exact ⟨g1, fun x hx => by have := g3 x hx; omega⟩
  · refine ⟨by simp, fun i hi => ⟨n2 i hi, n3 i hi⟩, Nat.le_refl _, fun x hx => ?_⟩
    simp only [List.mem_replicate] at hx; omega

omit hT in
theorem overdue_calm (hr : Recorded E s) (hs : 0 < s.slot) (hd : epochOf E s.slot ≤ 2 ^ 26) :
    Calm (Phase0.get_inactivity_penalty_deltas E s) fun l =>
      l.length = s.validators.length ∧ ∀ x ∈ l, x ≤ 2 ^ 63 + 2 ^ 31 := by
  have hU : U64_BOUND = 2 ^ 64 := rfl
  have hinc := hx.increment
  obtain ⟨⟨q1, -⟩, -⟩ := hx.inactivity_quotients
  unfold Phase0.get_inactivity_penalty_deltas
  simp only [calm]
  refine previous_epoch_calm hE ((leak_calm hE hfin).mono fun lk _ => ⟨fun _ => ?_, fun _ =>
    ⟨by simp, fun x hx => by simp only [List.mem_replicate] at hx; omega⟩⟩)
  refine (target_calm hE h hr (Nat.sub_le _ _) hs).mono fun tg htg =>
    (unslashed_calm hE h htg).mono fun at' _ => (eligible_calm hE h).mono fun el ⟨e1, e2⟩ => ?_
  refine Calm_foldlM (fun rest xs => rest.Nodup ∧ xs.length = s.validators.length ∧
    (∀ i ∈ rest, xs[i]? = some 0) ∧ (∀ i ∈ rest, i < s.validators.length) ∧
      ∀ x ∈ xs, x ≤ 2 ^ 63 + 2 ^ 31) ?_
    (fun xs g => ⟨g.2.1, g.2.2.2.2⟩) ⟨e1, by simp, fun i hi => by simp [e2 i hi], e2, fun x hx => by
      simp only [List.mem_replicate] at hx; omega⟩
  rintro i rest xs ⟨g0, g1, g2, g3, g4⟩
  have hi := g3 i (by simp)
  have hz := g2 i (by simp)
  have hlt : i < xs.length := by omega
  have hv := List.getElem?_eq_getElem hi
  have hb := heff _ (List.mem_of_getElem? hv)
  have hbase := quarter_calm hE hq hx hv hb
  have hnext : ∀ y ≤ 2 ^ 63 + 2 ^ 31, rest.Nodup ∧ (xs.set i y).length = s.validators.length ∧
      (∀ j ∈ rest, (xs.set i y)[j]? = some 0) ∧ (∀ j ∈ rest, j < s.validators.length) ∧
      ∀ x ∈ xs.set i y, x ≤ 2 ^ 63 + 2 ^ 31 := by
    intro y hy
    refine ⟨(List.nodup_cons.1 g0).2, by simpa using g1, fun j hj => ?_, fun j hj =>
      g3 j (by simp [hj]), fun x hx => ?_⟩
    · have : i ≠ j := by rintro rfl; exact (List.nodup_cons.1 g0).1 hj
      rw [List.getElem?_set_ne this]
      exact g2 j (by simp [hj])
    · rcases mem_set_cases hx with hx | rfl
      · exact g4 x hx
      · exact hy
  unfold Phase0.inactivity_delta get_finality_delay
  simp only [calm]
  refine hbase.mono' fun r hr ⟨hr1, _⟩ => ?_
  have h4 : BASE_REWARDS_PER_EPOCH * r = 4 * r := rfl
  refine ⟨by omega, proposer_part_calm hq hbase fun r' p hr' _ hp => ?_⟩
  rw [hr] at hr'; cases hr'
  refine ⟨by omega, addAt_calm ⟨0, hz, by omega, fun _ => hnext _ (by omega), fun _ =>
    ⟨_, hv, previous_epoch_calm hE ⟨hfin, ?_, by omega, addAt_calm ⟨_,
      List.getElem?_set_self hlt, ?_, ?_⟩⟩⟩⟩⟩
  · have : s.validators[i].effective_balance *
      (epochOf E s.slot - 1 - s.finalized_checkpoint.epoch) ≤ 2 ^ 37 * 2 ^ 26 :=
      Nat.mul_le_mul (by omega) (by omega)
    omega
  all_goals
    have hm : s.validators[i].effective_balance *
      (epochOf E s.slot - 1 - s.finalized_checkpoint.epoch) ≤ 2 ^ 37 * 2 ^ 26 :=
      Nat.mul_le_mul (by omega) (by omega)
    have hdv := Nat.div_le_self (s.validators[i].effective_balance *
      (epochOf E s.slot - 1 - s.finalized_checkpoint.epoch)) E.inactivity_penalty_quotient
  · omega
  · rw [List.set_set]
    exact hnext _ (by omega)

theorem phase0_rewards_calm (hr : Recorded E s) (hd : epochOf E s.slot ≤ 2 ^ 26)
    (hK : ∀ b ∈ s.balances, b ≤ 2 ^ 61) :
    CalmM (process_rewards_and_penalties E .Phase0)
      (fun _ s' => ∃ l, s' = withBalances s l ∧ l.length = s.balances.length ∧
        ∀ b ∈ l, b ≤ 2 ^ 61 + 4 * 2 ^ 60) s := by
  have hep := epochOf_le E s.slot
  unfold process_rewards_and_penalties
  simp only [calm]
  refine current_epoch_calm hE ⟨fun _ => ⟨s.balances, rfl, rfl, fun b hb => by
    have := hK b hb; omega⟩, fun hne => ?_⟩
  have hge : GENESIS_EPOCH = 0 := rfl
  have hs : 0 < s.slot := by omega
  unfold Phase0.get_attestation_deltas Phase0.get_source_deltas Phase0.get_target_deltas
    Phase0.get_head_deltas
  simp only [calm]
  refine previous_epoch_calm hE ((source_calm hE hr).mono fun l1 h1 =>
    (component_calm hE hq hx h hT heff hfin h1).mono fun d1 g1 => previous_epoch_calm hE
    ((target_calm hE h hr (Nat.sub_le _ _) hs).mono fun l2 h2 =>
      (component_calm hE hq hx h hT heff hfin h2).mono fun d2 g2 => previous_epoch_calm hE
    ((head_calm hE h hr (Nat.sub_le _ _) hs).mono fun l3 h3 =>
      (component_calm hE hq hx h hT heff hfin h3).mono fun d3 g3 => ?_)))
  refine (inclusion_calm hE hq hx h hT heff hr).mono fun inc ⟨i1, i2⟩ =>
    (overdue_calm hE hq hx h heff hfin hr hs hd).mono fun ov ⟨o1, o2⟩ => ?_
  refine (sum4_calm g1.length.1 g2.length.1 g3.length.1 i1 g1.small g2.small g3.small i2
    (by omega)).mono fun rw' ⟨r1, r2⟩ => ?_
  refine (sum4_calm g1.length.2 g2.length.2 g3.length.2 o1 g1.light g2.light g3.light o2
    (by omega)).mono fun pn ⟨p1, p2⟩ => ?_
  refine (apply_deltas_calm (d := (rw', pn)) r1 p1 r2 h.balances hK (by omega)).mono ?_
  rintro - - ⟨l, rfl, k1, k2⟩
  exact ⟨l, rfl, k1, fun b hb => by have := k2 b hb; omega⟩

end

end Verif
