import Verif.Proofs.SafetyAltair
import Verif.Proofs.EpochLoops

/-! # Altair rewards and inactivity updates do not panic -/

namespace Verif

open Spec Props

variable {E : Env} {s s' : State}

theorem total_le (hx : SaneEpochs E) (hT : effectiveSum s ≤ 2 ^ 56) :
    max (effectiveSum s) E.effective_balance_increment ≤ 2 ^ 56 := by
  have := hx.increment; omega

/-- The base reward per increment is below a 256th of the increment. -/
theorem per_increment_small (hE : SaneConfig E) (hq : SaneQuotients E) (hx : SaneEpochs E) :
    Calm (get_base_reward_per_increment E s)
      fun p => 2 ^ 8 * p ≤ E.effective_balance_increment := by
  refine (per_increment_calm hE hq).mono' fun p hp _ => ?_
  have hf := hx.base_reward_factor
  have hpos := hE.effective_balance_increment
  simp only [get_base_reward_per_increment, run] at hp
  obtain ⟨_, ⟨rfl, -⟩, t, ht, rfl, -⟩ := hp
  obtain ⟨h1, h2, -⟩ := (total_active_calm hE hq).ok ht
  rw [isqrt_eq h2]
  have hsq : 2 ^ 8 * E.base_reward_factor ≤ Nat.sqrt t := Nat.le_sqrt.2 (by omega)
  have hsp : 0 < Nat.sqrt t := Nat.sqrt_pos.2 (by omega)
  have h3 : E.effective_balance_increment * E.base_reward_factor / Nat.sqrt t * Nat.sqrt t ≤
      E.effective_balance_increment * E.base_reward_factor := Nat.div_mul_le_self _ _
  refine Nat.le_of_mul_le_mul_right (c := Nat.sqrt t) ?_ hsp
  calc 2 ^ 8 * (E.effective_balance_increment * E.base_reward_factor / Nat.sqrt t) * Nat.sqrt t
      = 2 ^ 8 * (E.effective_balance_increment * E.base_reward_factor / Nat.sqrt t * Nat.sqrt t) := by
        rw [Nat.mul_assoc]
    _ ≤ 2 ^ 8 * (E.effective_balance_increment * E.base_reward_factor) := Nat.mul_le_mul_left _ h3
    _ = E.effective_balance_increment * (2 ^ 8 * E.base_reward_factor) := by
        rw [Nat.mul_left_comm]
    _ ≤ E.effective_balance_increment * Nat.sqrt t := Nat.mul_le_mul_left _ hsq

/-- The base reward is at most eight increments. -/
theorem base_reward_small (hE : SaneConfig E) (hq : SaneQuotients E) (hx : SaneEpochs E) {i : Nat}
    {v : Validator} (hv : s.validators[i]? = some v)
    (hb : v.effective_balance ≤ 2 ^ 11 * E.effective_balance_increment) :
    Calm (Altair.get_base_reward E s i) fun r => r ≤ 8 * E.effective_balance_increment := by
  have hpos := hE.effective_balance_increment
  have hinc := hx.increment
  refine (base_reward_calm hE hq hv (by omega)).mono' fun r hr _ => ?_
  simp only [Altair.get_base_reward, run] at hr
  obtain ⟨_, hv', _, ⟨rfl, -⟩, p, hp, rfl, -⟩ := hr
  rw [hv] at hv'; cases hv'
  have h1 := (per_increment_small hE hq hx).ok hp
  have h2 : v.effective_balance / E.effective_balance_increment ≤ 2 ^ 11 :=
    Nat.div_le_of_le_mul (by rw [Nat.mul_comm]; exact hb)
  have h3 : v.effective_balance / E.effective_balance_increment * p ≤ 2 ^ 11 * p :=
    Nat.mul_le_mul_right _ h2
  omega

theorem participating_calm (hE : SaneConfig E) {j e : Nat} (hj : j < 8)
    (hp : s.previous_epoch_participation.length = s.validators.length)
    (hc : s.current_epoch_participation.length = s.validators.length) :
    Calm (get_unslashed_participating_indices E s j e)
      fun l => l.Nodup ∧ ∀ i ∈ l, i < s.validators.length := by
  have key : Calm (get_unslashed_participating_indices E s j e) fun _ => True := by
    unfold get_unslashed_participating_indices
    simp only [calm]
    refine previous_epoch_calm hE (current_epoch_calm hE ⟨fun _ => rfl, fun _ => ?_⟩)
    refine Calm_filterM (fun i hi => ?_) fun _ _ => trivial
    have hl := active_lt hi
    simp only [calm]
    refine ⟨_, List.getElem?_eq_getElem (by split <;> omega), (flag_calm hj).mono fun _ _ =>
      ⟨_, List.getElem?_eq_getElem hl, trivial⟩⟩
  refine key.mono' fun l hl _ => ?_
  obtain ⟨h1, h2⟩ := participating_eq_ok hj hl
  refine ⟨h1, fun i hi => ?_⟩
  obtain ⟨v, hv, -⟩ := (h2 i).1 hi
  exact (List.getElem?_eq_some_iff.1 hv).1

theorem eligible_calm (hE : SaneConfig E) (h : Wellformed E s) :
    Calm (get_eligible_validator_indices E s)
      fun l => l.Nodup ∧ ∀ i ∈ l, i < s.validators.length := by
  have hU : U64_BOUND = 2 ^ 64 := rfl
  have hslot := h.slot
  have hep := epochOf_le E s.slot
  have key : Calm (get_eligible_validator_indices E s) fun _ => True := by
    unfold get_eligible_validator_indices
    simp only [calm]
    exact previous_epoch_calm hE ⟨by omega, trivial⟩
  refine key.mono' fun l hl _ => ?_
  obtain ⟨h1, h2⟩ := eligible_ok hl
  refine ⟨h1, fun i hi => ?_⟩
  obtain ⟨v, hv, -⟩ := (h2 i).1 hi
  exact (List.getElem?_eq_some_iff.1 hv).1

theorem leak_calm (hE : SaneConfig E) (hf : s.finalized_checkpoint.epoch ≤ epochOf E s.slot - 1) :
    Calm (is_in_inactivity_leak E s) fun _ => True := by
  unfold is_in_inactivity_leak get_finality_delay
  simp only [calm]
  exact previous_epoch_calm hE ⟨hf, trivial⟩

/-! ## Deltas -/

/-- The deltas of the validators still to come are zero; no reward is above `B`, no penalty above
2^61. -/
structure Fresh (n B : Nat) (rest : List Nat) (d : Deltas) : Prop where
  length : d.1.length = n ∧ d.2.length = n
  nodup : rest.Nodup
  zero : ∀ i ∈ rest, d.1[i]? = some 0 ∧ d.2[i]? = some 0
  small : ∀ x ∈ d.1, x ≤ B
  light : ∀ x ∈ d.2, x ≤ 2 ^ 61

theorem Fresh.skip {n B i : Nat} {rest : List Nat} {d : Deltas} (h : Fresh n B (i :: rest) d) :
    Fresh n B rest d :=
  ⟨h.length, (List.nodup_cons.1 h.nodup).2, fun j hj => h.zero j (by simp [hj]), h.small,
    h.light⟩

theorem Fresh.start {n B : Nat} {l : List Nat} (hn : l.Nodup) (hl : ∀ i ∈ l, i < n) :
    Fresh n B l (zeroDeltas n) := by
  refine ⟨by simp [zeroDeltas], hn, fun i hi => ?_, fun x hx => ?_, fun x hx => ?_⟩
  · have := hl i hi
    simp [zeroDeltas, this]
  · simp only [zeroDeltas, List.mem_replicate] at hx; omega
  · simp only [zeroDeltas, List.mem_replicate] at hx; omega

theorem Fresh.reward {n B i r : Nat} {rest : List Nat} {d : Deltas} (h : Fresh n B (i :: rest) d)
    (hr : r ≤ B) (hB : r < 2 ^ 64) : Calm (d.reward i r) (Fresh n B rest) := by
  have hU : U64_BOUND = 2 ^ 64 := rfl
  obtain ⟨z1, z2⟩ := h.zero i (by simp)
  unfold Deltas.reward addAt
  simp only [calm]
  refine ⟨0, z1, by omega, ⟨by simpa using h.length.1, h.length.2⟩, (List.nodup_cons.1 h.nodup).2,
    fun j hj => ⟨?_, (h.zero j (by simp [hj])).2⟩, fun x hx => ?_, h.light⟩
  · have : i ≠ j := by rintro rfl; exact (List.nodup_cons.1 h.nodup).1 hj
    rw [List.getElem?_set_ne this]
    exact (h.zero j (by simp [hj])).1
  · rcases mem_set_cases hx with hx | rfl
    · exact h.small x hx
    · omega

theorem Fresh.penalize {n B i r : Nat} {rest : List Nat} {d : Deltas} (h : Fresh n B (i :: rest) d)
    (hB : r ≤ 2 ^ 61) : Calm (d.penalize i r) (Fresh n B rest) := by
  have hU : U64_BOUND = 2 ^ 64 := rfl
  obtain ⟨z1, z2⟩ := h.zero i (by simp)
  unfold Deltas.penalize addAt
  simp only [calm]
  refine ⟨0, z2, by omega, ⟨h.length.1, by simpa using h.length.2⟩, (List.nodup_cons.1 h.nodup).2,
    fun j hj => ⟨(h.zero j (by simp [hj])).1, ?_⟩, h.small, fun x hx => ?_⟩
  · have : i ≠ j := by rintro rfl; exact (List.nodup_cons.1 h.nodup).1 hj
    rw [List.getElem?_set_ne this]
    exact (h.zero j (by simp [hj])).2
  · rcases mem_set_cases hx with hx | rfl
    · exact h.light x hx
    · omega

theorem flag_deltas_calm (hE : SaneConfig E) (hq : SaneQuotients E) (hx : SaneEpochs E)
    (h : Wellformed E s) (hT : effectiveSum s ≤ 2 ^ 56)
    (heff : ∀ v ∈ s.validators, v.effective_balance ≤ 2 ^ 11 * E.effective_balance_increment)
    (hfin : s.finalized_checkpoint.epoch ≤ epochOf E s.slot - 1)
    (hp : s.previous_epoch_participation.length = s.validators.length)
    (hc : s.current_epoch_participation.length = s.validators.length) {j : Nat} (hj : j < 3) :
    Calm (get_flag_index_deltas E s j) (Fresh s.validators.length (2 ^ 60) []) := by
  have hU : U64_BOUND = 2 ^ 64 := rfl
  have hpos := hE.effective_balance_increment
  have hinc := hx.increment
  have htot := total_le (s := s) hx hT
  unfold get_flag_index_deltas
  simp only [calm]
  refine previous_epoch_calm hE ((participating_calm hE (by omega) hp hc).mono fun ps ⟨n1, n2⟩ => ?_)
  obtain ⟨w, hw, hw'⟩ : ∃ w, PARTICIPATION_FLAG_WEIGHTS[j]? = some w ∧ w ≤ 26 := by
    match j, hj with
    | 0, _ => exact ⟨14, rfl, by omega⟩
    | 1, _ => exact ⟨26, rfl, by omega⟩
    | 2, _ => exact ⟨14, rfl, by omega⟩
  refine ⟨w, hw, (total_balance_calm hq n2).mono fun P ⟨_, _, hP⟩ => ⟨by omega, ?_⟩⟩
  have hPle : P ≤ 2 ^ 56 := by
    have := effSum_le (s := s) n1; omega
  refine (total_active_calm hE hq).mono fun A ⟨hA, _, hA'⟩ => ⟨by omega, ?_⟩
  refine (leak_calm hE hfin).mono fun lk _ => (eligible_calm hE h).mono fun el ⟨e1, e2⟩ => ?_
  have hinc0 : 0 < A / E.effective_balance_increment := Nat.div_pos hA hpos
  have hAle : A / E.effective_balance_increment ≤ 2 ^ 56 :=
    Nat.le_trans (Nat.div_le_self _ _) (by omega)
  have hPP := Nat.div_mul_le_self P E.effective_balance_increment
  generalize A / E.effective_balance_increment = a at *
  generalize P / E.effective_balance_increment = x at *
  refine Calm_foldlM (fun rest d => Fresh s.validators.length (2 ^ 60) rest d ∧
    ∀ i ∈ rest, i < s.validators.length) ?_ (fun d hd => hd.1) ⟨Fresh.start e1 e2, e2⟩
  rintro i rest d ⟨g1, g2⟩
  have hi := g2 i (by simp)
  have hrest : ∀ k ∈ rest, k < s.validators.length := fun k hk => g2 k (by simp [hk])
  have hv := List.getElem?_eq_getElem hi
  unfold flag_delta
  simp only [calm]
  refine (base_reward_small hE hq hx hv (heff _ (List.mem_of_getElem? hv))).mono fun r hr => ?_
  have hrw : r * w ≤ r * 26 := Nat.mul_le_mul_left _ hw'
  have hrx : r * x ≤ 8 * P := by
    have : r * x ≤ 8 * E.effective_balance_increment * x := Nat.mul_le_mul_right _ hr
    rw [Nat.mul_assoc, Nat.mul_comm E.effective_balance_increment] at this
    omega
  have hrwx : r * w * x ≤ 26 * (r * x) := by
    have h1 : r * w * x = w * (r * x) := by rw [Nat.mul_comm r w, Nat.mul_assoc]
    rw [h1]; exact Nat.mul_le_mul_right _ hw'
  have hden : a * WEIGHT_DENOMINATOR = a * 64 := rfl
  refine ⟨fun _ => ⟨fun _ => ⟨by omega, by omega, by omega, by omega, ?_⟩, fun _ => ⟨g1.skip, hrest⟩⟩,
    fun _ => ⟨fun _ => ⟨by omega, by decide, ?_⟩, fun _ => ⟨g1.skip, hrest⟩⟩⟩
  · have : r * w * x / (a * WEIGHT_DENOMINATOR) ≤ r * w * x / 64 :=
      Nat.div_le_div_left (by omega) (by decide)
    exact (g1.reward (by omega) (by omega)).mono fun _ hd => ⟨hd, hrest⟩
  · have : r * w / WEIGHT_DENOMINATOR ≤ r * w := Nat.div_le_self _ _
    exact (g1.penalize (by omega)).mono fun _ hd => ⟨hd, hrest⟩

theorem penalty_quotient_ok (hx : SaneEpochs E) (f : Fork) :
    0 < inactivity_penalty_quotient_of E f ∧ inactivity_penalty_quotient_of E f ≤ 2 ^ 48 := by
  have := hx.inactivity_quotients
  unfold inactivity_penalty_quotient_of
  cases f <;> dsimp only <;> omega

theorem inactivity_deltas_calm (hE : SaneConfig E) (hx : SaneEpochs E) {f : Fork}
    (h : Wellformed E s)
    (hm : ∀ v ∈ s.validators, ∀ x ∈ s.inactivity_scores, v.effective_balance * x < 2 ^ 64 ∧
      v.effective_balance * x / (E.inactivity_score_bias * inactivity_penalty_quotient_of E f) ≤
        2 ^ 61)
    (hp : s.previous_epoch_participation.length = s.validators.length)
    (hc : s.current_epoch_participation.length = s.validators.length)
    (hs : s.inactivity_scores.length = s.validators.length) :
    Calm (get_inactivity_penalty_deltas E f s) (Fresh s.validators.length (2 ^ 60) []) := by
  have hU : U64_BOUND = 2 ^ 64 := rfl
  have hinc := hx.increment
  obtain ⟨q1, q2⟩ := penalty_quotient_ok hx f
  obtain ⟨b1, b2⟩ := hx.score_bias
  unfold get_inactivity_penalty_deltas
  simp only [calm]
  refine previous_epoch_calm hE ((participating_calm hE (by decide) hp hc).mono fun ps _ =>
    (eligible_calm hE h).mono fun el ⟨e1, e2⟩ => ?_)
  refine Calm_foldlM (fun rest d => Fresh s.validators.length (2 ^ 60) rest d ∧
    ∀ i ∈ rest, i < s.validators.length) ?_ (fun d hd => hd.1) ⟨Fresh.start e1 e2, e2⟩
  rintro i rest d ⟨g1, g2⟩
  have hi := g2 i (by simp)
  have hrest : ∀ k ∈ rest, k < s.validators.length := fun k hk => g2 k (by simp [hk])
  have hv := List.getElem?_eq_getElem hi
  have hsi := List.getElem?_eq_getElem (hs ▸ hi : i < s.inactivity_scores.length)
  obtain ⟨hm1, hm4⟩ := hm _ (List.mem_of_getElem? hv) _ (List.mem_of_getElem? hsi)
  unfold inactivity_delta
  simp only [calm]
  have hm2 : E.inactivity_score_bias * inactivity_penalty_quotient_of E f ≤ 2 ^ 10 * 2 ^ 48 :=
    Nat.mul_le_mul b2 q2
  have hm3 : 0 < E.inactivity_score_bias * inactivity_penalty_quotient_of E f := Nat.mul_pos b1 q1
  refine ⟨fun _ => ⟨g1.skip, hrest⟩, fun _ => ⟨_, hv, _, hsi, by omega, by omega, by omega, ?_⟩⟩
  exact (g1.penalize (by omega)).mono fun _ hd => ⟨hd, hrest⟩

/-- The state with other balances. -/
def withBalances (s : State) (l : List Nat) : State := { s with balances := l }

theorem apply_deltas_calm {d : Deltas} {K B : Nat} (d1 : d.1.length = s.validators.length)
    (d2 : d.2.length = s.validators.length) (dB : ∀ x ∈ d.1, x ≤ B)
    (hl : s.balances.length = s.validators.length) (hK : ∀ b ∈ s.balances, b ≤ K)
    (hB : K + B < 2 ^ 64) :
    CalmM (apply_deltas d) (fun _ s' => ∃ l, s' = withBalances s l ∧ l.length = s.balances.length ∧
      ∀ b ∈ l, b ≤ K + B) s := by
  unfold apply_deltas
  simp only [calm]
  refine CalmM_forEach (fun rest t => rest.Nodup ∧ ∃ l, t = withBalances s l ∧
      l.length = s.balances.length ∧ (∀ b ∈ l, b ≤ K + B) ∧
      ∀ i ∈ rest, i < s.validators.length ∧ ∀ b, l[i]? = some b → b ≤ K) ?_ ?_ ?_
  · rintro i rest - ⟨hn, l, rfl, g1, g2, g3⟩
    obtain ⟨hi, g4⟩ := g3 i (by simp)
    have hi1 : i < l.length := by omega
    have hr := List.getElem?_eq_getElem (show i < d.1.length by omega)
    have hpn := List.getElem?_eq_getElem (show i < d.2.length by omega)
    have hrB := dB _ (List.mem_of_getElem? hr)
    have hb := List.getElem?_eq_getElem hi1
    have hbK := g4 _ hb
    simp only [calm]
    refine ⟨_, hr, increase_balance_calm (s := withBalances s l) hb (by omega) ⟨_, hpn,
      decrease_balance_calm (List.getElem?_set_self hi1) fun c hc => ?_⟩⟩
    refine ⟨(List.nodup_cons.1 hn).2, _, rfl, by simpa [withBalances] using g1, fun b hb => ?_,
      fun j hj => ⟨(g3 j (by simp [hj])).1, fun b hb => ?_⟩⟩
    · rcases mem_set_cases hb with hb | rfl
      · rcases mem_set_cases hb with hb | rfl
        · exact g2 b hb
        · omega
      · omega
    · have : i ≠ j := by rintro rfl; exact (List.nodup_cons.1 hn).1 hj
      rw [List.getElem?_set_ne this] at hb
      rw [show (withBalances s l).balances = l from rfl, List.getElem?_set_ne this] at hb
      exact (g3 j (by simp [hj])).2 b hb
  · rintro - ⟨-, l, rfl, g1, g2, -⟩
    exact ⟨l, rfl, g1, g2⟩
  · exact ⟨List.nodup_range, s.balances, rfl, rfl, fun b hb => by have := hK b hb; omega,
      fun i hi => ⟨List.mem_range.1 hi, fun b hb => hK b (List.mem_of_getElem? hb)⟩⟩

theorem altair_rewards_calm (hE : SaneConfig E) (hq : SaneQuotients E) (hx : SaneEpochs E)
    {f : Fork} (hf : f ≠ .Phase0) (h : Wellformed E s) (hT : effectiveSum s ≤ 2 ^ 56)
    (heff : ∀ v ∈ s.validators, v.effective_balance ≤ 2 ^ 11 * E.effective_balance_increment)
    (hfin : s.finalized_checkpoint.epoch ≤ epochOf E s.slot - 1)
    (hpar : Parallel f s)
    (hm : ∀ v ∈ s.validators, ∀ x ∈ s.inactivity_scores, v.effective_balance * x < 2 ^ 64 ∧
      v.effective_balance * x / (E.inactivity_score_bias * inactivity_penalty_quotient_of E f) ≤
        2 ^ 61)
    (hK : ∀ b ∈ s.balances, b ≤ 2 ^ 61) :
    CalmM (process_rewards_and_penalties E f)
      (fun _ s' => ∃ l, s' = withBalances s l ∧ l.length = s.balances.length ∧
        ∀ b ∈ l, b ≤ 2 ^ 61 + 4 * 2 ^ 60) s := by
  obtain ⟨hp, hc, hs⟩ := hpar.2 hf
  unfold process_rewards_and_penalties
  simp only [calm]
  refine current_epoch_calm hE ⟨fun _ => ⟨s.balances, rfl, rfl, fun b hb => by
    have := hK b hb; omega⟩, fun _ => ?_⟩
  have key : CalmM (do
      let source ← get_flag_index_deltas E s 0
      let target ← get_flag_index_deltas E s 1
      let head ← get_flag_index_deltas E s 2
      let inactivity ← get_inactivity_penalty_deltas E f s
      forEach [source, target, head, inactivity] apply_deltas : M Unit)
      (fun _ s' => ∃ l, s' = withBalances s l ∧ l.length = s.balances.length ∧
        ∀ b ∈ l, b ≤ 2 ^ 61 + 4 * 2 ^ 60) s := by
    simp only [calm]
    refine (flag_deltas_calm hE hq hx h hT heff hfin hp hc (by decide)).mono fun d0 h0 => ?_
    refine (flag_deltas_calm hE hq hx h hT heff hfin hp hc (by decide)).mono fun d1 h1 => ?_
    refine (flag_deltas_calm hE hq hx h hT heff hfin hp hc (by decide)).mono fun d2 h2 => ?_
    refine (inactivity_deltas_calm hE hx h hm hp hc hs).mono fun d3 h3 => ?_
    refine CalmM_forEach (fun rest t => (∀ d ∈ rest, Fresh s.validators.length (2 ^ 60) [] d) ∧
      rest.length ≤ 4 ∧
      ∃ l, t = withBalances s l ∧ l.length = s.balances.length ∧
        ∀ b ∈ l, b ≤ 2 ^ 61 + (4 - rest.length) * 2 ^ 60) ?_ ?_ ?_
    · rintro d rest - ⟨g1, g2, l, rfl, g3, g4⟩
      rw [List.length_cons] at g2 g4
      have gd := g1 d (by simp)
      refine (apply_deltas_calm (s := withBalances s l) gd.length.1 gd.length.2 gd.small
        (by rw [show (withBalances s l).balances = l from rfl, g3]; exact h.balances) g4
        (by omega)).mono ?_
      rintro - - ⟨m, rfl, k1, k2⟩
      exact ⟨fun d hd => g1 d (by simp [hd]), by omega, m, rfl, k1.trans g3, fun b hb => by
        have := k2 b hb; omega⟩
    · rintro - ⟨-, -, l, rfl, g3, g4⟩
      exact ⟨l, rfl, g3, g4⟩
    · refine ⟨?_, by simp, s.balances, rfl, rfl, fun b hb => by have := hK b hb; omega⟩
      intro d hd
      simp only [List.mem_cons, List.not_mem_nil, or_false] at hd
      rcases hd with rfl | rfl | rfl | rfl <;> assumption
  simp only [calm] at key
  cases f <;> first | exact absurd rfl hf | exact key

/-! ## Inactivity updates -/

theorem next_score_calm (hx : SaneEpochs E) {p nl : Bool} {x B : Nat} (h : x ≤ B)
    (hB : B ≤ 2 ^ 23) : Calm (next_inactivity_score E p nl x) fun y => y ≤ B + 2 ^ 10 := by
  have hU : U64_BOUND = 2 ^ 64 := rfl
  have := hx.score_bias
  unfold next_inactivity_score
  simp only [calm]
  refine ⟨fun _ => ⟨by omega, fun _ => ⟨by omega, by omega⟩, fun _ => by omega⟩,
    fun _ => ⟨by omega, fun _ => ⟨by omega, by omega⟩, fun _ => by omega⟩⟩

theorem inactivity_updates_calm (hE : SaneConfig E) (hx : SaneEpochs E) {f : Fork}
    (hf : f ≠ .Phase0) (h : Wellformed E s)
    (hfin : s.finalized_checkpoint.epoch ≤ epochOf E s.slot - 1)
    (hpar : Parallel f s) {B : Nat} (hsc : ∀ x ∈ s.inactivity_scores, x ≤ B) (hB : B ≤ 2 ^ 23) :
    CalmM (process_inactivity_updates E)
      (fun _ s' => ∃ l, s' = { s with inactivity_scores := l } ∧
        l.length = s.inactivity_scores.length ∧ ∀ x ∈ l, x ≤ B + 2 ^ 10) s := by
  obtain ⟨hp, hc, hs⟩ := hpar.2 hf
  unfold process_inactivity_updates
  simp only [calm]
  refine current_epoch_calm hE ⟨fun _ => ⟨s.inactivity_scores, rfl, rfl, fun b hb => by
    have := hsc b hb; omega⟩, fun _ => ?_⟩
  refine (eligible_calm hE h).mono fun el ⟨e1, e2⟩ => previous_epoch_calm hE
    ((participating_calm hE (by decide) hp hc).mono fun ps _ => (leak_calm hE hfin).mono fun lk _ => ?_)
  refine CalmM_forEach (fun rest t => rest.Nodup ∧ (∀ i ∈ rest, i < s.validators.length) ∧
    ∃ l, t = { s with inactivity_scores := l } ∧ l.length = s.inactivity_scores.length ∧
      (∀ x ∈ l, x ≤ B + 2 ^ 10) ∧ ∀ i ∈ rest, ∀ x, l[i]? = some x → x ≤ B) ?_ ?_ ?_
  · rintro i rest - ⟨hn, hlt, l, rfl, g1, g2, g3⟩
    have hi := List.getElem?_eq_getElem (show i < l.length by have := hlt i (by simp); omega)
    simp only [calm]
    refine ⟨_, hi, (next_score_calm hx (g3 i (by simp) _ hi) hB).mono fun y hy => ?_⟩
    refine ⟨(List.nodup_cons.1 hn).2, fun j hj => hlt j (by simp [hj]), _, rfl, by simpa using g1,
      fun x hx => ?_, fun j hj x hx => ?_⟩
    · rcases mem_set_cases hx with hx | rfl
      · exact g2 x hx
      · exact hy
    · have : i ≠ j := by rintro rfl; exact (List.nodup_cons.1 hn).1 hj
      rw [List.getElem?_set_ne this] at hx
      exact g3 j (by simp [hj]) x hx
  · rintro - ⟨-, -, l, rfl, g1, g2, -⟩
    exact ⟨l, rfl, g1, g2⟩
  · exact ⟨e1, e2, s.inactivity_scores, rfl, rfl, fun x hx => by have := hsc x hx; omega,
      fun i _ x hx => hsc x (List.mem_of_getElem? hx)⟩

end Verif
