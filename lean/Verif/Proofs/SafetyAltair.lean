import Verif.Proofs.Safety
import Verif.Proofs.Participation

/-! # Altair attestations and sync aggregates do not panic -/

namespace Verif

open Spec Props

variable {E : Env} {s s' : State}

theorem active_lt {e i : Nat} (h : i ∈ get_active_validator_indices s e) :
    i < s.validators.length := by
  rw [activeIndices_eq] at h
  obtain ⟨v, hv, -⟩ := mem_activeIndices.1 h
  exact (List.getElem?_eq_some_iff.1 hv).1

/-- The sum of the effective balances of a list of validators. -/
def effSum (s : State) (l : List Nat) : Nat :=
  (l.map fun i => (s.validators.map Validator.effective_balance).getD i 0).sum

theorem sum_getD_le {l : List Nat} (hl : l.Nodup) (xs : List Nat) :
    (l.map fun i => xs.getD i 0).sum ≤ xs.sum := by
  induction xs generalizing l with
  | nil => simp
  | cons x xs ih =>
    have h0 : (l.map fun i => (x :: xs).getD i 0).sum =
        (if 0 ∈ l then x else 0) +
          (((l.filter (· ≠ 0)).map (· - 1)).map fun i => xs.getD i 0).sum := by
      clear ih
      induction l with
      | nil => simp
      | cons i l ihl =>
        have hn := List.nodup_cons.1 hl
        rw [List.map_cons, List.sum_cons, ihl hn.2]
        cases i with
        | zero =>
          have : 0 ∉ l := hn.1
          simp [this]
        | succ i => simp; omega
    have hnd : ((l.filter (· ≠ 0)).map (· - 1)).Nodup := by
      apply List.Nodup.map_on
      · intro a ha b hb hab
        have := (List.mem_filter.1 ha).2
        have := (List.mem_filter.1 hb).2
        simp at *; omega
      · exact hl.filter _
    have := ih hnd
    rw [h0, List.sum_cons]
    split <;> omega

theorem effSum_le {l : List Nat} (hl : l.Nodup) : effSum s l ≤ effectiveSum s := sum_getD_le hl _

theorem effSum_cons {i : Nat} {l : List Nat} {v : Validator} (hv : s.validators[i]? = some v) :
    effSum s (i :: l) = v.effective_balance + effSum s l := by
  simp [effSum, List.getD_eq_getElem?_getD, hv]

theorem total_balance_calm (hq : SaneQuotients E) {l : List Nat}
    (hl : ∀ i ∈ l, i < s.validators.length) :
    Calm (get_total_balance E s l) fun t =>
      E.effective_balance_increment ≤ t ∧ t < 2 ^ 64 ∧
        t ≤ max (effSum s l) E.effective_balance_increment := by
  have hb : U64_BOUND = 2 ^ 64 := rfl
  have hi := hq.increment
  unfold get_total_balance
  simp only [calm]
  refine Calm_foldlM (fun rest acc => (∀ i ∈ rest, i < s.validators.length) ∧ acc < 2 ^ 64 ∧
    acc + effSum s rest ≤ effSum s l) ?_ ?_ ⟨hl, by omega, by omega⟩
  · rintro i rest acc ⟨h1, h2, h3⟩
    have hv := List.getElem?_eq_getElem (h1 i (by simp))
    rw [effSum_cons hv] at h3
    simp only [calm]
    exact ⟨_, hv, fun hlt => ⟨fun j hj => h1 j (by simp [hj]), by omega, by omega⟩⟩
  · rintro acc ⟨-, h2, h3⟩
    omega

theorem total_active_calm (hE : SaneConfig E) (hq : SaneQuotients E) :
    Calm (get_total_active_balance E s) fun t =>
      E.effective_balance_increment ≤ t ∧ t < 2 ^ 64 ∧
        t ≤ max (effectiveSum s) E.effective_balance_increment := by
  unfold get_total_active_balance
  simp only [calm]
  refine current_epoch_calm hE ((total_balance_calm hq fun i hi => active_lt (mem_iterate.1 hi)).mono
    fun t ⟨h1, h2, h3⟩ => ⟨h1, h2, ?_⟩)
  have : effSum s (iterate E s (get_active_validator_indices s (epochOf E s.slot))) ≤
      effectiveSum s :=
    effSum_le (nodup_iterate <| by rw [activeIndices_eq]; exact List.nodup_range.filter _)
  omega

theorem per_increment_calm (hE : SaneConfig E) (hq : SaneQuotients E) :
    Calm (get_base_reward_per_increment E s) fun p => p ≤ E.effective_balance_increment := by
  have hb : U64_BOUND = 2 ^ 64 := rfl
  have hi := hq.increment
  have hf := hq.base_reward_factor
  have hpos := hE.effective_balance_increment
  have hm : E.effective_balance_increment * E.base_reward_factor ≤ 2 ^ 32 * 2 ^ 31 := by
    have : E.base_reward_factor ≤ 2 ^ 31 := by
      by_contra hc
      have : 2 ^ 31 * 2 ^ 31 ≤ E.base_reward_factor * E.base_reward_factor :=
        Nat.mul_le_mul (by omega) (by omega)
      omega
    exact Nat.mul_le_mul hi this
  unfold get_base_reward_per_increment
  simp only [calm]
  refine ⟨by omega, (total_active_calm hE hq).mono fun t ⟨h1, h2, _⟩ => ?_⟩
  rw [isqrt_eq h2]
  have hsq : E.base_reward_factor ≤ Nat.sqrt t := Nat.le_sqrt.2 (by omega)
  have hsp : 0 < Nat.sqrt t := Nat.sqrt_pos.2 (by omega)
  refine ⟨by omega, ?_⟩
  apply Nat.div_le_of_le_mul
  rw [Nat.mul_comm]
  exact Nat.mul_le_mul_right _ hsq

theorem base_reward_calm (hE : SaneConfig E) (hq : SaneQuotients E) {i : Nat} {v : Validator}
    (hv : s.validators[i]? = some v) (hb : v.effective_balance ≤ 2 ^ 48) :
    Calm (Altair.get_base_reward E s i) fun r => r ≤ v.effective_balance := by
  have hU : U64_BOUND = 2 ^ 64 := rfl
  have hpos := hE.effective_balance_increment
  unfold Altair.get_base_reward
  simp only [calm]
  refine ⟨v, hv, by omega, (per_increment_calm hE hq).mono fun p hp => ?_⟩
  have : v.effective_balance / E.effective_balance_increment * p ≤ v.effective_balance :=
    Nat.le_trans (Nat.mul_le_mul_left _ hp) (Nat.div_mul_le_self _ _)
  exact ⟨by omega, this⟩

/-! ## Flags -/

theorem flag_calm {b : UInt8} {i : Nat} (h : i < 8) : Calm (has_flag b i) fun _ => True := by
  unfold has_flag flagBit; rw [if_pos h]; trivial

theorem add_flag_calm {b : UInt8} {i : Nat} (h : i < 8) : Calm (add_flag b i) fun _ => True := by
  unfold add_flag flagBit; rw [if_pos h]; trivial

theorem setParticipation_validators (c : Bool) (p : List UInt8) :
    (setParticipation c p s).validators = s.validators := by cases c <;> rfl

theorem apply_flag_calm (hE : SaneConfig E) (hq : SaneQuotients E) (h : Wellformed E s) {c : Bool}
    {fl : List Nat} {i n : Nat} {v : Validator} (hv : s.validators[i]? = some v)
    (flag : Nat × Nat) (hf : flag.1 < 8) (hw : flag.2 ≤ 2 ^ 8) {p : List UInt8} (hi : i < p.length)
    (hn : n + 2 ^ 56 < 2 ^ 64) :
    CalmM (apply_flag E c fl i n flag)
      (fun n' s' => n' ≤ n + flag.2 * v.effective_balance ∧
        ∃ p', p'.length = p.length ∧ s' = setParticipation c p' s) (setParticipation c p s) := by
  have hU : U64_BOUND = 2 ^ 64 := rfl
  have hve := h.effective v (List.mem_of_getElem? hv)
  unfold apply_flag
  simp only [calm]
  refine ⟨fun _ => ?_, fun _ => ⟨by omega, p, rfl, rfl⟩⟩
  rw [participationOf_set]
  refine ⟨_, List.getElem?_eq_getElem hi, (flag_calm hf).mono fun b _ =>
    ⟨fun _ => ⟨by omega, p, rfl, rfl⟩, fun _ => (add_flag_calm hf).mono fun b' _ => ?_⟩⟩
  rw [setParticipation_twice]
  refine (base_reward_calm hE hq (v := v) (by rw [setParticipation_validators]; exact hv)
    hve).mono fun r hr => ?_
  have h1 : r * flag.2 ≤ 2 ^ 48 * 2 ^ 8 := Nat.mul_le_mul (by omega) hw
  have h2 : r * flag.2 ≤ flag.2 * v.effective_balance := by
    rw [Nat.mul_comm]; exact Nat.mul_le_mul_left _ hr
  exact ⟨by omega, by omega, by omega, p.set i b', by simp, rfl⟩

/-- One attester adds at most 54 effective balances to the numerator. -/
theorem attester_calm (hE : SaneConfig E) (hq : SaneQuotients E) (h : Wellformed E s) {c : Bool}
    {fl : List Nat} {i n : Nat} {v : Validator} (hv : s.validators[i]? = some v)
    {p : List UInt8} (hi : i < p.length) (hn : n + 2 ^ 58 < 2 ^ 64) :
    CalmM (enumeratedWeights.foldlM (apply_flag E c fl i) n)
      (fun n' s' => n' ≤ n + 54 * v.effective_balance ∧
        ∃ p', p'.length = p.length ∧ s' = setParticipation c p' s) (setParticipation c p s) := by
  have hve := h.effective v (List.mem_of_getElem? hv)
  simp only [enumeratedWeights, List.foldlM_cons, List.foldlM_nil, calm]
  refine (apply_flag_calm hE hq h hv (0, 14) (by decide) (by decide) hi (by omega)).mono ?_
  rintro n1 - ⟨h1, p1, hp1, rfl⟩
  simp only at h1
  refine (apply_flag_calm hE hq h hv (1, 26) (by decide) (by decide) (by omega) (by omega)).mono ?_
  rintro n2 - ⟨h2, p2, hp2, rfl⟩
  simp only at h2
  refine (apply_flag_calm hE hq h hv (2, 14) (by decide) (by decide) (by omega) (by omega)).mono ?_
  rintro n3 - ⟨h3, p3, hp3, rfl⟩
  simp only at h3
  exact ⟨by omega, p3, by omega, rfl⟩

theorem apply_flags_calm (hE : SaneConfig E) (hq : SaneQuotients E) (h : Wellformed E s) {c : Bool}
    {fl l : List Nat} (hp : (participationOf c s).length = s.validators.length)
    (hn : l.Nodup) (hl : ∀ i ∈ l, i < s.validators.length) (hT : effectiveSum s ≤ 2 ^ 57) :
    CalmM (apply_flags E c fl l)
      (fun n s' => n ≤ 54 * effectiveSum s ∧
        ∃ p', p'.length = s.validators.length ∧ s' = setParticipation c p' s) s := by
  unfold apply_flags
  refine CalmM_foldlM (fun rest n s' => n + 54 * effSum s rest ≤ 54 * effSum s l ∧
    (∀ i ∈ rest, i < s.validators.length) ∧
    ∃ p', p'.length = s.validators.length ∧ s' = setParticipation c p' s) ?_ ?_ ?_
  · rintro i rest n - ⟨h1, h2, p, hp, rfl⟩
    obtain ⟨v, hv⟩ : ∃ v, s.validators[i]? = some v :=
      ⟨_, List.getElem?_eq_getElem (h2 i (by simp))⟩
    have hle := effSum_le (s := s) hn
    rw [effSum_cons hv] at h1
    refine (attester_calm hE hq h hv (by rw [hp]; exact h2 i (by simp)) (by omega)).mono ?_
    rintro n' - ⟨g1, p', g2, rfl⟩
    exact ⟨by omega, fun j hj => h2 j (by simp [hj]), p', by omega, rfl⟩
  · rintro n - ⟨h1, -, p, hp, rfl⟩
    have hle := effSum_le (s := s) hn
    exact ⟨by omega, p, hp, rfl⟩
  · exact ⟨by omega, hl, participationOf c s, hp, setParticipation_self.symm⟩

/-! ## Attestations -/

theorem block_root_at_calm (hE : SaneConfig E) (h : Wellformed E s) {slot : Nat}
    (hs : 0 < s.slot) : Calm (get_block_root_at_slot E s slot) fun _ => True := by
  have hU : U64_BOUND = 2 ^ 64 := rfl
  have hr := hE.slots_per_historical_root
  have hslot := h.slot
  unfold get_block_root_at_slot
  simp only [calm]
  have hbad : s.slot ≥ 1 ∧ s.slot + E.slots_per_historical_root < U64_BOUND ∧
    (Err.slotOutOfRange).isPanic = false := ⟨hs, by omega, rfl⟩
  have hidx : ∃ x, s.block_roots[slot % E.slots_per_historical_root]? = some x ∧ True :=
    ⟨_, List.getElem?_eq_getElem (by rw [h.shaped.block_roots]; exact Nat.mod_lt _ (by omega)),
      trivial⟩
  refine ⟨fun _ => ⟨fun _ => hbad, fun _ => ⟨by omega, hidx⟩⟩, fun _ => ⟨by omega, fun _ => hbad,
    fun _ => ⟨by omega, hidx⟩⟩⟩

theorem participation_flags_calm (hE : SaneConfig E) (h : Wellformed E s) {f : Fork}
    {d : AttestationData} {n : Nat} (hs : 0 < s.slot)
    (ht : d.target.epoch ≤ epochOf E s.slot) :
    Calm (get_attestation_participation_flag_indices E f s d n) fun _ => True := by
  have hU : U64_BOUND = 2 ^ 64 := rfl
  have hslot := h.slot
  have hm : d.target.epoch * E.slots_per_epoch ≤ s.slot :=
    Nat.le_trans (Nat.mul_le_mul_right _ ht) (Nat.div_mul_le_self _ _)
  unfold get_attestation_participation_flag_indices get_block_root compute_start_slot_at_epoch
  simp only [calm]
  refine current_epoch_calm hE ⟨fun _ => rfl, fun _ => ⟨by omega, ?_⟩⟩
  refine (block_root_at_calm hE h hs).mono fun r _ => ⟨fun _ => ?_, fun _ => trivial⟩
  exact (block_root_at_calm hE h hs).mono fun _ _ => trivial

theorem wf_participation {c : Bool} {p : List UInt8} (h : Wellformed E s) :
    Wellformed E (setParticipation c p s) := by
  cases c <;>
  exact ⟨⟨h.shaped.1, h.shaped.2, h.shaped.3, h.shaped.4, h.shaped.5,
      h.shaped.6⟩, h.balances, h.slot, h.effective, h.exit, h.eligible⟩

theorem room_participation {c : Bool} {p : List UInt8} {k : Nat} (h : Room k s) :
    Room k (setParticipation c p s) := by
  cases c <;> exact ⟨h.stake, h.balances, h.slashings⟩

theorem Spec.Room.raise {k i b d : Nat} (h : Room (k + d) s) (hb : s.balances[i]? = some b) :
    Room k { s with balances := s.balances.set i (b + d) } :=
  (Room2.raise (h.two.le (Nat.le_refl _) (by omega)) hb).room

theorem reward_proposer_calm (hE : SaneConfig E) {k n r : Nat} (h : Wellformed E s)
    (hr : Room (k + r) s) (hn : n / 448 ≤ r) :
    CalmM (reward_attestation_proposer E n) (fun _ s' => Kept E k s s') s := by
  have hU : U64_BOUND = 2 ^ 64 := rfl
  unfold reward_attestation_proposer
  simp only [calm]
  refine ⟨by decide, by decide, by decide, by decide, ?_⟩
  have hc : (WEIGHT_DENOMINATOR - PROPOSER_WEIGHT) * WEIGHT_DENOMINATOR / PROPOSER_WEIGHT = 448 := by
    decide
  rw [hc]
  refine (proposer_calm hE h).mono fun p hp => ?_
  obtain ⟨b, hb⟩ : ∃ b, s.balances[p]? = some b :=
    ⟨_, List.getElem?_eq_getElem (by rw [h.balances]; exact hp)⟩
  have hbd := hr.balances b (List.mem_of_getElem? hb)
  refine increase_balance_calm hb (by omega) ⟨h.balance, ?_, rfl, rfl⟩
  exact (hr.le (k' := k + n / 448) (by omega)).raise hb

theorem altair_attestation_calm (hE : SaneConfig E) (hq : SaneQuotients E) {f : Fork} {k : Nat}
    (h : Wellformed E s) (hr : Room (k + effectiveSum s) s)
    (hp : s.previous_epoch_participation.length = s.validators.length)
    (hc : s.current_epoch_participation.length = s.validators.length)
    (hT : effectiveSum s ≤ 2 ^ 57) (a : Attestation) :
    CalmM (Altair.process_attestation E f a) (fun _ s' => Kept E k s s') s := by
  have hslot := h.slot
  have hd := hq.inclusion_delay
  unfold Altair.process_attestation
  simp only [calm]
  refine (attestation_data_calm hE h).mono fun c ⟨h1, h2, h3, _, _⟩ => ?_
  refine (attestation_committee_calm hE h h1 (by omega)).mono fun _ hatt => ⟨by omega, ?_⟩
  refine (participation_flags_calm hE h (by omega) h2).mono fun fl _ => ?_
  unfold get_indexed_attestation
  simp only [calm]
  refine hatt.mono fun l _ => ?_
  refine (indexed_calm hE).mono fun _ _ => hatt.mono fun l' ⟨hn, hl⟩ => ?_
  have hpl : (participationOf c s).length = s.validators.length := by
    unfold participationOf; split <;> assumption
  refine (apply_flags_calm hE hq h hpl hn hl hT).mono ?_
  rintro n - ⟨g1, p', -, rfl⟩
  refine (reward_proposer_calm hE (wf_participation h) (room_participation hr) ?_).mono ?_
  · omega
  · rintro - s2 g
    refine ⟨g.wf, g.room, g.effective.trans ?_, g.slot.trans ?_⟩
    · rw [setParticipation_validators]
    · cases c <;> rfl

end Verif
