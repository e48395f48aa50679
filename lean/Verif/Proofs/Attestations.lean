import Verif.Proofs.Evidence
import Verif.Proofs.Flags
import Verif.Proofs.Isqrt
import Verif.Proofs.Operations
import Verif.Spec.Attestations

namespace Verif
open Spec

/-! ## Checks -/

theorem previous_epoch_eq_ok {E : Env} {s : State} {e : Nat} :
    get_previous_epoch E s = .ok e ↔ e = epochOf E s.slot - 1 ∧ E.slots_per_epoch ≠ 0 := by
  simp only [get_previous_epoch, run, current_epoch_eq_ok]
  constructor
  · rintro ⟨a, ⟨rfl, h⟩, ⟨h1, rfl⟩ | ⟨-, rfl, -⟩⟩
    · exact ⟨by unfold GENESIS_EPOCH at *; omega, h⟩
    · exact ⟨rfl, h⟩
  · rintro ⟨rfl, h⟩
    refine ⟨_, ⟨rfl, h⟩, ?_⟩
    by_cases h0 : epochOf E s.slot = 0
    · exact Or.inl ⟨h0, by unfold GENESIS_EPOCH; omega⟩
    · exact Or.inr ⟨h0, rfl, by omega⟩

/-- The part of `TimelyVote` that `check_attestation_data` decides. -/
def TimelyPart (E : Env) (f : Fork) (s : State) (d : AttestationData) : Prop :=
  (d.target.epoch = epochOf E s.slot ∨ d.target.epoch = epochOf E s.slot - 1) ∧
  epochOf E d.slot = d.target.epoch ∧
  d.slot + E.min_attestation_inclusion_delay ≤ s.slot ∧
  (f ≠ .Deneb → f ≠ .Electra → s.slot ≤ d.slot + E.slots_per_epoch)

theorem check_attestation_data_eq_ok {E : Env} (hE : SaneConfig E) {f : Fork} {s : State}
    (hs : s.slot < 2 ^ 63) {d : AttestationData} {b : Bool} :
    check_attestation_data E f s d = .ok b ↔
      b = decide (d.target.epoch = epochOf E s.slot) ∧ TimelyPart E f s d := by
  have h0 := hE.slots_per_epoch
  have hd := hE.min_attestation_inclusion_delay
  have hb := U64_BOUND_eq
  have hsl : (d.target.epoch = epochOf E s.slot ∨ d.target.epoch = epochOf E s.slot - 1) →
      epochOf E d.slot = d.target.epoch → d.slot < s.slot + E.slots_per_epoch := by
    intro h1 h2
    have h3 : epochOf E d.slot ≤ epochOf E s.slot := by omega
    have h4 : d.slot < (s.slot / E.slots_per_epoch + 1) * E.slots_per_epoch := by
      rw [← Nat.div_lt_iff_lt_mul h0.1]; exact Nat.lt_succ_of_le h3
    have h5 := Nat.div_mul_le_self s.slot E.slots_per_epoch
    rw [Nat.add_mul, Nat.one_mul] at h4
    omega
  unfold check_attestation_data
  have hne : E.slots_per_epoch ≠ 0 := by omega
  constructor
  · intro h
    cases f <;> simp only [run, previous_epoch_eq_ok, current_epoch_eq_ok, epoch_at_slot_eq_ok] at h
    all_goals
      obtain ⟨_, ⟨rfl, -⟩, _, ⟨rfl, -⟩, h1, _, ⟨rfl, -⟩, h2, _, ⟨rfl, h3⟩, h4⟩ := h
      have h1' : d.target.epoch = epochOf E s.slot ∨ d.target.epoch = epochOf E s.slot - 1 := by
        by_cases h : d.target.epoch = epochOf E s.slot - 1
        · exact Or.inr h
        · left; simpa [h] using h1
      have h2' : epochOf E d.slot = d.target.epoch := (by simpa using h2 : _ = _).symm
    all_goals
      first
      | (obtain ⟨_, ⟨rfl, -⟩, h5, rfl⟩ := h4
         simp only [Bool.not_eq_false', Bool.and_eq_true, decide_eq_true_eq] at h5
         exact ⟨rfl, h1', h2', h5.1, fun _ _ => h5.2⟩)
      | (obtain ⟨h5, rfl⟩ := h4
         simp only [Bool.not_eq_false', decide_eq_true_eq] at h5
         exact ⟨rfl, h1', h2', h5, fun h h' => by first | exact absurd rfl h | exact absurd rfl h'⟩)
  · rintro ⟨rfl, h1, h2, h3, h4⟩
    have hlt := hsl h1 h2
    have h1' : (!(decide (d.target.epoch = epochOf E s.slot - 1) ||
        decide (d.target.epoch = epochOf E s.slot))) = false := by
      rcases h1 with h1 | h1 <;> simp [h1]
    cases f <;> simp only [run, previous_epoch_eq_ok, current_epoch_eq_ok, epoch_at_slot_eq_ok]
    all_goals
      refine ⟨_, ⟨rfl, hne⟩, _, ⟨rfl, hne⟩, h1', _, ⟨rfl, hne⟩, by simp [h2], _,
        ⟨rfl, by omega⟩, ?_⟩
      first
      | (refine ⟨_, ⟨rfl, by omega⟩, ?_, rfl⟩
         have := h4 (by decide) (by decide)
         simp only [Bool.not_eq_false', Bool.and_eq_true, decide_eq_true_eq]; exact ⟨h3, this⟩)
      | (refine ⟨?_, rfl⟩; simp only [Bool.not_eq_false', decide_eq_true_eq]; exact h3)

theorem mem_attesters_of {committee : List Nat} {bits : List Bool} {v : Nat} :
    v ∈ attesters_of committee bits ↔
      ∃ k : Nat, committee[k]? = some v ∧ bits[k]? = some true := by
  unfold attesters_of
  rw [mem_setOfList, List.mem_filterMap]
  constructor
  · rintro ⟨⟨w, b⟩, h, h'⟩
    simp only at h'
    split at h'
    · rename_i hb
      cases h'
      obtain ⟨k, hk, he⟩ := List.mem_iff_getElem.1 h
      rw [List.getElem_zip] at he
      cases he
      rw [List.length_zip] at hk
      refine ⟨k, ?_, ?_⟩
      · rw [List.getElem?_eq_getElem (by omega)]
      · rw [List.getElem?_eq_getElem (by omega), hb]
    · cases h'
  · rintro ⟨k, h1, h2⟩
    refine ⟨(v, true), ?_, rfl⟩
    obtain ⟨l1, e1⟩ := List.getElem?_eq_some_iff.1 h1
    obtain ⟨l2, e2⟩ := List.getElem?_eq_some_iff.1 h2
    apply List.mem_iff_getElem.2
    refine ⟨k, by rw [List.length_zip]; omega, ?_⟩
    rw [List.getElem_zip, e1, e2]

theorem voters_sorted {E : Env} {s : State} {committee : List Nat} {bits : List Bool} :
    Voters committee bits (sortBy (· ≤ ·) (iterate E s (attesters_of committee bits))) := by
  refine ⟨sortBy_lt (nodup_iterate nodup_setOfList), fun v => ?_⟩
  rw [mem_sortBy, mem_iterate, mem_attesters_of]

theorem voters_unique {committee : List Nat} {bits : List Bool} {l m : List Nat}
    (hl : Voters committee bits l) (hm : Voters committee bits m) : l = m :=
  sorted_unique hl.1 hm.1 fun v => (hl.2 v).trans (hm.2 v).symm

theorem check_committee_eq_ok {E : Env} {s : State} {a : Attestation} :
    check_attestation_committee E s a = .ok () ↔
      (∃ n, get_committee_count_per_slot E s a.data.target.epoch = .ok n ∧ a.data.index < n) ∧
      ∃ c, get_beacon_committee E s a.data.slot a.data.index = .ok c ∧
        a.aggregation_bits.length = c.length := by
  simp only [check_attestation_committee, run, decide_eq_false_iff_not, not_not, ge_iff_le,
    Nat.not_le]
  constructor
  · rintro ⟨n, h1, h2, c, h3, h4⟩; exact ⟨⟨n, h1, h2⟩, c, h3, h4⟩
  · rintro ⟨⟨n, h1, h2⟩, c, h3, h4⟩; exact ⟨n, h1, h2, c, h3, h4⟩

theorem attesting_indices_eq_ok {E : Env} {s : State} {d : AttestationData} {bits : List Bool}
    {l : List Nat} :
    get_attesting_indices E s d bits = .ok l ↔
      ∃ c, get_beacon_committee E s d.slot d.index = .ok c ∧ bits.length = c.length ∧
        l = iterate E s (attesters_of c bits) := by
  simp only [get_attesting_indices, run, decide_eq_false_iff_not, not_not]
  constructor
  · rintro ⟨c, h1, h2, rfl⟩; exact ⟨c, h1, h2, rfl⟩
  · rintro ⟨c, h1, h2, rfl⟩; exact ⟨c, h1, h2, rfl⟩

theorem indexed_attestation_eq_ok {E : Env} {s : State} {a : Attestation}
    {i : IndexedAttestation} :
    get_indexed_attestation E s a = .ok i ↔
      ∃ l, get_attesting_indices E s a.data a.aggregation_bits = .ok l ∧
        i = ⟨sortBy (· ≤ ·) l, a.data, a.signature⟩ := by
  simp only [get_indexed_attestation, run]
  constructor
  · rintro ⟨l, h, rfl⟩; exact ⟨l, h, rfl⟩
  · rintro ⟨l, h, rfl⟩; exact ⟨l, h, rfl⟩

/-- The committee checks together. -/
theorem committee_vote_iff {E : Env} {s : State} {a : Attestation} :
    (check_attestation_committee E s a = .ok () ∧
      ∃ i, get_indexed_attestation E s a = .ok i ∧ is_valid_indexed_attestation E s i = .ok ()) ↔
    ∃ l, CommitteeVote E s a l := by
  rw [check_committee_eq_ok]
  constructor
  · rintro ⟨⟨h1, c, h2, h3⟩, i, h4, h5⟩
    obtain ⟨l, h6, rfl⟩ := indexed_attestation_eq_ok.1 h4
    obtain ⟨c', h7, h8, rfl⟩ := attesting_indices_eq_ok.1 h6
    exact ⟨_, h1, ⟨c', h7, h8, voters_sorted⟩, valid_indexed_iff.1 h5⟩
  · rintro ⟨l, h1, ⟨c, h2, h3, h4⟩, h5⟩
    refine ⟨⟨h1, c, h2, h3⟩, ⟨l, a.data, a.signature⟩,
      indexed_attestation_eq_ok.2 ⟨_, attesting_indices_eq_ok.2 ⟨c, h2, h3, rfl⟩, ?_⟩,
      valid_indexed_iff.2 h5⟩
    rw [voters_unique h4 voters_sorted]

/-! ## Phase0 -/

theorem phase0_attestation_eq_ok {E : Env} (hE : SaneConfig E) {s s' : State}
    (hs : s.slot < 2 ^ 63) {a : Attestation} :
    Phase0.process_attestation E a s = .ok () s' ↔
      TimelyVote E .Phase0 s a.data ∧ (∃ l, CommitteeVote E s a l) ∧
      ∃ p, get_beacon_proposer_index E s = .ok p ∧
        s' = if a.data.target.epoch = epochOf E s.slot then
          { s with
            current_epoch_attestations := s.current_epoch_attestations ++ [pendingOf s a p] }
        else
          { s with
            previous_epoch_attestations :=
              s.previous_epoch_attestations ++ [pendingOf s a p] } := by
  simp only [Phase0.process_attestation, run, check_attestation_data_eq_ok hE hs,
    ← committee_vote_iff]
  constructor
  · rintro ⟨_, ⟨rfl, h1⟩, h2, i, h3, h4, _, ⟨rfl, h5⟩, p, h6, h7⟩
    simp only [decide_eq_true_eq] at h7
    rcases h7 with ⟨h7, h8, rfl⟩ | ⟨h7, h8, rfl⟩
    · refine ⟨⟨h1.1, h1.2.1, h1.2.2.1, h1.2.2.2, ?_⟩, ⟨h2, i, h3, h4⟩, p, h6, ?_⟩
      · rw [if_pos h7]; simpa using h8
      · rw [if_pos h7]; rfl
    · refine ⟨⟨h1.1, h1.2.1, h1.2.2.1, h1.2.2.2, ?_⟩, ⟨h2, i, h3, h4⟩, p, h6, ?_⟩
      · rw [if_neg h7]; simpa using h8
      · rw [if_neg h7]; rfl
  · rintro ⟨h1, ⟨h2, i, h3, h4⟩, p, h6, rfl⟩
    have hsrc := h1.source
    refine ⟨_, ⟨rfl, h1.target, h1.slot, h1.delay, h1.window⟩, h2, i, h3, h4, _,
      ⟨rfl, by have := h1.delay; omega⟩, p, h6, ?_⟩
    simp only [decide_eq_true_eq]
    by_cases h7 : a.data.target.epoch = epochOf E s.slot
    · rw [if_pos h7] at hsrc ⊢
      exact Or.inl ⟨h7, by simpa using hsrc, rfl⟩
    · rw [if_neg h7] at hsrc ⊢
      exact Or.inr ⟨h7, by simpa using hsrc, rfl⟩

end Verif
