import Verif.Proofs.Participation

/-! # Electra: the validators counted by an aggregate over several committees -/

namespace Verif

open Spec

theorem committee_attesters_eq_ok {bits : List Bool} {off i : Nat} {c l : List Nat} :
    Electra.committee_attesters bits off i c = .ok l →
      (∀ k < c.length, off + i + k < bits.length) ∧
      ∀ v, v ∈ l ↔ ∃ k : Nat, c[k]? = some v ∧ bits[off + i + k]? = some true := by
  induction c generalizing i l with
  | nil =>
    intro h; simp only [Electra.committee_attesters, run] at h
    subst h; simp
  | cons x xs ih =>
    intro h
    simp only [Electra.committee_attesters, run] at h
    obtain ⟨b, hb, others, ho, rfl⟩ := h
    obtain ⟨h1, h2⟩ := ih ho
    constructor
    · intro k hk
      rcases k with _ | k
      · exact (List.getElem?_eq_some_iff.1 hb).1
      · have := h1 k (by simpa using hk); omega
    · intro v
      have hrest : v ∈ others ↔ ∃ k : Nat, (x :: xs)[k + 1]? = some v ∧
          bits[off + i + (k + 1)]? = some true := by
        rw [h2]
        simp only [List.getElem?_cons_succ, show ∀ k, off + (i + 1) + k = off + i + (k + 1) by
          intro k; omega]
      cases b with
      | true =>
        simp only [if_true, List.mem_cons, hrest]
        constructor
        · rintro (rfl | ⟨k, hk⟩)
          · exact ⟨0, by simp, by simpa using hb⟩
          · exact ⟨k + 1, hk⟩
        · rintro ⟨_ | k, hk1, hk2⟩
          · left; simpa using hk1.symm
          · right; exact ⟨k, hk1, hk2⟩
      | false =>
        simp only [Bool.false_eq_true, if_false, hrest]
        constructor
        · rintro ⟨k, hk⟩; exact ⟨k + 1, hk⟩
        · rintro ⟨_ | k, hk1, hk2⟩
          · rw [Nat.add_zero, hb] at hk2; cases hk2
          · exact ⟨k, hk1, hk2⟩

theorem mem_committee_indices {bits : List Bool} {i : Nat} :
    i ∈ Electra.get_committee_indices bits ↔ bits[i]? = some true := by
  unfold Electra.get_committee_indices
  rw [List.mem_filterMap]
  constructor
  · rintro ⟨⟨b, j⟩, h1, h2⟩
    rw [List.mem_zipIdx_iff_getElem?] at h1
    cases b <;> simp at h2
    subst h2; exact h1
  · intro h
    exact ⟨(true, i), List.mem_zipIdx_iff_getElem?.2 h, rfl⟩

theorem committee_indices_sorted {bits : List Bool} :
    (Electra.get_committee_indices bits).Pairwise (· < ·) := by
  unfold Electra.get_committee_indices
  generalize 0 = n
  induction bits generalizing n with
  | nil => simp
  | cons b bs ih =>
    rw [List.zipIdx_cons, List.filterMap_cons]
    cases b with
    | false => simpa using ih (n + 1)
    | true =>
      simp only [if_true, List.pairwise_cons]
      refine ⟨?_, ih (n + 1)⟩
      intro j hj
      rw [List.mem_filterMap] at hj
      obtain ⟨⟨b, k⟩, h1, h2⟩ := hj
      cases b <;> simp at h2
      subst h2
      have := (List.mem_zipIdx h1).1
      omega

/-- With one committee the right bits are used. -/
theorem electra_single_committee {E : Env} {s : State} {a : Attestation} {i : Nat}
    {idxs : List Nat} (hi : ∀ j, a.committee_bits[j]? = some true ↔ j = i)
    (h : Electra.get_attesting_indices E s a = .ok idxs) : AggregateVoters E s a idxs := by
  have hi' : Electra.get_committee_indices a.committee_bits = [i] :=
    sorted_unique committee_indices_sorted (by simp) fun j => by
      rw [mem_committee_indices, hi]; simp
  simp only [Electra.get_attesting_indices, hi', Electra.attesters_from, run] at h
  obtain ⟨l, ⟨c, hc, here, hh, _, rfl, rfl⟩, rfl⟩ := h
  obtain ⟨h1, h2⟩ := committee_attesters_eq_ok hh
  refine ⟨[c], ⟨[i], by simp, fun j => by rw [hi]; simp, by simp [hc]⟩, fun v => ?_⟩
  rw [mem_iterate, mem_setOfList]
  simpa using h2 v

/-- What the code counts in general: the bit of member `k` of the committee at position
`p` is number `p + k`. -/
theorem electra_attesters_from {E : Env} {s : State} {a : Attestation} {off : Nat} {is l : List Nat}
    (h : Electra.attesters_from E s a off is = .ok l) (v : Nat) :
    v ∈ l ↔ ∃ p i k : Nat, ∃ c, is[p]? = some i ∧
      get_beacon_committee E s a.data.slot i = .ok c ∧ c[k]? = some v ∧
      a.aggregation_bits[off + p + k]? = some true := by
  induction is generalizing off l with
  | nil => simp only [Electra.attesters_from, run] at h; subst h; simp
  | cons x xs ih =>
    simp only [Electra.attesters_from, run] at h
    obtain ⟨c, hc, here, hh, others, ho, rfl⟩ := h
    rw [List.mem_append, ih ho, (committee_attesters_eq_ok hh).2]
    constructor
    · rintro (⟨k, h1, h2⟩ | ⟨p, i, k, c', h1, h2, h3, h4⟩)
      · exact ⟨0, x, k, c, rfl, hc, h1, by simpa using h2⟩
      · exact ⟨p + 1, i, k, c', by simpa using h1, h2, h3,
          by rw [show off + (p + 1) + k = off + 1 + p + k by omega]; exact h4⟩
    · rintro ⟨_ | p, i, k, c', h1, h2, h3, h4⟩
      · simp only [List.getElem?_cons_zero, Option.some.injEq] at h1
        subst h1
        rw [hc] at h2; cases h2
        exact Or.inl ⟨k, h3, by simpa using h4⟩
      · right
        exact ⟨p, i, k, c', by simpa using h1, h2, h3,
          by rw [show off + 1 + p + k = off + (p + 1) + k by omega]; exact h4⟩

end Verif
