import Verif.Proofs.Flags
import Verif.Proofs.Indexed
import Verif.Examples.Toy

/-!
# C06–C08, C29, C56: slashable data, indexed attestations, balances, flags, totals
-/

namespace Verif.Props

open Spec

/-! ## C06 -/

/-- **C06** A pair of votes is slashable exactly when it is a double vote or the
first surrounds the second. -/
theorem C06_slashable_iff (a b : AttestationData) :
    is_slashable_attestation_data a b = true ↔
      (a ≠ b ∧ a.target.epoch = b.target.epoch) ∨
      (a.source.epoch < b.source.epoch ∧ b.target.epoch < a.target.epoch) :=
  slashable_data_iff a b

/-- **C06** A history of votes breaks neither commandment exactly when no pair of
its votes, in either order, is slashable. -/
theorem C06_honest_iff_not_slashable (votes : List AttestationData) :
    Honest votes ↔
      ∀ a ∈ votes, ∀ b ∈ votes, is_slashable_attestation_data a b = false := by
  unfold Honest
  refine forall₂_congr fun a _ => forall₂_congr fun b _ => ?_
  rw [← not_or, ← slashable_data_iff, Bool.not_eq_true]

/-- **C06** A validator whose every vote has a later target than all its earlier
votes and no earlier source can never be slashed for two of its votes, however long
its history. -/
theorem C06_cautious_never_slashable (votes : List AttestationData) (h : Cautious votes) :
    ∀ a ∈ votes, ∀ b ∈ votes, is_slashable_attestation_data a b = false := by
  rw [← C06_honest_iff_not_slashable]
  induction votes with
  | nil => intro a ha; simp at ha
  | cons v vs ih =>
    obtain ⟨h1, h2⟩ := List.pairwise_cons.1 h
    intro a ha b hb
    unfold DoubleVote Surrounds
    rcases List.mem_cons.1 ha with rfl | ha <;> rcases List.mem_cons.1 hb with rfl | hb
    · exact ⟨fun h => h.1 rfl, by omega⟩
    · have := h1 b hb; exact ⟨by rintro ⟨_, h⟩; omega, by omega⟩
    · rename_i ha'; have := h1 a ha'; exact ⟨by rintro ⟨_, h⟩; omega, by omega⟩
    · exact ih h2 a ha b hb

/-- A vote with the given slot, source and target epochs. -/
def vote (slot source target : Nat) : AttestationData :=
  ⟨slot, 0, Toy.root slot, Toy.checkpoint source, Toy.checkpoint target⟩

example : is_slashable_attestation_data (vote 8 0 1) (vote 9 0 1) = true ∧
    is_slashable_attestation_data (vote 33 0 4) (vote 25 1 3) = true ∧
    is_slashable_attestation_data (vote 25 1 3) (vote 33 0 4) = false := by decide +kernel

example : Cautious [vote 33 2 4, vote 25 2 3, vote 9 0 1] := by
  simp [Cautious, vote, Toy.checkpoint]

/-! ## C07 -/

/-- **C07** An indexed attestation is accepted exactly when its index list is not
empty, strictly increasing, all its members are in the registry, and the aggregate
of exactly their keys (in this order) verifies the signature over the data. -/
theorem C07_indexed_attestation_iff (E : Env) (s : State) (a : IndexedAttestation) :
    is_valid_indexed_attestation E s a = .ok () ↔ ValidIndexed E s a :=
  valid_indexed_iff

/-- **C07** It never panics, whatever the state and the attestation. -/
theorem C07_indexed_attestation_no_panic (E : Env) (s : State) (a : IndexedAttestation)
    (p : Panic) : is_valid_indexed_attestation E s a ≠ .error (.panic p) := by
  unfold is_valid_indexed_attestation
  intro h
  cases hl : a.attesting_indices with
  | nil => simp [hl] at h
  | cons x l =>
    simp only [hl, R_bind_eq_error, get_domain_some] at h
    rcases h with h | ⟨_, _, h | ⟨_, _, h | ⟨_, _, h⟩⟩⟩
    · rcases check_sorted_error h with h | h <;> cases h
    · have := keys_mapM_error (e := .indexedInvalidIndex) h; cases this
    · cases h
    · unfold rejectIf at h; split at h <;> cases h

/-- An accepted attestation by three of eight validators. -/
example : is_valid_indexed_attestation Toy.env (Toy.state 8 20)
    ⟨[1, 4, 6], vote 17 1 2, Toy.goodSig⟩ = .ok () := by decide +kernel

example : is_valid_indexed_attestation Toy.env (Toy.state 8 20)
      ⟨[1, 4, 4], vote 17 1 2, Toy.goodSig⟩ = .error .indexedDuplicateIndices ∧
    is_valid_indexed_attestation Toy.env (Toy.state 8 20)
      ⟨[1, 4, 8], vote 17 1 2, Toy.goodSig⟩ = .error .indexedInvalidIndex := by decide +kernel

/-! ## C08 -/

/-- **C08** `decrease_balance` subtracts exactly `min delta balance` from one
balance; the whole rest of the state is as before. -/
theorem C08_decrease_balance (s : State) (i delta b : Nat) (hb : s.balances[i]? = some b) :
    ∃ s', decrease_balance i delta s = .ok () s' ∧
      s'.balances[i]? = some (b - min delta b) ∧
      (∀ j, j ≠ i → s'.balances[j]? = s.balances[j]?) ∧
      s'.balances.length = s.balances.length ∧
      { s' with balances := s.balances } = s := by
  refine ⟨_, decrease_balance_eq_ok.2 ⟨b, hb, rfl⟩, ?_, ?_, ?_, rfl⟩
  · have := (List.getElem?_eq_some_iff.1 hb).1
    simp only [List.getElem?_set, this, if_true]
    congr 1; omega
  · intro j hj; simp [Ne.symm hj]
  · simp

/-- **C08** `increase_balance` adds exactly `delta` when the sum fits in 64 bits;
otherwise it panics and the state is unchanged. -/
theorem C08_increase_balance (s : State) (i delta b : Nat) (hb : s.balances[i]? = some b) :
    (b + delta < 2 ^ 64 →
      ∃ s', increase_balance i delta s = .ok () s' ∧
        s'.balances[i]? = some (b + delta) ∧
        (∀ j, j ≠ i → s'.balances[j]? = s.balances[j]?) ∧
        s'.balances.length = s.balances.length ∧
        { s' with balances := s.balances } = s) ∧
    (2 ^ 64 ≤ b + delta → increase_balance i delta s = .error (.panic .overflow) s) := by
  constructor
  · intro h
    refine ⟨_, increase_balance_eq_ok.2 ⟨b, hb, h, rfl⟩, ?_, ?_, ?_, rfl⟩
    · have := (List.getElem?_eq_some_iff.1 hb).1
      simp [this]
    · intro j hj; simp [Ne.symm hj]
    · simp
  · intro h
    exact increase_balance_error.2 ⟨rfl, Or.inr ⟨b, hb, h, rfl⟩⟩

/-- **C08** For an index without a balance both panic and leave the state alone. -/
theorem C08_balance_out_of_range (s : State) (i delta : Nat) (h : s.balances.length ≤ i) :
    decrease_balance i delta s = .error (.panic .outOfBounds) s ∧
    increase_balance i delta s = .error (.panic .outOfBounds) s :=
  ⟨decrease_balance_error.2 ⟨rfl, h, rfl⟩, increase_balance_error.2 ⟨rfl, Or.inl ⟨h, rfl⟩⟩⟩

example : (Toy.state 3 0).balances[2]? = some 32000000000 := by decide +kernel

/-! ## C29 -/

/-- **C29** Adding a flag (of the eight) sets exactly that flag and keeps the
others. -/
theorem C29_add_flag (flags : UInt8) (i : Nat) (hi : i < 8) :
    ∃ r, add_flag flags i = .ok r ∧ ∀ j < 8, FlagSet r j ↔ FlagSet flags j ∨ j = i :=
  ⟨_, add_flag_ok hi, (add_flag_spec (add_flag_ok hi)).2⟩

/-- **C29** `has_flag` reads the flag. -/
theorem C29_has_flag (flags : UInt8) (i : Nat) (hi : i < 8) :
    has_flag flags i = .ok (decide (FlagSet flags i)) := has_flag_ok hi

/-- **C29** Adding is idempotent and commutative. -/
theorem C29_add_flag_laws (flags : UInt8) (i j : Nat) :
    (do let r ← add_flag flags i; add_flag r i) = add_flag flags i ∧
    (i < 8 → j < 8 →
      (do let r ← add_flag flags i; add_flag r j) = (do let r ← add_flag flags j; add_flag r i)) := by
  constructor
  · by_cases hi : i < 8
    · simp only [add_flag_ok hi, R_bind_ok, Except.ok.injEq]
      apply u8_ext; intro k hk
      simp only [flagSet_or hi hk, or_assoc, or_self]
    · simp [add_flag, flagBit, hi]
  · intro hi hj
    simp only [add_flag_ok hi, add_flag_ok hj, R_bind_ok, Except.ok.injEq]
    apply u8_ext; intro k hk
    simp only [flagSet_or hi hk, flagSet_or hj hk]
    tauto

/-- **C29** Two flag bytes with the same flags are the same byte: nothing else is
stored. -/
theorem C29_flags_determine (a b : UInt8) (h : ∀ j < 8, FlagSet a j ↔ FlagSet b j) : a = b :=
  u8_ext h

example : add_flag 5 1 = .ok 7 ∧ has_flag 5 2 = .ok true ∧ has_flag 5 1 = .ok false := by
  decide +kernel

/-! ## C56 -/

/-- **C56** `get_total_balance` succeeds exactly when all indices are in the registry
and the sum fits in 64 bits; it returns the larger of the sum and one increment. -/
theorem C56_total_balance (E : Env) (s : State) (indices : List Nat) (t : Nat) :
    get_total_balance E s indices = .ok t ↔
      (∀ i ∈ indices, i < s.validators.length) ∧
      totalEffective s indices < 2 ^ 64 ∧
      t = max (totalEffective s indices) E.effective_balance_increment :=
  get_total_balance_eq_ok

/-- **C56** The result does not depend on the order in which the set is visited. -/
theorem C56_total_balance_order (E : Env) (s : State) (xs ys : List Nat) (h : xs.Perm ys)
    (t : Nat) : get_total_balance E s xs = .ok t ↔ get_total_balance E s ys = .ok t := by
  have : totalEffective s xs = totalEffective s ys := (h.map _).sum_nat
  simp only [get_total_balance_eq_ok, this, h.mem_iff]

example : get_total_balance Toy.env (Toy.state 8 0) [5, 1, 2] = .ok 96000000000 := by
  decide +kernel

end Verif.Props
