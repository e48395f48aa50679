import Mathlib.Data.List.Perm.Basic
import Mathlib.Data.List.Nodup
import Verif.Proofs.Shuffle
import Verif.Model.Phase0.Helpers

namespace Verif

open Spec

section
variable (E : Env) (seed : Bytes32)

/-- The list `xs` in shuffled order. -/
def shuffledList (xs : List Nat) : List Nat :=
  (List.range xs.length).map fun i =>
    xs.getD (shuffledIndex E.hash seed xs.length E.shuffle_round_count i) 0

theorem length_shuffledList (xs : List Nat) : (shuffledList E seed xs).length = xs.length := by
  simp [shuffledList]

theorem perm_range (n rounds : Nat) :
    ((List.range n).map (shuffledIndex E.hash seed n rounds)).Perm (List.range n) := by
  rw [List.perm_ext_iff_of_nodup]
  · intro a
    simp only [List.mem_map, List.mem_range]
    constructor
    · rintro ⟨i, hi, rfl⟩
      exact shuffledIndex_lt E seed rounds hi
    · intro ha
      exact shuffledIndex_surj E seed rounds ha
  · refine List.Nodup.map_on ?_ List.nodup_range
    intro x hx y hy h
    exact shuffledIndex_inj E seed rounds (List.mem_range.1 hx) (List.mem_range.1 hy) h
  · exact List.nodup_range

theorem map_getD_range (xs : List Nat) :
    (List.range xs.length).map (fun i => xs.getD i 0) = xs := by
  apply List.ext_getElem?
  intro i
  by_cases h : i < xs.length
  · simp [h]
  · simp [h]

theorem shuffledList_perm (xs : List Nat) : (shuffledList E seed xs).Perm xs := by
  have h := (perm_range E seed xs.length E.shuffle_round_count).map (fun i => xs.getD i 0)
  rw [map_getD_range, List.map_map] at h
  exact h

theorem compute_shuffled_indices_list (xs : List Nat) (hn : 2 * xs.length < U64_BOUND)
    (hr : 0 < E.shuffle_round_count) :
    compute_shuffled_indices E xs seed = .ok (shuffledList E seed xs) := by
  obtain ⟨ys, h1, h2, h3⟩ := compute_shuffled_indices_eq E seed xs hn hr
  rw [h1]
  congr 1
  apply List.ext_getElem?
  intro i
  by_cases h : i < xs.length
  · have := shuffledIndex_lt E seed E.shuffle_round_count h
    rw [h3 i h]
    simp [shuffledList, h, this]
  · rw [List.getElem?_eq_none (by omega),
      List.getElem?_eq_none (by rw [length_shuffledList]; omega)]

/-- The `k`-th of `count` slices of a list. -/
def piece (xs : List Nat) (count k : Nat) : List Nat :=
  (xs.take (xs.length * (k + 1) / count)).drop (xs.length * k / count)

theorem mapM_shuffled (xs : List Nat) (hn : 2 * xs.length < U64_BOUND) (start m : Nat)
    (h : start + m ≤ xs.length) :
    ((List.range' start m).mapM fun i => do
        let index ← compute_shuffled_index E i xs.length seed
        idx xs index : R (List Nat)) =
      .ok (((shuffledList E seed xs).take (start + m)).drop start) := by
  induction m generalizing start with
  | zero =>
    simp
  | succ m ih =>
    have hs : start < xs.length := by omega
    have hlt := shuffledIndex_lt E seed E.shuffle_round_count hs
    rw [List.range'_succ, List.mapM_cons, compute_shuffled_index_eq E seed hn hs, R_bind_ok,
      idx_ok hlt, R_bind_ok, ih (start + 1) (by omega), R_bind_ok, R_pure]
    congr 1
    rw [show start + 1 + m = start + (m + 1) by omega]
    have hl : start < ((shuffledList E seed xs).take (start + (m + 1))).length := by
      rw [List.length_take, length_shuffledList]; omega
    rw [List.drop_eq_getElem_cons hl]
    congr 1
    simp [shuffledList, hlt]

theorem compute_committee_eq (xs : List Nat) (index count : Nat) (hi : index < count)
    (hn : 2 * xs.length < U64_BOUND) (hc : xs.length * count < U64_BOUND)
    (hcount : count < U64_BOUND) (hr : 0 < E.shuffle_round_count) :
    compute_committee E xs seed index count = .ok (piece (shuffledList E seed xs) count index) := by
  have h1 : xs.length * index ≤ xs.length * count := Nat.mul_le_mul_left _ (by omega)
  have h2 : xs.length * (index + 1) ≤ xs.length * count := Nat.mul_le_mul_left _ (by omega)
  have h3 : xs.length * (index + 1) / count ≤ xs.length := by
    apply Nat.div_le_of_le_mul
    rw [Nat.mul_comm count]; exact h2
  have h4 : xs.length * index / count ≤ xs.length * (index + 1) / count :=
    Nat.div_le_div_right (Nat.mul_le_mul_left _ (by omega))
  unfold compute_committee
  rw [mul_ok (by omega), R_bind_ok, div_ok (by omega), R_bind_ok, add_ok (by omega), R_bind_ok,
    mul_ok (by omega), R_bind_ok, div_ok (by omega), R_bind_ok]
  split
  · rw [compute_shuffled_indices_list E seed xs hn hr, R_bind_ok]
    unfold slice
    rw [if_pos ⟨h4, by rw [length_shuffledList]; exact h3⟩]
    simp [piece, length_shuffledList]
  · rw [sub_ok h4, R_bind_ok, mapM_shuffled E seed xs hn _ _ (by omega)]
    simp only [piece, length_shuffledList]
    congr 3
    omega

theorem flatMap_pieces (xs : List Nat) (count m : Nat) :
    (List.range m).flatMap (piece xs count) = xs.take (xs.length * m / count) := by
  induction m with
  | zero => simp
  | succ m ih =>
    rw [List.range_succ, List.flatMap_append, ih]
    simp only [List.flatMap_cons, List.flatMap_nil, List.append_nil, piece]
    have h : xs.length * m / count ≤ xs.length * (m + 1) / count :=
      Nat.div_le_div_right (Nat.mul_le_mul_left _ (by omega))
    have : xs.take (xs.length * m / count) =
        (xs.take (xs.length * (m + 1) / count)).take (xs.length * m / count) := by
      rw [List.take_take, Nat.min_eq_left h]
    rw [this, List.take_append_drop]

theorem flatMap_pieces_all (xs : List Nat) (count : Nat) (h : 0 < count) :
    (List.range count).flatMap (piece xs count) = xs := by
  rw [flatMap_pieces, Nat.mul_div_cancel _ h, List.take_length]

theorem flatMap_flatMap_range {α : Type} (f : Nat → List α) (a b : Nat) :
    (List.range a).flatMap (fun t => (List.range b).flatMap fun i => f (t * b + i)) =
      (List.range (a * b)).flatMap f := by
  induction a with
  | zero => simp
  | succ a ih =>
    rw [List.range_succ, List.flatMap_append, ih, Nat.succ_mul, List.range_add,
      List.flatMap_append]
    simp [List.flatMap_map]

theorem length_piece (xs : List Nat) (count k : Nat) (hk : k < count) :
    (piece xs count k).length = xs.length * (k + 1) / count - xs.length * k / count := by
  have h2 : xs.length * (k + 1) / count ≤ xs.length := by
    apply Nat.div_le_of_le_mul
    rw [Nat.mul_comm count]; exact Nat.mul_le_mul_left _ (by omega)
  simp [piece, Nat.min_eq_left h2]

end

theorem mem_active_from (epoch : Nat) (vs : List Validator) (k i : Nat) :
    i ∈ active_from epoch k vs ↔
      ∃ v, k ≤ i ∧ vs[i - k]? = some v ∧ is_active_validator v epoch = true := by
  induction vs generalizing k with
  | nil => simp [active_from]
  | cons v vs ih =>
    have key : (∃ w, k + 1 ≤ i ∧ vs[i - (k + 1)]? = some w ∧ is_active_validator w epoch = true) ↔
        (∃ w, k ≤ i ∧ i ≠ k ∧ (v :: vs)[i - k]? = some w ∧ is_active_validator w epoch = true) := by
      constructor
      · rintro ⟨w, h1, h2, h3⟩
        refine ⟨w, by omega, by omega, ?_, h3⟩
        rw [show i - k = (i - (k + 1)) + 1 by omega]; simpa using h2
      · rintro ⟨w, h1, h0, h2, h3⟩
        refine ⟨w, by omega, ?_, h3⟩
        rw [show i - k = (i - (k + 1)) + 1 by omega] at h2; simpa using h2
    unfold active_from
    split
    · rw [List.mem_cons, ih, key]
      constructor
      · rintro (rfl | ⟨w, h1, h0, h2, h3⟩)
        · exact ⟨v, by omega, by simp, by assumption⟩
        · exact ⟨w, h1, h2, h3⟩
      · rintro ⟨w, h1, h2, h3⟩
        by_cases hik : i = k
        · exact .inl hik
        · exact .inr ⟨w, h1, hik, h2, h3⟩
    · rw [ih, key]
      constructor
      · rintro ⟨w, h1, h0, h2, h3⟩; exact ⟨w, h1, h2, h3⟩
      · rintro ⟨w, h1, h2, h3⟩
        refine ⟨w, h1, ?_, h2, h3⟩
        rintro rfl
        simp at h2; subst h2; contradiction

theorem active_from_sorted (epoch : Nat) (vs : List Validator) (k : Nat) :
    (active_from epoch k vs).Pairwise (· < ·) := by
  induction vs generalizing k with
  | nil => simp [active_from]
  | cons v vs ih =>
    unfold active_from
    split
    · rw [List.pairwise_cons]
      refine ⟨fun a ha => ?_, ih _⟩
      rw [mem_active_from] at ha
      obtain ⟨_, h, _⟩ := ha
      omega
    · exact ih _

theorem length_active_from (epoch : Nat) (vs : List Validator) (k : Nat) :
    (active_from epoch k vs).length = vs.countP (is_active_validator · epoch) := by
  induction vs generalizing k with
  | nil => rfl
  | cons v vs ih =>
    unfold active_from
    split <;> simp [*]

theorem length_active_le (s : State) (epoch : Nat) :
    (get_active_validator_indices s epoch).length ≤ s.validators.length := by
  rw [get_active_validator_indices, length_active_from]; exact List.countP_le_length

end Verif
