import Verif.Proofs.Wp
import Verif.Proofs.Config
import Verif.Spec.Votes
import Verif.Spec.Domain
import Verif.Spec.Balances
import Verif.Model.Altair.Helpers

namespace Verif
open Spec

theorem slashable_data_iff (a b : AttestationData) :
    is_slashable_attestation_data a b = true ↔ DoubleVote a b ∨ Surrounds a b := by
  simp [is_slashable_attestation_data, DoubleVote, Surrounds]

theorem check_sorted_ok {prev : Nat} {dup : Bool} {l : List Nat} :
    check_sorted prev dup l = .ok () ↔ dup = false ∧ (prev :: l).Pairwise (· < ·) := by
  induction l generalizing prev dup with
  | nil => simp [check_sorted]
  | cons x l ih =>
    unfold check_sorted
    split
    · rename_i h
      simp only [reduceCtorEq, false_iff, not_and, List.pairwise_cons]
      intro _ h'; have := h' x (by simp); omega
    · rename_i h
      rw [ih]
      simp only [List.pairwise_cons, Bool.or_eq_false_iff, beq_eq_false_iff_ne]
      constructor
      · rintro ⟨⟨h1, h2⟩, h3, h4⟩
        refine ⟨h1, ?_, h3, h4⟩
        intro a ha
        rcases List.mem_cons.1 ha with rfl | ha
        · omega
        · have := h3 a ha; omega
      · rintro ⟨h1, h2, h3, h4⟩
        have := h2 x (by simp)
        exact ⟨⟨h1, by omega⟩, h3, h4⟩

theorem check_sorted_error {prev : Nat} {dup : Bool} {l : List Nat} {e : Err}
    (h : check_sorted prev dup l = .error e) :
    e = .indexedAttestingIndicesNotSorted ∨ e = .indexedDuplicateIndices := by
  induction l generalizing prev dup with
  | nil => unfold check_sorted rejectIf at h; split at h <;> simp_all
  | cons x l ih =>
    unfold check_sorted at h
    split at h
    · simp_all
    · exact ih h

theorem get_domain_some (E : Env) (s : State) (t : DomainType) (e : Nat) :
    get_domain E s t (some e) = .ok (domainAt E s t e) := rfl

theorem compute_domain_some (E : Env) (t : DomainType) (v : Version) (r : Root) :
    compute_domain E t (some v) (some r) = domainOf E t v r := rfl

theorem compute_domain_none_some (E : Env) (t : DomainType) (r : Root) :
    compute_domain E t none (some r) = domainOf E t E.genesis_fork_version r := rfl

theorem compute_domain_none (E : Env) (t : DomainType) :
    compute_domain E t none none = domainOf E t E.genesis_fork_version (zeroBytes 32) := rfl

theorem keys_mapM {s : State} {l : List Nat} {e : Err} {ks : List PublicKey} :
    (l.mapM fun index => do
      let v ← getOr s.validators index e
      return v.public_key : R (List PublicKey)) = .ok ks ↔
    l.map (fun i => (s.validators[i]?).map (·.public_key)) = ks.map some := by
  induction l generalizing ks with
  | nil => simp only [List.mapM_nil]; cases ks <;> simp
  | cons i l ih =>
    simp only [List.mapM_cons, R_bind_eq_ok, getOr_eq_ok, R_pure, Except.ok.injEq]
    cases ks with
    | nil => simp
    | cons k ks =>
      simp only [List.map_cons, List.cons.injEq, ← ih]
      constructor
      · rintro ⟨k', ⟨v, hv, rfl⟩, ks', h, h1, h2⟩
        subst h1 h2
        exact ⟨by simp [hv], h⟩
      · rintro ⟨h, h'⟩
        obtain ⟨v, hv, rfl⟩ := Option.map_eq_some_iff.1 h
        exact ⟨_, ⟨v, hv, rfl⟩, ks, h', rfl, rfl⟩

theorem keys_mapM_error {s : State} {l : List Nat} {e e' : Err}
    (h : (l.mapM fun index => do
      let v ← getOr s.validators index e
      return v.public_key : R (List PublicKey)) = .error e') : e' = e := by
  induction l with
  | nil => simp at h
  | cons i l ih =>
    simp only [List.mapM_cons, R_bind_eq_error, R_pure, reduceCtorEq, and_false, exists_false,
      or_false] at h
    rcases h with h | ⟨_, _, h⟩
    · unfold getOr at h; split at h <;> simp_all
    · exact ih h

/-! ## Balances -/

theorem increase_balance_eq_ok {i d : Nat} {s s' : State} :
    increase_balance i d s = .ok () s' ↔ ∃ b, s.balances[i]? = some b ∧ b + d < U64_BOUND ∧
      s' = { s with balances := s.balances.set i (b + d) } := by
  simp only [increase_balance, run]
  constructor
  · rintro ⟨b, h1, c, ⟨rfl, h2⟩, rfl⟩
    exact ⟨b, h1, h2, rfl⟩
  · rintro ⟨b, h1, h2, rfl⟩
    exact ⟨b, h1, _, ⟨rfl, h2⟩, rfl⟩

theorem decrease_balance_eq_ok {i d : Nat} {s s' : State} :
    decrease_balance i d s = .ok () s' ↔ ∃ b, s.balances[i]? = some b ∧
      s' = { s with balances := s.balances.set i (b - d) } := by
  simp only [decrease_balance, run]
  constructor
  · rintro ⟨b, h1, c, _, h2, rfl⟩
    refine ⟨b, h1, ?_⟩
    rcases h2 with ⟨h2, rfl, rfl⟩ | ⟨_, ⟨rfl, _⟩, rfl⟩
    · rw [show b - d = 0 by omega]
    · rfl
  · rintro ⟨b, h1, rfl⟩
    refine ⟨b, h1, b - d, s, ?_, rfl⟩
    by_cases h : d > b
    · left; exact ⟨h, by omega, rfl⟩
    · right; exact ⟨h, ⟨rfl, by omega⟩, rfl⟩

theorem increase_balance_error {i d : Nat} {s s' : State} {e : Err} :
    increase_balance i d s = .error e s' ↔ s' = s ∧
      ((s.balances.length ≤ i ∧ e = .panic .outOfBounds) ∨
       (∃ b, s.balances[i]? = some b ∧ U64_BOUND ≤ b + d ∧ e = .panic .overflow)) := by
  simp only [increase_balance, M_bind_eq_error, get_eq_ok, liftM_eq, liftR_eq_error,
    liftR_eq_ok, idx_eq_ok, add_eq_ok]
  have hg : ∀ e, (get : M State) s ≠ .error e s' := fun e h => by cases h
  have hu : ∀ f s (e : Err) s', upd f s ≠ .error e s' := fun f s e s' h => by cases h
  simp only [hg, hu, false_or, and_false, exists_false, or_false]
  constructor
  · rintro ⟨_, _, ⟨rfl, rfl⟩, ⟨h, rfl⟩ | ⟨b, _, ⟨h, rfl⟩, h', rfl⟩⟩
    · unfold idx at h; split at h
      · simp at h
      · simp_all
    · unfold U64.add at h'; split at h'
      · simp at h'
      · refine ⟨rfl, Or.inr ⟨b, h, by omega, by simpa using h'.symm⟩⟩
  · rintro ⟨rfl, ⟨h, rfl⟩ | ⟨b, h, h', rfl⟩⟩
    · exact ⟨_, _, ⟨rfl, rfl⟩, Or.inl ⟨by simp [idx, h], rfl⟩⟩
    · refine ⟨_, _, ⟨rfl, rfl⟩, Or.inr ⟨b, _, ⟨h, rfl⟩, ?_, rfl⟩⟩
      unfold U64.add; rw [if_neg (by omega)]

theorem decrease_balance_error {i d : Nat} {s s' : State} {e : Err} :
    decrease_balance i d s = .error e s' ↔ s' = s ∧
      s.balances.length ≤ i ∧ e = .panic .outOfBounds := by
  simp only [decrease_balance, M_bind_eq_error, get_eq_ok, liftM_eq, liftR_eq_error,
    liftR_eq_ok, idx_eq_ok]
  have hg : ∀ e, (get : M State) s ≠ .error e s' := fun e h => by cases h
  have hu : ∀ f s (e : Err) s', upd f s ≠ .error e s' := fun f s e s' h => by cases h
  simp only [hg, hu, false_or, and_false, exists_false, or_false]
  constructor
  · rintro ⟨_, _, ⟨rfl, rfl⟩, ⟨h, rfl⟩ | ⟨b, _, ⟨h, rfl⟩, h'⟩⟩
    · unfold idx at h; split at h
      · simp at h
      · simp_all
    · by_cases hd : d > b
      · simp only [hd, if_true, M_pure, reduceCtorEq] at h'
      · simp [hd, sub_ok (show d ≤ b by omega), liftR_eq_error] at h'
  · rintro ⟨rfl, h, rfl⟩
    exact ⟨_, _, ⟨rfl, rfl⟩, Or.inl ⟨by simp [idx, h], rfl⟩⟩

/-! ## Total balance -/

theorem total_fold {s : State} {l : List Nat} {acc t : Nat} :
    (l.foldlM (fun acc i => do
      let v ← idx s.validators i
      U64.checkedAdd acc v.effective_balance) acc : R Nat) = .ok t ↔
    (∀ i ∈ l, i < s.validators.length) ∧ t = acc + totalEffective s l ∧
      (l = [] ∨ acc + totalEffective s l < U64_BOUND) := by
  induction l generalizing acc with
  | nil => simp [totalEffective, eq_comm]
  | cons i l ih =>
    simp only [List.foldlM_cons, R_bind_eq_ok, idx_eq_ok, checkedAdd_eq_ok]
    constructor
    · rintro ⟨a, ⟨v, hv, rfl, h1⟩, h2⟩
      obtain ⟨h3, h4, h5⟩ := ih.1 h2
      have he : effectiveBalance s i = v.effective_balance := by simp [effectiveBalance, hv]
      have ht : totalEffective s (i :: l) = v.effective_balance + totalEffective s l := by
        simp [totalEffective, he]
      refine ⟨?_, by omega, Or.inr ?_⟩
      · intro j hj
        rcases List.mem_cons.1 hj with rfl | hj
        · exact (List.getElem?_eq_some_iff.1 hv).1
        · exact h3 j hj
      · rcases h5 with rfl | h5
        · simp [totalEffective, he]; omega
        · omega
    · rintro ⟨h1, h2, h3⟩
      have hi := h1 i (by simp)
      have hv : s.validators[i]? = some s.validators[i] := by simp [hi]
      have he : effectiveBalance s i = s.validators[i].effective_balance := by
        simp [effectiveBalance, hv]
      have ht : totalEffective s (i :: l) = s.validators[i].effective_balance + totalEffective s l := by
        simp [totalEffective, he]
      have h3' : acc + totalEffective s (i :: l) < U64_BOUND := by simpa using h3
      refine ⟨_, ⟨_, hv, rfl, by omega⟩, ih.2 ⟨fun j hj => h1 j (by simp [hj]), by omega, ?_⟩⟩
      right; omega

theorem get_total_balance_eq_ok {E : Env} {s : State} {l : List Nat} {t : Nat} :
    get_total_balance E s l = .ok t ↔
      (∀ i ∈ l, i < s.validators.length) ∧ totalEffective s l < U64_BOUND ∧
        t = max (totalEffective s l) E.effective_balance_increment := by
  unfold get_total_balance
  simp only [R_bind_eq_ok, total_fold, R_pure, Except.ok.injEq]
  constructor
  · rintro ⟨a, ⟨h1, h2, h3⟩, rfl⟩
    refine ⟨h1, ?_, by simp_all⟩
    rcases h3 with rfl | h3
    · simp [totalEffective]; decide
    · simpa using h3
  · rintro ⟨h1, h2, rfl⟩
    exact ⟨_, ⟨h1, rfl, Or.inr (by simpa using h2)⟩, by simp⟩

end Verif
