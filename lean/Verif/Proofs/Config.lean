import Verif.Proofs.Committee
import Verif.Spec.Committee

namespace Verif
open Spec

theorem activeIndices_eq (s : State) (e : Nat) :
    get_active_validator_indices s e = activeIndices s e := by
  have h1 : (get_active_validator_indices s e).Pairwise (· < ·) := active_from_sorted _ _ _
  have h2 : (activeIndices s e).Pairwise (· < ·) :=
    List.Pairwise.filter _ List.pairwise_lt_range
  refine List.Perm.eq_of_pairwise (le := (· < ·)) ?_ h1 h2 ?_
  · intro a b _ _ h h'; omega
  · rw [List.perm_ext_iff_of_nodup (h1.imp (by intro a b h; omega)) (h2.imp (by intro a b h; omega))]
    intro i
    unfold get_active_validator_indices activeIndices
    rw [mem_active_from]
    simp only [Nat.zero_le, Nat.sub_zero, true_and, List.mem_filter, List.mem_range]
    constructor
    · rintro ⟨v, hv, ha⟩
      refine ⟨(List.getElem?_eq_some_iff.1 hv).1, ?_⟩
      simp only [hv, decide_eq_true_eq]
      simpa [is_active_validator, ActiveAt] using ha
    · rintro ⟨hi, h⟩
      rw [List.getElem?_eq_getElem hi] at *
      refine ⟨_, rfl, ?_⟩
      simp only [decide_eq_true_eq] at h
      simpa [ActiveAt, is_active_validator] using h

theorem mem_activeIndices {s : State} {e i : Nat} :
    i ∈ activeIndices s e ↔ ∃ v, s.validators[i]? = some v ∧ ActiveAt v e := by
  simp only [activeIndices, List.mem_filter, List.mem_range]
  constructor
  · rintro ⟨hi, h⟩
    rw [List.getElem?_eq_getElem hi] at *
    exact ⟨_, rfl, by simpa using h⟩
  · rintro ⟨v, hv, ha⟩
    exact ⟨(List.getElem?_eq_some_iff.1 hv).1, by simp [hv, ha]⟩

theorem get_seed_eq {E : Env} {s : State} (hE : SaneConfig E) (hs : Shaped E s) {epoch : Nat}
    (he : epoch < 2 ^ 63) (t : DomainType) :
    get_seed E s epoch t = .ok (seedAt E s epoch t) := by
  obtain ⟨h1, h2⟩ := hE.epochs_per_historical_vector
  have hb : U64_BOUND = 2 ^ 64 := rfl
  unfold get_seed get_randao_mix
  rw [sub_ok (by omega), R_bind_ok, add_ok (by omega), R_bind_ok, sub_ok (by omega), R_bind_ok,
    mod_ok (by omega), R_bind_ok,
    idx_ok (by rw [hs.randao_mixes]; exact Nat.mod_lt _ (by omega)), R_bind_ok, R_pure]
  unfold seedAt
  rw [show epoch + E.epochs_per_historical_vector - E.min_seed_lookahead - 1 =
    epoch + (E.epochs_per_historical_vector - E.min_seed_lookahead) - 1 by omega]
  rw [List.getD_eq_getElem?_getD, List.getElem?_eq_getElem
    (by rw [hs.randao_mixes]; exact Nat.mod_lt _ (by omega))]
  rfl

theorem committee_count_eq {E : Env} (hE : SaneConfig E) (s : State) (epoch : Nat) :
    get_committee_count_per_slot E s epoch =
      .ok (max 1 (min E.max_committees_per_slot
        ((activeIndices s epoch).length / E.slots_per_epoch / E.target_committee_size))) := by
  have := hE.slots_per_epoch
  have := hE.target_committee_size
  unfold get_committee_count_per_slot
  rw [activeIndices_eq, div_ok (by omega), R_bind_ok, div_ok (by omega), R_bind_ok, R_pure]

end Verif
