import Verif.Proofs.Predicates
import Verif.Spec.Slashable

namespace Verif
open Spec

theorem valid_indexed_iff {E : Env} {s : State} {a : IndexedAttestation} :
    is_valid_indexed_attestation E s a = .ok () ↔ ValidIndexed E s a := by
  unfold is_valid_indexed_attestation
  cases hl : a.attesting_indices with
  | nil => simp; intro h; exact h.nonempty hl
  | cons x l =>
    simp only [run, check_sorted_ok, keys_mapM, get_domain_some, compute_signing_root, true_and]
    constructor
    · rintro ⟨h1, keys, h2, _, rfl, h4⟩
      refine ⟨by simp [hl], by rw [hl]; exact h1, ?_, ?_⟩
      all_goals rw [hl]
      · intro i hi
        have : (s.validators[i]?).map (·.public_key) ∈ keys.map some := by
          rw [← h2]; exact List.mem_map_of_mem hi
        obtain ⟨k, _, hk⟩ := List.mem_map.1 this
        obtain ⟨v, hv, _⟩ := Option.map_eq_some_iff.1 hk.symm
        exact (List.getElem?_eq_some_iff.1 hv).1
      · intro keys' hk
        have : keys' = keys := by
          have := hk.trans h2
          exact List.map_inj_right (fun _ _ h => Option.some.inj h) |>.1 this
        subst this
        simpa using h4
    · rintro ⟨_, h1, h2, h3⟩
      rw [hl] at h1 h2 h3
      have hk : ∃ keys : List PublicKey,
          (x :: l).map (fun i => (s.validators[i]?).map (·.public_key)) = keys.map some := by
        clear h1 h3 hl
        revert h2
        induction (x :: l) with
        | nil => exact fun _ => ⟨[], rfl⟩
        | cons y m ih =>
          intro h2
          obtain ⟨ks, hks⟩ := ih fun i hi => h2 i (by simp [hi])
          have hy := h2 y (by simp)
          exact ⟨s.validators[y].public_key :: ks, by simp [hks, hy]⟩
      obtain ⟨keys, hk⟩ := hk
      refine ⟨h1, keys, hk, _, rfl, ?_⟩
      simpa using h3 keys hk.symm


end Verif
