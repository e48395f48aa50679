import Verif.Proofs.GuiltShown
import Verif.Proofs.AdvanceElectra

/-! # Evidence is accepted in electra -/

namespace Verif

open Spec

variable {E : Env} {f : Fork} {s s' : State}

theorem slash_election {i : Nat} (h : slash_validator E f i none s = .ok () s') :
    SameElection E s s' := by
  unfold slash_validator at h
  rw [M_get_bind_eq_ok, M_bind_eq_ok] at h
  obtain ⟨c, s1, hc, h⟩ := h
  rw [liftM_eq_ok] at hc
  obtain ⟨hc, rfl⟩ := hc
  rw [M_bind_eq_ok] at h
  obtain ⟨_, t, ht, h⟩ := h
  have hm : Mild t s' := by
    refine Pres.ok ?_ h
    walk mildPre [mild_updValidator, mild_mod increase_mod (by decide),
      mild_mod decrease_mod (by decide), mild_upd]
  exact (exit_election ht).trans hm.election

/-- Several slashings succeed, one after the other. -/
theorem electra_slashes_total (hE : SaneConfig E) (hq : SaneQuotients E) (hz : SaneElectra E)
    {k x p : Nat} {l : List Nat} (hn : l.Nodup) (h : Wellformed E s) (hr : Room k s)
    (hx : Exits E x s) (hT : effectiveSum s < 2 ^ 64)
    (hp : get_beacon_proposer_index E s = .ok p)
    (hv : ∀ i ∈ l, ∃ v, s.validators[i]? = some v ∧ v.slashed = false) :
    ∃ s', forEach l (fun i => slash_validator E .Electra i none) s = .ok () s' := by
  induction l generalizing s with
  | nil => exact ⟨s, rfl⟩
  | cons i l ih =>
    rw [List.nodup_cons] at hn
    obtain ⟨v, hvi, hsl⟩ := hv i (by simp)
    obtain ⟨s1, h1, hk⟩ := ((electra_slasher hE hq hz s i v h hr hx hvi hsl).sure
      (slash_firm_of (T := fun _ => False) (electra_initiate_firm hE hq hz h hx hT) hp)).total
    obtain ⟨hk, hx1⟩ := hk
    obtain ⟨s2, h2⟩ := ih hn.2 hk.wf hk.room hx1 (by rw [hk.total]; exact hT)
      ((proposer_congr (slash_election h1)).trans hp) (fun j hj => by
        obtain ⟨w, hw1, hw2⟩ := hv j (by simp [hj])
        have : i ≠ j := fun e => hn.1 (e ▸ hj)
        exact ⟨w, by rw [slash_other h1 this.symm]; exact hw1, hw2⟩)
    exact ⟨s2, by simp only [forEach, run]; exact ⟨s1, h1, h2⟩⟩

/-- There is room for every exit. -/
theorem exits_of (hs : Queues E s) (hT : effectiveSum s ≤ 2 ^ 56)
    (hx : s.earliest_exit_epoch ≤ 2 ^ 62) : Exits E 0 s := by
  refine ⟨hs, ?_⟩
  have h2 := exitable_le (s := s)
  unfold ExitRoom
  omega

end Verif
