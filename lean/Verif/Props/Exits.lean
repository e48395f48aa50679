import Verif.Proofs.Exit
import Verif.Examples.Toy

/-! # C09: the exit queue (phase0 to deneb) -/

namespace Verif.Props

open Spec

/-- **C09** A validator that already has an exit epoch is left unchanged, and so is
everything else. -/
theorem C09_exit_idempotent (E : Env) (s : State) (i : Nat) (v : Validator)
    (hv : s.validators[i]? = some v) (h : v.exit_epoch ≠ FAR_FUTURE_EPOCH) :
    initiate_validator_exit E i s = .ok () s :=
  initiate_validator_exit_eq_ok.2 ⟨v, hv, Or.inl ⟨h, rfl⟩⟩

/-- **C09** A validator without exit epoch gets one: at least
`current epoch + 1 + max_seed_lookahead`, at least every exit epoch assigned before,
not the "never" value, with the withdrawable epoch `min_validator_withdrawability_delay`
later; only these two fields of this one validator change; and after the assignment at
most `churnLimit` validators leave in that epoch, while the number leaving in any other
epoch is as before. -/
theorem C09_exit_assigns (E : Env) (hE : SaneConfig E) (s s' : State) (i : Nat) (v : Validator)
    (hv : s.validators[i]? = some v) (hf : v.exit_epoch = FAR_FUTURE_EPOCH)
    (h : initiate_validator_exit E i s = .ok () s') :
    ∃ e, ExitsAt E s s' i e ∧
      epochOf E s.slot + 1 + E.max_seed_lookahead ≤ e ∧
      (∀ w ∈ s.validators, w.exit_epoch ≠ FAR_FUTURE_EPOCH → w.exit_epoch ≤ e) ∧
      e < FAR_FUTURE_EPOCH ∧
      exitsIn s' e ≤ churnLimit E s ∧
      (∀ x, x ≠ FAR_FUTURE_EPOCH → x ≠ e → exitsIn s' x = exitsIn s x) := by
  obtain ⟨w, hw, ⟨h1, _⟩ | ⟨_, e, he, hd, hx⟩⟩ := initiate_validator_exit_eq_ok.1 h
  · have := Option.some.inj (hv.symm.trans hw); subst this; exact absurd hf h1
  · have := Option.some.inj (hv.symm.trans hw); subst this
    obtain ⟨h1, h2, h3⟩ := exit_queue_epoch_spec he
    have hne : e < FAR_FUTURE_EPOCH := by
      have := hE.withdrawability_delay
      have hb := U64_BOUND_eq
      unfold FAR_FUTURE_EPOCH; omega
    have hfar : ∀ x, x ≠ FAR_FUTURE_EPOCH → ∀ w, s.validators[i]? = some w → w.exit_epoch ≠ x := by
      intro x hx w hw
      have := Option.some.inj (hv.symm.trans hw); subst this
      rw [hf]; exact Ne.symm hx
    refine ⟨e, hx, h1, h2, hne, ?_, ?_⟩
    · rw [exitsIn_set hx (hfar e (by omega))]
      have := hE.min_per_epoch_churn_limit
      have hc : E.min_per_epoch_churn_limit ≤ churnLimit E s := Nat.le_max_left _ _
      rcases h3 (by omega) with h3 | h3 <;> simp <;> omega
    · intro x hx1 hx2
      rw [exitsIn_set hx (hfar x hx1)]
      simp [Ne.symm hx2]

/-- **C09** One exit never makes the number of validators leaving in an epoch exceed
the churn limit, except for epochs that exceeded it before. -/
theorem C09_exit_rate (E : Env) (hE : SaneConfig E) (s s' : State) (i : Nat)
    (h : initiate_validator_exit E i s = .ok () s') (x : Nat) (hx : x ≠ FAR_FUTURE_EPOCH) :
    exitsIn s' x ≤ max (exitsIn s x) (churnLimit E s) := by
  obtain ⟨v, hv, ⟨_, rfl⟩ | ⟨hf, _⟩⟩ := initiate_validator_exit_eq_ok.1 h
  · exact Nat.le_max_left _ _
  · obtain ⟨e, _, _, _, _, h1, h2⟩ := C09_exit_assigns E hE s s' i v hv hf h
    by_cases hxe : x = e
    · subst hxe; exact Nat.le_trans h1 (Nat.le_max_right _ _)
    · rw [h2 x hx hxe]; exact Nat.le_max_left _ _

/-- **C09** Over any sequence of exits in one epoch the per-epoch bound is kept: if no
epoch has more exits than the churn limit before, none has after. -/
theorem C09_exit_sequence_rate (E : Env) (hE : SaneConfig E) (indices : List Nat) :
    ∀ s s' : State, forEach indices (initiate_validator_exit E) s = .ok () s' →
      (∀ x, x ≠ FAR_FUTURE_EPOCH → exitsIn s x ≤ churnLimit E s) →
      churnLimit E s' = churnLimit E s ∧
      (∀ x, x ≠ FAR_FUTURE_EPOCH → exitsIn s' x ≤ churnLimit E s') := by
  induction indices with
  | nil =>
    intro s s' h hb
    cases h
    exact ⟨rfl, hb⟩
  | cons i l ih =>
    intro s s' h hb
    simp only [forEach, run] at h
    obtain ⟨t, h1, h2⟩ := h
    have hc : churnLimit E t = churnLimit E s := by
      obtain ⟨v, hv, ⟨_, rfl⟩ | ⟨hf, _⟩⟩ := initiate_validator_exit_eq_ok.1 h1
      · rfl
      · obtain ⟨e, he, h3, _, h4, _⟩ := C09_exit_assigns E hE s t i v hv hf h1
        have hslot : t.slot = s.slot := by obtain ⟨w, _, rfl⟩ := he; rfl
        unfold churnLimit
        rw [hslot, activeIndices_exit he ?_ (by omega)]
        intro w hw
        have := Option.some.inj (hv.symm.trans hw); subst this
        rw [hf]; omega
    obtain ⟨h3, h4⟩ := ih t s' h2 (by
      intro x hx
      have := C09_exit_rate E hE s t i h1 x hx
      have := hb x hx
      omega)
    exact ⟨h3.trans hc, h4⟩

/-- **C09** For every validator of the registry the call succeeds as long as the epochs
in play are below `2^62`. -/
theorem C09_exit_succeeds (E : Env) (hE : SaneConfig E) (s : State) (i : Nat)
    (hi : i < s.validators.length) (hs : epochOf E s.slot < 2 ^ 62)
    (hv : ∀ v ∈ s.validators, v.exit_epoch ≠ FAR_FUTURE_EPOCH → v.exit_epoch < 2 ^ 62) :
    ∃ s', initiate_validator_exit E i s = .ok () s' := by
  have hw : s.validators[i]? = some s.validators[i] := by simp [hi]
  by_cases hf : s.validators[i].exit_epoch = FAR_FUTURE_EPOCH
  · obtain ⟨e, he, hlt⟩ := exit_queue_epoch_total hE hs hv
    have := hE.withdrawability_delay
    have hb := U64_BOUND_eq
    exact ⟨_, initiate_validator_exit_eq_ok.2
      ⟨_, hw, Or.inr ⟨hf, e, he, by omega, _, hw, rfl⟩⟩⟩
  · exact ⟨s, C09_exit_idempotent E s i _ hw hf⟩

/-- Six exits from a state of eight validators (churn limit 2): two per epoch. -/
example : (finalState (forEach [0, 1, 2, 3, 4, 5] (initiate_validator_exit Toy.env))
      (Toy.state 8 20)).validators.map (·.exit_epoch) =
    [7, 7, 8, 8, 9, 9, FAR_FUTURE_EPOCH, FAR_FUTURE_EPOCH] := by decide +kernel

example : ∀ v ∈ (Toy.state 8 20).validators,
    v.exit_epoch ≠ FAR_FUTURE_EPOCH → v.exit_epoch < 2 ^ 62 := by decide +kernel

end Verif.Props
