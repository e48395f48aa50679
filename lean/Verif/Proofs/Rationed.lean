import Verif.Spec.Rationed
import Verif.Proofs.Credit

/-! # How long those wait who leave, in electra -/

namespace Verif

open Spec Props

section

variable {E : Env} {s t u : State} {M m : Nat}

/-- The balance `out` has been given epochs, none of it for nothing: up to the epoch `e`, of which
`free` is left, all epochs after `M` are used up. -/
def UsedUp (m M out e free : Nat) : Prop :=
  M < e → (e - M - 1) * m < out ∧ (e - M) * m ≤ out + free

theorem usedUp_step {out b e0 f0 e left churn : Nat} (hm : m ≤ churn)
    (h : UsedUp m M out e0 f0) (h1 : e0 ≤ e) (h2 : left + b = f0 + (e - e0) * churn)
    (h3 : ∀ x, e0 ≤ x → b ≤ f0 + (x - e0) * churn → e ≤ x) : UsedUp m M (out + b) e left := by
  intro hM
  rcases Nat.eq_or_lt_of_le h1 with rfl | hlt
  · obtain ⟨g1, g2⟩ := h hM
    simp only [Nat.sub_self, Nat.zero_mul, Nat.add_zero] at h2
    exact ⟨by omega, by omega⟩
  · have hf : f0 + (e - 1 - e0) * churn < b := by
      by_contra hn
      have := h3 (e - 1) (by omega) (by omega)
      omega
    have k1 := Nat.mul_le_mul_left (e - e0) hm
    have k2 := Nat.mul_le_mul_left (e - 1 - e0) hm
    by_cases hs : M < e0
    · obtain ⟨g1, g2⟩ := h hs
      constructor
      · rw [show e - M - 1 = (e0 - M) + (e - 1 - e0) by omega, Nat.add_mul]; omega
      · rw [show e - M = (e0 - M) + (e - e0) by omega, Nat.add_mul]; omega
    · constructor
      · have := Nat.mul_le_mul_right m (show e - M - 1 ≤ e - 1 - e0 by omega)
        omega
      · have := Nat.mul_le_mul_right m (show e - M ≤ e - e0 by omega)
        omega

theorem queued_used {out b e left : Nat} (hN : nextFreeEpoch E s ≤ M)
    (h : UsedUp (slowestCredit E) M out s.earliest_exit_epoch s.exit_balance_to_consume)
    (hq : QueuedExit E s (queueStart E s s.earliest_exit_epoch s.exit_balance_to_consume) b e left) :
    UsedUp (slowestCredit E) M (out + b) e left := by
  obtain ⟨h1, h2, h3⟩ := hq
  unfold queueStart at h1 h2 h3
  split at h1
  next hlt =>
    simp only [if_pos hlt] at h2 h3
    exact usedUp_step (e0 := nextFreeEpoch E s) (slowest_credit s)
      (fun hM => absurd hM (by omega)) h1 h2 h3
  next hlt =>
    simp only [if_neg hlt] at h2 h3
    exact usedUp_step (slowest_credit s) h h1 h2 h3

theorem rationed_used {N : Nat} {l : List (Nat × Nat)} (h : Rationed E N s l t) :
    UsedUp (slowestCredit E) (max s.earliest_exit_epoch N) (l.map (·.1)).sum t.earliest_exit_epoch
      t.exit_balance_to_consume := by
  induction h with
  | start => intro h; omega
  | other _ h1 h2 ih => rw [h1, h2]; exact ih
  | exit _ hN h ih =>
    obtain ⟨g1, -, g2⟩ := C50_assigned E _ _ _ _ h
    have := queued_used (Nat.le_trans hN (Nat.le_max_right _ _)) ih g1
    rw [g2, List.map_append, List.sum_append]
    simpa using this

end

end Verif
