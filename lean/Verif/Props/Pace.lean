import Verif.Proofs.Pace
import Verif.Props.Turn
import Verif.Props.Leaving
import Verif.Props.Keep

/-! # C99: the set of active validators changes slowly -/

namespace Verif.Props

open Spec

variable {E : Env} {f : Fork} {s s' : State}

/-- **C99** In every state that any calls can lead to, whether they succeed or fail, no more
validators leave in an epoch than a fixed fraction of the registry, or the minimum. -/
theorem C99_leave (hE : SaneConfig E) (hf : f ≠ .Electra) (h : Reachable E f s) (e : Nat)
    (he : e ≠ FAR_FUTURE_EPOCH) :
    exitsIn s e ≤ max E.min_per_epoch_churn_limit (s.validators.length / E.churn_limit_quotient) :=
  reachable_paced hE h hf e he

/-- **C99** In every state of a client that follows a chain from genesis, no more have joined in an
epoch, genesis apart. -/
theorem C99_join (hE : SaneConfig E) (hB : SaneBalances E)
    (hI : E.effective_balance_increment < 2 ^ 64) (hf : f ≠ .Electra) (h : Followed E f s) (e : Nat)
    (h0 : 0 < e) (he : e ≠ FAR_FUTURE_EPOCH) :
    joinsIn s e ≤ max E.min_per_epoch_churn_limit (s.validators.length / E.churn_limit_quotient) :=
  (followed_joined hE hB hI hf h).limit e h0 he

/-- **C99** The same from any state on in which it holds. -/
theorem C99_join_on (hf : f ≠ .Electra) (ho : Orderly E f s) (hj : JoinedSlowly E s)
    (h : Follows E f s s') : JoinedSlowly E s' := (follows_joined hf ho hj h).2

/-- **C99** So the active sets of two epochs differ by at most that number per epoch between them, in
either direction. -/
theorem C99_turnover (hE : SaneConfig E) (hB : SaneBalances E)
    (hI : E.effective_balance_increment < 2 ^ 64) (hf : f ≠ .Electra) (h : Followed E f s)
    (a b : Nat) (hab : a ≤ b) (hb : b < FAR_FUTURE_EPOCH) :
    (activeOnlyIn s b a).length ≤ (b - a) * pace E s.validators.length ∧
      (activeOnlyIn s a b).length ≤ (b - a) * pace E s.validators.length :=
  ⟨newcomers_le hab fun e h1 h2 => C99_join hE hB hI hf h e (by omega) (by omega),
    leavers_le hab fun e _ h2 => C99_leave hE hf (followed_reachable h) e (by omega)⟩

/-! ## Examples -/

/-- Three of four leave from the genesis of C11, of which two may per epoch. -/
example (s : State) (h : genesisState = .ok s) :
    exitsIn (threeExits s) 5 ≤ max genesisEnv.min_per_epoch_churn_limit
      ((threeExits s).validators.length / genesisEnv.churn_limit_quotient) :=
  C99_leave (by constructor <;> decide) (by decide)
    (.call (.call (.call (.genesis h) (.initiate_validator_exit 0)) (.initiate_validator_exit 1))
      (.initiate_validator_exit 3)) 5 (by decide)

example : (genesisState.toOption.map fun s => (exitsIn (threeExits s) 5, exitsIn (threeExits s) 6,
    activeOnlyIn (threeExits s) 4 5, activeOnlyIn (threeExits s) 4 6,
    pace genesisEnv (threeExits s).validators.length)) =
    some (2, 1, [0, 1], [0, 1, 3], 2) := by decide +kernel

/-- The run of C93: two join in epoch 14 and one in epoch 15. -/
theorem queued_joined : JoinedSlowly Toy.env queued := by
  refine ⟨fun e h0 hF => ?_, by decide +kernel⟩
  have : joinsIn queued e = 0 := by
    unfold joinsIn
    rw [List.countP_eq_zero]
    intro v hv he
    rw [beq_iff_eq] at he
    have key : ∀ v ∈ queued.validators, v.activation_epoch = 0 ∨
        v.activation_epoch = FAR_FUTURE_EPOCH := by decide +kernel
    rcases key v hv with h | h <;> omega
  omega

example : JoinedSlowly Toy.env (queuedAfter .Deneb 9) :=
  C99_join_on (by decide) toy_orderly queued_joined toy_follows

example : joinsIn (queuedAfter .Deneb 9) 14 = 2 ∧ joinsIn (queuedAfter .Deneb 9) 15 = 1 ∧
    activeOnlyIn (queuedAfter .Deneb 9) 15 13 = [6, 7, 8] ∧
    pace Toy.env (queuedAfter .Deneb 9).validators.length = 2 := by decide +kernel

theorem go_followed {x : Toy.Step} {p q : Live.Trip} (hp : Followed E p.1 p.2.1)
    (h : Live.go E x p = some q) : Followed E q.1 q.2.1 := by
  obtain ⟨f, s, l⟩ := p
  cases x <;> unfold Live.go at h <;> dsimp only at h
  · split at h
    · rename_i e
      cases h
      exact .slot hp e
    · cases h
  · split at h
    · rename_i e
      cases h
      exact .block hp e
    · cases h
  · split at h
    · split at h
      · rename_i hg _ _ e
        cases h
        exact .upgrade hp hg.1 e
      · cases h
    · cases h

theorem ride_followed {xs : List Toy.Step} {p q : Live.Trip} (hp : Followed E p.1 p.2.1)
    (h : Live.ride E xs p = some q) : Followed E q.1 q.2.1 := by
  induction xs generalizing p with
  | nil => cases h; exact hp
  | cons x xs ih =>
    unfold Live.ride at h
    split at h
    · rename_i e
      exact ih (go_followed hp e) h
    · cases h

theorem wise_followed : Followed wiseEnv .Altair wiseStart := by
  have := wise_run.2.1
  unfold wiseStart
  cases h : wiseGenesis with
  | ok s => exact .genesis h
  | error e => rw [h] at this; cases this

attribute [local irreducible] wiseTrip wiseStart in
/-- The chain of C98, eight slots and a block from its genesis. -/
example : (activeOnlyIn wiseTrip.2.1 5 2).length ≤ 3 * pace wiseEnv wiseTrip.2.1.validators.length ∧
    (activeOnlyIn wiseTrip.2.1 2 5).length ≤ 3 * pace wiseEnv wiseTrip.2.1.validators.length := by
  obtain ⟨h0, h1, -⟩ := wise_trip
  obtain ⟨q, hq⟩ := Option.isSome_iff_exists.1 h0
  have e : wiseTrip = q := by unfold wiseTrip; rw [hq, Option.getD_some]
  have hj := ride_followed (p := (.Altair, wiseStart, [])) wise_followed hq
  rw [← e, h1] at hj
  exact C99_turnover wise_sane.1 wise_sane.2.1 (by decide) (by decide) hj 2 5 (by decide) (by decide)

end Verif.Props
