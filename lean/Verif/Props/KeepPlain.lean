import Verif.Props.Keep
import Verif.Props.Rewards

/-! # C98 in phase0: an example -/

namespace Verif.Props

open Spec

/-- The same in phase0, up to altair. -/
def plainStart : State :=
  match initialize_beacon_state_from_eth1 wiseEnv .Phase0 (Toy.root 1) 1000 genesisDeposits none with
  | .ok s => s
  | .error _ => Toy.state 0 0

def plainSteps : List Toy.Step := wiseSteps.take 9 ++ [.upgrade .Altair]

def plainEnd : Fork × State × Nat :=
  (toil wiseEnv 3 plainSteps (.Phase0, plainStart, 0)).getD (.Phase0, plainStart, 0)

theorem plain_run : (toil wiseEnv 3 plainSteps (.Phase0, plainStart, 0)).isSome = true ∧
    (initialize_beacon_state_from_eth1 wiseEnv .Phase0 (Toy.root 1) 1000 genesisDeposits
      none).toOption.isSome = true ∧ plainEnd.1 = .Altair ∧ plainEnd.2.2 = 0 ∧
    plainEnd.2.1.slot = 8 ∧ plainEnd.2.1.validators.length = 4 ∧
    plainStart.balances = [32000000000, 32000000000, 31000000000, 32000000000] ∧
    plainEnd.2.1.balances = [31995249131, 31995042572, 31000000000, 32003098392] ∧
    plainStart.validators[3]?.map (fun v => (v.public_key, v.slashed)) = some (Toy.pk 3, false) := by
  decide +kernel

theorem plain_reachable : Reachable wiseEnv .Phase0 plainStart := by
  have := plain_run.2.1
  unfold plainStart
  split
  · rename_i h; exact .genesis h
  · rename_i h; rw [h] at this; cases this

attribute [local irreducible] plainEnd plainStart in
example : wealth .Phase0 plainStart 3 ≤ wealth .Altair plainEnd.2.1 3 + 0 := by
  obtain ⟨q, hq⟩ := Option.isSome_iff_exists.1 plain_run.1
  have e : plainEnd = q := by unfold plainEnd; rw [hq, Option.getD_some]
  have h := toil_dutiful (p := (.Phase0, plainStart, 0)) .start hq
  rw [← e, plain_run.2.2.1, plain_run.2.2.2.1] at h
  obtain ⟨v, hv, hp⟩ := Option.map_eq_some_iff.1 plain_run.2.2.2.2.2.2.2.2
  refine C98_keeps wise_sane.1 wise_sane.2.1 (by decide) (by decide) (by decide) plain_reachable
    3 0 h v hv (congrArg Prod.snd hp) ?_ (by rw [plain_run.2.2.2.2.1]; decide)
    (by rw [plain_run.2.2.2.2.2.1]; decide)
  rw [show v.public_key = Toy.pk 3 from congrArg Prod.fst hp]
  exact wise_innocent _

/-- While finality is overdue: validator 1 has voted, at once, and loses nothing; those whose votes were
late or wrong, or who have not voted, do (`overdue` in `Verif/Props/Rewards.lean`). -/
example : wealth .Phase0 overdue 1 ≤
    wealth .Phase0 (finalState (process_epoch Toy.env .Phase0) overdue) 1 := by
  refine C98_epoch (by constructor <;> first | exact toy_sane | (constructor <;> decide) | decide)
    (Toy.ok_of_succeeds (m := process_epoch Toy.env .Phase0) (by decide +kernel)) 1
    overdue.validators[1] rfl (by decide +kernel) (fun _ => ?_) (fun h => nomatch h)
  unfold DidDuty
  rw [if_pos rfl]
  exact voted_of_check (by decide +kernel)

example : Leaking Toy.env { overdue with finalized_checkpoint :=
    (finalState (process_epoch Toy.env .Phase0) overdue).finalized_checkpoint } := by decide +kernel

end Verif.Props
