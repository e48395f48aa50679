import Verif.Proofs.Upgrade
import Verif.Props.Shuffling

/-! # C34: fork upgrades -/

namespace Verif.Props

open Spec

/-- **C34** Every upgrade takes over the fields the two forks share and records the previous
version, the configured version of the new fork and the current epoch. -/
theorem C34_carried (E : Env) (g : Fork) (s s' : State) (h : upgrade_to E g s = .ok s') :
    (∀ f ∈ carried g, f.same s s') ∧ s'.fork = upgradedFork E g s := by
  cases g with
  | Phase0 => cases h
  | Altair => exact altair_carried h
  | Bellatrix => exact ⟨(into_bellatrix h).2.2, (into_bellatrix h).2.1⟩
  | Capella => exact ⟨(into_capella h).2.2, (into_capella h).2.1⟩
  | Deneb => exact ⟨(into_deneb h).2.2, (into_deneb h).2.1⟩
  | Electra => exact ⟨(into_electra h).2.2.1, (into_electra h).2.1⟩

/-- **C34** The upgrade into altair turns the attestations of the previous epoch into participation
flags, clears the current flags and the inactivity scores, and draws the sync committee. -/
theorem C34_altair (E : Env) (hE : SaneConfig E) (s s' : State)
    (h : upgrade_to E .Altair s = .ok s') : IntoAltair E s s' :=
  into_altair hE h

/-- **C34** The upgrade into bellatrix starts with a blank payload header. -/
theorem C34_bellatrix (E : Env) (s s' : State) (h : upgrade_to E .Bellatrix s = .ok s') :
    BlankHeader s'.latest_execution_payload_header :=
  (into_bellatrix h).1

/-- **C34** The upgrade into capella keeps the payload header, without withdrawals, and starts the
withdrawal cursor and the historical summaries. -/
theorem C34_capella (E : Env) (s s' : State) (h : upgrade_to E .Capella s = .ok s') :
    IntoCapella s s' :=
  (into_capella h).1

/-- **C34** The upgrade into deneb keeps the payload header, without blob gas. -/
theorem C34_deneb (E : Env) (s s' : State) (h : upgrade_to E .Deneb s = .ok s') :
    IntoDeneb s s' :=
  (into_deneb h).1

/-- **C34** The upgrade into electra puts the balances of validators not yet activated, and the
excess balances of compounding ones, on the deposit queue, in order, and starts the churn from the
exits already scheduled. -/
theorem C34_electra (E : Env) (s s' : State) (h : upgrade_to E .Electra s = .ok s') :
    IntoElectra E s s' :=
  (into_electra h).1

/-- **C34** No balance is lost by the upgrade into electra. -/
theorem C34_electra_total (E : Env) (s s' : State) (h : upgrade_to E .Electra s = .ok s') :
    s'.balances.sum + (s'.pending_balance_deposits.map (·.amount)).sum = s.balances.sum :=
  (into_electra h).2.2.2

/-- The result of an upgrade, or the state itself. -/
def upgraded (g : Fork) (s : State) : State :=
  match upgrade_to Toy.env g s with
  | .ok s' => s'
  | .error _ => s

/-- A timely vote of the committee of slot 10 and a late one of that of slot 11. -/
def attestedState : State := { Toy.state 8 16 with
  previous_epoch_attestations := [
    ⟨[true], ⟨10, 0, Toy.root 10, Toy.checkpoint 0, ⟨1, Toy.root 8⟩⟩, 1, 0⟩,
    ⟨[true], ⟨11, 0, Toy.root 11, Toy.checkpoint 0, ⟨1, Toy.root 8⟩⟩, 5, 0⟩] }

/-- A compounding validator with 40 ETH, one that waits for activation, one that exits in epoch 9. -/
def mixedState : State :=
  let s := Toy.state 8 16
  { s with
    validators := [
      { Toy.validator 0 with
        withdrawal_credentials := (zeroBytes 32).set 0 2 },
      { Toy.validator 1 with
        activation_epoch := FAR_FUTURE_EPOCH },
      { Toy.validator 2 with
        exit_epoch := 9 }] ++ s.validators.drop 3
    balances := 40000000000 :: s.balances.drop 1 }

example :
    (upgrade_to Toy.env .Altair attestedState).isOk = true ∧ SaneConfig Toy.env ∧
    (upgraded .Altair attestedState).previous_epoch_participation = [0, 2, 0, 7, 0, 0, 0, 0] ∧
    (upgraded .Altair attestedState).fork = ⟨#v[0, 0, 0, 1], Toy.env.altair_fork_version, 2⟩ := by
  refine ⟨by decide +kernel, toy_sane, by decide +kernel, by decide +kernel⟩

example :
    (upgrade_to Toy.env .Electra mixedState).isOk = true ∧
    (upgraded .Electra mixedState).balances = [32000000000, 0, 32000000000, 32000000000,
      32000000000, 32000000000, 32000000000, 32000000000] ∧
    (upgraded .Electra mixedState).pending_balance_deposits = [⟨1, 32000000000⟩, ⟨0, 8000000000⟩] ∧
    (upgraded .Electra mixedState).earliest_exit_epoch = 10 := by
  decide +kernel

example : ∀ g ∈ [Fork.Bellatrix, .Capella, .Deneb],
    (upgrade_to Toy.env g mixedState).isOk = true := by
  decide +kernel

end Verif.Props
