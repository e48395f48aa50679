import Verif.Proofs.Rings
import Verif.Props.Registry
import Verif.Examples.Blocks

/-! # C18, C24 over histories -/

namespace Verif.Props

open Spec

/-- **C18** Whatever is called, and whether it succeeds or fails: the mix of a past epoch stays
until its place in the ring buffer is needed again. -/
theorem C18_history (E : Env) (f : Fork) (s s' : State) (h : History E f s s') (e : Nat)
    (he : e < epochOf E s.slot)
    (hw : epochOf E s'.slot + 1 < e + E.epochs_per_historical_vector) :
    mixAt E s' e = mixAt E s e :=
  mixAt_round (E := E) ▸ mixAt_round (E := E) (s := s) ▸ (history_mix h).2 _ (by omega) hw

/-- Sixteen slots and two mix resets later the mix of epoch 1 is still there. -/
example :
    let s := Toy.state 8 20
    History Toy.env .Deneb s (finalState (process_slots Toy.env .Deneb 36) s) ∧
    1 < epochOf Toy.env s.slot ∧
    epochOf Toy.env (finalState (process_slots Toy.env .Deneb 36) s).slot = 4 ∧
    mixAt Toy.env s 1 = some (Toy.root 1) ∧
    mixAt Toy.env (finalState (process_slots Toy.env .Deneb 36) s) 1 = some (Toy.root 1) ∧
    mixAt Toy.env (finalState (process_slots Toy.env .Deneb 36) s) 4 = some (Toy.root 2) := by
  refine ⟨.call .start (.process_slots _), ?_⟩
  decide +kernel

/-- **C24** From genesis on, through valid and invalid blocks, skipped slots and fork upgrades:
there are never more votes than slots in a voting period, and more precisely never more than slots
of the current period so far. -/
theorem C24_votes_bounded (E : Env) (hE : SaneConfig E)
    (hP : 0 < E.epochs_per_eth1_voting_period) (f : Fork) (s : State) (h : OnChain E f s) :
    s.eth1_data_votes.length ≤ s.slot % votingPeriodSlots E + 1 ∧
    s.eth1_data_votes.length ≤ votingPeriodSlots E := by
  have hf := (onChain_fit hE hP h).2
  have hlt : s.slot % votingPeriodSlots E < votingPeriodSlots E :=
    Nat.mod_lt _ (Nat.mul_pos hP hE.slots_per_epoch.1)
  split at hf <;> omega

/-- **C24** Slot and epoch processing never change `eth1_data`. -/
theorem C24_slots_keep_eth1_data (E : Env) (f : Fork) (t : Nat) (s : State) :
    (finalState (process_slots E f t) s).eth1_data = s.eth1_data ∧
    (finalState (process_epoch E f) s).eth1_data = s.eth1_data :=
  ⟨slots_mod.final s .eth1_data (by decide), epoch_mod.final s .eth1_data (by decide)⟩

/-- A vote in the last slot of a period, cleared by the next slot. -/
example :
    let s := finalState (process_block Toy.env .Altair
      (Toy.block (Toy.state 8 31) (Toy.body (Toy.state 8 31)))) (Toy.state 8 31)
    s.eth1_data_votes.length = 1 ∧ votingPeriodSlots Toy.env = 32 ∧
    Toy.succeeds (process_slots Toy.env .Altair 32) s = true ∧
    (finalState (process_slots Toy.env .Altair 32) s).eth1_data_votes = [] := by
  decide +kernel

end Verif.Props
