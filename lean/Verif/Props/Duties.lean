import Verif.Proofs.Duties
import Verif.Examples.Blocks

/-! # C68: duties are known in advance -/

namespace Verif.Props

open Spec

/-- **C68** The validators active in an epoch are settled `MAX_SEED_LOOKAHEAD` epochs ahead: whatever
is called and whatever fork comes, the active set of an epoch up to that one stays the same. -/
theorem C68_active (E : Env) (f f' : Fork) (s s' : State) (h : Future E f s f' s')
    (e : Nat) (he : e ≤ epochOf E s.slot + E.max_seed_lookahead) (hf : e < FAR_FUTURE_EPOCH) :
    get_active_validator_indices s' e = get_active_validator_indices s e := by
  rw [activeIndices_eq, activeIndices_eq]
  exact active_decided (future_duty h).1 he hf

/-- **C68** An entry of the registry keeps its public key. -/
theorem C68_keys (E : Env) (f f' : Fork) (s s' : State) (h : Future E f s f' s')
    (i : Nat) (v : Validator) (hv : s.validators[i]? = some v) :
    ∃ v', s'.validators[i]? = some v' ∧ v'.public_key = v.public_key := by
  obtain ⟨w, h1, h2⟩ := (future_duty h).1.2.1 i v hv
  exact ⟨w, h1, h2.key⟩

/-- **C68** The seed of an epoch, for whatever duty, is settled `MIN_SEED_LOOKAHEAD` epochs ahead, and
stays the same as long as the state keeps the randao mix it comes from. -/
theorem C68_seed (E : Env) (f f' : Fork) (s s' : State) (h : Future E f s f' s')
    (e : Nat) (t : DomainType) (hn : e ≤ epochOf E s.slot + E.min_seed_lookahead)
    (hw : epochOf E s'.slot + E.min_seed_lookahead + 2 < e + E.epochs_per_historical_vector) :
    get_seed E s' e t = get_seed E s e t :=
  seed_decided (future_duty h).2 hn hw

/-- **C68** So the committees of an epoch are settled `MIN_SEED_LOOKAHEAD` epochs ahead: whatever is
called and whatever fork comes, `get_beacon_committee` gives the same members in the same order. -/
theorem C68_committee (E : Env) (f f' : Fork) (s s' : State) (h : Future E f s f' s')
    (slot index : Nat)
    (hn : epochOf E slot ≤ epochOf E s.slot + E.min_seed_lookahead)
    (he : E.min_seed_lookahead ≤ E.max_seed_lookahead) (hf : epochOf E slot < FAR_FUTURE_EPOCH)
    (hw : epochOf E s'.slot + E.min_seed_lookahead + 2 <
      epochOf E slot + E.epochs_per_historical_vector) :
    get_beacon_committee E s' slot index = get_beacon_committee E s slot index :=
  committee_decided (future_duty h).1 (future_duty h).2 (by unfold decided; omega) hf hn hw

/-! ### From a state in slot 9, a block with a slashing, then the next epoch in the next fork -/

/-- Validator 3 votes twice. -/
def twoVotes : AttesterSlashing where
  attestation_1 := ⟨[3], ⟨8, 0, Toy.root 1, Toy.checkpoint 0, ⟨1, Toy.root 8⟩⟩, Toy.goodSig⟩
  attestation_2 := ⟨[3], ⟨8, 0, Toy.root 2, Toy.checkpoint 0, ⟨1, Toy.root 9⟩⟩, Toy.goodSig⟩

def doubleVoteBlock : M Unit :=
  let s := Toy.state 8 9
  process_block Toy.env .Capella (Toy.block s { Toy.body s with attester_slashings := [twoVotes] })

def afterSlashing : State := finalState doubleVoteBlock (Toy.state 8 9)

def laterState : R State := upgrade_to Toy.env .Deneb
  (finalState (process_slots Toy.env .Capella 16) afterSlashing)

example (s' : State) (h : laterState = .ok s') :
    Future Toy.env .Capella (Toy.state 8 9) .Deneb s' :=
  .upgrade (.call (.call .start (.process_block _)) (.process_slots 16)) rfl h

/-- The block slashes validator 3, which exits in epoch 6, one after those settled. The committees of
epoch 2 remain, in epoch 2; those of epoch 3, which the block's randao reveal changes, do not. -/
example : Toy.succeeds doubleVoteBlock (Toy.state 8 9) = true ∧
    (afterSlashing.validators[3]?.map (·.exit_epoch)) = some 6 ∧
    (match laterState with
      | .ok s' => decide (s'.slot = 16 ∧
          (List.range 8).map (fun i => get_beacon_committee Toy.env s' (16 + i) 0) =
            (List.range 8).map (fun i => get_beacon_committee Toy.env (Toy.state 8 9) (16 + i) 0) ∧
          (∀ i ∈ List.range 8,
            (get_beacon_committee Toy.env s' (16 + i) 0).toOption.isSome) ∧
          (List.range 8).map (fun i => get_beacon_committee Toy.env s' (24 + i) 0) ≠
            (List.range 8).map (fun i => get_beacon_committee Toy.env (Toy.state 8 9) (24 + i) 0) ∧
          get_active_validator_indices s' 5 = List.range 8 ∧
          get_active_validator_indices s' 6 ≠ List.range 8)
      | .error _ => false) = true ∧
    epochOf Toy.env 16 ≤ epochOf Toy.env 9 + Toy.env.min_seed_lookahead := by
  decide +kernel

end Verif.Props
