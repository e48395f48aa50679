import Verif.Proofs.ElectraVotes
import Verif.Props.Shuffling

/-! # C28, C30, C53: attestations -/

namespace Verif.Props

open Spec

/-! ## C28 -/

/-- **C28** In phase0, `process_attestation` succeeds exactly for a timely vote signed by
members of an existing committee (and a computable proposer); it then appends one pending
attestation to the list of its target epoch and changes nothing else. -/
theorem C28_process_attestation_iff (E : Env) (hE : SaneConfig E) (a : Attestation)
    (s s' : State) (hs : s.slot < 2 ^ 63) :
    process_attestation E .Phase0 a s = .ok () s' ↔
      TimelyVote E .Phase0 s a.data ∧ (∃ l, CommitteeVote E s a l) ∧
      ∃ p, get_beacon_proposer_index E s = .ok p ∧
        s' = if a.data.target.epoch = epochOf E s.slot then
          { s with
            current_epoch_attestations := s.current_epoch_attestations ++ [pendingOf s a p] }
        else
          { s with
            previous_epoch_attestations :=
              s.previous_epoch_attestations ++ [pendingOf s a p] } :=
  phase0_attestation_eq_ok hE hs

/-- **C28** The voters are determined by the attestation. -/
theorem C28_voters_unique (E : Env) (s : State) (a : Attestation) (l m : List Nat)
    (hl : CommitteeVote E s a l) (hm : CommitteeVote E s a m) : l = m := by
  obtain ⟨c, hc, -, hv⟩ := hl.members
  obtain ⟨c', hc', -, hv'⟩ := hm.members
  rw [hc] at hc'; cases hc'
  exact voters_unique hv hv'

/-- An attestation in slot 19 by the first and third member of its committee. -/
def ballot : Attestation where
  aggregation_bits := [true, false, true]
  committee_bits := []
  data := {
    slot := 19
    index := 0
    beacon_block_root := Toy.root 19
    source := Toy.checkpoint 0
    target := ⟨2, Toy.root 16⟩ }
  signature := Toy.goodSig

/-- It is accepted and recorded with inclusion delay 1; with a bitfield of another length,
another source, or an unsigned one, it is not. -/
example :
    let s := Toy.state 20 20
    (finalState (process_attestation Toy.env .Phase0 ballot) s).current_epoch_attestations =
      [pendingOf s ballot 9] ∧
    Toy.errorOf (process_attestation Toy.env .Phase0
      { ballot with aggregation_bits := [true, false] }) s = some .attestationBitfield ∧
    Toy.succeeds (process_attestation Toy.env .Phase0
      { ballot with signature := Toy.badSig }) s = false ∧
    Toy.errorOf (process_attestation Toy.env .Phase0
      { ballot with data := { ballot.data with source := Toy.checkpoint 1 } }) s =
        some .attestationInvalidSource := by
  decide +kernel

/-! ## C30 -/

/-- **C30** From altair to deneb, a successful `process_attestation` was for a timely vote
signed by members `l` of an existing committee. It sets, for exactly the validators in `l`
and in the list of the target epoch, exactly the flags earned by inclusion delay and
matching votes; it pays the proposer an eighth of what those of them that are new are
worth, and changes nothing else. The participation lists run parallel to the registry (C12). -/
theorem C30_process_attestation_effect (E : Env) (hE : SaneConfig E) (f : Fork)
    (hf : f ≠ .Phase0 ∧ f ≠ .Electra) (a : Attestation) (s s' : State) (hs : s.slot < 2 ^ 63)
    (hpar : (flagsFor E s a.data).length = s.validators.length)
    (h : process_attestation E f a s = .ok () s') :
    TimelyVote E f s a.data ∧
    ∃ l fl, CommitteeVote E s a l ∧ EarnedFlags E f s a.data fl ∧
    ∃ p b new, get_beacon_proposer_index E s = .ok p ∧ s.balances[p]? = some b ∧
      FlagsAdded l fl (flagsFor E s a.data) new ∧
      s' = { withFlags E s a.data new with
        balances := s.balances.set p (b + inclusionReward E s a.data l fl) } := by
  have h' : Altair.process_attestation E f a s = .ok () s' := by
    cases f <;> first | exact absurd rfl hf.1 | exact absurd rfl hf.2 | exact h
  exact altair_attestation_effect hE hs hpar h'

/-- **C30** Flags are never cleared. -/
theorem C30_flags_never_cleared (l fl : List Nat) (old new : List UInt8)
    (h : FlagsAdded l fl old new) (v : Nat) (x : UInt8) (hx : old[v]? = some x) :
    ∃ y, new[v]? = some y ∧ ∀ j < 8, FlagSet x j → FlagSet y j := by
  have hv := (List.getElem?_eq_some_iff.1 hx).1
  have hy : new[v]? = some (new[v]'(by rw [h.1]; exact hv)) := List.getElem?_eq_getElem _
  exact ⟨_, hy, fun j hj hf => (h.2 v x _ hx hy j hj).2 (Or.inl hf)⟩

/-- **C30** A further attestation to the same data by voters who have all been counted
already, in particular the same attestation again, pays nothing and changes nothing. -/
theorem C30_no_reward_twice (E : Env) (hE : SaneConfig E) (f : Fork)
    (hf : f ≠ .Phase0 ∧ f ≠ .Electra) (a b : Attestation) (s s' s'' : State)
    (hs : s.slot < 2 ^ 63) (hpar : (flagsFor E s a.data).length = s.validators.length)
    (hd : b.data = a.data)
    (hb : ∀ k : Nat, b.aggregation_bits[k]? = some true → a.aggregation_bits[k]? = some true)
    (h : process_attestation E f a s = .ok () s')
    (h' : process_attestation E f b s' = .ok () s'') : s'' = s' := by
  have h1 : Altair.process_attestation E f a s = .ok () s' := by
    cases f <;> first | exact absurd rfl hf.1 | exact absurd rfl hf.2 | exact h
  have h2 : Altair.process_attestation E f b s' = .ok () s'' := by
    cases f <;> first | exact absurd rfl hf.1 | exact absurd rfl hf.2 | exact h'
  exact included_again hE hs hpar hd hb h1 h2

/-- **C30** The order in which the (hash) set of attesters is visited does not matter. -/
theorem C30_visiting_order (E : Env) (is_current : Bool) (fl l l' : List Nat) (s s' : State)
    (n : Nat) (hl : l.Nodup) (hp : l.Perm l')
    (hin : ∀ v ∈ l, v < (if is_current then s.current_epoch_participation
      else s.previous_epoch_participation).length) :
    apply_flags E is_current fl l s = .ok n s' ↔ apply_flags E is_current fl l' s = .ok n s' :=
  apply_flags_perm hl hp hin

/-- **C30** Electra: the same effect, for the validators `get_attesting_indices` selects
(see C53 for which these are). -/
theorem C30_electra_process_attestation_effect (E : Env) (hE : SaneConfig E) (a : Attestation)
    (s s' : State) (hs : s.slot < 2 ^ 63)
    (hpar : (flagsFor E s a.data).length = s.validators.length)
    (h : process_attestation E .Electra a s = .ok () s') :
    TimelyVote E .Electra s a.data ∧
    ∃ idxs l fl, Electra.get_attesting_indices E s a = .ok idxs ∧ l.Perm idxs ∧
    ValidIndexed E s ⟨l, a.data, a.signature⟩ ∧ EarnedFlags E .Electra s a.data fl ∧
    ∃ p b new, get_beacon_proposer_index E s = .ok p ∧ s.balances[p]? = some b ∧
      FlagsAdded l fl (flagsFor E s a.data) new ∧
      s' = { withFlags E s a.data new with
        balances := s.balances.set p (b + inclusionReward E s a.data l fl) } := by
  obtain ⟨h1, -, idxs, l, fl, h2, rfl, h3, h4, h5⟩ := electra_attestation_effect hE hs hpar h
  exact ⟨h1, idxs, _, fl, h2, sortBy_perm _, h3, h4, h5⟩

/-- It is accepted in altair: the two voters get all three flags and the proposer is paid;
including it again succeeds and changes nothing; a late one earns fewer flags. -/
example :
    let s := Toy.state 20 20
    let s' := finalState (process_attestation Toy.env .Altair ballot) s
    Toy.succeeds (process_attestation Toy.env .Altair ballot) s = true ∧
    (flagsFor Toy.env s ballot.data).length = s.validators.length ∧
    s'.current_epoch_participation = (List.replicate 20 0 |>.set 10 7 |>.set 16 7) ∧
    s'.balances[9]? ≠ s.balances[9]? ∧
    Toy.succeeds (process_attestation Toy.env .Altair ballot) s' = true ∧
    (finalState (process_attestation Toy.env .Deneb ballot) { s with slot := 25 }
      ).previous_epoch_participation = (List.replicate 20 0 |>.set 10 2 |>.set 16 2) := by
  decide +kernel

/-! ## C53 -/

/-- **C53** (partial: one committee) If the attestation is for a single committee, the
validators counted are exactly those whose bit is set. -/
theorem C53_attesting_indices_partial (E : Env) (s : State) (a : Attestation) (i : Nat)
    (idxs : List Nat) (hi : ∀ j, a.committee_bits[j]? = some true ↔ j = i)
    (h : Electra.get_attesting_indices E s a = .ok idxs) : AggregateVoters E s a idxs :=
  electra_single_committee hi h

/-- What the code computes instead in general: the bit consulted for member `k` of the
committee at position `p` is number `p + k`, not the number after all earlier members. -/
theorem C53_attesting_indices_actual (E : Env) (s : State) (a : Attestation) (idxs : List Nat)
    (h : Electra.get_attesting_indices E s a = .ok idxs) (v : Nat) :
    v ∈ idxs ↔ ∃ p i k : Nat, ∃ c, (Electra.get_committee_indices a.committee_bits)[p]? = some i ∧
      get_beacon_committee E s a.data.slot i = .ok c ∧ c[k]? = some v ∧
      a.aggregation_bits[p + k]? = some true := by
  simp only [Electra.get_attesting_indices, run] at h
  obtain ⟨l, hl, rfl⟩ := h
  rw [mem_iterate, mem_setOfList]
  simpa using electra_attesters_from hl v

/-- An attestation over the first two committees of slot 19 of 64 validators, `[55, 27, 29, 54]`
and `[52, 31, 33, 48]`, with the bit of 52 set. -/
def twoCommittees : Attestation :=
  { ballot with
    aggregation_bits := [false, false, false, false, true, false, false, false]
    committee_bits := [true, true, false, false] }

theorem twoCommittees_counts :
    Electra.get_attesting_indices Toy.env (Toy.state 64 20) twoCommittees = .ok [48] := by
  decide +kernel

theorem twoCommittees_committees :
    get_beacon_committee Toy.env (Toy.state 64 20) 19 0 = .ok [55, 27, 29, 54] ∧
    get_beacon_committee Toy.env (Toy.state 64 20) 19 1 = .ok [52, 31, 33, 48] := by
  decide +kernel

/-- **C53** fails for several committees: here validator 52 voted, and 48 is counted. -/
theorem C53_false_for_two_committees :
    ∃ E s a idxs, SaneConfig E ∧ Electra.get_attesting_indices E s a = .ok idxs ∧
      ¬ AggregateVoters E s a idxs := by
  refine ⟨Toy.env, Toy.state 64 20, twoCommittees, [48], toy_sane, twoCommittees_counts, ?_⟩
  rintro ⟨cs, ⟨is, h1, h2, h3⟩, h4⟩
  have his : is = [0, 1] := by
    refine sorted_unique h1 (by decide) fun j => ?_
    rw [h2]
    rcases j with _ | _ | _ | _ | j <;> simp [twoCommittees]
  subst his
  simp only [List.map_cons, List.map_nil, show twoCommittees.data.slot = 19 from rfl,
    twoCommittees_committees.1, twoCommittees_committees.2] at h3
  have hcs : cs = [[55, 27, 29, 54], [52, 31, 33, 48]] := by
    rcases cs with _ | ⟨x, _ | ⟨y, _ | ⟨z, w⟩⟩⟩ <;> simp at h3
    simp [h3]
  subst hcs
  have : 52 ∈ [48] := (h4 52).2 ⟨4, rfl, rfl⟩
  simp at this

/-- a single committee is counted right -/
example : Electra.get_attesting_indices Toy.env (Toy.state 64 20)
    { twoCommittees with
      committee_bits := [false, true, false, false]
      aggregation_bits := [true, false, false, true] } = .ok [52, 48] := by
  decide +kernel

end Verif.Props
