import Verif.Proofs.Keep
import Verif.Proofs.KeepVotes
import Verif.Examples.Chains
import Verif.Props.Guilt
import Verif.Props.Liveness

/-!
# C98: whoever does their duty loses nothing

"A validator that votes in time, signs when it sits on the sync committee and commits no offence keeps
what it has: whatever the others do, whether or not the chain finalises, and across forks, it never
has less than before, apart from what was paid out to it." What the duties are is said in
`Verif/Spec/Keep.lean`.
-/

namespace Verif.Props

open Spec

variable {E : Env} {s s' : State} {f g : Fork}

/-- **C98** Along every stretch of a chain on which a validator does its duty, what belongs to it in
the end, with what has been paid out to it, is at least what belonged to it in the beginning. -/
theorem C98_keeps (hE : SaneConfig E) (hB : SaneBalances E)
    (hI : E.effective_balance_increment < 2 ^ 64) (hmax : 0 < E.max_deposits)
    (hV : E.min_seed_lookahead + 3 < E.epochs_per_historical_vector) (hr : Reachable E f s)
    (i x : Nat) (h : Dutiful E i f s g s' x) (v : Validator)
    (hv : s.validators[i]? = some v) (hs : v.slashed = false)
    (hk : ¬ Offender E s.genesis_validators_root v.public_key)
    (hslot : s'.slot < 2 ^ 63) (hreg : s'.validators.length ≤ 2 ^ 40) :
    wealth f s i ≤ wealth g s' i + x :=
  dutiful_keeps hE hB hI hmax hV hr h hv hs hk ⟨hslot, hreg⟩

/-- **C98** From altair on, to have attested it is enough that a block of the chain carries the vote, in
time; that is still so at the end of the slot. -/
theorem C98_attested (hE : SaneConfig E) (hV : VotesRemembered E) (hmax : 0 < E.max_deposits)
    (hr : Reachable E f s) (hf : f ≠ .Phase0) (l : List (Fork × State × BeaconBlock))
    (h : Journey E f s l g s') (hslot : s'.slot < 2 ^ 63) (hreg : s'.validators.length ≤ 2 ^ 40)
    (h0 : 0 < epochOf E s'.slot) (i : Nat) (x : Fork × State × BeaconBlock) (hx : x ∈ l)
    (hc : CarriesTimelyVote E x.1 x.2.1 x.2.2 i (previousEpoch E s')) :
    HasAttested E s' i ∧ ∀ e, process_slot E g s' = .ok () e → HasAttested E e i := by
  have h1 := journey_attested hE hV hmax hr hf h ⟨hslot, hreg⟩ hx h0 hc
  refine ⟨h1, fun e he => ?_⟩
  obtain ⟨-, -, -, rfl⟩ := process_slot_eq_ok.1 he
  exact h1

/-- **C98** A single block takes nothing from a validator that it does not show to be an offender and
that signed, but what it pays out to it. -/
theorem C98_block (hE : SaneConfig E) (hmax : 0 < E.max_deposits)
    (hV : E.min_seed_lookahead + 3 < E.epochs_per_historical_vector)
    (hslot : s.slot < 2 ^ 63) (hreg : s.validators.length ≤ 2 ^ 40) (hr : Reachable E f s)
    (b : BeaconBlock) (h : process_block E f b s = .ok () s') (i : Nat)
    (v w : Validator) (hv : s.validators[i]? = some v) (hw : s'.validators[i]? = some w)
    (hs : w.slashed = false) (hsy : f ≠ .Phase0 → Synced s b i) :
    wealth f s i ≤ wealth f s' i + paidOut f b i :=
  block_keeps hE hmax hV hslot hreg hr h hv hw hs hsy

/-- **C98** Nor does the end of an epoch take anything from one that has attested. -/
theorem C98_epoch (hp : Proper E s) (h : process_epoch E f s = .ok () s')
    (i : Nat) (v : Validator) (hv : s.validators[i]? = some v) (hs : v.slashed = false)
    (ha : 0 < epochOf E s.slot → DidDuty E f s s'.finalized_checkpoint i)
    (hst : f = .Electra → Stays s i) : wealth f s i ≤ wealth f s' i := epoch_keeps hp h hv hs ha hst

/-- **C98** An upgrade moves what belongs to a validator to the queue at most. -/
theorem C98_upgrade (ho : g.ord = f.ord + 1)
    (hl : s.balances.length = s.validators.length) (h : upgrade_to E g s = .ok s') (i : Nat) :
    wealth f s i ≤ wealth g s' i := upgrade_keeps ho hl h

/-! ## Examples -/

/-- Validator `i` has attested. -/
def attestedB (E : Env) (s : State) (i : Nat) : Bool :=
  match s.validators[i]? with
  | some v => !decide (ActiveAt v (previousEpoch E s)) ||
    match s.previous_epoch_participation[i]? with
    | some x => decide (FlagSet x 0 ∧ FlagSet x 1)
    | none => false
  | none => true

theorem attested_of_check {i : Nat} (h : attestedB E s i = true) : HasAttested E s i := by
  intro v hv ha
  unfold attestedB at h
  rw [hv] at h
  simp only [ha, decide_true, Bool.not_true, Bool.false_or] at h
  split at h
  · rename_i x hx
    exact ⟨x, hx, of_decide_eq_true h⟩
  · cases h

/-- Validator `i` is among those of the vote. -/
def inVoteB (E : Env) (s : State) (a : PendingAttestation) (i : Nat) : Bool :=
  match get_beacon_committee E s a.data.slot a.data.index with
  | .ok committee => (committee.zip a.aggregation_bits).contains (i, true)
  | .error _ => false

theorem inVote_iff {a : PendingAttestation} {i : Nat} :
    inVoteB E s a i = true ↔ Attested E s a i := by
  unfold inVoteB Attested
  split
  · rename_i c hc
    rw [hc, List.contains_iff_mem, List.mem_iff_getElem?]
    constructor
    · rintro ⟨k, hk⟩
      rw [List.getElem?_zip_eq_some] at hk
      exact ⟨c, rfl, k, hk⟩
    · rintro ⟨_, h, k, hk⟩
      cases h
      exact ⟨k, List.getElem?_zip_eq_some.2 hk⟩
  · rename_i e hc
    rw [hc]
    simp

/-- Validator `i` has voted in phase0: the right head, and its first vote was included in the next slot
if finality is overdue. -/
def votedB (E : Env) (s : State) (fin : Checkpoint) (i : Nat) : Bool :=
  (s.previous_epoch_attestations.any fun a => inVoteB E s a i &&
    decide ((get_block_root E s (previousEpoch E s)).toOption = some a.data.target.root) &&
    decide ((get_block_root_at_slot E s a.data.slot).toOption = some a.data.beacon_block_root)) &&
  (!decide (Leaking E { s with finalized_checkpoint := fin }) ||
    match s.previous_epoch_attestations with
    | a :: l => inVoteB E s a i && a.inclusion_delay == 1 && l.all fun a => 1 ≤ a.inclusion_delay
    | [] => false)

theorem toOption_some {α : Type} {x : R α} {a : α} (h : x.toOption = some a) : x = .ok a := by
  cases x with
  | ok b => cases h; rfl
  | error e => cases h

theorem voted_of_check {fin : Checkpoint} {i : Nat} (h : votedB E s fin i = true) :
    HasVoted E s fin i := by
  intro v _ _
  unfold votedB at h
  rw [Bool.and_eq_true, List.any_eq_true, Bool.or_eq_true] at h
  obtain ⟨⟨a, ha, h1⟩, h2⟩ := h
  rw [Bool.and_eq_true, Bool.and_eq_true, inVote_iff, decide_eq_true_iff, decide_eq_true_iff] at h1
  refine ⟨⟨a, ha, h1.1.1, toOption_some h1.1.2, toOption_some h1.2⟩, fun hl => ?_⟩
  rcases h2 with h2 | h2
  · simp [hl] at h2
  · cases hp : s.previous_epoch_attestations with
    | nil => rw [hp] at h2; cases h2
    | cons b l =>
      rw [hp] at h2
      simp only [Bool.and_eq_true, inVote_iff, beq_iff_eq, List.all_eq_true, decide_eq_true_iff] at h2
      refine ⟨b, ⟨0, by rw [hp]; rfl, h2.1.1, fun k a' h3 _ => ?_⟩, h2.1.2⟩
      rw [hp] at h3
      have : 1 ≤ a'.inclusion_delay := by
        rcases List.mem_cons.1 (List.mem_of_getElem? h3) with rfl | h4
        · exact Nat.le_of_eq h2.1.2.symm
        · exact h2.2 a' h4
      have := h2.1.2
      omega

/-- Its seats on the sync committee are signed for. -/
def syncedB (s : State) (b : BeaconBlock) (i : Nat) : Bool :=
  (s.current_sync_committee.public_keys.zip b.body.sync_aggregate.sync_committee_bits).all fun p =>
    p.2 || match s.validators[i]? with
      | some v => p.1 != v.public_key
      | none => true

theorem synced_of_check {b : BeaconBlock} {i : Nat} (h : syncedB s b i = true) : Synced s b i := by
  rintro n key hk ⟨v, hv, rfl⟩ hb
  have := List.all_eq_true.1 h (v.public_key, false)
    (List.mem_of_getElem? (List.getElem?_zip_eq_some.2 ⟨hk, hb⟩))
  simp [hv] at this

/-- Validator `i` has done its duty at the end of the slot. -/
def dutyB (E : Env) (g : Fork) (t : State) (fin : Checkpoint) (i : Nat) : Bool :=
  if g = .Phase0 then votedB E (finalState (process_slot E g) t) fin i else attestedB E t i

theorem duty_of_check {e : State} {fin : Checkpoint} {i : Nat} (h : dutyB E g s fin i = true)
    (he : process_slot E g s = .ok () e) : DidDuty E g e fin i := by
  unfold dutyB at h
  unfold DidDuty
  by_cases hg : g = .Phase0
  · rw [if_pos hg] at h ⊢
    have hfin : finalState (process_slot E g) s = e := by unfold finalState; rw [he]
    rw [hfin] at h
    exact voted_of_check h
  · rw [if_neg hg] at h ⊢
    obtain ⟨-, -, -, rfl⟩ := process_slot_eq_ok.1 he
    exact attested_of_check h

/-- Follow a list of steps (as in `Verif/Examples/Chains.lean`) and check that `i` does its duty. -/
def toil (E : Env) (i : Nat) : List Toy.Step → Fork × State × Nat → Option (Fork × State × Nat)
  | [], p => some p
  | .slot :: l, (g, t, x) =>
    match process_slots E g (t.slot + 1) t with
    | .ok _ u =>
      if (epochOf E t.slot = 0 ∨ epochOf E u.slot = epochOf E t.slot ∨
          dutyB E g t u.finalized_checkpoint i = true) ∧
          ∀ c ∈ t.pending_consolidations, c.source_index ≠ i then toil E i l (g, u, x)
      else none
    | .error _ _ => none
  | .block b :: l, (g, t, x) =>
    match process_block E g (b g t) t with
    | .ok _ u => if syncedB t (b g t) i then toil E i l (g, u, x + paidOut g (b g t) i) else none
    | .error _ _ => none
  | .upgrade k :: l, (g, t, x) =>
    if k.ord = g.ord + 1 then
      match upgrade_to E k t with
      | .ok u => toil E i l (k, u, x)
      | .error _ => none
    else none

theorem toil_dutiful {i : Nat} {l : List Toy.Step} {p q : Fork × State × Nat}
    (hp : Dutiful E i f s p.1 p.2.1 p.2.2) (h : toil E i l p = some q) :
    Dutiful E i f s q.1 q.2.1 q.2.2 := by
  induction l generalizing p with
  | nil => cases h; exact hp
  | cons a l ih =>
    obtain ⟨g, t, x⟩ := p
    cases a <;> unfold toil at h
    · split at h
      · rename_i u e
        split at h
        · rename_i hc
          refine ih (p := (g, u, x)) (Dutiful.slot hp e (fun h0 h1 => ?_) fun _ => hc.2) h
          rcases hc.1 with h2 | h2 | h2
          · exact absurd h2 (Nat.pos_iff_ne_zero.1 h0)
          · exact absurd h2 (Nat.ne_of_gt h1)
          · exact fun e he => duty_of_check h2 he
        · cases h
      · cases h
    · split at h
      · rename_i u e
        split at h
        · rename_i hc
          exact ih (p := (g, u, x + paidOut g _ i)) (Dutiful.block hp e fun _ => synced_of_check hc) h
        · cases h
      · cases h
    · split at h
      · rename_i ho
        split at h
        · rename_i u e
          exact ih (p := (_, u, x)) (Dutiful.upgrade hp ho e) h
        · cases h
      · cases h

/-- The one vote that validator 3 ever signs, in slot 7. -/
def onlyVote : AttestationData :=
  ⟨3, 0, Toy.root 7, ⟨0, zeroBytes 32⟩, ⟨0, Toy.root 7⟩⟩

/-- Validator 3 signs no headers and no other votes, but anything else; the others sign everything. -/
def wiseEnv : Env := { genesisEnv with
  sync_committee_size := 4
  slots_per_epoch := 4
  slots_per_historical_root := 8
  attestation_data_root := fun d => if d = onlyVote then Toy.root 1 else Toy.root 2
  signing_data_root := fun r d =>
    if d.head? = some 0 then Toy.root 0 else if d.head? = some 1 then r else Toy.root 3
  verify_signature := fun k m sig => sig[0] == 1 && (k != Toy.pk 3 || m == Toy.root 3)
  fast_aggregate_verify := fun ks m sig => !ks.isEmpty && sig[0] == 1 &&
    (!ks.contains (Toy.pk 3) || m == Toy.root 1 || m == Toy.root 3) }

theorem wise_innocent (r : Root) : ¬ Offender wiseEnv r (Toy.pk 3) := by
  have only : ∀ d, Signed wiseEnv r (Toy.pk 3) d → d = onlyVote := by
    rintro d ⟨v, ks, sig, h1, h2⟩
    by_contra hd
    have e : wiseEnv.signing_data_root (wiseEnv.attestation_data_root d)
        (domainOf wiseEnv .BeaconAttester v r) = Toy.root 2 := by
      have k : leBytes 4 DomainType.BeaconAttester.discriminant = [1, 0, 0, 0] := by decide +kernel
      simp [wiseEnv, hd, domainOf, DomainType.as_bytes, k]
    rw [e] at h2
    have h3 : (Toy.root 2 == Toy.root 1) = false := by decide +kernel
    have h4 : (Toy.root 2 == Toy.root 3) = false := by decide +kernel
    simp [wiseEnv, h1, h3, h4] at h2
  rintro (⟨d, d', h1, h2, h3⟩ | ⟨h, h', -, -, -, ⟨v, sig, h2⟩, -⟩)
  · rw [only d h1, only d' h2] at h3
    rcases h3 with h | h | h
    · exact h.1 rfl
    · exact absurd h.1 (Nat.lt_irrefl _)
    · exact absurd h.1 (Nat.lt_irrefl _)
  · have e : wiseEnv.signing_data_root (wiseEnv.header_root h)
        (domainOf wiseEnv .BeaconProposer v r) = Toy.root 0 := by
      have k : leBytes 4 DomainType.BeaconProposer.discriminant = [0, 0, 0, 0] := by decide +kernel
      simp [wiseEnv, domainOf, DomainType.as_bytes, k]
    rw [e] at h2
    have h4 : (Toy.root 0 == Toy.root 3) = false := by decide +kernel
    simp [wiseEnv, h4] at h2

def wiseGenesis : R State :=
  initialize_beacon_state_from_eth1 wiseEnv .Altair (Toy.root 1) 1000 genesisDeposits none

/-- The genesis state, if there is one. -/
def wiseStart : State := match wiseGenesis with
  | .ok s => s
  | .error _ => Toy.state 0 0

/-- A block with these votes, for the state. -/
def wiseBlock (votes : List Attestation) (_ : Fork) (t : State) : BeaconBlock :=
  { Toy.block t { Toy.body t with
      attestations := votes
      sync_aggregate := ⟨List.replicate 4 true, Toy.goodSig⟩ } with
    proposer_index := (get_beacon_proposer_index wiseEnv t).toOption.getD 0
    parent_root := wiseEnv.header_root t.latest_block_header }

/-- Four slots, a block with the vote, four more; and bellatrix. -/
def wiseSteps : List Toy.Step :=
  List.replicate 4 .slot ++ [.block (wiseBlock [{ aggregation_bits := [true], data := onlyVote, signature := Toy.goodSig }])] ++
    List.replicate 4 .slot ++ [.upgrade .Bellatrix]

/-- What the blocks pay out to validator 3 is nothing, what it has grows, and the others lose. -/
def wiseEnd : Fork × State × Nat :=
  (toil wiseEnv 3 wiseSteps (.Altair, wiseStart, 0)).getD (.Altair, wiseStart, 0)

theorem wise_run : (toil wiseEnv 3 wiseSteps (.Altair, wiseStart, 0)).isSome = true ∧
    wiseGenesis.toOption.isSome = true ∧ wiseEnd.1 = .Bellatrix ∧ wiseEnd.2.2 = 0 ∧
    wiseEnd.2.1.slot = 8 ∧ wiseEnd.2.1.validators.length = 4 ∧
    wiseStart.balances = [32000000000, 32000000000, 31000000000, 32000000000] ∧
    wiseEnd.2.1.balances = [31996726404, 31995946278, 31000000000, 32001897760] ∧
    wiseStart.validators[3]?.map (fun v => (v.public_key, v.slashed)) = some (Toy.pk 3, false) := by
  decide +kernel

theorem wise_sane : SaneConfig wiseEnv ∧ SaneBalances wiseEnv ∧ VotesRemembered wiseEnv :=
  ⟨by constructor <;> decide +kernel, by constructor <;> decide +kernel,
    by constructor <;> decide +kernel⟩

theorem wise_reachable : Reachable wiseEnv .Altair wiseStart := by
  have := wise_run.2.1
  unfold wiseStart
  cases h : wiseGenesis with
  | ok s => exact .genesis h
  | error e => rw [h] at this; cases this

attribute [local irreducible] wiseEnd wiseStart in
theorem wise_dutiful : Dutiful wiseEnv 3 .Altair wiseStart .Bellatrix wiseEnd.2.1 0 := by
  obtain ⟨q, hq⟩ := Option.isSome_iff_exists.1 wise_run.1
  have e : wiseEnd = q := by unfold wiseEnd; rw [hq, Option.getD_some]
  have h := toil_dutiful (p := (.Altair, wiseStart, 0)) .start hq
  rw [← e] at h
  rwa [wise_run.2.2.1, wise_run.2.2.2.1] at h


theorem wise_three : ∃ v, wiseStart.validators[3]? = some v ∧ v.slashed = false ∧
    ¬ Offender wiseEnv wiseStart.genesis_validators_root v.public_key := by
  obtain ⟨v, hv, h⟩ := Option.map_eq_some_iff.1 wise_run.2.2.2.2.2.2.2.2
  refine ⟨v, hv, congrArg Prod.snd h, ?_⟩
  rw [show v.public_key = Toy.pk 3 from congrArg Prod.fst h]
  exact wise_innocent _

attribute [local irreducible] wiseEnd wiseStart in
/-- The way has slots, the ends of two epochs, a block and an upgrade, which are the cases of
`C98_epoch`, `C98_block` and `C98_upgrade`. -/
example : wealth .Altair wiseStart 3 ≤ wealth .Bellatrix wiseEnd.2.1 3 + 0 := by
  obtain ⟨v, hv, hs, hk⟩ := wise_three
  exact C98_keeps wise_sane.1 wise_sane.2.1 (by decide) (by decide) (by decide) wise_reachable
    3 0 wise_dutiful v hv hs hk (by rw [wise_run.2.2.2.2.1]; decide)
    (by rw [wise_run.2.2.2.2.2.1]; decide)

/-- To the last slot of epoch 1, with the blocks met. -/
def wiseTrip : Live.Trip := (Live.ride wiseEnv (wiseSteps.take 8) (.Altair, wiseStart, [])).getD
  (.Altair, wiseStart, [])

theorem wise_trip : (Live.ride wiseEnv (wiseSteps.take 8) (.Altair, wiseStart, [])).isSome = true ∧
    wiseTrip.1 = .Altair ∧ wiseTrip.2.1.slot = 7 ∧ wiseTrip.2.1.validators.length = 4 ∧
    (match wiseTrip.2.2 with
      | [x] => Live.carries wiseEnv x 3 0 && x.2.2.body.attestations.all fun a =>
          (x.2.1.slot - a.data.slot) * (x.2.1.slot - a.data.slot) ≤ 4
      | _ => false) = true := by decide +kernel

attribute [local irreducible] wiseTrip wiseStart in
example : HasAttested wiseEnv wiseTrip.2.1 3 ∧
    ∀ e, process_slot wiseEnv .Altair wiseTrip.2.1 = .ok () e → HasAttested wiseEnv e 3 := by
  obtain ⟨h0, h1, h2, h3, h4⟩ := wise_trip
  obtain ⟨q, hq⟩ := Option.isSome_iff_exists.1 h0
  have e : wiseTrip = q := by unfold wiseTrip; rw [hq, Option.getD_some]
  have hj := Live.ride_journey (p := (.Altair, wiseStart, [])) .start hq
  rw [← e, h1] at hj
  have hfit : Modest wiseEnv wiseTrip.2.1 := ⟨by rw [h2]; decide, by rw [h3]; decide⟩
  have hep : previousEpoch wiseEnv wiseTrip.2.1 = 0 := by
    unfold previousEpoch epochOf; rw [h2]; decide
  split at h4
  · rename_i x hx
    rw [Bool.and_eq_true] at h4
    have hm : x ∈ wiseTrip.2.2 := by rw [hx]; exact List.mem_cons_self
    obtain ⟨a, ha, k1, k2, k3⟩ := Live.carries_spec wise_sane.1 wise_sane.2.2 (by decide)
      wise_reachable hj hfit hm h4.1
    refine C98_attested wise_sane.1 wise_sane.2.2 (by decide) wise_reachable (by decide) _ hj
      hfit.slot hfit.registry (by unfold epochOf; rw [h2]; decide) 3 x hm
      ⟨a, ha, ?_, ?_, of_decide_eq_true (List.all_eq_true.1 h4.2 a ha), k3⟩
    · rw [hep]; exact k1
    · rw [hep]; exact k2
  · cases h4

end Verif.Props
