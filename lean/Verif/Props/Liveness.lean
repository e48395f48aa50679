import Verif.Proofs.Liveness
import Verif.Props.Finality
import Verif.Examples.Chains

/-! # C95: two thirds of the stake can finalise the chain

C70 says that what is finalised cannot be taken back without a third of the stake being slashable.
This is the other half: as long as two thirds of the stake have their votes for the chain included,
nothing that the rest, the proposers or the forks do can keep checkpoints from being justified and
finalised. -/

namespace Verif.Props

open Verif.Spec

variable {E : Env} {f g : Fork} {s t s' : State}

/-- **C95** A vote is not lost: if a block carries the vote of a validator for the right target, it
counts in every later state of that epoch and the next, whatever blocks and upgrades come in
between, unless the validator is slashed. -/
theorem C95_counted (hE : SaneConfig E) (hV : VotesRemembered E) (hmax : 0 < E.max_deposits)
    (hr : Reachable E f s) (l : List (Fork × State × BeaconBlock)) (h : Journey E f s l g t)
    (hslot : t.slot < 2 ^ 63) (hreg : t.validators.length ≤ 2 ^ 40) (e i : Nat)
    (x : Fork × State × BeaconBlock) (hx : x ∈ l) (hc : CarriesVote E x.1 x.2.1 x.2.2 i e)
    (hn : epochOf E t.slot ≤ e + 1) (v : Validator) (hv : t.validators[i]? = some v)
    (hs : v.slashed = false) : VotedTarget E g t e i := by
  obtain ⟨-, ⟨w, hw, ha⟩, h3, h4, -⟩ := vote_kept hE hV hmax hr h ⟨hslot, hreg⟩ hn hx hc
  rw [hv] at hw; cases hw
  refine ⟨v, hv, hs, ?_⟩
  split
  · rename_i hf
    obtain ⟨r, q1, a, q2, q3, -, -, q6⟩ := h3 hf
    exact ⟨a, q2, by rw [q3]; exact q1, q6⟩
  · rename_i hf
    exact ⟨ha, h4 hf⟩

theorem ends_tallied (hE : SaneConfig E) (hV : VotesRemembered E) (hr : Reachable E f s)
    {l : List (Fork × State × BeaconBlock)} {e : Nat} (h : EpochEnds E f s l g t s' e) (he : 1 < e) :
    epochOf E t.slot = e ∧ ∃ u jp jc, process_slot E g t = .ok () u ∧ Tallied E g t s' jp jc ∧
      (jp = true ↔ Supermajority E g u (e - 1)) ∧ (jc = true ↔ Supermajority E g u e) := by
  have hS := hE.slots_per_epoch.1
  have hep : epochOf E t.slot = e := by
    have hlast := h.last
    rw [Nat.add_mul, Nat.one_mul] at hlast
    unfold epochOf
    rw [show t.slot = e * E.slots_per_epoch + (E.slots_per_epoch - 1) by omega, Nat.mul_comm,
      Nat.mul_add_div hS, Nat.div_eq_of_lt (by omega), Nat.add_zero]
  have := epoch_tallied hE hV (reachable_inv hE (journey_reachable hr h.journey)).sized.2.2.2.2
    (by rw [h.last]; exact Nat.mul_mod_left _ _) (by omega) h.ends
  rw [hep] at this
  exact ⟨hep, this⟩

/-- **C95** If two thirds have their votes for an epoch included by its end, its checkpoint is
justified at its end: the justified checkpoint is the block the chain has at the start of the epoch. -/
theorem C95_justified (hE : SaneConfig E) (hV : VotesRemembered E) (hmax : 0 < E.max_deposits)
    (hr : Reachable E f s) (l : List (Fork × State × BeaconBlock)) (e : Nat) (he : 1 < e)
    (h : EpochEnds E f s l g t s' e) (Q : List Nat) (hq : Quorum E l t e Q)
    (hslot : t.slot < 2 ^ 63) (hreg : t.validators.length ≤ 2 ^ 40) :
    s'.current_justified_checkpoint.epoch = e ∧
      get_block_root E s' e = .ok s'.current_justified_checkpoint.root ∧
      s'.justification_bits[0]? = some true := by
  obtain ⟨hep, u, jp, jc, h1, h2, -, h3⟩ := ends_tallied hE hV hr h he
  have hj := h3.2 (quorum_supermajority hE hV hmax hr h.journey ⟨hslot, hreg⟩ (by omega) hq h1)
  have hb := h2.both hj
  rw [hep] at hb
  exact ⟨hb.2, hb.1, by rw [h2.bits, hj]; rfl⟩

/-- **C95** If they have them included by the end of the next epoch only, it is justified then, or
the next epoch is. -/
theorem C95_justified_late (hE : SaneConfig E) (hV : VotesRemembered E) (hmax : 0 < E.max_deposits)
    (hr : Reachable E f s) (l : List (Fork × State × BeaconBlock)) (e : Nat) (he : 0 < e)
    (h : EpochEnds E f s l g t s' (e + 1)) (Q : List Nat) (hq : Quorum E l t e Q)
    (hslot : t.slot < 2 ^ 63) (hreg : t.validators.length ≤ 2 ^ 40) :
    (s'.current_justified_checkpoint.epoch = e ∨ s'.current_justified_checkpoint.epoch = e + 1) ∧
      get_block_root E s' s'.current_justified_checkpoint.epoch =
        .ok s'.current_justified_checkpoint.root ∧
      s'.justification_bits[1]? = some true := by
  obtain ⟨hep, u, jp, jc, h1, h2, h3, -⟩ := ends_tallied hE hV hr h (by omega)
  have hj := h3.2 (quorum_supermajority hE hV hmax hr h.journey ⟨hslot, hreg⟩ (by omega) hq h1)
  have hbit : s'.justification_bits[1]? = some true := by rw [h2.bits, hj]; rfl
  cases hjc : jc with
  | true =>
    have hb := h2.both hjc
    rw [hep] at hb
    exact ⟨Or.inr hb.2, by rw [hb.2]; exact hb.1, hbit⟩
  | false =>
    have hb := h2.one hjc hj
    rw [hep, Nat.add_sub_cancel] at hb
    exact ⟨Or.inl hb.2, by rw [hb.2]; exact hb.1, hbit⟩

/-- **C95** If two thirds, not necessarily the same, have their votes included in time in two epochs
in a row, the first of them is finalised at the end of the second. -/
theorem C95_finalised (hE : SaneConfig E) (hV : VotesRemembered E) (hmax : 0 < E.max_deposits)
    (hr : Reachable E f s) (g' : Fork) (t' s'' : State) (l l' : List (Fork × State × BeaconBlock))
    (e : Nat) (he : 1 < e) (h : EpochEnds E f s l g t s' e)
    (h' : EpochEnds E g s' l' g' t' s'' (e + 1)) (Q Q' : List Nat) (hq : Quorum E l t e Q)
    (hq' : Quorum E l' t' (e + 1) Q') (hslot : t'.slot < 2 ^ 63)
    (hreg : t'.validators.length ≤ 2 ^ 40) :
    s''.finalized_checkpoint = s'.current_justified_checkpoint ∧
      s''.finalized_checkpoint.epoch = e ∧
      s''.current_justified_checkpoint.epoch = e + 1 := by
  have hjs : Journey E f s l g s' := .slots h.journey h.ends
  have hfit : Modest E t' := ⟨hslot, hreg⟩
  have hft := hfit.back ((dutyPre E).trans (slots_duty.toOk.ok h.ends) (journey_duty h'.journey))
  obtain ⟨k1, -, k2⟩ := C95_justified hE hV hmax hr l e he h Q hq hft.slot hft.registry
  have hr' := journey_reachable hr hjs
  obtain ⟨hep, u, jp, jc, h1, h2, -, h3⟩ := ends_tallied hE hV hr' h' (by omega)
  have hj := h3.2 (quorum_supermajority hE hV hmax hr' h'.journey hfit (by omega) hq' h1)
  have hsl : s'.slot = t.slot + 1 := slot_step_slot (process_slots_one h.ends)
  have hep' : epochOf E s'.slot = e + 1 := by
    rw [hsl, h.last]; exact Nat.mul_div_cancel _ hE.slots_per_epoch.1
  obtain ⟨q1, q2, q3, q4⟩ := journey_same h'.journey (hep.trans hep'.symm)
  have hb := h2.both hj
  rw [hep] at hb
  have hfin := h2.finalized
  have hbits := h2.bits
  have hb0 : s'.justification_bits.getD 0 false = true := by
    rw [List.getD_eq_getElem?_getD, k2]; rfl
  rw [q1, hb0, hj, Bool.or_true] at hbits
  rw [hbits, hep, q3] at hfin
  unfold finalizedBy at hfin
  simp [k1] at hfin
  exact ⟨hfin, by rw [hfin, k1], hb.2⟩

theorem ends_append {l l' : List (Fork × State × BeaconBlock)} {g' : Fork} {t' s'' : State}
    {e e' : Nat} (h : EpochEnds E f s l g t s' e) (h' : EpochEnds E g s' l' g' t' s'' e') :
    EpochEnds E f s (l ++ l') g' t' s'' e' :=
  ⟨journey_append (.slots h.journey h.ends) h'.journey, h'.last, h'.ends⟩

theorem ends_same (hE : SaneConfig E) {l l' : List (Fork × State × BeaconBlock)} {g' : Fork}
    {t' s'' : State} {e : Nat} (h : EpochEnds E f s l g t s' e)
    (h' : EpochEnds E g s' l' g' t' s'' (e + 1)) (hep : epochOf E t'.slot = e + 1) :
    SameCheckpoints s' t' := by
  have hsl : s'.slot = t.slot + 1 := slot_step_slot (process_slots_one h.ends)
  have hep' : epochOf E s'.slot = e + 1 := by
    rw [hsl, h.last]; exact Nat.mul_div_cancel _ hE.slots_per_epoch.1
  exact journey_same h'.journey (hep.trans hep'.symm)

/-- **C95** If the votes for three epochs in a row are included, each by the end of the epoch after
it, then the first of them, or a later one, is finalised at the end. -/
theorem C95_finalised_late (hE : SaneConfig E) (hV : VotesRemembered E) (hmax : 0 < E.max_deposits)
    (hr : Reachable E f s) (g₁ g₂ g₃ : Fork) (t₁ s₁ t₂ s₂ t₃ s₃ : State)
    (l₁ l₂ l₃ : List (Fork × State × BeaconBlock)) (e : Nat) (he : 0 < e)
    (h₁ : EpochEnds E f s l₁ g₁ t₁ s₁ (e + 1)) (h₂ : EpochEnds E g₁ s₁ l₂ g₂ t₂ s₂ (e + 2))
    (h₃ : EpochEnds E g₂ s₂ l₃ g₃ t₃ s₃ (e + 3)) (Q₁ Q₂ Q₃ : List Nat)
    (hq₁ : Quorum E l₁ t₁ e Q₁) (hq₂ : Quorum E (l₁ ++ l₂) t₂ (e + 1) Q₂)
    (hq₃ : Quorum E (l₂ ++ l₃) t₃ (e + 2) Q₃) (hslot : t₃.slot < 2 ^ 63)
    (hreg : t₃.validators.length ≤ 2 ^ 40) :
    e ≤ s₃.finalized_checkpoint.epoch ∧ s₃.finalized_checkpoint.epoch ≤ e + 2 := by
  have step : ∀ {f g : Fork} {s t s' : State} {l : List (Fork × State × BeaconBlock)} {e : Nat}
      {Q : List Nat}, Reachable E f s → 0 < e → EpochEnds E f s l g t s' (e + 1) → Quorum E l t e Q →
      Modest E t → epochOf E t.slot = e + 1 ∧ ∃ jc, Tallied E g t s' true jc ∧
        (s'.current_justified_checkpoint.epoch = e ∨
          s'.current_justified_checkpoint.epoch = e + 1) := by
    intro f g s t s' l e Q hr he h hq hfit
    obtain ⟨hep, u, jp, jc, h1, h2, h3, -⟩ := ends_tallied hE hV hr h (by omega)
    have hj := h3.2 (quorum_supermajority hE hV hmax hr h.journey hfit (by omega) hq h1)
    subst hj
    exact ⟨hep, jc, h2, (C95_justified_late hE hV hmax hr l e he h Q hq hfit.slot hfit.registry).1⟩
  have hr₁ := journey_reachable hr (.slots h₁.journey h₁.ends)
  have h₁₂ := ends_append h₁ h₂
  have h₂₃ := ends_append h₂ h₃
  have f₃ : Modest E t₃ := ⟨hslot, hreg⟩
  have f₂ := f₃.back ((dutyPre E).trans (slots_duty.toOk.ok h₂.ends) (journey_duty h₃.journey))
  have f₁ := f₂.back ((dutyPre E).trans (slots_duty.toOk.ok h₁.ends) (journey_duty h₂.journey))
  obtain ⟨e₁, j₁, k₁, c₁⟩ := step hr he h₁ hq₁ f₁
  obtain ⟨e₂, j₂, k₂, c₂⟩ := step hr (by omega) h₁₂ hq₂ f₂
  obtain ⟨e₃, j₃, k₃, -⟩ := step hr₁ (by omega) h₂₃ hq₃ f₃
  obtain ⟨a1, a2, a3, -⟩ := ends_same hE h₁ h₂ e₂
  obtain ⟨b1, b2, b3, -⟩ := ends_same hE h₂ h₃ e₃
  have hb₁ := k₁.bits
  have hb₂ := k₂.bits
  have hb₃ := k₃.bits
  have hp₂ := k₂.previous
  have hfin := k₃.finalized
  rw [a1, hb₁] at hb₂
  rw [b1, hb₂] at hb₃
  rw [hb₃, b2, b3, hp₂, a3, e₃] at hfin
  unfold finalizedBy at hfin
  simp at hfin
  split at hfin
  · rw [hfin]; omega
  · split at hfin
    · rw [hfin]; omega
    · split at hfin
      · rw [hfin]; omega
      · rw [if_pos (by omega)] at hfin
        rw [hfin]; omega

/-! ### A chain with three validators, of which two vote in time, that goes from phase0 into altair -/

namespace Live

open Toy

/-- Epochs of four slots. Each of the three validators votes once in an epoch: in the second, third
and fourth slot. -/
def liveEnv : Env := { Votes.voteEnv with slots_per_epoch := 4, slots_per_historical_root := 8 }

def deposits : List Deposit := [lastLeafDeposit 0 32000000000 goodSig,
  lastLeafDeposit 1 32000000000 goodSig, lastLeafDeposit 2 32000000000 goodSig]

/-- The vote of the committee of the slot before, if it has a member. -/
def votes (s : State) : List Attestation :=
  match get_beacon_committee liveEnv s (s.slot - 1) 0 with
  | .error _ => []
  | .ok c => if c = [] then [] else [{
      aggregation_bits := c.map fun _ => true
      data := {
        slot := s.slot - 1
        index := 0
        beacon_block_root :=
          (get_block_root_at_slot liveEnv s (s.slot - 1)).toOption.getD (zeroBytes 32)
        source := if (s.slot - 1) / 4 = s.slot / 4 then s.current_justified_checkpoint
          else s.previous_justified_checkpoint
        target := ⟨(s.slot - 1) / 4,
          (get_block_root_at_slot liveEnv s ((s.slot - 1) / 4 * 4)).toOption.getD (zeroBytes 32)⟩ }
      signature := goodSig }]

def blockStep : Step := .block (blockOn liveEnv fun s =>
  { signed 1 s with
    eth1_data := s.eth1_data
    attestations := if s.slot ≤ 1 then [] else votes s })

def rounds (k : Nat) : List Step := (List.replicate k [.slot, blockStep]).flatten

abbrev Trip := Fork × State × List (Fork × State × BeaconBlock)

/-- One step, with the blocks met on the way. -/
def go (E : Env) : Step → Trip → Option Trip
  | .slot, (f, s, l) => match process_slots E f (s.slot + 1) s with
    | .ok _ s' => some (f, s', l)
    | .error _ _ => none
  | .block b, (f, s, l) => match process_block E f (b f s) s with
    | .ok _ s' => some (f, s', l ++ [(f, s, b f s)])
    | .error _ _ => none
  | .upgrade g, (f, s, l) =>
    if g.ord = f.ord + 1 ∧ E.slots_per_epoch ∣ s.slot then
      match upgrade_to E g s with
      | .ok s' => some (g, s', l)
      | .error _ => none
    else none

def ride (E : Env) : List Step → Trip → Option Trip
  | [], p => some p
  | x :: xs, p => match go E x p with
    | some q => ride E xs q
    | none => none

theorem go_journey {E : Env} {f₀ : Fork} {s₀ : State} {x : Step} {p q : Trip}
    (hp : Journey E f₀ s₀ p.2.2 p.1 p.2.1) (h : go E x p = some q) :
    Journey E f₀ s₀ q.2.2 q.1 q.2.1 := by
  obtain ⟨f, s, l⟩ := p
  cases x <;> unfold go at h <;> dsimp only at h
  · split at h
    · rename_i e
      cases h
      exact .slots hp e
    · cases h
  · split at h
    · rename_i e
      cases h
      exact .block hp e
    · cases h
  · split at h
    · split at h
      · rename_i hg _ _ e
        cases h
        exact .upgrade hp hg.1 hg.2 e
      · cases h
    · cases h

theorem ride_journey {E : Env} {f₀ : Fork} {s₀ : State} {xs : List Step} {p q : Trip}
    (hp : Journey E f₀ s₀ p.2.2 p.1 p.2.1) (h : ride E xs p = some q) :
    Journey E f₀ s₀ q.2.2 q.1 q.2.1 := by
  induction xs generalizing p with
  | nil => cases h; exact hp
  | cons x xs ih =>
    unfold ride at h
    split at h
    · rename_i e
      exact ih (go_journey hp e) h
    · cases h

/-- Before electra: the block has the vote of `i`, to be computed. -/
def carries (E : Env) (x : Fork × State × BeaconBlock) (i e : Nat) : Bool :=
  x.1 ≠ .Electra && x.2.2.body.attestations.any fun a =>
    a.data.target.epoch == e &&
    (match get_block_root E x.2.1 e with
      | .ok r => r == a.data.target.root
      | .error _ => false) &&
    (match get_beacon_committee E x.2.1 a.data.slot a.data.index with
      | .ok c => (List.range c.length).any fun k =>
          c[k]? == some i && a.aggregation_bits[k]? == some true
      | .error _ => false)

theorem carries_spec {E : Env} (hE : SaneConfig E) (hV : VotesRemembered E)
    (hmax : 0 < E.max_deposits) {f g : Fork} {s t : State} {l : List (Fork × State × BeaconBlock)}
    (hr : Reachable E f s) (h : Journey E f s l g t) (hfit : Modest E t)
    {x : Fork × State × BeaconBlock} (hx : x ∈ l) {i e : Nat} (hc : carries E x i e = true) :
    CarriesVote E x.1 x.2.1 x.2.2 i e := by
  obtain ⟨l₁, l₂, u, h1, h2, h3⟩ := journey_mem h hx
  have hfu := (hfit.back (journey_duty h3)).back (block_duty.toOk.ok h2)
  have hpar := (reachable_inv hE (journey_reachable hr h1)).parallel
  have hmix : E.min_seed_lookahead + 3 < E.epochs_per_historical_vector := by
    have := hV.mixes; omega
  unfold carries at hc
  rw [Bool.and_eq_true, List.any_eq_true] at hc
  obtain ⟨hne, a, ha, hc⟩ := hc
  have hne : x.1 ≠ .Electra := by simpa using hne
  rw [Bool.and_eq_true, Bool.and_eq_true] at hc
  obtain ⟨⟨c1, c2⟩, c3⟩ := hc
  have hby : ∃ l, CommitteeVote E x.2.1 a l := by
    by_cases hf : x.1 = .Phase0
    · rw [hf] at h2
      exact ((C86_attestations_phase0 hE hmax hmix hfu.slot hfu.registry h2).1 a ha).2
    · obtain ⟨m, hm⟩ :=
        ((C86_attestations hE hmax hmix hfu.slot hfu.registry hf hpar h2).1 a ha).2
      revert hm hne
      cases x.1 <;> intro hne hm <;> first | exact ⟨m, hm⟩ | exact absurd rfl hne
  obtain ⟨m, hm⟩ := hby
  refine ⟨a, ha, by simpa using c1, ?_, m, ?_, ?_⟩
  · split at c2
    · rename_i r hr
      rw [hr]; simp at c2; rw [c2]
    · cases c2
  · revert hne
    cases x.1 <;> intro hne <;> first | exact hm | exact absurd rfl hne
  · obtain ⟨c, k1, -, k2⟩ := hm.members
    rw [k1] at c3
    dsimp only at c3
    rw [List.any_eq_true] at c3
    obtain ⟨k, -, hk⟩ := c3
    rw [Bool.and_eq_true] at hk
    exact (k2.2 i).2 ⟨k, by simpa using hk.1, by simpa using hk.2⟩

def quorum (E : Env) (l : List (Fork × State × BeaconBlock)) (t : State) (e : Nat) (Q : List Nat) :
    Bool :=
  decide Q.Nodup && Q.all (fun i => l.any fun x => carries E x i e) &&
    Q.all (fun i => match t.validators[i]? with
      | some v => !v.slashed
      | none => true) &&
    decide (2 * activeBalance E t ≤ 3 * totalEffective t Q)

theorem quorum_spec {E : Env} (hE : SaneConfig E) (hV : VotesRemembered E)
    (hmax : 0 < E.max_deposits) {f g : Fork} {s t : State} {l : List (Fork × State × BeaconBlock)}
    (hr : Reachable E f s) (h : Journey E f s l g t) (hfit : Modest E t) {e : Nat} {Q : List Nat}
    (hq : quorum E l t e Q = true) : Quorum E l t e Q := by
  unfold quorum at hq
  simp only [Bool.and_eq_true, decide_eq_true_eq, List.all_eq_true, List.any_eq_true] at hq
  obtain ⟨⟨⟨h1, h2⟩, h3⟩, h4⟩ := hq
  refine ⟨h1, fun i hi => ?_, fun i hi v hv => ?_, h4⟩
  · obtain ⟨x, hx, hc⟩ := h2 i hi
    exact ⟨x, hx, carries_spec hE hV hmax hr h hfit hx hc⟩
  · have := h3 i hi
    rw [hv] at this
    simpa using this

def genesis : State :=
  (initialize_beacon_state_from_eth1 liveEnv .Phase0 (root 4) 10 deposits none).toOption.getD
    (Toy.state 1 0)

def ride' (xs : List Step) (f : Fork) (s : State) : Trip :=
  (ride liveEnv xs (f, s, [])).getD (f, s, [])

/-- The next slot. -/
def turn (p : Trip) : State := finalState (process_slots liveEnv p.1 (p.2.1.slot + 1)) p.2.1

/-- To the last slot of epoch 2. -/
def trip₁ : Trip := ride' (rounds 11) .Phase0 genesis

/-- Into altair, and to the last slot of epoch 3. -/
def trip₂ : Trip := ride' ([.upgrade .Altair, blockStep] ++ rounds 3) .Phase0 (turn trip₁)

/-- To the last slot of epoch 4. -/
def trip₃ : Trip := ride' (blockStep :: rounds 3) .Altair (turn trip₂)

/-- The trip goes through and ends in the last slot of epoch `e`. -/
def arrives (xs : List Step) (f : Fork) (s : State) (e : Nat) : Bool :=
  (ride liveEnv xs (f, s, [])).isSome &&
    succeeds (process_slots liveEnv (ride' xs f s).1 ((ride' xs f s).2.1.slot + 1))
      (ride' xs f s).2.1 &&
    decide ((ride' xs f s).2.1.slot + 1 = (e + 1) * liveEnv.slots_per_epoch)

theorem arrives_ends {xs : List Step} {f : Fork} {s : State} {e : Nat}
    (h : arrives xs f s e = true) :
    EpochEnds liveEnv f s (ride' xs f s).2.2 (ride' xs f s).1 (ride' xs f s).2.1
      (turn (ride' xs f s)) e := by
  unfold arrives at h
  simp only [Bool.and_eq_true, decide_eq_true_eq] at h
  obtain ⟨⟨h1, h2⟩, h3⟩ := h
  refine ⟨?_, h3, ok_of_succeeds h2⟩
  obtain ⟨q, hq⟩ := Option.isSome_iff_exists.1 h1
  have : ride' xs f s = q := by unfold ride'; rw [hq]; rfl
  rw [this]
  exact ride_journey (p := (f, s, [])) .start hq

theorem live_sane : SaneConfig liveEnv ∧ VotesRemembered liveEnv ∧ 0 < liveEnv.max_deposits :=
  ⟨by constructor <;> decide +kernel, by constructor <;> decide +kernel, by decide +kernel⟩

theorem genesis_reachable : Reachable liveEnv .Phase0 genesis := by
  have : (initialize_beacon_state_from_eth1 liveEnv .Phase0 (root 4) 10 deposits none).toOption.isSome
      = true := by decide +kernel
  unfold genesis
  cases h : initialize_beacon_state_from_eth1 liveEnv .Phase0 (root 4) 10 deposits none with
  | error e => rw [h] at this; cases this
  | ok s => exact .genesis h

theorem trips : arrives (rounds 11) .Phase0 genesis 2 = true ∧
    arrives ([.upgrade .Altair, blockStep] ++ rounds 3) .Phase0 (turn trip₁) 3 = true ∧
    arrives (blockStep :: rounds 3) .Altair (turn trip₂) 4 = true ∧
    trip₁.1 = .Phase0 ∧ trip₂.1 = .Altair ∧
    (trip₃.2.1.slot < 2 ^ 63 ∧ trip₃.2.1.validators.length ≤ 2 ^ 40) := by decide +kernel

/-- What was voted: two of three for each epoch in time, the third later. -/
theorem polls : quorum liveEnv trip₁.2.2 trip₁.2.1 2 [0, 2] = true ∧
    quorum liveEnv trip₂.2.2 trip₂.2.1 3 [0, 2] = true ∧
    quorum liveEnv trip₁.2.2 trip₁.2.1 1 [0, 1, 2] = true ∧
    quorum liveEnv (trip₁.2.2 ++ trip₂.2.2) trip₂.2.1 2 [0, 1, 2] = true ∧
    quorum liveEnv (trip₂.2.2 ++ trip₃.2.2) trip₃.2.1 3 [0, 1, 2] = true := by decide +kernel

theorem live₁ : EpochEnds liveEnv .Phase0 genesis trip₁.2.2 .Phase0 trip₁.2.1 (turn trip₁) 2 := by
  have := arrives_ends trips.1
  have h := trips.2.2.2.1
  unfold trip₁ at *
  rw [h] at this
  exact this

theorem live₂ : EpochEnds liveEnv .Phase0 (turn trip₁) trip₂.2.2 .Altair trip₂.2.1 (turn trip₂) 3 := by
  have := arrives_ends trips.2.1
  have h := trips.2.2.2.2.1
  rw [show ride' ([.upgrade .Altair, blockStep] ++ rounds 3) .Phase0 (turn trip₁) = trip₂ from rfl,
    h] at this
  exact this

theorem live₃ : EpochEnds liveEnv .Altair (turn trip₂) trip₃.2.2 trip₃.1 trip₃.2.1 (turn trip₃) 4 := by
  have := arrives_ends trips.2.2.1
  rw [show ride' (blockStep :: rounds 3) .Altair (turn trip₂) = trip₃ from rfl] at this
  exact this

theorem live_modest : Modest liveEnv trip₃.2.1 ∧ Modest liveEnv trip₂.2.1 ∧
    Modest liveEnv trip₁.2.1 := by
  have h₃ : Modest liveEnv trip₃.2.1 := ⟨trips.2.2.2.2.2.1, trips.2.2.2.2.2.2⟩
  have h₂ := h₃.back ((dutyPre _).trans (slots_duty.toOk.ok live₂.ends) (journey_duty live₃.journey))
  exact ⟨h₃, h₂, h₂.back ((dutyPre _).trans (slots_duty.toOk.ok live₁.ends)
    (journey_duty live₂.journey))⟩

end Live

open Live in
/-- Two of three validators vote in time in epochs 2 and 3, with the upgrade to altair in between. -/
example : Reachable liveEnv .Phase0 genesis ∧
    EpochEnds liveEnv .Phase0 genesis trip₁.2.2 .Phase0 trip₁.2.1 (turn trip₁) 2 ∧
    EpochEnds liveEnv .Phase0 (turn trip₁) trip₂.2.2 .Altair trip₂.2.1 (turn trip₂) 3 ∧
    Quorum liveEnv trip₁.2.2 trip₁.2.1 2 [0, 2] ∧ Quorum liveEnv trip₂.2.2 trip₂.2.1 3 [0, 2] := by
  obtain ⟨a, b, c⟩ := live_sane
  obtain ⟨-, h₂, h₁⟩ := live_modest
  exact ⟨genesis_reachable, live₁, live₂, quorum_spec a b c genesis_reachable live₁.journey h₁ polls.1,
    quorum_spec a b c (journey_reachable genesis_reachable (.slots live₁.journey live₁.ends))
      live₂.journey h₂ polls.2.1⟩

open Live in
/-- So epoch 2 is finalised. -/
example : (turn trip₂).finalized_checkpoint.epoch = 2 := by
  obtain ⟨a, b, c⟩ := live_sane
  obtain ⟨-, h₂, h₁⟩ := live_modest
  exact (C95_finalised a b c genesis_reachable _ _ _ _ _ 2 (by decide) live₁ live₂ [0, 2] [0, 2]
    (quorum_spec a b c genesis_reachable live₁.journey h₁ polls.1)
    (quorum_spec a b c (journey_reachable genesis_reachable (.slots live₁.journey live₁.ends))
      live₂.journey h₂ polls.2.1) h₂.slot h₂.registry).2.1

open Live in
/-- All three vote, the last of them too late for the end of the epoch. -/
example : 1 ≤ (turn trip₃).finalized_checkpoint.epoch := by
  obtain ⟨a, b, c⟩ := live_sane
  obtain ⟨h₃, h₂, h₁⟩ := live_modest
  have hr := journey_reachable genesis_reachable (.slots live₁.journey live₁.ends)
  exact (C95_finalised_late a b c genesis_reachable _ _ _ _ _ _ _ _ _ _ _ _ 1 (by decide) live₁ live₂
    live₃ [0, 1, 2] [0, 1, 2] [0, 1, 2]
    (quorum_spec a b c genesis_reachable live₁.journey h₁ polls.2.2.1)
    (quorum_spec a b c genesis_reachable (ends_append live₁ live₂).journey h₂ polls.2.2.2.1)
    (quorum_spec a b c hr (ends_append live₂ live₃).journey h₃ polls.2.2.2.2)
    h₃.slot h₃.registry).1

/-- When no votes are included in the two epochs that follow, nothing more is justified. -/
example : (Live.turn (Live.ride' (.slot :: List.replicate 7 .slot) .Altair
    (Live.turn Live.trip₂))).current_justified_checkpoint.epoch = 3 := by decide +kernel

end Verif.Props
