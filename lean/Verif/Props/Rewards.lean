import Verif.Proofs.Pending
import Verif.Props.Epoch
import Verif.Props.Rotation

/-! # C58, C64, C65: rewards and penalties for attesting, and the attestations they are for -/

namespace Verif.Props

open Spec

/-- The attestations kept for the previous epoch are for slots of that epoch (C65 shows that they
are when a chain is followed). -/
def PreviousOnly (E : Env) (s : State) : Prop :=
  ∀ a ∈ s.previous_epoch_attestations, epochOf E a.data.slot = previousEpoch E s

instance (E : Env) (s : State) : Decidable (PreviousOnly E s) :=
  inferInstanceAs (Decidable (∀ _ ∈ _, _))

/-- Whoever was active in the previous epoch still is. -/
def AllStay (E : Env) (s : State) : Prop :=
  ∀ v ∈ s.validators, ActiveAt v (previousEpoch E s) → ActiveAt v (epochOf E s.slot)

instance (E : Env) (s : State) : Decidable (AllStay E s) :=
  inferInstanceAs (Decidable (∀ _ ∈ _, _))

/-! ## C58: phase0 -/

/-- **C58** In phase0 the epoch step changes nothing but balances, and each by all its rewards
and then all its penalties; nothing at all at the end of the genesis epoch. `first` names, for every
validator that attested, the attestation by which it was included first. -/
theorem C58_exact (E : Env) (hE : E.effective_balance_increment < U64_BOUND) (s s' : State)
    (h : process_rewards_and_penalties E .Phase0 s = .ok () s') :
    epochOf E s.slot = 0 ∧ s' = s ∨ epochOf E s.slot ≠ 0 ∧
    ∃ first bs, (∀ i, Did E s .source i → IncludedFirst E s i (first i)) ∧
      s' = { s with balances := bs } ∧ bs.length = s.balances.length ∧
      ∀ i : Nat, (i < s.validators.length → ∃ b, s.balances[i]? = some b ∧
        bs[i]? = some (b + allRewards E s first i - allPenalties E s i)) ∧
      (s.validators.length ≤ i → bs[i]? = s.balances[i]?) := by
  rcases phase0_rewards_ok hE h with h | ⟨he, hf, bs, h⟩
  · exact Or.inl h
  · exact Or.inr ⟨he, _, bs, hf, h⟩

/-- **C58** There is only one attestation by which a validator was included first. -/
theorem C58_first_unique (E : Env) (s : State) (i : Nat) (a b : PendingAttestation)
    (ha : IncludedFirst E s i a) (hb : IncludedFirst E s i b) : a = b :=
  includedFirst_unique ha hb

/-- **C58** While finality is overdue, no balance grows by attesting: what attesters are paid
is taken away again. Only those who included others in blocks can gain, and no more than
their part. -/
theorem C58_leak (E : Env) (hE : SaneConfig E) (hB : E.effective_balance_increment < U64_BOUND)
    (s s' : State) (hs : Shaped E s) (hp : PreviousOnly E s) (hleak : Leaking E s)
    (h : process_rewards_and_penalties E .Phase0 s = .ok () s') :
    ∃ first, (∀ i, Did E s .source i → IncludedFirst E s i (first i)) ∧
    ∀ (i : Nat) (b b' : Nat), s.balances[i]? = some b → s'.balances[i]? = some b' →
      b' ≤ b + includerReward E s first i := by
  rcases phase0_rewards_ok hB h with ⟨he, rfl⟩ | ⟨he, hf, bs, rfl, hl, hi⟩
  · unfold Leaking at hleak
    simp only [previousEpoch, he] at hleak
    omega
  · refine ⟨firstOf E s, hf, fun i b b' h1 h2 => ?_⟩
    change bs[i]? = some b' at h2
    by_cases hlt : i < s.validators.length
    · obtain ⟨x, h3, h4⟩ := (hi i).1 hlt
      rw [h1] at h3; cases h3
      rw [h2] at h4; cases h4
      have q1 := duty_reward_le (d := .source) (i := i) (Or.inl hleak)
      have q2 := duty_reward_le (d := .target) (i := i) (Or.inl hleak)
      have q3 := duty_reward_le (d := .head) (i := i) (Or.inl hleak)
      have q4 := delay_reward_le (E := E) (s := s) (first := firstOf E s) (i := i)
      have q5 := proposer_part_le (E := E) (s := s) (i := i)
      by_cases hc : Counts E s i
      · have : 4 * quarterReward E s i - proposerPart E s i ≤ overduePenalty E s i := by
          unfold overduePenalty
          rw [if_pos ⟨hleak, hc⟩]
          omega
        unfold allRewards allPenalties
        omega
      · have nd : ∀ d, ¬ Did E s d i := fun d h =>
          hc (did_counts hE.shuffle_round_count hs.registry hp h)
        have z : ∀ d, dutyReward E s d i = 0 := fun d => by
          unfold dutyReward; rw [if_neg (fun h => hc h.1)]
        have z' : delayReward E s (firstOf E s) i = 0 := by
          unfold delayReward; rw [if_neg (nd _)]
        unfold allRewards
        rw [z, z, z, z']
        omega
    · rw [(hi i).2 (by omega), h1] at h2
      cases h2
      omega

/-- **C58** (part) Every component is at most a quarter, and all of them together at most the base
reward less the part of the proposer, when nobody left between the two epochs. Without that the claim
is false, see `C58_exceeds`. -/
theorem C58_bound_partial (E : Env) (hE : SaneConfig E)
    (hB : E.effective_balance_increment < U64_BOUND) (s s' : State) (hs : Shaped E s)
    (hp : PreviousOnly E s) (hstay : AllStay E s)
    (h : process_rewards_and_penalties E .Phase0 s = .ok () s') :
    (∀ d i, dutyReward E s d i ≤ quarterReward E s i) ∧
    ∃ first, (∀ i, epochOf E s.slot ≠ 0 → Did E s .source i → IncludedFirst E s i (first i)) ∧
    ∀ (i : Nat) (b b' : Nat), s.balances[i]? = some b → s'.balances[i]? = some b' →
      b' ≤ b + (4 * quarterReward E s i - proposerPart E s i) + includerReward E s first i := by
  have hq : ∀ d i, dutyReward E s d i ≤ quarterReward E s i := fun d i =>
    duty_reward_le (Or.inr (doers_balance_le hE.shuffle_round_count hs.registry hp hstay))
  refine ⟨hq, firstOf E s, ?_, ?_⟩
  · intro i he
    rcases phase0_rewards_ok hB h with ⟨he', -⟩ | ⟨-, hf, -⟩
    · exact absurd he' he
    · exact hf i
  · intro i b b' h1 h2
    rcases phase0_rewards_ok hB h with ⟨he, rfl⟩ | ⟨he, hf, bs, rfl, hl, hi⟩
    · rw [h1] at h2; cases h2; omega
    · change bs[i]? = some b' at h2
      by_cases hlt : i < s.validators.length
      · obtain ⟨x, h3, h4⟩ := (hi i).1 hlt
        rw [h1] at h3; cases h3
        rw [h2] at h4; cases h4
        have q1 := hq .source i
        have q2 := hq .target i
        have q3 := hq .head i
        have q4 := delay_reward_le (E := E) (s := s) (first := firstOf E s) (i := i)
        have q5 := proposer_part_le (E := E) (s := s) (i := i)
        unfold allRewards allPenalties
        omega
      · rw [(hi i).2 (by omega), h1] at h2
        cases h2
        omega

/-- Every validator attested in epoch 1, and was included by validator 7 in the next slot. -/
def diligent : State := { Toy.state 8 23 with
  previous_epoch_attestations := (List.range 8).map fun k =>
    ⟨[true], ⟨8 + k, 0, Toy.root (8 + k), Toy.checkpoint 0, ⟨1, Toy.root 8⟩⟩, 1, 7⟩ }

/-- Validators 5 to 7 leave at the start of epoch 2. -/
def leavers : State := { diligent with
  validators := diligent.validators.take 5 ++ (diligent.validators.drop 5).map fun v =>
    { v with exit_epoch := 2 } }

/-- **C58** The claim as stated is false: the share of the balance that attested is taken of the balance
active now. When attesters have left, those who stay are paid more than the base reward:
here validator 0, who included nobody, gains more than four quarters. -/
theorem C58_exceeds : ∃ (s s' : State) (b b' : Nat),
    process_rewards_and_penalties Toy.env .Phase0 s = .ok () s' ∧ PreviousOnly Toy.env s ∧
    (∀ a ∈ s.previous_epoch_attestations, a.proposer_index ≠ 0) ∧
    s.balances[0]? = some b ∧ s'.balances[0]? = some b' ∧
    b + 4 * quarterReward Toy.env s 0 < b' := by
  refine ⟨leavers, finalState (process_rewards_and_penalties Toy.env .Phase0) leavers,
    32000000000, 32007264000, Toy.ok_of_succeeds (by decide +kernel), by decide +kernel,
    by decide +kernel, by decide +kernel, by decide +kernel, by decide +kernel⟩

/-- When all stay, everyone earns three quarters and what is left of the fourth; the includer more. -/
example :
    Toy.succeeds (process_rewards_and_penalties Toy.env .Phase0) diligent = true ∧
    SaneConfig Toy.env ∧ Shaped Toy.env diligent ∧ PreviousOnly Toy.env diligent ∧
    AllStay Toy.env diligent ∧ quarterReward Toy.env diligent 0 = 1011929 ∧
    (finalState (process_rewards_and_penalties Toy.env .Phase0) diligent).balances =
      List.replicate 7 (32000000000 + 4 * 1011929 - 1011929 / 8) ++
        [32000000000 + 4 * 1011929 - 1011929 / 8 + 8 * (1011929 / 8)] := by
  refine ⟨by decide +kernel, toy_sane, ?_, by decide +kernel, by decide +kernel, by decide +kernel,
    by decide +kernel⟩
  exact ⟨by decide, by decide, by decide, by decide, by decide, by decide⟩

/-- In epoch 8, with nothing finalized; validator 3 did not attest, 4 was late, 5 had the wrong
target. -/
def overdue : State := { Toy.state 8 71 with
  previous_epoch_attestations := (List.range 8).filterMap fun k =>
    if k = 3 then none else
    some ⟨[true], ⟨56 + k, 0, Toy.root (56 + k), Toy.checkpoint 0,
      ⟨7, Toy.root (if k = 5 then 1 else 56)⟩⟩, if k = 4 then 5 else 1, 7⟩ }

example :
    let s := finalState (process_rewards_and_penalties Toy.env .Phase0) overdue
    Toy.succeeds (process_rewards_and_penalties Toy.env .Phase0) overdue = true ∧
    PreviousOnly Toy.env overdue ∧ Leaking Toy.env overdue ∧
    s.balances = [31999291649, 32000000000, 31993036313, 32000000000, 32000000000, 32000000000,
      32000000000, 31996831046] := by
  decide +kernel

/-! ## C64: from altair on -/

/-- **C64** From altair on the epoch step changes nothing but balances, and each as settled: flag by
flag a reward or a penalty, and the penalty for inactivity; nothing at all at the end of the
genesis epoch. -/
theorem C64_exact (E : Env) (f : Fork) (hf : f ≠ .Phase0) (s s' : State)
    (h : process_rewards_and_penalties E f s = .ok () s') :
    epochOf E s.slot = 0 ∧ s' = s ∨ epochOf E s.slot ≠ 0 ∧
    ∃ bs, s' = { s with balances := bs } ∧ bs.length = s.balances.length ∧
      ∀ i : Nat, (i < s.validators.length → ∃ b, s.balances[i]? = some b ∧
        bs[i]? = some (settled E f s i b)) ∧
      (s.validators.length ≤ i → bs[i]? = s.balances[i]?) :=
  altair_rewards_ok hf h

theorem altair_each {E : Env} {f : Fork} (hf : f ≠ .Phase0) {s s' : State}
    (h : process_rewards_and_penalties E f s = .ok () s') {i b b' : Nat}
    (h1 : s.balances[i]? = some b) (h2 : s'.balances[i]? = some b') :
    b' = b ∨ b' = settled E f s i b := by
  rcases altair_rewards_ok hf h with ⟨he, rfl⟩ | ⟨he, bs, rfl, hl, hi⟩
  · rw [h1] at h2; cases h2; exact Or.inl rfl
  · change bs[i]? = some b' at h2
    by_cases hlt : i < s.validators.length
    · obtain ⟨x, h3, h4⟩ := (hi i).1 hlt
      rw [h1] at h3; cases h3
      rw [h2] at h4; cases h4
      exact Or.inr rfl
    · rw [(hi i).2 (by omega), h1] at h2
      cases h2
      exact Or.inl rfl

/-- **C64** While finality is overdue no balance grows. -/
theorem C64_leak (E : Env) (f : Fork) (hf : f ≠ .Phase0) (s s' : State) (hleak : Leaking E s)
    (h : process_rewards_and_penalties E f s = .ok () s') (i b b' : Nat)
    (h1 : s.balances[i]? = some b) (h2 : s'.balances[i]? = some b') : b' ≤ b := by
  rcases altair_each hf h h1 h2 with rfl | rfl
  · exact Nat.le_refl _
  · have z : ∀ j, flagReward E s j i = 0 := fun j => by
      unfold flagReward; rw [if_neg (fun h => h.2.2 hleak)]
    unfold settled
    rw [z, z, z]
    omega

/-- **C64** Who has the source and target flags loses nothing, overdue or not. -/
theorem C64_timely (E : Env) (f : Fork) (hf : f ≠ .Phase0) (s s' : State)
    (h : process_rewards_and_penalties E f s = .ok () s') (i b b' : Nat)
    (h1 : s.balances[i]? = some b) (h2 : s'.balances[i]? = some b')
    (hs : HasFlag E s 0 i) (ht : HasFlag E s 1 i) : b ≤ b' := by
  rcases altair_each hf h h1 h2 with rfl | rfl
  · exact Nat.le_refl _
  · have z0 : flagPenalty E s 0 i = 0 := by
      unfold flagPenalty; rw [if_neg (fun h => h.2.1 hs)]
    have z1 : flagPenalty E s 1 i = 0 := by
      unfold flagPenalty; rw [if_neg (fun h => h.2.1 ht)]
    have z2 : flagPenalty E s 2 i = 0 := by
      unfold flagPenalty; rw [if_neg (fun h => h.2.2 rfl)]
    have z3 : scorePenalty E f s i = 0 := by
      unfold scorePenalty; rw [if_neg (fun h => h.2 ht)]
    unfold settled
    rw [z0, z1, z2, z3]
    omega

/-- **C64** Who has no duties gets and loses nothing. -/
theorem C64_bystander (E : Env) (f : Fork) (hf : f ≠ .Phase0) (s s' : State)
    (h : process_rewards_and_penalties E f s = .ok () s') (i b b' : Nat)
    (h1 : s.balances[i]? = some b) (h2 : s'.balances[i]? = some b') (hc : ¬ Counts E s i) :
    b' = b := by
  rcases altair_each hf h h1 h2 with rfl | rfl
  · rfl
  · have z : ∀ j, flagReward E s j i = 0 := fun j => by
      unfold flagReward; rw [if_neg (fun h => hc h.1)]
    have z' : ∀ j, flagPenalty E s j i = 0 := fun j => by
      unfold flagPenalty; rw [if_neg (fun h => hc h.1)]
    have z3 : scorePenalty E f s i = 0 := by
      unfold scorePenalty; rw [if_neg (fun h => hc h.1)]
    unfold settled
    simp only [z, z', z3]
    omega

/-- **C64** When nobody left between the two epochs, the rewards of a validator are at most the weights
of the flags, 54 parts in 64, of its base reward. -/
theorem C64_bound (E : Env) (f : Fork) (hf : f ≠ .Phase0) (s s' : State) (hstay : AllStay E s)
    (h : process_rewards_and_penalties E f s = .ok () s') (i b b' : Nat)
    (h1 : s.balances[i]? = some b) (h2 : s'.balances[i]? = some b') :
    b' ≤ b + baseReward E s i * 54 / 64 := by
  rcases altair_each hf h h1 h2 with rfl | rfl
  · omega
  · have q : ∀ j, flagReward E s j i ≤ baseReward E s i * flagWeight j / 64 := fun j =>
      flag_reward_le (flag_balance_le hstay)
    have q0 := q 0
    have q1 := q 1
    have q2 := q 2
    simp only [show flagWeight 0 = 14 from rfl, show flagWeight 1 = 26 from rfl,
      show flagWeight 2 = 14 from rfl] at q0 q1 q2
    unfold settled
    omega

/-- In epoch 2: all flags, no head, no target, source only, nothing, slashed, unknown to the epoch, all
flags but leaving. -/
def mixedFlags (slot : Nat) : State :=
  let s := Toy.state 8 slot
  { s with
    validators := s.validators.take 5 ++ [
      { Toy.validator 5 with slashed := true, withdrawable_epoch := 60 },
      { Toy.validator 6 with activation_epoch := 50 },
      { Toy.validator 7 with exit_epoch := 2 }]
    previous_epoch_participation := [7, 3, 1, 4, 0, 7, 0, 7]
    inactivity_scores := [0, 0, 8, 8, 100000, 100000, 100000, 0] }

example :
    let s := mixedFlags 23
    let altair := finalState (process_rewards_and_penalties Toy.env .Altair) s
    let deneb := finalState (process_rewards_and_penalties Toy.env .Deneb) s
    Toy.succeeds (process_rewards_and_penalties Toy.env .Altair) s = true ∧
    Toy.succeeds (process_rewards_and_penalties Toy.env .Deneb) s = true ∧
    altair.balances = [32002142197, 32001630991, 31998781570, 31997588755, 31981184249, 31981184249,
      32000000000, 32002142197] ∧
    deneb.balances = (List.range 8).map fun i => settled Toy.env .Deneb s i 32000000000 := by
  decide +kernel

/-- All but the validator that leaves, and in epoch 8 with nothing finalized. -/
example :
    let s := mixedFlags 71
    let deneb := finalState (process_rewards_and_penalties Toy.env .Deneb) s
    Toy.succeeds (process_rewards_and_penalties Toy.env .Deneb) s = true ∧ Leaking Toy.env s ∧
    AllStay Toy.env s ∧ HasFlag Toy.env s 0 0 ∧ HasFlag Toy.env s 1 0 ∧ ¬ Counts Toy.env s 6 ∧
    deneb.balances = [32000000000, 32000000000, 31998097419, 31997075006, 31949395105, 31949395105,
      32000000000, 32000000000] := by
  decide +kernel

/-! ## C65 -/

/-- **C65** Follow a chain in phase0. The attestations recorded for the previous and for the current epoch
vote in a slot of that epoch, for that epoch, and were included in the window. -/
theorem C65_recorded (E : Env) (s : State) (log : List (Root × Root))
    (h : ChainLog E .Phase0 s log) :
    (∀ a ∈ s.previous_epoch_attestations, BelongsTo E (previousEpoch E s) a) ∧
    ∀ a ∈ s.current_epoch_attestations, BelongsTo E (epochOf E s.slot) a :=
  chain_records h rfl

/-- **C65** So the rewards of an epoch are for attestations of the epoch before it. -/
theorem C65_rewarded (E : Env) (s : State) (log : List (Root × Root))
    (h : ChainLog E .Phase0 s log) : PreviousOnly E s := fun a ha =>
  ((chain_records h rfl).1 a ha).slot

/-- The vote of validator 1 in slot 3. -/
def ownVote : Attestation where
  aggregation_bits := [true]
  committee_bits := []
  data := ⟨3, 0, Toy.root 3, ⟨0, zeroBytes 32⟩, ⟨0, Toy.root 0⟩⟩
  signature := Toy.goodSig

/-- Four slots after genesis a block with that vote, then the rest of the epoch. -/
def votedChain : Option (State × List (Root × Root)) :=
  loggedSlots lastLeafEnv .Phase0 4 ((loggedSlots lastLeafEnv .Phase0 4
      ((initialize_beacon_state_from_eth1 lastLeafEnv .Phase0 (Toy.root 4) 10 lastLeafDeposits
        none).toOption.map fun s => (s, []))).map fun x =>
    (finalState (process_block lastLeafEnv .Phase0
      { Toy.block x.1 { Toy.body x.1 with attestations := [ownVote] } with
        proposer_index := match get_beacon_proposer_index lastLeafEnv x.1 with
          | .ok i => i
          | .error _ => 0
        parent_root := lastLeafEnv.header_root x.1.latest_block_header }) x.1, x.2))

theorem votedChain_log {s : State} {log : List (Root × Root)} (h : votedChain = some (s, log)) :
    ChainLog lastLeafEnv .Phase0 s log := by
  refine loggedSlots_log (fun _ _ h => ?_) h
  rw [Option.map_eq_some_iff] at h
  obtain ⟨⟨t, l⟩, h, he⟩ := h
  cases he
  refine .block _ (loggedSlots_log (fun s log h => ?_) h)
  cases hg : initialize_beacon_state_from_eth1 lastLeafEnv .Phase0 (Toy.root 4) 10
      lastLeafDeposits none with
  | error e => rw [hg] at h; cases h
  | ok g => rw [hg] at h; cases h; exact .genesis hg

example : (∀ s log, votedChain = some (s, log) → ChainLog lastLeafEnv .Phase0 s log) ∧
    (match votedChain with
      | some (s, log) => decide (s.slot = 8 ∧ log.length = 8 ∧
          s.previous_epoch_attestations.map (·.data) = [ownVote.data] ∧
          s.previous_epoch_attestations.map (·.inclusion_delay) = [1])
      | none => false) = true :=
  ⟨fun _ _ => votedChain_log, by decide +kernel⟩

end Verif.Props
