import Verif.Spec.Sync
import Verif.Proofs.Casper
import Verif.Proofs.Slash
import Verif.Proofs.Pointwise
import Verif.Proofs.EpochSteps

/-! # Sync committees -/

namespace Verif

open Spec

theorem signers_eq (ks : List PublicKey) (bs : List Bool) :
    ((ks.zip bs).filterMap fun (k, bit) => if bit then some k else none) = signers ks bs := by
  induction ks generalizing bs with
  | nil => cases bs <;> rfl
  | cons k ks ih =>
    cases bs with
    | nil => rfl
    | cons b bs => cases b <;> simp [signers, ih]

theorem lastIndex_aux (k : PublicKey) (vs : List Validator) (n : Nat) (o : Option Nat) (i : Nat)
    (h : (vs.zipIdx n).foldl (fun found (v, i) => if v.public_key = k then some i else found) o =
      some i) :
    (∃ v, n ≤ i ∧ vs[i - n]? = some v ∧ v.public_key = k ∧
      ∀ (j : Nat) w, i - n < j → vs[j]? = some w → w.public_key ≠ k) ∨
    (o = some i ∧ ∀ (j : Nat) w, vs[j]? = some w → w.public_key ≠ k) := by
  induction vs generalizing n o with
  | nil => exact Or.inr ⟨h, fun j w hw => by simp at hw⟩
  | cons v vs ih =>
    rw [List.zipIdx_cons, List.foldl_cons] at h
    rcases ih _ _ h with ⟨w, h1, h2, h3, h4⟩ | ⟨h1, h2⟩
    · refine Or.inl ⟨w, by omega, ?_, h3, ?_⟩
      · rw [show i - n = i - (n + 1) + 1 by omega]; exact h2
      · intro j u hj hu
        cases j with
        | zero => omega
        | succ j => exact h4 j u (by omega) hu
    · dsimp only at h1
      split at h1
      · rename_i hk
        cases h1
        refine Or.inl ⟨v, Nat.le_refl _, by simp, hk, ?_⟩
        intro j u hj hu
        cases j with
        | zero => omega
        | succ j => exact h2 j u hu
      · rename_i hk
        refine Or.inr ⟨h1, ?_⟩
        intro j u hu
        cases j with
        | zero => cases hu; exact hk
        | succ j => exact h2 j u hu

theorem lastIndex_ok {vs : List Validator} {k : PublicKey} {i : Nat}
    (h : lastIndexOfKey vs k = some i) :
    ∃ v, vs[i]? = some v ∧ v.public_key = k ∧
      ∀ (j : Nat) w, i < j → vs[j]? = some w → w.public_key ≠ k := by
  rcases lastIndex_aux k vs 0 none i h with ⟨v, -, h1, h2, h3⟩ | ⟨h1, -⟩
  · exact ⟨v, h1, h2, h3⟩
  · cases h1

theorem seats_ok {s : State} {seats : List Nat} (h : sync_committee_indices s = .ok seats) :
    Seats s seats := by
  unfold sync_committee_indices at h
  unfold Seats
  generalize s.current_sync_committee.public_keys = ks at *
  induction ks generalizing seats with
  | nil => simp only [List.mapM_nil, R_pure] at h; cases h; exact ⟨rfl, fun k key i hk => by simp at hk⟩
  | cons k ks ih =>
    simp only [List.mapM_cons, R_bind_eq_ok, R_pure, Except.ok.injEq] at h
    obtain ⟨i, h1, is, h2, rfl⟩ := h
    obtain ⟨h3, h4⟩ := ih h2
    refine ⟨by simp [h3], ?_⟩
    intro n key j hn hj
    cases n with
    | zero =>
      cases hn; cases hj
      split at h1
      · cases h1; exact lastIndex_ok ‹_›
      · cases h1
    | succ n => exact h4 n key j hn hj

theorem sync_rewards_ok {E : Env} {s : State} {r : Nat × Nat} (h : sync_rewards E s = .ok r) :
    r = (syncReward E s, syncProposerReward E s) := by
  simp only [sync_rewards, run, total_active_eq_ok] at h
  obtain ⟨_, ⟨-, -, rfl⟩, _, ⟨rfl, -⟩, per, hp, _, ⟨rfl, -⟩, _, ⟨rfl, -⟩, _, ⟨rfl, -⟩, _, ⟨rfl, -⟩, _,
    ⟨rfl, -⟩, _, ⟨rfl, -⟩, _, ⟨rfl, -⟩, _, ⟨rfl, -⟩, rfl⟩ := h
  rw [per_increment_eq hp]
  rfl

theorem proposer_balances {E : Env} {s : State} {bs : List Nat} :
    get_beacon_proposer_index E { s with balances := bs } = get_beacon_proposer_index E s :=
  proposer_congr ⟨rfl, rfl, rfl, fun _ => rfl⟩

theorem sync_loop {E : Env} {r q : Nat} {l : List (Nat × Bool)} {s s' : State} {bs : List Nat}
    (h : forEach l (apply_sync_reward E r q) { s with balances := bs } = .ok () s') :
    ∃ p bs', s' = { s with balances := bs' } ∧ bs'.length = bs.length ∧
      ((∃ x ∈ l, x.2 = true) → get_beacon_proposer_index E s = .ok p) ∧
      ∀ j : Nat, bs'[j]? = bs[j]?.map (settle r q p j l) := by
  induction l generalizing bs with
  | nil => cases h; exact ⟨0, bs, rfl, rfl, fun ⟨x, hx, _⟩ => by simp at hx,
      fun j => by simp [settle]⟩
  | cons x l ih =>
    obtain ⟨i, b⟩ := x
    simp only [forEach, run] at h
    obtain ⟨t, h1, h2⟩ := h
    cases b with
    | true =>
      simp only [apply_sync_reward, run, increase_balance_eq_ok, if_true] at h1
      obtain ⟨_, ⟨c, hc, -, rfl⟩, p, hp, d, hd, -, rfl⟩ := h1
      rw [proposer_balances] at hp
      obtain ⟨p', bs', e1, e2, e3, e4⟩ := ih h2
      refine ⟨p, bs', e1, by simpa using e2, fun _ => hp, fun j => ?_⟩
      have hl : (settle r q p' j l) = settle r q p j l := by
        by_cases hex : ∃ x ∈ l, x.2 = true
        · have := hp.symm.trans (e3 hex)
          cases this; rfl
        · have : ∀ l : List (Nat × Bool), (¬ ∃ x ∈ l, x.2 = true) →
              settle r q p' j l = settle r q p j l := by
            intro l
            induction l with
            | nil => intro _; rfl
            | cons y l ihl =>
              intro hn
              obtain ⟨a, b⟩ := y
              cases b with
              | true => exact absurd ⟨_, List.mem_cons_self, rfl⟩ hn
              | false =>
                funext z
                simp only [settle]
                rw [ihl fun ⟨x, hx, h⟩ => hn ⟨x, List.mem_cons_of_mem _ hx, h⟩]
          exact this l hex
      rw [e4, hl]
      simp only [List.getElem?_set, List.length_set] at hd ⊢
      have hi := (List.getElem?_eq_some_iff.1 hc).1
      simp only [settle]
      by_cases hpj : p = j
      · subst hpj
        by_cases hij : i = p
        · subst hij
          simp only [if_true, hi, Option.some.injEq] at hd ⊢
          subst hd
          rw [hc]; simp
        · simp only [if_neg hij, if_true] at hd ⊢
          have hp' := (List.getElem?_eq_some_iff.1 hd).1
          rw [hd]; simp [hp']
      · by_cases hij : i = j
        · subst hij
          rw [hc]; simp [hpj, hi]
        · simp [hpj, hij]
    | false =>
      simp only [apply_sync_reward, decrease_balance_eq_ok, Bool.false_eq_true, if_false] at h1
      obtain ⟨c, hc, rfl⟩ := h1
      obtain ⟨p', bs', e1, e2, e3, e4⟩ := ih h2
      refine ⟨p', bs', e1, by simpa using e2, ?_, fun j => ?_⟩
      · rintro ⟨x, hx, hb⟩
        rw [List.mem_cons] at hx
        rcases hx with rfl | hx
        · cases hb
        · exact e3 ⟨x, hx, hb⟩
      · rw [e4]
        have hi := (List.getElem?_eq_some_iff.1 hc).1
        simp only [List.getElem?_set, settle]
        by_cases hij : i = j
        · subst hij; rw [hc]; simp [hi]
        · simp [hij]

theorem exists_signer {ks : List PublicKey} {bs : List Bool} {seats : List Nat}
    (h : seats.length = ks.length) (hs : signers ks bs ≠ []) : ∃ x ∈ seats.zip bs, x.2 = true := by
  induction ks generalizing bs seats with
  | nil => exact absurd rfl hs
  | cons k ks ih =>
    cases bs with
    | nil => exact absurd rfl hs
    | cons b bs =>
      cases seats with
      | nil => simp at h
      | cons i seats =>
        cases b with
        | true => exact ⟨(i, true), by simp, rfl⟩
        | false =>
          obtain ⟨x, hx, hb⟩ := ih (bs := bs) (seats := seats) (by simpa using h) (by simpa [signers] using hs)
          exact ⟨x, by simp [hx], hb⟩

theorem sync_aggregate_ok {E : Env} {s s' : State} {a : SyncAggregate}
    (h : process_sync_aggregate E a s = .ok () s') :
    SyncSigned E s a ∧ ∃ seats p bs, Seats s seats ∧
      (signers s.current_sync_committee.public_keys a.sync_committee_bits ≠ [] →
        get_beacon_proposer_index E s = .ok p) ∧
      s' = { s with balances := bs } ∧ bs.length = s.balances.length ∧
      ∀ j : Nat, bs[j]? = s.balances[j]?.map (settle (syncReward E s) (syncProposerReward E s) p j
        (seats.zip a.sync_committee_bits)) := by
  simp only [process_sync_aggregate, run, compute_epoch_at_slot, get_domain_some, signers_eq,
    Except.ok.injEq] at h
  obtain ⟨_, ⟨rfl, -⟩, _, ⟨rfl, -⟩, _, rfl, root, hroot, hsig, r, hr, seats, hseats, h⟩ := h
  have hslot : max s.slot 1 - 1 = s.slot - 1 := by omega
  rw [hslot] at hroot hsig
  rw [sync_rewards_ok hr] at h
  have hs := seats_ok hseats
  obtain ⟨p, bs, e1, e2, e3, e4⟩ := sync_loop (bs := s.balances) h
  refine ⟨⟨root, hroot, ?_⟩, seats, p, bs, hs, fun hne => e3 (exists_signer hs.1 hne), e1, e2, e4⟩
  simp only [Bool.not_eq_false', eth_fast_aggregate_verify] at hsig
  split at hsig
  · rename_i hc
    simp only [Bool.and_eq_true, decide_eq_true_eq, List.isEmpty_iff] at hc
    exact Or.inl ⟨hc.1, hc.2⟩
  · exact Or.inr hsig

theorem settle_exact {r q p j : Nat} {l : List (Nat × Bool)} {b : Nat}
    (h : seatsOf j false l * r ≤ b) :
    settle r q p j l b =
      b + seatsOf j true l * r + (if p = j then turnout l * q else 0) - seatsOf j false l * r := by
  induction l generalizing b with
  | nil => simp [settle, seatsOf, turnout]
  | cons x l ih =>
    obtain ⟨i, c⟩ := x
    cases c with
    | true =>
      have e1 : seatsOf j true ((i, true) :: l) = seatsOf j true l + (if i = j then 1 else 0) := by
        simp [seatsOf, List.countP_cons]
      have e2 : seatsOf j false ((i, true) :: l) = seatsOf j false l := by
        simp [seatsOf]
      have e3 : turnout ((i, true) :: l) = turnout l + 1 := by simp [turnout]
      rw [e2] at h ⊢
      rw [settle, ih (by omega), e1, e3]
      by_cases h1 : i = j <;> by_cases h2 : p = j <;>
        simp only [h1, h2, if_true, if_false, Nat.add_mul, Nat.one_mul, Nat.add_zero] <;>
        omega
    | false =>
      have e1 : seatsOf j true ((i, false) :: l) = seatsOf j true l := by
        simp [seatsOf]
      have e2 : seatsOf j false ((i, false) :: l) = seatsOf j false l + (if i = j then 1 else 0) := by
        simp [seatsOf, List.countP_cons]
      have e3 : turnout ((i, false) :: l) = turnout l := by simp [turnout]
      rw [e2, Nat.add_mul] at h
      rw [settle, ih (by
        split at h
        · rw [if_pos ‹_›]; omega
        · rw [if_neg ‹_›]; omega), e1, e2, e3]
      by_cases h1 : i = j
      · simp only [h1, if_true, Nat.add_mul, Nat.one_mul] at h ⊢
        omega
      · simp only [h1, if_false, Nat.zero_mul, Nat.sub_zero, Nat.add_zero] at h ⊢

/-! ## Selection -/

theorem active_length_le (s : State) (e : Nat) : (activeIndices s e).length ≤ s.validators.length := by
  unfold activeIndices
  exact Nat.le_trans (List.length_filter_le _ _) (by simp)

theorem sync_loop_ok {E : Env} {s : State} (hs : Shaped E s) {seed : Bytes32} {fuel n : Nat}
    {active acc l : List Nat} (ha : active = activeIndices s (epochOf E s.slot + 1))
    (hseed : seed = syncSeed E s) (hacc : acc = drawn E s n)
    (hlt : ∀ m < n, (drawn E s m).length < E.sync_committee_size)
    (hle : acc.length ≤ E.sync_committee_size)
    (h : sync_committee_loop E s active seed fuel n acc = .ok l) : Drawn E s l := by
  induction fuel generalizing n acc with
  | zero =>
    unfold sync_committee_loop at h
    split at h
    · cases h
    · cases h; exact ⟨n, hacc, by omega, hlt⟩
  | succ fuel ih =>
    unfold sync_committee_loop at h
    split at h
    · rename_i hl
      simp only [run] at h
      obtain ⟨_, ⟨rfl, hn0⟩, k, hk, c, hc, byte, hbyte, v, hv, _, ⟨rfl, -⟩, _, ⟨rfl, -⟩, h⟩ := h
      have hlen : active.length ≤ 2 ^ 40 := by
        rw [ha]; exact Nat.le_trans (active_length_le _ _) hs.registry
      have hmod : n % active.length < active.length := Nat.mod_lt _ (by omega)
      have hb := U64_BOUND_eq
      rw [compute_shuffled_index_eq E seed (by omega) hmod] at hk
      cases hk
      have hcand : syncCandidate E s n = c := by
        unfold syncCandidate candidate
        rw [← ha, ← hseed, List.getD_eq_getElem?_getD, hc]; rfl
      have hrb : randomByte E (syncSeed E s) n = byte.toNat := by
        unfold randomByte
        rw [← hseed, List.getD_eq_getElem?_getD, hbyte]; rfl
      have heff : effectiveBalance s c = v.effective_balance := by
        unfold effectiveBalance; rw [hv]
      have hstep : drawn E s (n + 1) = if v.effective_balance * 255 ≥
          E.max_effective_balance * byte.toNat then acc ++ [c] else acc := by
        unfold drawn
        rw [List.range_succ, List.filter_append, List.map_append, hacc]
        simp only [List.filter_cons, List.filter_nil, hcand, hrb, heff, ge_iff_le]
        split
        · rename_i hd; rw [if_pos (of_decide_eq_true hd)]; simp [drawn, hcand]
        · rename_i hd; rw [if_neg fun h => hd (decide_eq_true h)]; simp [drawn]
      refine ih hstep.symm ?_ ?_ h
      · intro m hm
        rcases Nat.lt_succ_iff_lt_or_eq.1 hm with hm | rfl
        · exact hlt m hm
        · rw [← hacc]; exact hl
      · split
        · simp; omega
        · exact hle
    · cases h; exact ⟨n, hacc, by omega, hlt⟩

theorem drawn_active {E : Env} {s : State} {l : List Nat}
    (hne : activeIndices s (epochOf E s.slot + 1) ≠ []) (h : Drawn E s l) :
    ∀ i ∈ l, ∃ v, s.validators[i]? = some v ∧ ActiveAt v (epochOf E s.slot + 1) := by
  obtain ⟨n, rfl, -⟩ := h
  intro i hi
  unfold drawn at hi
  rw [List.mem_map] at hi
  obtain ⟨k, -, rfl⟩ := hi
  apply mem_activeIndices.1
  have hpos : 0 < (activeIndices s (epochOf E s.slot + 1)).length := List.length_pos_iff.2 hne
  have := shuffledIndex_lt E (syncSeed E s) E.shuffle_round_count (Nat.mod_lt k hpos)
  simp only [syncCandidate, candidate, List.getD_eq_getElem?_getD, List.getElem?_eq_getElem this,
    Option.getD_some]
  exact List.getElem_mem _

theorem mapM_idx_keys {s : State} {l : List Nat} {ks : List PublicKey}
    (h : (l.mapM fun i => do
      let v ← idx s.validators i
      return v.public_key : R (List PublicKey)) = .ok ks) :
    l.map (fun i => (s.validators[i]?).map (·.public_key)) = ks.map some := by
  induction l generalizing ks with
  | nil => simp only [List.mapM_nil, R_pure] at h; cases h; rfl
  | cons i l ih =>
    simp only [List.mapM_cons, R_bind_eq_ok, idx_eq_ok, R_pure, Except.ok.injEq] at h
    obtain ⟨_, ⟨v, hv, rfl⟩, ks', h', rfl⟩ := h
    simp [hv, ih h']

theorem next_sync_committee_ok {E : Env} (hE : SaneConfig E) {s : State} (hs : Shaped E s)
    (hslot : s.slot < 2 ^ 62) {c : SyncCommittee} (h : get_next_sync_committee E s = .ok c) :
    ∃ members, Drawn E s members ∧
      members.map (fun i => (s.validators[i]?).map (·.public_key)) = c.public_keys.map some ∧
      (∀ i ∈ members, ∃ v, s.validators[i]? = some v ∧ ActiveAt v (epochOf E s.slot + 1)) ∧
      c.public_keys ≠ [] ∧ E.aggregate_public_keys c.public_keys = some c.aggregate_public_key := by
  simp only [get_next_sync_committee, get_next_sync_committee_indices, run, current_epoch_eq_ok] at h
  obtain ⟨l, ⟨_, ⟨rfl, -⟩, _, ⟨rfl, -⟩, seed, hseed, hl⟩, ks, hks, hne, h⟩ := h
  have hspe := hE.slots_per_epoch
  have hep : epochOf E s.slot ≤ s.slot := Nat.div_le_self _ _
  rw [get_seed_eq hE hs (by omega)] at hseed
  cases hseed
  rw [activeIndices_eq] at hl
  have hD : Drawn E s l := sync_loop_ok hs rfl rfl (n := 0) rfl (fun m hm => by omega)
    (Nat.zero_le _) hl
  have hk := mapM_idx_keys hks
  have hks' : ks ≠ [] := by intro h0; subst h0; simp at hne
  have hact : activeIndices s (epochOf E s.slot + 1) ≠ [] := by
    intro h0
    have hl0 : l = [] := by
      rw [h0] at hl
      cases hfuel : E.fuel with
      | zero =>
        rw [hfuel] at hl
        unfold sync_committee_loop at hl
        split at hl
        · cases hl
        · cases hl; rfl
      | succ n =>
        rw [hfuel] at hl
        unfold sync_committee_loop at hl
        split at hl
        · simp only [run] at hl
          obtain ⟨_, ⟨-, h⟩, -⟩ := hl
          exact absurd rfl h
        · cases hl; rfl
    subst hl0
    simp only [List.map_nil] at hk
    exact hks' (List.map_eq_nil_iff.1 hk.symm)
  split at h
  · rename_i k hk'
    cases h
    exact ⟨l, hD, hk, drawn_active hact hD, hks', hk'⟩
  · cases h

/-! ## Rotation -/

theorem sync_committee_loop_congr {E : Env} {s t : State} (h : t.validators = s.validators)
    (active : List Nat) (seed : Bytes32) (fuel n : Nat) (acc : List Nat) :
    sync_committee_loop E t active seed fuel n acc =
      sync_committee_loop E s active seed fuel n acc := by
  induction fuel generalizing n acc with
  | zero => rfl
  | succ fuel ih => unfold sync_committee_loop; simp only [h, ih]

theorem next_sync_congr {E : Env} {s : State} {a b : SyncCommittee} :
    get_next_sync_committee E { s with current_sync_committee := a, next_sync_committee := b } =
      get_next_sync_committee E s := by
  have h : get_next_sync_committee_indices E
      { s with current_sync_committee := a, next_sync_committee := b } =
      get_next_sync_committee_indices E s := by
    unfold get_next_sync_committee_indices
    have : ∀ active seed fuel n acc, sync_committee_loop E
        { s with current_sync_committee := a, next_sync_committee := b } active seed fuel n acc =
        sync_committee_loop E s active seed fuel n acc :=
      sync_committee_loop_congr rfl
    simp only [this]
    rfl
  unfold get_next_sync_committee
  rw [h]

theorem slot_step_sync {E : Env} {f : Fork} (hf : f ≠ .Phase0) {s s' : State}
    (h : slot_step E f s = .ok () s') :
    (¬ PeriodStart E (s.slot + 1) ∧ s'.current_sync_committee = s.current_sync_committee ∧
      s'.next_sync_committee = s.next_sync_committee) ∨
    (PeriodStart E (s.slot + 1) ∧ s'.current_sync_committee = s.next_sync_committee ∧
      get_next_sync_committee E { s' with slot := s.slot } = .ok s'.next_sync_committee) := by
  obtain ⟨s₁, s₂, h1, h2, h3, h4, rfl⟩ := slot_step_eq_ok.1 h
  have e1 := process_slot_slot h1
  have c1 : s₁.current_sync_committee = s.current_sync_committee :=
    slot_mod.ok h1 .current_sync_committee (by decide)
  have c2 : s₁.next_sync_committee = s.next_sync_committee :=
    slot_mod.ok h1 .next_sync_committee (by decide)
  rcases h4 with ⟨h4, h5⟩ | ⟨h4, rfl⟩
  · have hd : epochOf E (s.slot + 1) = epochOf E s.slot + 1 := by
      unfold epochOf
      rw [Nat.succ_div, if_pos (Nat.dvd_of_mod_eq_zero h4)]
    obtain ⟨e⟩ := epoch_steps h5
    have b1 : e.s₁₃.current_sync_committee = s₁.current_sync_committee :=
      e.to13 .current_sync_committee (by decide)
    have b2 : e.s₁₃.next_sync_committee = s₁.next_sync_committee :=
      e.to13 .next_sync_committee (by decide)
    have b3 : e.s₁₃.slot = s₁.slot := e.to13 .slot (by decide)
    have hs := e.sync
    rw [if_neg hf] at hs
    generalize e.s₁₃ = u at *
    clear e h5 h
    simp only [process_sync_committee_updates, run, current_epoch_eq_ok] at hs
    obtain ⟨_, ⟨rfl, -⟩, _, ⟨rfl, -⟩, _, ⟨rfl, -⟩, hs⟩ := hs
    rw [b3, e1, ← hd] at hs
    rcases hs with ⟨h6, c, hc, rfl⟩ | ⟨h6, -, rfl⟩
    · refine Or.inr ⟨⟨h4, h6⟩, b2.trans c2, ?_⟩
      have : ({ u with
          current_sync_committee := u.next_sync_committee
          next_sync_committee := c
          slot := s.slot } : State) = { u with
          current_sync_committee := u.next_sync_committee
          next_sync_committee := c } := by
        rw [← e1, ← b3]
      show get_next_sync_committee E _ = _
      dsimp only
      rw [this, next_sync_congr]
      exact hc
    · exact Or.inl ⟨fun hp => h6 hp.2, b1.trans c1, b2.trans c2⟩
  · exact Or.inl ⟨fun hp => h4 hp.1, c1, c2⟩

theorem slots_sync {E : Env} {f : Fork} (hf : f ≠ .Phase0) {s s' : State} {t : Nat}
    (h : process_slots E f t s = .ok () s')
    (hp : ∀ k, s.slot < k → k ≤ t → ¬ PeriodStart E k) :
    s'.current_sync_committee = s.current_sync_committee ∧
      s'.next_sync_committee = s.next_sync_committee := by
  rw [process_slots_eq] at h
  split at h
  · generalize t - s.slot = n at h
    induction n generalizing s with
    | zero => obtain ⟨_, rfl⟩ := slots_loop_zero.1 h; exact ⟨rfl, rfl⟩
    | succ n ih =>
      rcases slots_loop_succ.1 h with ⟨h1, s₁, h2, h3⟩ | ⟨_, rfl⟩
      · have hsl := slot_step_slot h2
        rcases slot_step_sync hf h2 with ⟨-, e1, e2⟩ | ⟨e1, -⟩
        · by_cases hlt : s₁.slot < t
          · obtain ⟨e3, e4⟩ := ih (fun k hk => hp k (by omega)) hlt h3
            exact ⟨e3.trans e1, e4.trans e2⟩
          · cases n with
            | zero => obtain ⟨_, rfl⟩ := slots_loop_zero.1 h3; exact ⟨e1, e2⟩
            | succ n =>
              rcases slots_loop_succ.1 h3 with ⟨h4, -⟩ | ⟨-, rfl⟩
              · exact absurd h4 hlt
              · exact ⟨e1, e2⟩
        · exact absurd e1 (hp _ (by omega) (by omega))
      · exact ⟨rfl, rfl⟩
  · cases h

end Verif
