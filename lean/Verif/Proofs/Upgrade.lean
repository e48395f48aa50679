import Verif.Spec.Upgrade
import Verif.Proofs.Participation
import Verif.Proofs.Activation
import Verif.Proofs.Slashings
import Verif.Proofs.History
import Verif.Proofs.Sync

/-! # Fork upgrades -/

namespace Verif

open Spec

/-! ## Altair -/

/-- `q` is `p` with the flags for which `Q` holds added. -/
def Added (Q : Nat → Nat → Prop) (p q : List UInt8) : Prop :=
  q.length = p.length ∧
  ∀ i x y, p[i]? = some x → q[i]? = some y → ∀ j < 8, FlagSet y j ↔ FlagSet x j ∨ Q i j

theorem Added.refl (p : List UInt8) : Added (fun _ _ => False) p p := by
  refine ⟨rfl, fun i x y hx hy j _ => ?_⟩
  rw [hx] at hy; cases hy
  simp

theorem Added.trans {Q R : Nat → Nat → Prop} {p q r : List UInt8} (h1 : Added Q p q)
    (h2 : Added R q r) : Added (fun i j => Q i j ∨ R i j) p r := by
  refine ⟨h2.1.trans h1.1, fun i x z hx hz j hj => ?_⟩
  have hi : i < q.length := by rw [h1.1]; exact (List.getElem?_eq_some_iff.1 hx).1
  have hy := List.getElem?_eq_getElem hi
  rw [h2.2 i _ z hy hz j hj, h1.2 i x _ hx hy j hj, or_assoc]

theorem Added.congr {Q R : Nat → Nat → Prop} {p q : List UInt8} (h : Added Q p q)
    (hr : ∀ i j, Q i j ↔ R i j) : Added R p q :=
  ⟨h.1, fun i x y hx hy j hj => (h.2 i x y hx hy j hj).trans (or_congr_right (hr i j))⟩

theorem translate_one {i : Nat} {fl : List Nat} (hfl : ∀ j ∈ fl, j < 3) {s s' : State}
    (h : forEach fl (fun flag_index => do
      let s ← get
      let flags ← idx s.previous_epoch_participation i
      let flags' ← add_flag flags flag_index
      upd fun s => { s with
        previous_epoch_participation := s.previous_epoch_participation.set i flags' }) s = .ok () s') :
    ∃ q, s' = { s with previous_epoch_participation := q } ∧
      Added (fun k j => k = i ∧ j ∈ fl) s.previous_epoch_participation q := by
  induction fl generalizing s with
  | nil =>
    cases h
    exact ⟨_, rfl, (Added.refl _).congr fun _ _ => by simp⟩
  | cons a fl ih =>
    have ha : a < 8 := by have := hfl a (by simp); omega
    simp only [forEach, run, add_flag_ok ha] at h
    obtain ⟨_, ⟨x, hx, y, rfl, rfl⟩, h2⟩ := h
    obtain ⟨q, rfl, hq⟩ := ih (fun j hj => hfl j (by simp [hj])) h2
    refine ⟨q, rfl, ?_⟩
    have h1 : Added (fun k j => k = i ∧ j = a) s.previous_epoch_participation
        (s.previous_epoch_participation.set i (x ||| UInt8.ofNat (2 ^ a))) := by
      refine ⟨List.length_set, fun k u v hu hv j hj => ?_⟩
      by_cases hk : i = k
      · subst hk
        rw [hx] at hu; cases hu
        rw [List.getElem?_set_self (List.getElem?_eq_some_iff.1 hx).1] at hv
        cases hv
        rw [flagSet_or ha hj]
        simp [eq_comm]
      · rw [List.getElem?_set_ne hk, hu] at hv
        cases hv
        simp [Ne.symm hk]
    refine (h1.trans hq).congr fun k j => ?_
    simp only [List.mem_cons]
    constructor
    · rintro (⟨h, h'⟩ | ⟨h, h'⟩)
      · exact ⟨h, Or.inl h'⟩
      · exact ⟨h, Or.inr h'⟩
    · rintro ⟨h, h' | h'⟩
      · exact Or.inl ⟨h, h'⟩
      · exact Or.inr ⟨h, h'⟩

theorem translate_flags_ok {fl l : List Nat} (hfl : ∀ j ∈ fl, j < 3) {s s' : State}
    (h : translate_flags fl l s = .ok () s') :
    ∃ q, s' = { s with previous_epoch_participation := q } ∧
      Added (fun k j => k ∈ l ∧ j ∈ fl) s.previous_epoch_participation q := by
  unfold translate_flags at h
  induction l generalizing s with
  | nil =>
    cases h
    exact ⟨_, rfl, (Added.refl _).congr fun _ _ => by simp⟩
  | cons a l ih =>
    rw [forEach, M_bind_unit_eq_ok] at h
    obtain ⟨t, h1, h2⟩ := h
    obtain ⟨p, rfl, hp⟩ := translate_one hfl h1
    obtain ⟨q, rfl, hq⟩ := ih h2
    refine ⟨q, rfl, (hp.trans hq).congr fun k j => ?_⟩
    simp only [List.mem_cons]
    constructor
    · rintro (⟨h, h'⟩ | ⟨h, h'⟩)
      · exact ⟨Or.inl h, h'⟩
      · exact ⟨Or.inr h, h'⟩
    · rintro ⟨h | h, h'⟩
      · exact Or.inl ⟨h, h'⟩
      · exact Or.inr ⟨h, h'⟩

/-- The flags earned by pending attestations. -/
def EarnedIn (E : Env) (s : State) (l : List PendingAttestation) (i j : Nat) : Prop :=
  ∃ a ∈ l, Attested E s a i ∧ ∃ fl, EarnsFlags E .Altair s a.data a.inclusion_delay fl ∧ j ∈ fl

theorem earns_unique {E : Env} {s : State} {d : AttestationData} {n : Nat} {fl fl' : List Nat}
    (h : EarnsFlags E .Altair s d n fl) (h' : EarnsFlags E .Altair s d n fl') (j : Nat) :
    j ∈ fl ↔ j ∈ fl' := by
  have key : ∀ {a b : List Nat}, EarnsFlags E .Altair s d n a → EarnsFlags E .Altair s d n b →
      j ∈ a → j ∈ b := by
    intro a b ha hb hj
    have := ha.only j hj
    match j, this, hj with
    | 0, _, hj => exact hb.source.2 (ha.source.1 hj)
    | 1, _, hj => exact hb.target.2 (ha.target.1 hj)
    | 2, _, hj => exact hb.head.2 (ha.head.1 hj)
  exact ⟨key h h', key h' h⟩

/-- The participation flags play no part in what is earned. -/
theorem earnedIn_congr {E : Env} {s t : State} (hb : get_block_root E t = get_block_root E s)
    (hr : get_block_root_at_slot E t = get_block_root_at_slot E s)
    (hc : get_beacon_committee E t = get_beacon_committee E s) (l : List PendingAttestation)
    (i j : Nat) : EarnedIn E t l i j ↔ EarnedIn E s l i j := by
  have key : ∀ {s t : State}, get_block_root E t = get_block_root E s →
      get_block_root_at_slot E t = get_block_root_at_slot E s →
      get_beacon_committee E t = get_beacon_committee E s →
      EarnedIn E s l i j → EarnedIn E t l i j := by
    rintro s t hb hr hc ⟨a, ha, ⟨c, h1, h2⟩, fl, hfl, hj⟩
    refine ⟨a, ha, ⟨c, by rw [hc]; exact h1, h2⟩, fl, ⟨hfl.source, ?_, ?_, hfl.only⟩, hj⟩
    · rw [hb]; exact hfl.target
    · rw [hb, hr]; exact hfl.head
  exact ⟨key hb.symm hr.symm hc.symm, key hb hr hc⟩

theorem translate_ok {E : Env} (hE : SaneConfig E) {l : List PendingAttestation} {s s' : State}
    (h : translate_participation E l s = .ok () s') :
    ∃ q, s' = { s with previous_epoch_participation := q } ∧
      Added (EarnedIn E s l) s.previous_epoch_participation q := by
  unfold translate_participation at h
  induction l generalizing s with
  | nil =>
    cases h
    exact ⟨_, rfl, (Added.refl _).congr fun _ _ => by simp [EarnedIn]⟩
  | cons a l ih =>
    rw [forEach, M_bind_unit_eq_ok] at h
    obtain ⟨t, h1, h2⟩ := h
    simp only [run] at h1
    obtain ⟨fl, h3, is, h4, h5⟩ := h1
    obtain ⟨hfl, -⟩ := earned_flags hE h3
    obtain ⟨p, rfl, hp⟩ := translate_flags_ok hfl.only h5
    obtain ⟨q, rfl, hq⟩ := ih h2
    refine ⟨q, rfl, (hp.trans hq).congr fun k j => ?_⟩
    rw [attesting_indices_eq_ok] at h4
    obtain ⟨committee, hc, hlen, rfl⟩ := h4
    have hatt : k ∈ iterate E s (attesters_of committee a.aggregation_bits) ↔ Attested E s a k := by
      rw [mem_iterate, mem_attesters_of]
      constructor
      · rintro h; exact ⟨committee, hc, h⟩
      · rintro ⟨c', hc', h⟩
        rw [hc] at hc'; cases hc'
        exact h
    rw [hatt]
    have hE' : EarnedIn E { s with previous_epoch_participation := p } l k j ↔
        EarnedIn E s l k j := earnedIn_congr (t := { s with previous_epoch_participation := p }) (s := s) rfl rfl rfl l k j
    constructor
    · rintro (⟨h, h'⟩ | h)
      · exact ⟨a, by simp, h, fl, hfl, h'⟩
      · obtain ⟨b, hb, h⟩ := hE'.1 h
        exact ⟨b, by simp [hb], h⟩
    · rintro ⟨b, hb, h, fl', hfl', hj⟩
      rw [List.mem_cons] at hb
      rcases hb with rfl | hb
      · exact Or.inl ⟨h, (earns_unique hfl hfl' j).2 hj⟩
      · exact Or.inr (hE'.2 ⟨b, hb, h, fl', hfl', hj⟩)

theorem sync_loop_fields {E : Env} {s t : State} (h : t.validators = s.validators)
    (active : List Nat) (seed : Bytes32) (fuel n : Nat) (acc : List Nat) :
    sync_committee_loop E t active seed fuel n acc =
      sync_committee_loop E s active seed fuel n acc := by
  induction fuel generalizing n acc with
  | zero => rfl
  | succ fuel ih => unfold sync_committee_loop; simp only [h, ih]

/-- The next sync committee depends on slot, registry and randao mixes only. -/
theorem next_sync_fields {E : Env} {s t : State} (h1 : t.slot = s.slot)
    (h2 : t.validators = s.validators) (h3 : t.randao_mixes = s.randao_mixes) :
    get_next_sync_committee E t = get_next_sync_committee E s := by
  unfold get_next_sync_committee get_next_sync_committee_indices
  simp only [sync_loop_fields h2, h2, get_current_epoch, h1, get_active_validator_indices,
    get_seed, get_randao_mix, h3]

theorem altair_carried {E : Env} {s s' : State} (h : upgrade_to_altair E s = .ok s') :
    (∀ f ∈ carried .Altair, f.same s s') ∧ s'.fork = upgradedFork E .Altair s := by
  unfold upgrade_to_altair at h
  simp only [run, runLocal_eq_ok, current_epoch_eq_ok] at h
  obtain ⟨_, ⟨rfl, -⟩, post, hpost, c, hc, rfl⟩ := h
  have hm := translate_mod.ok hpost
  refine ⟨?_, (hm .fork (by decide)).trans rfl⟩
  simp only [carried, List.forall_mem_cons, List.not_mem_nil, false_imp_iff, implies_true, and_true]
  exact ⟨hm .genesis_time (by decide), hm .genesis_validators_root (by decide),
    hm .slot (by decide), hm .latest_block_header (by decide), hm .block_roots (by decide),
    hm .state_roots (by decide), hm .historical_roots (by decide), hm .eth1_data (by decide),
    hm .eth1_data_votes (by decide), hm .eth1_deposit_index (by decide),
    hm .validators (by decide), hm .balances (by decide), hm .randao_mixes (by decide),
    hm .slashings (by decide), hm .justification_bits (by decide),
    hm .previous_justified_checkpoint (by decide), hm .current_justified_checkpoint (by decide),
    hm .finalized_checkpoint (by decide)⟩

theorem into_altair {E : Env} (hE : SaneConfig E) {s s' : State}
    (h : upgrade_to_altair E s = .ok s') :
    IntoAltair E s s' := by
  unfold upgrade_to_altair at h
  simp only [run, runLocal_eq_ok, current_epoch_eq_ok] at h
  obtain ⟨_, ⟨rfl, -⟩, post, hpost, c, hc, rfl⟩ := h
  obtain ⟨q, rfl, hq⟩ := translate_ok hE hpost
  refine ⟨?_, rfl, rfl, ?_, rfl⟩
  · refine ⟨hq.1.trans List.length_replicate, fun i x hx j hj => ?_⟩
    have hi : i < s.validators.length := by
      have h1 := (List.getElem?_eq_some_iff.1 hx).1
      have h2 : q.length = s.validators.length := hq.1.trans List.length_replicate
      exact h2 ▸ h1
    have h0 : (altair_base E s (epochOf E s.slot)).previous_epoch_participation[i]? = some 0 := by
      show (List.replicate s.validators.length (0 : UInt8))[i]? = some 0
      simp [hi]
    have := hq.2 i 0 x h0 hx j hj
    rw [this]
    have hz : ¬ FlagSet 0 j := by simp [FlagSet]
    rw [or_iff_right hz]
    exact earnedIn_congr (t := altair_base E s (epochOf E s.slot)) (s := s) rfl rfl rfl _ i j
  · exact (next_sync_fields (t := { altair_base E s (epochOf E s.slot) with
      previous_epoch_participation := q }) (s := s) rfl rfl rfl).symm.trans hc

/-! ## Bellatrix, capella and deneb -/

theorem into_bellatrix {E : Env} {s s' : State} (h : upgrade_to_bellatrix E s = .ok s') :
    BlankHeader s'.latest_execution_payload_header ∧ s'.fork = upgradedFork E .Bellatrix s ∧
      ∀ f ∈ carried .Bellatrix, f.same s s' := by
  unfold upgrade_to_bellatrix at h
  simp only [run, current_epoch_eq_ok] at h
  obtain ⟨_, ⟨rfl, -⟩, rfl⟩ := h
  refine ⟨⟨rfl, rfl, rfl, rfl, ?_, rfl, rfl, rfl, rfl, rfl, rfl, rfl, rfl, rfl⟩, rfl, ?_⟩
  · intro b hb
    exact List.eq_of_mem_replicate hb
  · simp only [carried, List.forall_mem_cons, List.not_mem_nil, false_imp_iff, implies_true, and_true]
    repeat' constructor

theorem into_capella {E : Env} {s s' : State} (h : upgrade_to_capella E s = .ok s') :
    IntoCapella s s' ∧ s'.fork = upgradedFork E .Capella s ∧
      ∀ f ∈ carried .Capella, f.same s s' := by
  unfold upgrade_to_capella at h
  simp only [run, current_epoch_eq_ok] at h
  obtain ⟨_, ⟨rfl, -⟩, rfl⟩ := h
  refine ⟨⟨rfl, rfl, rfl, rfl⟩, rfl, ?_⟩
  simp only [carried, List.forall_mem_cons, List.not_mem_nil, false_imp_iff, implies_true, and_true]
  repeat' constructor

theorem into_deneb {E : Env} {s s' : State} (h : upgrade_to_deneb E s = .ok s') :
    IntoDeneb s s' ∧ s'.fork = upgradedFork E .Deneb s ∧
      ∀ f ∈ carried .Deneb, f.same s s' := by
  unfold upgrade_to_deneb at h
  simp only [run, current_epoch_eq_ok] at h
  obtain ⟨_, ⟨rfl, -⟩, rfl⟩ := h
  refine ⟨⟨rfl⟩, rfl, ?_⟩
  simp only [carried, List.forall_mem_cons, List.not_mem_nil, false_imp_iff, implies_true, and_true]
  repeat' constructor

/-! ## Electra -/

theorem balance_churn_eq_ok {E : Env} {s : State} {c : Nat}
    (h : Electra.get_balance_churn_limit E s = .ok c) : c = balanceChurn E s := by
  simp only [Electra.get_balance_churn_limit, run, total_active_eq_ok] at h
  obtain ⟨_, ⟨-, -, rfl⟩, _, ⟨rfl, -⟩, _, ⟨rfl, -⟩, rfl, -⟩ := h
  rfl

theorem exit_churn_eq_ok {E : Env} {s : State} {c : Nat}
    (h : Electra.get_activation_exit_churn_limit E s = .ok c) : c = exitChurn E s := by
  simp only [Electra.get_activation_exit_churn_limit, run] at h
  obtain ⟨_, h, rfl⟩ := h
  rw [balance_churn_eq_ok h]; rfl

theorem consolidation_churn_eq_ok {E : Env} {s : State} {c : Nat}
    (h : Electra.get_consolidation_churn_limit E s = .ok c) : c = consolidationChurn E s := by
  simp only [Electra.get_consolidation_churn_limit, run] at h
  obtain ⟨_, h1, _, h2, rfl, -⟩ := h
  rw [balance_churn_eq_ok h1, exit_churn_eq_ok h2]; rfl

/-- The validators with `P`, by eligibility epoch and index. -/
theorem by_eligibility (s : State) (P : Validator → Prop) [DecidablePred P] {l : List Nat}
    (hl : l = (sortBy (fun a b : Nat × Nat => a.1 < b.1 || (a.1 == b.1 && a.2 ≤ b.2))
      (s.validators.zipIdx.filterMap fun (v, i) =>
        if P v then some (v.activation_eligibility_epoch, i) else none)).map (·.2)) :
    (∀ i, i ∈ l ↔ ∃ v, s.validators[i]? = some v ∧ P v) ∧ l.Pairwise (Before s) := by
  subst hl
  generalize hp : (s.validators.zipIdx.filterMap fun (v, i) =>
      if P v then some (v.activation_eligibility_epoch, i) else none) = ps
  have hmem : ∀ e i, (e, i) ∈ ps ↔ ∃ v, s.validators[i]? = some v ∧
      e = v.activation_eligibility_epoch ∧ P v := by
    intro e i
    rw [← hp]
    simp only [List.mem_filterMap, Prod.exists, List.mem_zipIdx_iff_getElem?]
    constructor
    · rintro ⟨v, j, hv, h⟩
      split at h
      · rename_i hel
        simp only [Option.some.injEq, Prod.mk.injEq] at h
        obtain ⟨rfl, rfl⟩ := h
        exact ⟨v, hv, rfl, hel⟩
      · cases h
    · rintro ⟨v, hv, rfl, h1⟩
      exact ⟨v, i, hv, by rw [if_pos h1]⟩
  have hnd : ps.Nodup := by
    have h1 : (ps.map (·.2)).Sublist (s.validators.zipIdx.map (·.2)) := by
      rw [← hp]
      generalize s.validators.zipIdx = zs
      induction zs with
      | nil => simp
      | cons z zs ih =>
        rw [List.filterMap_cons]
        split
        · exact ih.cons _
        · rename_i b hb
          have : b.2 = z.2 := by
            dsimp only at hb
            split at hb
            · cases hb; rfl
            · cases hb
          simp only [List.map_cons, this]
          exact ih.cons_cons _
    have h2 : (ps.map (·.2)).Nodup := by
      refine h1.nodup ?_
      rw [List.zipIdx_map_snd]
      exact List.nodup_range'
    exact (List.pairwise_map.1 h2).imp fun h e => h (by rw [e])
  constructor
  · intro i
    rw [List.mem_map]
    constructor
    · rintro ⟨⟨e, j⟩, h, rfl⟩
      rw [mem_sortBy, hmem] at h
      obtain ⟨v, hv, -, h1⟩ := h
      exact ⟨v, hv, h1⟩
    · rintro ⟨v, hv, h1⟩
      exact ⟨(_, i), mem_sortBy.2 ((hmem _ _).2 ⟨v, hv, rfl, h1⟩), rfl⟩
  · have hs := sortBy_sorted (le := fun a b : Nat × Nat => a.1 < b.1 || (a.1 == b.1 && a.2 ≤ b.2))
      (by intro a b c; simp; omega) (by intro a b; simp; omega) ps
    have hn : (sortBy (fun a b : Nat × Nat => a.1 < b.1 || (a.1 == b.1 && a.2 ≤ b.2)) ps).Nodup :=
      (sortBy_perm ps).nodup_iff.2 hnd
    rw [List.pairwise_map]
    have hboth := hs.and hn
    refine hboth.imp_of_mem ?_
    rintro ⟨e, i⟩ ⟨e', j⟩ hi hj ⟨h1, h2⟩
    rw [mem_sortBy, hmem] at hi hj
    obtain ⟨v, hv, rfl, -⟩ := hi
    obtain ⟨w, hw, rfl, -⟩ := hj
    refine ⟨v, w, hv, hw, ?_⟩
    simp only [Bool.or_eq_true, decide_eq_true_eq, Bool.and_eq_true, beq_iff_eq] at h1
    rcases h1 with h1 | ⟨h1, h3⟩
    · exact Or.inl h1
    · refine Or.inr ⟨h1, Nat.lt_of_le_of_ne h3 ?_⟩
      rintro rfl
      exact h2 (by rw [h1])

theorem before_irrefl {s : State} {i : Nat} : ¬ Before s i i := by
  rintro ⟨v, w, hv, hw, h⟩
  rw [hv] at hw; cases hw
  omega

/-- Resetting a list of validators and queueing their balances. -/
theorem queue_entire_all {A : List Nat} (hn : A.Nodup) {t t' : State}
    (h : forEach A Electra.queue_entire_balance_and_reset_validator t = .ok () t') :
    ∃ vs bs q, t' = { t with
        validators := vs, balances := bs,
        pending_balance_deposits := t.pending_balance_deposits ++ q } ∧
      vs.length = t.validators.length ∧ bs.length = t.balances.length ∧
      (∀ i ∈ A, ∃ v, t.validators[i]? = some v ∧ vs[i]? = some { v with
        effective_balance := 0, activation_eligibility_epoch := FAR_FUTURE_EPOCH } ∧
        ∃ b, t.balances[i]? = some b ∧ bs[i]? = some 0) ∧
      (∀ i, i ∉ A → vs[i]? = t.validators[i]? ∧ bs[i]? = t.balances[i]?) ∧
      q.map (·.index) = A ∧ (∀ d ∈ q, t.balances[d.index]? = some d.amount) ∧
      bs.sum + (q.map (·.amount)).sum = t.balances.sum := by
  induction A generalizing t with
  | nil =>
    cases h
    exact ⟨t'.validators, t'.balances, [], by simp, rfl, rfl, by simp, by simp, rfl, by simp, by simp⟩
  | cons a A ih =>
    rw [forEach, M_bind_unit_eq_ok] at h
    obtain ⟨u, h1, h2⟩ := h
    simp only [Electra.queue_entire_balance_and_reset_validator, run] at h1
    obtain ⟨b, hb, v, hv, rfl⟩ := h1
    obtain ⟨ha, hn⟩ := List.nodup_cons.1 hn
    obtain ⟨vs, bs, q, rfl, h3, h4, h5, h6, h7, h8, h9⟩ := ih hn h2
    have hne : ∀ i ∈ A, a ≠ i := by rintro i hi rfl; exact ha hi
    refine ⟨vs, bs, ⟨a, b⟩ :: q, by simp, h3.trans List.length_set, h4.trans List.length_set, ?_, ?_,
      by simp [h7], ?_, ?_⟩
    · intro i hi
      rw [List.mem_cons] at hi
      rcases hi with rfl | hi
      · obtain ⟨e1, e2⟩ := h6 i ha
        rw [e1, e2]
        refine ⟨v, hv, ?_, b, hb, ?_⟩
        · exact List.getElem?_set_self (List.getElem?_eq_some_iff.1 hv).1
        · exact List.getElem?_set_self (List.getElem?_eq_some_iff.1 hb).1
      · obtain ⟨v', e1, e2, b', e3, e4⟩ := h5 i hi
        refine ⟨v', ?_, e2, b', ?_, e4⟩
        · rw [← e1]; exact (List.getElem?_set_ne (hne i hi)).symm
        · rw [← e3]; exact (List.getElem?_set_ne (hne i hi)).symm
    · intro i hi
      rw [List.mem_cons, not_or] at hi
      obtain ⟨e1, e2⟩ := h6 i hi.2
      rw [e1, e2]
      exact ⟨List.getElem?_set_ne (Ne.symm hi.1), List.getElem?_set_ne (Ne.symm hi.1)⟩
    · intro d hd
      rw [List.mem_cons] at hd
      rcases hd with rfl | hd
      · exact hb
      · rw [← h8 d hd]
        refine (List.getElem?_set_ne (hne _ ?_)).symm
        rw [← h7]
        exact List.mem_map_of_mem hd
    · have := sum_set _ _ _ 0 hb
      simp only [List.map_cons, List.sum_cons]
      dsimp only at h9
      omega

/-- Queueing the excess balance of a list of validators. -/
theorem queue_excess_all {E : Env} {A : List Nat} (hn : A.Nodup) {t t' : State}
    (h : forEach A (Electra.queue_excess_active_balance E) t = .ok () t') :
    ∃ bs q, t' = { t with
        balances := bs, pending_balance_deposits := t.pending_balance_deposits ++ q } ∧
      bs.length = t.balances.length ∧
      (∀ i ∈ A, ∃ b, t.balances[i]? = some b ∧ bs[i]? = some (min b E.min_activation_balance)) ∧
      (∀ i, i ∉ A → bs[i]? = t.balances[i]?) ∧
      (q.map (·.index)).Sublist A ∧
      (∀ d, d ∈ q ↔ d.index ∈ A ∧ ∃ b, t.balances[d.index]? = some b ∧
        E.min_activation_balance < b ∧ d.amount = b - E.min_activation_balance) ∧
      bs.sum + (q.map (·.amount)).sum = t.balances.sum := by
  induction A generalizing t with
  | nil =>
    cases h
    exact ⟨t'.balances, [], by simp, rfl, by simp, by simp, by simp, by simp, by simp⟩
  | cons a A ih =>
    rw [forEach, M_bind_unit_eq_ok] at h
    obtain ⟨u, h1, h2⟩ := h
    obtain ⟨ha, hn⟩ := List.nodup_cons.1 hn
    have hne : ∀ i ∈ A, a ≠ i := by rintro i hi rfl; exact ha hi
    simp only [Electra.queue_excess_active_balance, run] at h1
    obtain ⟨b, hb, h1⟩ := h1
    obtain ⟨bs, q, rfl, h4, h5, h6, h7, h8, h9⟩ := ih hn h2
    rcases h1 with ⟨hlt, x, ⟨rfl, hle⟩, rfl⟩ | ⟨hlt, -, rfl⟩
    · refine ⟨bs, ⟨a, b - E.min_activation_balance⟩ :: q, by simp, h4.trans List.length_set, ?_, ?_,
        by simpa using h7.cons_cons a, ?_, ?_⟩
      · intro i hi
        rw [List.mem_cons] at hi
        rcases hi with rfl | hi
        · rw [h6 i ha]
          refine ⟨b, hb, ?_⟩
          rw [show min b E.min_activation_balance = E.min_activation_balance by omega]
          exact List.getElem?_set_self (List.getElem?_eq_some_iff.1 hb).1
        · obtain ⟨b', e3, e4⟩ := h5 i hi
          refine ⟨b', ?_, e4⟩
          rw [← e3]; exact (List.getElem?_set_ne (hne i hi)).symm
      · intro i hi
        rw [List.mem_cons, not_or] at hi
        rw [h6 i hi.2]
        exact List.getElem?_set_ne (Ne.symm hi.1)
      · intro d
        rw [List.mem_cons, List.mem_cons, h8]
        constructor
        · rintro (rfl | ⟨hd, b', e1, e2⟩)
          · exact ⟨Or.inl rfl, b, hb, hlt, rfl⟩
          · refine ⟨Or.inr hd, b', ?_, e2⟩
            rw [← e1]; exact (List.getElem?_set_ne (hne _ hd)).symm
        · rintro ⟨hd | hd, b', e1, e2, e3⟩
          · left
            rw [hd, hb] at e1
            cases e1
            cases d
            simp_all
          · right
            refine ⟨hd, b', ?_, e2, e3⟩
            rw [← e1]; exact List.getElem?_set_ne (hne _ hd)
      · have := sum_set _ _ _ E.min_activation_balance hb
        simp only [List.map_cons, List.sum_cons]
        dsimp only at h9
        omega
    · refine ⟨bs, q, rfl, h4, ?_, ?_, h7.cons a, ?_, h9⟩
      · intro i hi
        rw [List.mem_cons] at hi
        rcases hi with rfl | hi
        · rw [h6 i ha]
          exact ⟨b, hb, by rw [hb, show min b E.min_activation_balance = b by omega]⟩
        · exact h5 i hi
      · intro i hi
        rw [List.mem_cons, not_or] at hi
        exact h6 i hi.2
      · intro d
        rw [List.mem_cons, h8]
        constructor
        · rintro ⟨hd, h⟩
          exact ⟨Or.inr hd, h⟩
        · rintro ⟨hd | hd, b', e1, e2, e3⟩
          · rw [hd, hb] at e1
            cases e1
            omega
          · exact ⟨hd, b', e1, e2, e3⟩

theorem mem_compounding {s : State} {i : Nat} :
    i ∈ compounding_indices s ↔ ∃ v, s.validators[i]? = some v ∧ Compounding v := by
  simp only [compounding_indices, List.mem_filterMap, Prod.exists, List.mem_zipIdx_iff_getElem?]
  constructor
  · rintro ⟨v, j, hv, h⟩
    split at h
    · rename_i hel
      cases h
      exact ⟨v, hv, by simpa [Electra.has_compounding_withdrawal_credential,
        Electra.is_compounding_withdrawal_credential, Compounding,
        COMPOUNDING_WITHDRAWAL_PREFIX] using hel⟩
    · cases h
  · rintro ⟨v, hv, h⟩
    refine ⟨v, i, hv, ?_⟩
    rw [if_pos]
    simpa [Electra.has_compounding_withdrawal_credential,
        Electra.is_compounding_withdrawal_credential, Compounding,
        COMPOUNDING_WITHDRAWAL_PREFIX] using h

theorem compounding_sorted (s : State) : (compounding_indices s).Pairwise (· < ·) := by
  have h1 : (compounding_indices s).Sublist (s.validators.zipIdx.map (·.2)) := by
    unfold compounding_indices
    generalize s.validators.zipIdx = zs
    induction zs with
    | nil => simp
    | cons z zs ih =>
      rw [List.filterMap_cons]
      split
      · exact ih.cons _
      · rename_i b hb
        have : b = z.2 := by
          dsimp only at hb
          split at hb
          · cases hb; rfl
          · cases hb
        simp only [List.map_cons, this]
        exact ih.cons_cons _
  refine List.Pairwise.sublist h1 ?_
  rw [List.zipIdx_map_snd]
  exact List.pairwise_lt_range'

theorem earliest_exit_ok {E : Env} {s : State} {e : Nat}
    (h : electra_earliest_exit_epoch s (epochOf E s.slot) = .ok e) : AfterLastExit E s e := by
  simp only [electra_earliest_exit_epoch, run] at h
  obtain ⟨rfl, -⟩ := h
  generalize hx : (s.validators.filterMap fun v =>
    if v.exit_epoch ≠ FAR_FUTURE_EPOCH then some v.exit_epoch else none) = exits
  have hmem : ∀ x, x ∈ exits ↔ ∃ v ∈ s.validators, v.exit_epoch ≠ FAR_FUTURE_EPOCH ∧
      x = v.exit_epoch := by
    intro x
    rw [← hx, List.mem_filterMap]
    constructor
    · rintro ⟨v, hv, h⟩
      split at h
      · rename_i hne
        cases h
        exact ⟨v, hv, hne, rfl⟩
      · cases h
    · rintro ⟨v, hv, hne, rfl⟩
      exact ⟨v, hv, if_pos hne⟩
  unfold AfterLastExit
  cases hm : exits.max? with
  | none =>
    rw [List.max?_eq_none_iff] at hm
    subst hm
    rw [if_pos]
    · rfl
    · intro v hv
      by_cases hne : v.exit_epoch = FAR_FUTURE_EPOCH
      · exact hne
      · exact absurd ((hmem _).2 ⟨v, hv, hne, rfl⟩) (by simp)
  | some m =>
    rw [List.max?_eq_some_iff] at hm
    obtain ⟨h1, h2⟩ := hm
    obtain ⟨v, hv, hne, rfl⟩ := (hmem m).1 h1
    rw [if_neg (fun h => hne (h v hv))]
    refine ⟨⟨v, hv, hne, rfl⟩, fun w hw hne' => ?_⟩
    exact Nat.lt_succ_of_le (h2 _ ((hmem _).2 ⟨w, hw, hne', rfl⟩))

theorem into_electra {E : Env} {s s' : State} (h : upgrade_to_electra E s = .ok s') :
    IntoElectra E s s' ∧ s'.fork = upgradedFork E .Electra s ∧
      (∀ f ∈ carried .Electra, f.same s s') ∧
      s'.balances.sum + (s'.pending_balance_deposits.map (·.amount)).sum = s.balances.sum := by
  unfold upgrade_to_electra at h
  simp only [run, runLocal_eq_ok, current_epoch_eq_ok, activation_exit_epoch_eq_ok] at h
  obtain ⟨_, ⟨rfl, -⟩, e, he, _, ⟨rfl, -⟩, h⟩ := h
  simp only [electra_init_queues, run] at h
  obtain ⟨x, hx, y, hy, t, h1, h2⟩ := h
  have hx' := exit_churn_eq_ok hx
  have hy' := consolidation_churn_eq_ok hy
  obtain ⟨hpm, hpo⟩ := by_eligibility s (fun v => v.activation_epoch = FAR_FUTURE_EPOCH) rfl
  obtain ⟨vs, bs, q, rfl, a1, a2, a3, a4, a5, a6, a7⟩ := queue_entire_all (by
    refine hpo.imp ?_
    rintro a b h rfl
    exact before_irrefl h) h1
  obtain ⟨bs', q', rfl, b1, b2, b3, b4, b5, b6⟩ := queue_excess_all
    ((compounding_sorted _).imp fun h => Nat.ne_of_lt h) h2
  have hpm' : ∀ (i : Nat) (v : Validator), s.validators[i]? = some v →
      (i ∈ pre_activation_validators s ↔ NotActivated v) := by
    intro i v hv
    refine (hpm i).trans ?_
    constructor
    · rintro ⟨w, hw, h⟩
      rw [hv] at hw; cases hw
      exact h
    · intro h
      exact ⟨v, hv, h⟩
  have hvs : ∀ (i : Nat) (v : Validator), s.validators[i]? = some v → vs[i]? = some (resetValidator v) := by
    intro i v hv
    by_cases hi : i ∈ pre_activation_validators s
    · obtain ⟨w, hw, h, -⟩ := a3 i hi
      rw [show s.validators[i]? = some w from hw] at hv
      cases hv
      rw [h, resetValidator, if_pos ((hpm' i v hw).1 hi)]
    · rw [(a4 i hi).1, resetValidator, if_neg (fun h => hi ((hpm' i v hv).2 h))]
      exact hv
  have hcomp : ∀ v, Compounding (resetValidator v) ↔ Compounding v := by
    intro v
    unfold resetValidator
    split <;> rfl
  have hvl : vs = s.validators.map resetValidator := by
    apply List.ext_getElem?
    intro i
    rw [List.getElem?_map]
    cases hv : s.validators[i]? with
    | none =>
      rw [List.getElem?_eq_none_iff] at hv
      simp only [Option.map_none, List.getElem?_eq_none_iff]
      exact a1 ▸ hv
    | some v => exact hvs i v hv
  have hbs : ∀ i v b, Entry s i v b → bs[i]? = some (if NotActivated v then 0 else b) := by
    rintro i v b ⟨hv, hb⟩
    by_cases hi : i ∈ pre_activation_validators s
    · obtain ⟨_, _, _, _, _, h⟩ := a3 i hi
      rw [if_pos ((hpm' i v hv).1 hi)]
      exact h
    · rw [if_neg (fun h => hi ((hpm' i v hv).2 h)), (a4 i hi).2]
      exact hb
  have hcm : ∀ (i : Nat) (v : Validator), s.validators[i]? = some v → (i ∈ compounding_indices { s with validators := vs }
      ↔ Compounding v) := by
    intro i v hv
    rw [mem_compounding]
    constructor
    · rintro ⟨w, hw, h⟩
      have e := Option.some.inj ((hvs i v hv).symm.trans hw)
      exact (hcomp v).1 (e ▸ h)
    · intro h
      exact ⟨_, hvs i v hv, (hcomp v).2 h⟩
  refine ⟨⟨rfl, hvl, b1.trans a2, ?_, ⟨q, q', ?_, ?_, ?_, ?_, ?_⟩, earliest_exit_ok he, hx', rfl, hy',
    rfl, rfl, rfl, rfl⟩, rfl, ?_, ?_⟩
  · rintro i v b hvb
    have hb0 := hbs i v b hvb
    by_cases hi : i ∈ compounding_indices { s with validators := vs }
    · have hc := (hcm i v hvb.1).1 hi
      obtain ⟨b', h1, h2⟩ := b2 i hi
      rw [show bs[i]? = some b' from h1] at hb0
      cases hb0
      refine h2.trans ?_
      unfold excess
      rw [if_pos hc]
      split
      · simp
      · congr 1; omega
    · have hc := fun h => hi ((hcm i v hvb.1).2 h)
      refine (b3 i hi).trans (hb0.trans ?_)
      unfold excess
      rw [if_neg hc]
      split
      · simp
      · rfl
  · rfl
  · have : (q.map (·.index)).Pairwise (Before s) := by rw [a5]; exact hpo
    exact List.pairwise_map.1 this
  · intro d
    constructor
    · intro hd
      have hi : d.index ∈ pre_activation_validators s := by
        show d.index ∈ _
        rw [show pre_activation_validators s = _ from a5.symm]
        exact List.mem_map_of_mem hd
      obtain ⟨v, hv, hP⟩ := (hpm d.index).1 hi
      exact ⟨v, ⟨hv, a6 d hd⟩, hP⟩
    · rintro ⟨v, ⟨hv, hb⟩, hP⟩
      have hi : d.index ∈ q.map (·.index) := by rw [a5]; exact (hpm _).2 ⟨v, hv, hP⟩
      obtain ⟨d', hd', e⟩ := List.mem_map.1 hi
      have := a6 d' hd'
      rw [show d'.index = d.index from e] at this
      have h2 : d'.amount = d.amount := Option.some.inj (this.symm.trans hb)
      have h3 : d' = d := by
        cases d; cases d'
        simp only [PendingBalanceDeposit.mk.injEq]
        exact ⟨e, h2⟩
      exact h3 ▸ hd'
  · have : (q'.map (·.index)).Pairwise (· < ·) := List.Pairwise.sublist b4 (compounding_sorted _)
    exact List.pairwise_map.1 this
  · intro d
    rw [b5]
    constructor
    · rintro ⟨hi, b, hb, hlt, ha⟩
      obtain ⟨w, hw, hc⟩ := mem_compounding.1 hi
      have hw : vs[d.index]? = some w := hw
      have hl : d.index < s.validators.length := by
        have := (List.getElem?_eq_some_iff.1 hw).1
        exact a1 ▸ this
      have hv := List.getElem?_eq_getElem hl
      have hbl : d.index < s.balances.length := by
        have h1 : d.index < bs.length := (List.getElem?_eq_some_iff.1 hb).1
        have h2 : bs.length = s.balances.length := a2
        omega
      have hb' := List.getElem?_eq_getElem hbl
      have hb0 := hbs d.index _ _ ⟨hv, hb'⟩
      have hb0' := hb0.symm.trans hb
      have hna : ¬ NotActivated s.validators[d.index] := by
        intro hna
        rw [if_pos hna] at hb0'
        cases hb0'
        omega
      rw [if_neg hna] at hb0'
      have e := Option.some.inj hb0'
      refine ⟨_, b, ⟨hv, e ▸ hb'⟩, hna, ?_, hlt, ha⟩
      exact (hcm _ _ hv).1 hi
    · rintro ⟨v, b, hvb, hna, hc, hlt, ha⟩
      have hb0 := hbs _ _ _ hvb
      rw [if_neg hna] at hb0
      exact ⟨(hcm _ _ hvb.1).2 hc, b, hb0, hlt, ha⟩
  · simp only [carried, List.forall_mem_cons, List.not_mem_nil, false_imp_iff, implies_true, and_true]
    repeat' constructor
  · show bs'.sum + (((([] ++ q) ++ q') : List PendingBalanceDeposit).map (·.amount)).sum = _
    have c1 : bs'.sum + (q'.map (·.amount)).sum = bs.sum := b6
    have c2 : bs.sum + (q.map (·.amount)).sum = s.balances.sum := a7
    rw [List.nil_append, List.map_append, List.sum_append]
    omega

end Verif
