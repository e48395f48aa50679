import Verif.Spec.Rewards
import Verif.Proofs.EpochLoops
import Verif.Proofs.Committee
import Mathlib.Data.List.Perm.Subperm

/-! # Rewards and penalties -/

namespace Verif

open Spec

/-! ## Loops that add to the entries of lists -/

theorem addAt_eq_ok {xs ys : List Nat} {i d : Nat} (h : addAt xs i d = .ok ys) :
    i < xs.length ∧ ∀ j : Nat, ys[j]? = xs[j]?.map (· + if i = j then d else 0) := by
  simp only [addAt, run] at h
  obtain ⟨x, hx, _, ⟨rfl, -⟩, rfl⟩ := h
  have hlt := (List.getElem?_eq_some_iff.1 hx).1
  refine ⟨hlt, fun j => ?_⟩
  by_cases hij : i = j
  · subst hij
    rw [List.getElem?_set_self hlt, hx, if_pos rfl]; rfl
  · rw [List.getElem?_set_ne hij, if_neg hij]
    simp

/-- If iteration `i` adds `c i j` to entry `j`, then the loop adds the sum. -/
theorem fold_sum {D : Type} {π : D → List Nat} {step : D → Nat → R D} {c : Nat → Nat → Nat}
    {xs : List Nat} {d₀ d : D}
    (hstep : ∀ i ∈ xs, ∀ a b, step a i = .ok b → ∀ j : Nat, (π b)[j]? = (π a)[j]?.map (· + c i j))
    (h : xs.foldlM step d₀ = .ok d) (j : Nat) :
    (π d)[j]? = (π d₀)[j]?.map (· + (xs.map (c · j)).sum) := by
  induction xs generalizing d₀ with
  | nil =>
    simp only [List.foldlM_nil, run] at h
    subst h; simp
  | cons x xs ih =>
    simp only [List.foldlM_cons, run] at h
    obtain ⟨d₁, h1, h2⟩ := h
    rw [ih (fun i hi => hstep i (by simp [hi])) h2, hstep x (by simp) _ _ h1 j, Option.map_map]
    congr 1
    funext y
    simp only [Function.comp_apply, List.map_cons, List.sum_cons]
    omega

theorem sum_single {xs : List Nat} (hn : xs.Nodup) (r : Nat → Nat) (j : Nat) :
    (xs.map fun i => if i = j then r i else 0).sum = if j ∈ xs then r j else 0 := by
  induction xs with
  | nil => rfl
  | cons x xs ih =>
    rw [List.nodup_cons] at hn
    rw [List.map_cons, List.sum_cons, ih hn.2]
    by_cases hx : x = j
    · subst hx
      simp [hn.1]
    · have : j ≠ x := fun h => hx h.symm
      simp [hx, this]

/-- The same for iterations that add to their own entry only. -/
theorem fold_own {D : Type} {π : D → List Nat} {step : D → Nat → R D} {r : Nat → Nat}
    {xs : List Nat} (hn : xs.Nodup) {d₀ d : D}
    (hstep : ∀ i ∈ xs, ∀ a b, step a i = .ok b →
      ∀ j : Nat, (π b)[j]? = (π a)[j]?.map (· + if i = j then r i else 0))
    (h : xs.foldlM step d₀ = .ok d) (j : Nat) :
    (π d)[j]? = (π d₀)[j]?.map (· + if j ∈ xs then r j else 0) := by
  rw [fold_sum hstep h j, sum_single hn]

theorem replicate_zero_map {n j : Nat} (hj : j < n) (x : Nat) :
    (List.replicate n 0)[j]?.map (· + x) = some x := by
  rw [List.getElem?_replicate, if_pos hj]
  simp

theorem map_add_zero (o : Option Nat) : o.map (· + 0) = o := by
  cases o <;> rfl

theorem map_add_ite (o : Option Nat) (i j : Nat) :
    o = o.map (· + if i = j then 0 else 0) := by
  cases o <;> simp

/-! ## Applying deltas -/

theorem apply_deltas_ok {d : Deltas} {s s' : State} (h : apply_deltas d s = .ok () s') :
    ∃ bs, s' = { s with balances := bs } ∧ bs.length = s.balances.length ∧
      ∀ i : Nat, (i < s.validators.length → ∃ b r p, s.balances[i]? = some b ∧
        d.1[i]? = some r ∧ d.2[i]? = some p ∧ bs[i]? = some (b + r - p)) ∧
      (s.validators.length ≤ i → bs[i]? = s.balances[i]?) := by
  simp only [apply_deltas, run] at h
  obtain ⟨bs, h1, h2, h3, h4⟩ := forEach_pointwise (get := State.balances)
    (put := fun s l => { s with balances := l }) (fun _ => rfl)
    (P := fun i o => ∃ b r p, s.balances[i]? = some b ∧
        d.1[i]? = some r ∧ d.2[i]? = some p ∧ o = some (b + r - p))
    List.nodup_range (by
      intro i hi l t' hl hli ht
      simp only [run, increase_balance_eq_ok, decrease_balance_eq_ok] at ht
      obtain ⟨r, hr, t, ⟨b, hb, -, rfl⟩, p, hp, c, hc, rfl⟩ := ht
      have hlt := (List.getElem?_eq_some_iff.1 hb).1
      rw [List.getElem?_set_self hlt] at hc
      cases hc
      refine ⟨_, rfl, by simp, fun j hj => ?_, b, r, p, hli ▸ hb, hr, hp, ?_⟩
      · rw [List.getElem?_set_ne (Ne.symm hj), List.getElem?_set_ne (Ne.symm hj)]
      · rw [List.getElem?_set_self (by simpa using hlt)]) h
  refine ⟨bs, h1, h2, fun i => ⟨fun hi => h3 i (List.mem_range.2 hi), fun hi => h4 i ?_⟩⟩
  rw [List.mem_range]; omega

/-! ## From altair on -/

theorem hasFlag_of_participating {E : Env} {s : State} {j : Nat} {l : List Nat} (hj : j < 8)
    (he : epochOf E s.slot ≠ 0)
    (h : get_unslashed_participating_indices E s j (epochOf E s.slot - 1) = .ok l) :
    l.Nodup ∧ ∀ i, i ∈ l ↔ HasFlag E s j i := by
  obtain ⟨h1, h2⟩ := participating_eq_ok hj h
  refine ⟨h1, fun i => ?_⟩
  rw [h2, if_neg (by omega)]
  rfl

theorem flagBalance_ok {E : Env} {s : State} {j b : Nat} {l : List Nat}
    (hn : l.Nodup) (hl : ∀ i, i ∈ l ↔ HasFlag E s j i)
    (h : get_total_balance E s l = .ok b) : b = flagBalance E s j := by
  obtain ⟨h1, -, rfl⟩ := get_total_balance_eq_ok.1 h
  unfold flagBalance
  congr 1
  refine totalEffective_congr hn (List.nodup_range.filter _) fun i => ?_
  rw [hl, List.mem_filter, decide_eq_true_iff, List.mem_range]
  exact ⟨fun h => ⟨h1 i ((hl i).2 h), h⟩, fun h => h.2⟩

theorem flag_deltas_ok {E : Env} {s : State} {j : Nat} {d : Deltas} (hj : j < 3)
    (he : epochOf E s.slot ≠ 0) (h : get_flag_index_deltas E s j = .ok d) :
    ∀ i, i < s.validators.length → d.1[i]? = some (flagReward E s j i) ∧
      d.2[i]? = some (flagPenalty E s j i) := by
  simp only [get_flag_index_deltas, run, previous_epoch_eq_ok, total_active_eq_ok] at h
  obtain ⟨_, ⟨rfl, -⟩, part, hpart, w, hw, pb, hpb, _, ⟨rfl, -⟩, _, ⟨-, -, rfl⟩, _, ⟨rfl, -⟩, lk, hlk,
    el, hel, h⟩ := h
  obtain ⟨p1, p2⟩ := hasFlag_of_participating (by omega) he hpart
  have hb := flagBalance_ok p1 p2 hpb
  subst hb
  obtain ⟨-, rfl⟩ := leak_ok hlk
  obtain ⟨n1, n2⟩ := eligible_ok hel
  have hwt : w = flagWeight j := by
    rcases (by omega : j = 0 ∨ j = 1 ∨ j = 2) with rfl | rfl | rfl <;> cases hw <;> rfl
  subst hwt
  have hC : ∀ i, i ∈ el ↔ Counts E s i := n2
  have hsteps : ∀ i ∈ el, ∀ a b, flag_delta E s j (flagWeight j) part
      (flagBalance E s j / E.effective_balance_increment)
      (max (totalEffective s (activeIndices s (epochOf E s.slot))) E.effective_balance_increment /
        E.effective_balance_increment) (!decide (Leaking E s)) a i = .ok b →
      (∀ k : Nat, b.1[k]? = a.1[k]?.map (· + if i = k then flagReward E s j i else 0)) ∧
      (∀ k : Nat, b.2[k]? = a.2[k]?.map (· + if i = k then flagPenalty E s j i else 0)) := by
    intro i hi a b hab
    have hci := (hC i).1 hi
    simp only [flag_delta, run] at hab
    obtain ⟨br, hbr, hab⟩ := hab
    rw [base_reward_eq hbr] at hab
    rcases hab with ⟨hc, hab⟩ | ⟨hc, hab⟩
    · have hf : HasFlag E s j i := (p2 i).1 (List.contains_iff_mem.1 hc)
      have hpz : flagPenalty E s j i = 0 := by
        unfold flagPenalty; rw [if_neg (fun h => h.2.1 hf)]
      rcases hab with ⟨hl, _, ⟨rfl, -⟩, _, ⟨rfl, -⟩, _, ⟨rfl, -⟩, _, ⟨rfl, -⟩, hab⟩ | ⟨hl, rfl⟩
      · have hl' : ¬ Leaking E s := by simpa using hl
        simp only [Deltas.reward, run] at hab
        obtain ⟨r, hr, rfl⟩ := hab
        obtain ⟨-, hr⟩ := addAt_eq_ok hr
        refine ⟨fun k => ?_, fun k => ?_⟩
        · rw [hr k]
          have : flagReward E s j i = baseReward E s i * flagWeight j *
              (flagBalance E s j / E.effective_balance_increment) /
              (activeBalance E s / E.effective_balance_increment * 64) := by
            unfold flagReward; rw [if_pos ⟨hci, hf, hl'⟩]
          rw [this]
          rfl
        · rw [hpz]; exact map_add_ite _ _ _
      · have hl' : Leaking E s := by simpa using hl
        have hrz : flagReward E s j i = 0 := by
          unfold flagReward; rw [if_neg (fun h => h.2.2 hl')]
        rw [hpz, hrz]
        exact ⟨fun k => map_add_ite _ _ _, fun k => map_add_ite _ _ _⟩
    · have hf : ¬ HasFlag E s j i := fun h => hc (List.contains_iff_mem.2 ((p2 i).2 h))
      have hrz : flagReward E s j i = 0 := by
        unfold flagReward; rw [if_neg (fun h => hf h.2.1)]
      rw [hrz]
      rcases hab with ⟨hh, _, ⟨rfl, -⟩, _, ⟨rfl, -⟩, hab⟩ | ⟨hh, rfl⟩
      · simp only [Deltas.penalize, run] at hab
        obtain ⟨r, hr, rfl⟩ := hab
        obtain ⟨-, hr⟩ := addAt_eq_ok hr
        refine ⟨fun k => map_add_ite _ _ _, fun k => ?_⟩
        rw [hr k]
        have : flagPenalty E s j i = baseReward E s i * flagWeight j / 64 := by
          unfold flagPenalty; rw [if_pos ⟨hci, hf, hh⟩]
        rw [this]
        rfl
      · have hpz : flagPenalty E s j i = 0 := by
          unfold flagPenalty
          rw [if_neg (fun h => ?_)]
          exact hh h.2.2
        rw [hpz]
        exact ⟨fun k => map_add_ite _ _ _, fun k => map_add_ite _ _ _⟩
  intro i hi
  have r1 := fold_own (π := fun d : Deltas => d.1) n1 (fun i hi a b hab => (hsteps i hi a b hab).1) h i
  have r2 := fold_own (π := fun d : Deltas => d.2) n1 (fun i hi a b hab => (hsteps i hi a b hab).2) h i
  simp only [zeroDeltas] at r1 r2
  rw [replicate_zero_map hi] at r1 r2
  rw [r1, r2]
  constructor
  · congr 1
    split
    · rfl
    · rename_i hn
      unfold flagReward
      rw [if_neg (fun h => hn ((hC i).2 h.1))]
  · congr 1
    split
    · rfl
    · rename_i hn
      unfold flagPenalty
      rw [if_neg (fun h => hn ((hC i).2 h.1))]

theorem score_deltas_ok {E : Env} {f : Fork} {s : State} {d : Deltas}
    (he : epochOf E s.slot ≠ 0) (h : get_inactivity_penalty_deltas E f s = .ok d) :
    ∀ i, i < s.validators.length → d.1[i]? = some 0 ∧ d.2[i]? = some (scorePenalty E f s i) := by
  simp only [get_inactivity_penalty_deltas, run, previous_epoch_eq_ok] at h
  obtain ⟨_, ⟨rfl, -⟩, part, hpart, el, hel, h⟩ := h
  obtain ⟨p1, p2⟩ := hasFlag_of_participating (by decide) he hpart
  obtain ⟨n1, n2⟩ := eligible_ok hel
  have hC : ∀ i, i ∈ el ↔ Counts E s i := n2
  have hsteps : ∀ i ∈ el, ∀ a b, inactivity_delta E f s part a i = .ok b →
      (∀ k : Nat, b.1[k]? = a.1[k]?.map (· + if i = k then 0 else 0)) ∧
      (∀ k : Nat, b.2[k]? = a.2[k]?.map (· + if i = k then scorePenalty E f s i else 0)) := by
    intro i hi a b hab
    have hci := (hC i).1 hi
    simp only [inactivity_delta, run] at hab
    rcases hab with ⟨hc, rfl⟩ | ⟨hc, v, hv, sc, hsc, _, ⟨rfl, -⟩, _, ⟨rfl, -⟩, _, ⟨rfl, -⟩, hab⟩
    · have hf : HasFlag E s 1 i := (p2 i).1 (List.contains_iff_mem.1 hc)
      have hpz : scorePenalty E f s i = 0 := by
        unfold scorePenalty; rw [if_neg (fun h => h.2 hf)]
      rw [hpz]
      exact ⟨fun k => map_add_ite _ _ _, fun k => map_add_ite _ _ _⟩
    · have hf : ¬ HasFlag E s 1 i := fun h => hc (List.contains_iff_mem.2 ((p2 i).2 h))
      simp only [Deltas.penalize, run] at hab
      obtain ⟨r, hr, rfl⟩ := hab
      obtain ⟨-, hr⟩ := addAt_eq_ok hr
      refine ⟨fun k => map_add_ite _ _ _, fun k => ?_⟩
      rw [hr k]
      have hq : inactivity_penalty_quotient_of E f = inactivityQuotient E f := by cases f <;> rfl
      have : scorePenalty E f s i = v.effective_balance * sc /
          (E.inactivity_score_bias * inactivity_penalty_quotient_of E f) := by
        unfold scorePenalty
        rw [if_pos ⟨hci, hf⟩, hq, effectiveBalance, hv, List.getD_eq_getElem?_getD, hsc]
        rfl
      rw [this]
  intro i hi
  have r1 := fold_own (π := fun d : Deltas => d.1) n1 (fun i hi a b hab => (hsteps i hi a b hab).1) h i
  have r2 := fold_own (π := fun d : Deltas => d.2) n1 (fun i hi a b hab => (hsteps i hi a b hab).2) h i
  simp only [zeroDeltas] at r1 r2
  rw [replicate_zero_map hi] at r1 r2
  rw [r1, r2]
  constructor
  · simp
  · congr 1
    split
    · rfl
    · rename_i hn
      unfold scorePenalty
      rw [if_neg (fun h => hn ((hC i).2 h.1))]

theorem altair_rewards_ok {E : Env} {f : Fork} (hf : f ≠ .Phase0) {s s' : State}
    (h : process_rewards_and_penalties E f s = .ok () s') :
    epochOf E s.slot = 0 ∧ s' = s ∨ epochOf E s.slot ≠ 0 ∧
    ∃ bs, s' = { s with balances := bs } ∧ bs.length = s.balances.length ∧
      ∀ i : Nat, (i < s.validators.length → ∃ b, s.balances[i]? = some b ∧
        bs[i]? = some (settled E f s i b)) ∧
      (s.validators.length ≤ i → bs[i]? = s.balances[i]?) := by
  unfold process_rewards_and_penalties at h
  simp only [run, current_epoch_eq_ok] at h
  obtain ⟨_, ⟨rfl, -⟩, h⟩ := h
  rcases h with ⟨h1, -, rfl⟩ | ⟨he, h⟩
  · exact Or.inl ⟨h1, rfl⟩
  · right
    have he : epochOf E s.slot ≠ 0 := he
    refine ⟨he, ?_⟩
    have h' : ∃ a b c d, get_flag_index_deltas E s 0 = .ok a ∧ get_flag_index_deltas E s 1 = .ok b ∧
        get_flag_index_deltas E s 2 = .ok c ∧ get_inactivity_penalty_deltas E f s = .ok d ∧
        forEach [a, b, c, d] apply_deltas s = .ok () s' := by
      cases f
      case Phase0 => exact absurd rfl hf
      all_goals
        obtain ⟨a, ha, b, hb, c, hc, d, hd, h⟩ := h
        exact ⟨a, b, c, d, ha, hb, hc, hd, h⟩
    obtain ⟨a, b, c, d, ha, hb, hc, hd, h⟩ := h'
    simp only [forEach, run] at h
    obtain ⟨s1, h1, s2, h2, s3, h3, s4, h4, -, rfl⟩ := h
    have ka := flag_deltas_ok (by decide) he ha
    have kb := flag_deltas_ok (by decide) he hb
    have kc := flag_deltas_ok (by decide) he hc
    have kd := score_deltas_ok he hd
    obtain ⟨b1, rfl, l1, q1⟩ := apply_deltas_ok h1
    obtain ⟨b2, rfl, l2, q2⟩ := apply_deltas_ok h2
    obtain ⟨b3, rfl, l3, q3⟩ := apply_deltas_ok h3
    obtain ⟨b4, rfl, l4, q4⟩ := apply_deltas_ok h4
    dsimp only at *
    refine ⟨b4, rfl, by omega, fun i => ⟨fun hi => ?_, fun hi => ?_⟩⟩
    · obtain ⟨x1, r1, p1, e1, f1, g1, o1⟩ := (q1 i).1 hi
      obtain ⟨x2, r2, p2, e2, f2, g2, o2⟩ := (q2 i).1 hi
      obtain ⟨x3, r3, p3, e3, f3, g3, o3⟩ := (q3 i).1 hi
      obtain ⟨x4, r4, p4, e4, f4, g4, o4⟩ := (q4 i).1 hi
      rw [(ka i hi).1] at f1; rw [(ka i hi).2] at g1
      rw [(kb i hi).1] at f2; rw [(kb i hi).2] at g2
      rw [(kc i hi).1] at f3; rw [(kc i hi).2] at g3
      rw [(kd i hi).1] at f4; rw [(kd i hi).2] at g4
      cases f1; cases f2; cases f3; cases f4; cases g1; cases g2; cases g3; cases g4
      rw [o1] at e2; cases e2
      rw [o2] at e3; cases e3
      rw [o3] at e4; cases e4
      exact ⟨x1, e1, o4⟩
    · rw [(q4 i).2 hi, (q3 i).2 hi, (q2 i).2 hi, (q1 i).2 hi]

/-! ## Phase0 -/

theorem quarter_eq {E : Env} {s : State} {i r : Nat} (hE : E.effective_balance_increment < U64_BOUND)
    (h : Phase0.get_base_reward E s i = .ok r) : r = quarterReward E s i := by
  simp only [Phase0.get_base_reward, run, total_active_eq_ok] at h
  obtain ⟨_, ⟨-, h1, rfl⟩, v, hv, _, ⟨rfl, -⟩, _, ⟨rfl, -⟩, rfl, -⟩ := h
  rw [isqrt_eq (by have := U64_BOUND_eq; omega)]
  simp only [quarterReward, effectiveBalance, hv, activeBalance, BASE_REWARDS_PER_EPOCH]

theorem proposer_part_eq {E : Env} {s : State} {i r : Nat}
    (hE : E.effective_balance_increment < U64_BOUND)
    (h : Phase0.get_proposer_reward E s i = .ok r) : r = proposerPart E s i := by
  simp only [Phase0.get_proposer_reward, run] at h
  obtain ⟨b, hb, rfl, -⟩ := h
  rw [quarter_eq hE hb]; rfl

theorem did_of_attesters {E : Env} {s : State} {d : Duty} {l : List PendingAttestation}
    {r : List Nat}
    (hl : ∀ a, a ∈ l ↔ a ∈ s.previous_epoch_attestations ∧ Fulfils E s d a)
    (h : Phase0.get_unslashed_attesting_indices E s l = .ok r) :
    r.Nodup ∧ ∀ i, i ∈ r ↔ Did E s d i := by
  obtain ⟨h1, h2⟩ := unslashed_attesting_eq_ok h
  refine ⟨h1, fun i => ?_⟩
  rw [h2]
  unfold Did
  simp only [hl, and_assoc]

theorem mem_doers {E : Env} {s : State} {d : Duty} {i : Nat} : i ∈ doers E s d ↔ Did E s d i := by
  simp only [doers, List.mem_filter, decide_eq_true_eq, List.mem_range]
  refine ⟨fun h => h.2, fun h => ⟨?_, h⟩⟩
  obtain ⟨⟨v, hv, -⟩, -⟩ := h
  exact (List.getElem?_eq_some_iff.1 hv).1

theorem doers_nodup {E : Env} {s : State} {d : Duty} : (doers E s d).Nodup :=
  List.nodup_range.filter _

theorem component_ok {E : Env} {s : State} {d : Duty} {l : List PendingAttestation} {δ : Deltas}
    (hE : E.effective_balance_increment < U64_BOUND)
    (hl : ∀ a, a ∈ l ↔ a ∈ s.previous_epoch_attestations ∧ Fulfils E s d a)
    (h : Phase0.get_attestation_component_deltas E s l = .ok δ) :
    ∀ i, i < s.validators.length → δ.1[i]? = some (dutyReward E s d i) ∧
      δ.2[i]? = some (dutyPenalty E s d i) := by
  simp only [Phase0.get_attestation_component_deltas, run, total_active_eq_ok] at h
  obtain ⟨_, ⟨-, -, rfl⟩, att, hatt, ab, hab, el, hel, h⟩ := h
  obtain ⟨a1, a2⟩ := did_of_attesters hl hatt
  have hb : ab = dutyBalance E s d := by
    obtain ⟨-, -, rfl⟩ := get_total_balance_eq_ok.1 hab
    unfold dutyBalance
    congr 1
    exact totalEffective_congr a1 doers_nodup fun i => by rw [a2, mem_doers]
  subst hb
  obtain ⟨n1, n2⟩ := eligible_ok hel
  have hC : ∀ i, i ∈ el ↔ Counts E s i := n2
  have hsteps : ∀ i ∈ el, ∀ a b, Phase0.component_delta E s att
      (max (totalEffective s (activeIndices s (epochOf E s.slot))) E.effective_balance_increment)
      (dutyBalance E s d) a i = .ok b →
      (∀ k : Nat, b.1[k]? = a.1[k]?.map (· + if i = k then dutyReward E s d i else 0)) ∧
      (∀ k : Nat, b.2[k]? = a.2[k]?.map (· + if i = k then dutyPenalty E s d i else 0)) := by
    intro i hi a b hab
    have hci := (hC i).1 hi
    simp only [Phase0.component_delta, run] at hab
    rcases hab with ⟨hc, lk, hlk, hab⟩ | ⟨hc, q, hq, hab⟩
    · have hf : Did E s d i := (a2 i).1 (List.contains_iff_mem.1 hc)
      have hpz : dutyPenalty E s d i = 0 := by
        unfold dutyPenalty; rw [if_neg (fun h => h.2 hf)]
      obtain ⟨-, rfl⟩ := leak_ok hlk
      rw [hpz]
      rcases hab with ⟨hk, q, hq, hab⟩ | ⟨hk, q, hq, _, ⟨rfl, -⟩, _, ⟨rfl, -⟩, _, ⟨rfl, -⟩, _, ⟨rfl, -⟩,
        hab⟩
      · have hk : Leaking E s := by simpa using hk
        simp only [Deltas.reward, run] at hab
        obtain ⟨r, hr, rfl⟩ := hab
        obtain ⟨-, hr⟩ := addAt_eq_ok hr
        refine ⟨fun k => ?_, fun k => map_add_ite _ _ _⟩
        have : dutyReward E s d i = quarterReward E s i := by
          unfold dutyReward
          rw [if_pos ⟨hci, hf⟩, if_pos hk]
        rw [hr k, quarter_eq hE hq, this]
      · have hk : ¬ Leaking E s := by simpa using hk
        simp only [Deltas.reward, run] at hab
        obtain ⟨r, hr, rfl⟩ := hab
        obtain ⟨-, hr⟩ := addAt_eq_ok hr
        refine ⟨fun k => ?_, fun k => map_add_ite _ _ _⟩
        have : dutyReward E s d i = quarterReward E s i *
            (dutyBalance E s d / E.effective_balance_increment) /
            (activeBalance E s / E.effective_balance_increment) := by
          unfold dutyReward
          rw [if_pos ⟨hci, hf⟩, if_neg hk]
        rw [hr k, quarter_eq hE hq, this]
        rfl
    · have hf : ¬ Did E s d i := fun h => hc (List.contains_iff_mem.2 ((a2 i).2 h))
      have hrz : dutyReward E s d i = 0 := by
        unfold dutyReward; rw [if_neg (fun h => hf h.2)]
      rw [hrz]
      simp only [Deltas.penalize, run] at hab
      obtain ⟨r, hr, rfl⟩ := hab
      obtain ⟨-, hr⟩ := addAt_eq_ok hr
      refine ⟨fun k => map_add_ite _ _ _, fun k => ?_⟩
      have : dutyPenalty E s d i = quarterReward E s i := by
        unfold dutyPenalty
        rw [if_pos ⟨hci, hf⟩]
      rw [hr k, quarter_eq hE hq, this]
  intro i hi
  have r1 := fold_own (π := fun d : Deltas => d.1) n1 (fun i hi a b hab => (hsteps i hi a b hab).1) h i
  have r2 := fold_own (π := fun d : Deltas => d.2) n1 (fun i hi a b hab => (hsteps i hi a b hab).2) h i
  simp only [zeroDeltas] at r1 r2
  rw [replicate_zero_map hi] at r1 r2
  rw [r1, r2]
  constructor
  · congr 1
    split
    · rfl
    · rename_i hn
      unfold dutyReward
      rw [if_neg (fun h => hn ((hC i).2 h.1))]
  · congr 1
    split
    · rfl
    · rename_i hn
      unfold dutyPenalty
      rw [if_neg (fun h => hn ((hC i).2 h.1))]

theorem source_attestations {E : Env} {s : State} {l : List PendingAttestation}
    (he : epochOf E s.slot ≠ 0)
    (h : Phase0.get_matching_source_attestations E s (epochOf E s.slot - 1) = .ok l) :
    l = s.previous_epoch_attestations := by
  rw [matching_source_eq_ok h, if_neg (by omega)]

theorem target_attestations {E : Env} {s : State} {l : List PendingAttestation}
    (he : epochOf E s.slot ≠ 0)
    (h : Phase0.get_matching_target_attestations E s (epochOf E s.slot - 1) = .ok l) :
    ∀ a, a ∈ l ↔ a ∈ s.previous_epoch_attestations ∧ Fulfils E s .target a := by
  intro a
  rw [matching_target_eq_ok h, if_neg (by omega)]
  rfl

open Classical in
theorem head_attestations {E : Env} {s : State} {l : List PendingAttestation}
    (he : epochOf E s.slot ≠ 0)
    (h : Phase0.get_matching_head_attestations E s (epochOf E s.slot - 1) = .ok l) :
    ∀ a, a ∈ l ↔ a ∈ s.previous_epoch_attestations ∧ Fulfils E s .head a := by
  intro a
  simp only [Phase0.get_matching_head_attestations, run] at h
  obtain ⟨t, ht, h⟩ := h
  have := filterM_eq_ok (p := fun a => decide
    (get_block_root_at_slot E s a.data.slot = .ok a.data.beacon_block_root)) (by
      intro a _ b hb
      simp only [run] at hb
      obtain ⟨r, hr, rfl⟩ := hb
      simp only [hr, Except.ok.injEq, eq_comm]) h
  rw [this, List.mem_filter, target_attestations he ht, decide_eq_true_iff, and_assoc]
  rfl

/-! ### Inclusion -/

theorem earliest_ok {l : List PendingAttestation} {a : PendingAttestation}
    (h : Phase0.earliest l = .ok a) : ∃ p q, l = p ++ a :: q ∧
      (∀ x ∈ p, a.inclusion_delay < x.inclusion_delay) ∧
      ∀ x ∈ q, a.inclusion_delay ≤ x.inclusion_delay := by
  cases l with
  | nil => cases h
  | cons x rest =>
    simp only [Phase0.earliest, Except.ok.injEq] at h
    subst h
    -- the accumulator is the first minimal element of what was read
    have : ∀ (rest : List PendingAttestation) (m : PendingAttestation)
        (p q : List PendingAttestation),
        (∀ x ∈ p, m.inclusion_delay < x.inclusion_delay) →
        (∀ x ∈ q, m.inclusion_delay ≤ x.inclusion_delay) →
        ∃ p' q', p ++ m :: q ++ rest = p' ++ (rest.foldl (fun m b =>
            if b.inclusion_delay < m.inclusion_delay then b else m) m) :: q' ∧
          (∀ x ∈ p', (rest.foldl (fun m b =>
            if b.inclusion_delay < m.inclusion_delay then b else m) m).inclusion_delay <
              x.inclusion_delay) ∧
          ∀ x ∈ q', (rest.foldl (fun m b =>
            if b.inclusion_delay < m.inclusion_delay then b else m) m).inclusion_delay ≤
              x.inclusion_delay := by
      intro rest
      induction rest with
      | nil => intro m p q h1 h2; exact ⟨p, q, by simp, h1, h2⟩
      | cons y rest ih =>
        intro m p q h1 h2
        rw [List.foldl_cons]
        by_cases hy : y.inclusion_delay < m.inclusion_delay
        · rw [if_pos hy]
          obtain ⟨p', q', e, h3⟩ := ih y (p ++ m :: q) [] (by
            intro x hx
            rcases List.mem_append.1 hx with hx | hx
            · have := h1 x hx; omega
            · rcases List.mem_cons.1 hx with rfl | hx
              · exact hy
              · have := h2 x hx; omega) (by simp)
          exact ⟨p', q', by rw [← e]; simp, h3⟩
        · rw [if_neg hy]
          obtain ⟨p', q', e, h3⟩ := ih m p (q ++ [y]) h1 (by
            intro x hx
            rcases List.mem_append.1 hx with hx | hx
            · exact h2 x hx
            · rw [List.mem_singleton] at hx
              subst hx; omega)
          exact ⟨p', q', by rw [← e]; simp, h3⟩
    simpa using this rest x [] [] (by simp) (by simp)

open Classical in
/-- The attestation by which validator `i` was included first. -/
noncomputable def firstOf (E : Env) (s : State) (i : Nat) : PendingAttestation :=
  if h : ∃ a, IncludedFirst E s i a then h.choose
  else ⟨[], ⟨0, 0, zeroBytes 32, ⟨0, zeroBytes 32⟩, ⟨0, zeroBytes 32⟩⟩, 0, 0⟩

theorem includedFirst_unique {E : Env} {s : State} {i : Nat} {a b : PendingAttestation}
    (ha : IncludedFirst E s i a) (hb : IncludedFirst E s i b) : a = b := by
  obtain ⟨k, h1, h2, h3⟩ := ha
  obtain ⟨m, g1, g2, g3⟩ := hb
  have e1 := h3 m b g1 g2
  have e2 := g3 k a h1 h2
  have : k = m := by omega
  subst this
  rw [h1] at g1
  exact Option.some.inj g1

theorem firstOf_eq {E : Env} {s : State} {i : Nat} {a : PendingAttestation}
    (ha : IncludedFirst E s i a) : firstOf E s i = a := by
  have h : ∃ a, IncludedFirst E s i a := ⟨a, ha⟩
  unfold firstOf
  rw [dif_pos h]
  exact includedFirst_unique h.choose_spec ha

open Classical in
theorem included_first_ok {E : Env} {s : State} {i : Nat} {l : List PendingAttestation}
    {a : PendingAttestation}
    (h1 : (s.previous_epoch_attestations.filterM fun a => do
      let indices ← get_attesting_indices E s a.data a.aggregation_bits
      return indices.contains i : R (List PendingAttestation)) = .ok l)
    (h2 : Phase0.earliest l = .ok a) : IncludedFirst E s i a := by
  have hl := filterM_eq_ok (p := fun a => decide (Attested E s a i)) (by
      intro a _ b hb
      simp only [run] at hb
      obtain ⟨r, hr, rfl⟩ := hb
      simp only [← attested_of_ok hr, List.contains_eq_mem]) h1
  obtain ⟨p, q, e, h3, h4⟩ := earliest_ok h2
  rw [hl, List.filter_eq_append_iff] at e
  obtain ⟨l₁, l₂, e1, e2, e3⟩ := e
  rw [List.filter_eq_cons_iff] at e3
  obtain ⟨m₁, m₂, e4, e5, e6, e7⟩ := e3
  subst e4
  have hsplit : s.previous_epoch_attestations = (l₁ ++ m₁) ++ a :: m₂ := by rw [e1]; simp
  refine ⟨(l₁ ++ m₁).length, ?_, by simpa using e6, fun k' a' hk' ha' => ?_⟩
  · rw [hsplit, List.getElem?_append_right (Nat.le_refl _)]; simp
  · rw [hsplit] at hk'
    by_cases hlt : k' < (l₁ ++ m₁).length
    · rw [List.getElem?_append_left hlt] at hk'
      have hm := List.mem_of_getElem? hk'
      rcases List.mem_append.1 hm with hm | hm
      · left
        exact h3 a' (by rw [← e2, List.mem_filter]; exact ⟨hm, by simpa using ha'⟩)
      · exact absurd (by simpa using ha') (e5 a' hm)
    · rw [List.getElem?_append_right (by omega)] at hk'
      have hm := List.mem_of_getElem? hk'
      have : a.inclusion_delay ≤ a'.inclusion_delay := by
        rcases List.mem_cons.1 hm with rfl | hm
        · exact Nat.le_refl _
        · exact h4 a' (by rw [← e7, List.mem_filter]; exact ⟨hm, by simpa using ha'⟩)
      omega

theorem foldlM_each {D : Type} {step : D → Nat → R D} {xs : List Nat} {d₀ d : D}
    (h : xs.foldlM step d₀ = .ok d) : ∀ i ∈ xs, ∃ a b, step a i = .ok b := by
  induction xs generalizing d₀ with
  | nil => simp
  | cons x xs ih =>
    simp only [List.foldlM_cons, run] at h
    obtain ⟨d₁, h1, h2⟩ := h
    intro i hi
    rcases List.mem_cons.1 hi with rfl | hi
    · exact ⟨_, _, h1⟩
    · exact ih h2 i hi

theorem sum_map_add' {xs : List Nat} (g k : Nat → Nat) :
    (xs.map fun i => g i + k i).sum = (xs.map g).sum + (xs.map k).sum := by
  induction xs with
  | nil => rfl
  | cons x xs ih => simp only [List.map_cons, List.sum_cons, ih]; omega

theorem sum_map_if {xs : List Nat} (p : Nat → Prop) [DecidablePred p] (g : Nat → Nat) :
    (xs.map fun i => if p i then g i else 0).sum = ((xs.filter fun i => p i).map g).sum := by
  induction xs with
  | nil => rfl
  | cons x xs ih =>
    simp only [List.map_cons, List.sum_cons, ih, List.filter_cons]
    by_cases hp : p x <;> simp [hp]

theorem inclusion_ok {E : Env} {s : State} {δ : List Nat}
    (hE : E.effective_balance_increment < U64_BOUND) (he : epochOf E s.slot ≠ 0)
    (h : Phase0.get_inclusion_delay_deltas E s = .ok δ) :
    (∀ i, Did E s .source i → IncludedFirst E s i (firstOf E s i)) ∧
    ∀ i, i < s.validators.length → δ[i]? =
      some (delayReward E s (firstOf E s) i + includerReward E s (firstOf E s) i) := by
  simp only [Phase0.get_inclusion_delay_deltas, run, previous_epoch_eq_ok] at h
  obtain ⟨_, ⟨rfl, -⟩, src, hsrc, att, hatt, h⟩ := h
  have hsrc := source_attestations he hsrc
  subst hsrc
  obtain ⟨a1, a2⟩ := did_of_attesters (d := .source) (by intro a; simp [Fulfils]) hatt
  have hstep : ∀ i a b, Phase0.inclusion_delta E s s.previous_epoch_attestations a i = .ok b →
      IncludedFirst E s i (firstOf E s i) ∧ ∀ j : Nat, b[j]? = a[j]?.map
        (· + ((if (firstOf E s i).proposer_index = j then proposerPart E s i else 0) +
          (if i = j then (quarterReward E s i - proposerPart E s i) /
            (firstOf E s i).inclusion_delay else 0))) := by
    intro i a b hab
    simp only [Phase0.inclusion_delta, run] at hab
    obtain ⟨l, hl, m, hm, p, hp, r1, hr1, q, hq, _, ⟨rfl, -⟩, _, ⟨rfl, -⟩, hab⟩ := hab
    have hfirst := included_first_ok hl hm
    rw [firstOf_eq hfirst]
    refine ⟨hfirst, fun j => ?_⟩
    rw [(addAt_eq_ok hab).2 j, (addAt_eq_ok hr1).2 j, Option.map_map, proposer_part_eq hE hp,
      quarter_eq hE hq]
    congr 1
    funext y
    simp only [Function.comp_apply]
    omega
  constructor
  · intro i hi
    obtain ⟨a, b, hab⟩ := foldlM_each h i ((a2 i).2 hi)
    exact (hstep i a b hab).1
  · intro i hi
    have r1 := fold_sum (π := id) (fun i _ a b hab => (hstep i a b hab).2) h i
    simp only [id] at r1
    rw [replicate_zero_map hi, sum_map_add', sum_single a1, sum_map_if] at r1
    rw [r1]
    congr 1
    rw [Nat.add_comm]
    congr 1
    · unfold delayReward
      by_cases hd : Did E s .source i
      · rw [if_pos ((a2 i).2 hd), if_pos hd]
      · rw [if_neg (fun h => hd ((a2 i).1 h)), if_neg hd]
    · unfold includerReward
      have hp : att.Perm (doers E s .source) :=
        (List.perm_ext_iff_of_nodup a1 doers_nodup).2 fun i => by rw [a2, mem_doers]
      exact ((hp.filter _).map _).sum_nat

theorem overdue_ok {E : Env} {s : State} {δ : List Nat}
    (hE : E.effective_balance_increment < U64_BOUND) (he : epochOf E s.slot ≠ 0)
    (h : Phase0.get_inactivity_penalty_deltas E s = .ok δ) :
    ∀ i, i < s.validators.length → δ[i]? = some (overduePenalty E s i) := by
  simp only [Phase0.get_inactivity_penalty_deltas, run, previous_epoch_eq_ok] at h
  obtain ⟨_, ⟨rfl, -⟩, lk, hlk, h⟩ := h
  obtain ⟨-, rfl⟩ := leak_ok hlk
  intro i hi
  rcases h with ⟨hk, tgt, htgt, att, hatt, el, hel, h⟩ | ⟨hk, rfl⟩
  · have hk : Leaking E s := by simpa using hk
    obtain ⟨a1, a2⟩ := did_of_attesters (target_attestations he htgt) hatt
    obtain ⟨n1, n2⟩ := eligible_ok hel
    have hC : ∀ i, i ∈ el ↔ Counts E s i := n2
    have hstep : ∀ i ∈ el, ∀ a b, Phase0.inactivity_delta E s att a i = .ok b →
        ∀ j : Nat, b[j]? = a[j]?.map (· + if i = j then overduePenalty E s i else 0) := by
      intro i hi a b hab j
      have hci := (hC i).1 hi
      simp only [Phase0.inactivity_delta, get_finality_delay, run, previous_epoch_eq_ok] at hab
      obtain ⟨q, hq, _, ⟨rfl, -⟩, p, hp, _, ⟨rfl, -⟩, pen, hpen, hab⟩ := hab
      have hpen := (addAt_eq_ok hpen).2 j
      rw [quarter_eq hE hq, proposer_part_eq hE hp] at hpen
      rcases hab with ⟨hc, rfl⟩ | ⟨hc, v, hv, _, ⟨_, ⟨rfl, -⟩, rfl, -⟩, _, ⟨rfl, -⟩, _, ⟨rfl, -⟩, hab⟩
      · have hd : Did E s .target i := (a2 i).1 (List.contains_iff_mem.1 hc)
        have : overduePenalty E s i = 4 * quarterReward E s i - proposerPart E s i := by
          unfold overduePenalty
          rw [if_pos ⟨hk, hci⟩, if_pos hd, Nat.add_zero]
        rw [hpen, this]
        rfl
      · have hd : ¬ Did E s .target i := fun h => hc (List.contains_iff_mem.2 ((a2 i).2 h))
        have : overduePenalty E s i = 4 * quarterReward E s i - proposerPart E s i +
            effectiveBalance s i * (previousEpoch E s - s.finalized_checkpoint.epoch) /
              E.inactivity_penalty_quotient := by
          unfold overduePenalty
          rw [if_pos ⟨hk, hci⟩, if_neg hd]
        rw [this, (addAt_eq_ok hab).2 j, hpen, Option.map_map]
        congr 1
        funext y
        simp only [Function.comp_apply, effectiveBalance, hv, previousEpoch, BASE_REWARDS_PER_EPOCH]
        split <;> omega
    have r1 := fold_own (π := id) n1 hstep h i
    simp only [id] at r1
    rw [replicate_zero_map hi] at r1
    rw [r1]
    congr 1
    split
    · rfl
    · rename_i hn
      unfold overduePenalty
      rw [if_neg (fun h => hn ((hC i).2 h.2))]
  · have hk : ¬ Leaking E s := by simpa using hk
    rw [List.getElem?_replicate, if_pos hi]
    unfold overduePenalty
    rw [if_neg (fun h => hk h.1)]

theorem mapM_entry {α β : Type} {f : α → R β} {l : List α} {r : List β} (h : l.mapM f = .ok r) :
    ∀ (i : Nat) a, l[i]? = some a → ∃ b, r[i]? = some b ∧ f a = .ok b := by
  induction l generalizing r with
  | nil => intro i a ha; simp at ha
  | cons x xs ih =>
    simp only [List.mapM_cons, run] at h
    obtain ⟨y, hy, ys, hys, rfl⟩ := h
    intro i a ha
    cases i with
    | zero => simp only [List.getElem?_cons_zero, Option.some.injEq] at ha; subst ha; exact ⟨y, rfl, hy⟩
    | succ i =>
      rw [List.getElem?_cons_succ] at ha
      obtain ⟨b, h1, h2⟩ := ih hys i a ha
      exact ⟨b, h1, h2⟩

theorem mapM_entry_length {α β : Type} {f : α → R β} {l : List α} {r : List β}
    (h : l.mapM f = .ok r) : r.length = l.length := by
  induction l generalizing r with
  | nil => cases h; rfl
  | cons x xs ih =>
    simp only [List.mapM_cons, run] at h
    obtain ⟨y, hy, ys, hys, rfl⟩ := h
    rw [List.length_cons, List.length_cons, ih hys]

theorem sum4_ok {n : Nat} {a b c d r : List Nat} (h : Phase0.sum4 n a b c d = .ok r) {i w x y z : Nat}
    (hi : i < n) (hw : a[i]? = some w) (hx : b[i]? = some x) (hy : c[i]? = some y)
    (hz : d[i]? = some z) : r[i]? = some (w + x + y + z) := by
  obtain ⟨t, h1, h2⟩ := mapM_entry h i i (by rw [List.getElem?_range hi])
  simp only [run] at h2
  obtain ⟨w', hw', x', hx', _, ⟨rfl, -⟩, y', hy', _, ⟨rfl, -⟩, z', hz', rfl, -⟩ := h2
  rw [hw] at hw'; rw [hx] at hx'; rw [hy] at hy'; rw [hz] at hz'
  cases hw'; cases hx'; cases hy'; cases hz'
  exact h1

theorem phase0_rewards_ok {E : Env} {s s' : State}
    (hE : E.effective_balance_increment < U64_BOUND)
    (h : process_rewards_and_penalties E .Phase0 s = .ok () s') :
    epochOf E s.slot = 0 ∧ s' = s ∨ epochOf E s.slot ≠ 0 ∧
    (∀ i, Did E s .source i → IncludedFirst E s i (firstOf E s i)) ∧
    ∃ bs, s' = { s with balances := bs } ∧ bs.length = s.balances.length ∧
      ∀ i : Nat, (i < s.validators.length → ∃ b, s.balances[i]? = some b ∧
        bs[i]? = some (b + allRewards E s (firstOf E s) i - allPenalties E s i)) ∧
      (s.validators.length ≤ i → bs[i]? = s.balances[i]?) := by
  unfold process_rewards_and_penalties at h
  simp only [run, current_epoch_eq_ok] at h
  obtain ⟨_, ⟨rfl, -⟩, h⟩ := h
  rcases h with ⟨h1, -, rfl⟩ | ⟨he, d, hd, h⟩
  · exact Or.inl ⟨h1, rfl⟩
  · right
    have he : epochOf E s.slot ≠ 0 := he
    simp only [Phase0.get_attestation_deltas, Phase0.get_source_deltas, Phase0.get_target_deltas,
      Phase0.get_head_deltas, run, previous_epoch_eq_ok] at hd
    obtain ⟨src, ⟨_, ⟨rfl, -⟩, la, hla, hsrc⟩, tgt, ⟨_, ⟨rfl, -⟩, lb, hlb, htgt⟩, hd, ⟨_, ⟨rfl, -⟩, lc,
      hlc, hhd⟩, inc, hinc, ina, hina, rs, hrs, ps, hps, rfl⟩ := hd
    have hla := source_attestations he hla
    subst hla
    have k1 := component_ok (d := .source) hE (by intro a; simp [Fulfils]) hsrc
    have k2 := component_ok hE (target_attestations he hlb) htgt
    have k3 := component_ok hE (head_attestations he hlc) hhd
    obtain ⟨hfirst, k4⟩ := inclusion_ok hE he hinc
    have k5 := overdue_ok hE he hina
    obtain ⟨bs, h1, h2, h3⟩ := apply_deltas_ok h
    refine ⟨he, hfirst, bs, h1, h2, fun i => ⟨fun hi => ?_, (h3 i).2⟩⟩
    obtain ⟨b, r, p, e1, e2, e3, e4⟩ := (h3 i).1 hi
    have o1 := sum4_ok hrs hi (k1 i hi).1 (k2 i hi).1 (k3 i hi).1 (k4 i hi)
    have o2 := sum4_ok hps hi (k1 i hi).2 (k2 i hi).2 (k3 i hi).2 (k5 i hi)
    rw [o1] at e2; rw [o2] at e3
    cases e2; cases e3
    exact ⟨b, e1, e4⟩

/-! ## Bounds -/

theorem committee_active {E : Env} {s : State} {slot index i : Nat} {c : List Nat}
    (hr : 0 < E.shuffle_round_count) (hn : s.validators.length ≤ 2 ^ 40)
    (h : get_beacon_committee E s slot index = .ok c) (hi : i ∈ c) :
    ∃ v, s.validators[i]? = some v ∧ ActiveAt v (epochOf E slot) := by
  simp only [get_beacon_committee, compute_epoch_at_slot, compute_committee, run] at h
  obtain ⟨_, ⟨rfl, -⟩, n, hcount, seed, -, _, ⟨rfl, -⟩, _, ⟨rfl, -⟩, _, ⟨rfl, -⟩, _, ⟨rfl, -⟩, _, ⟨rfl, -⟩, _,
    ⟨rfl, -⟩, _, ⟨rfl, -⟩, _, ⟨rfl, -⟩, _, ⟨rfl, -⟩, h⟩ := h
  rw [activeIndices_eq] at h
  have hlen : (activeIndices s (epochOf E slot)).length ≤ s.validators.length := by
    unfold activeIndices
    refine Nat.le_trans (List.length_filter_le _ _) ?_
    simp
  have key : i ∈ activeIndices s (epochOf E slot) := by
    rcases h with ⟨-, sh, hsh, h⟩ | ⟨-, m, -, h⟩
    · rw [compute_shuffled_indices_list E seed _ (by
        have := U64_BOUND_eq
        change 2 * (activeIndices s (epochOf E slot)).length < _
        omega) hr] at hsh
      cases hsh
      have : c ⊆ shuffledList E seed (activeIndices s (epochOf E slot)) := by
        unfold slice at h
        split at h
        · cases h
          intro x hx
          exact List.mem_of_mem_take (List.mem_of_mem_drop hx)
        · cases h
      exact (shuffledList_perm E seed _).mem_iff.1 (this hi)
    · obtain ⟨k, hk, rfl⟩ := List.getElem_of_mem hi
      have hl := mapM_entry_length h
      obtain ⟨b, h1, h2⟩ := mapM_entry h k _ (List.getElem?_eq_getElem (hl ▸ hk))
      simp only [run] at h2
      obtain ⟨j, -, h2⟩ := h2
      rw [List.getElem?_eq_getElem hk] at h1
      cases h1
      exact List.mem_of_getElem? h2
  exact mem_activeIndices.1 key

theorem totalEffective_mono {s : State} {l m : List Nat} (hl : l.Nodup) (h : l ⊆ m) :
    totalEffective s l ≤ totalEffective s m := by
  obtain ⟨l', hp, hs⟩ := List.subperm_of_subset hl h
  have e : totalEffective s l' = totalEffective s l := (hp.map _).sum_nat
  rw [← e]
  unfold totalEffective
  clear e hp h hl
  induction hs with
  | slnil => exact Nat.le_refl _
  | cons a _ ih => simp only [List.map_cons, List.sum_cons]; omega
  | cons_cons a _ ih => simp only [List.map_cons, List.sum_cons]; omega

theorem did_active {E : Env} {s : State} {d : Duty} {i : Nat} (hr : 0 < E.shuffle_round_count)
    (hn : s.validators.length ≤ 2 ^ 40)
    (hdata : ∀ a ∈ s.previous_epoch_attestations, epochOf E a.data.slot = previousEpoch E s)
    (h : Did E s d i) : ∃ v, s.validators[i]? = some v ∧ ActiveAt v (previousEpoch E s) := by
  obtain ⟨-, a, ha, -, c, hc, k, hk, -⟩ := h
  rw [← hdata a ha]
  exact committee_active hr hn hc (List.mem_of_getElem? hk)

theorem did_counts {E : Env} {s : State} {d : Duty} {i : Nat} (hr : 0 < E.shuffle_round_count)
    (hn : s.validators.length ≤ 2 ^ 40)
    (hdata : ∀ a ∈ s.previous_epoch_attestations, epochOf E a.data.slot = previousEpoch E s)
    (h : Did E s d i) : Counts E s i := by
  obtain ⟨v, hv, ha⟩ := did_active hr hn hdata h
  exact ⟨v, hv, Or.inl ha⟩

theorem doers_balance_le {E : Env} {s : State} {d : Duty} (hr : 0 < E.shuffle_round_count)
    (hn : s.validators.length ≤ 2 ^ 40)
    (hdata : ∀ a ∈ s.previous_epoch_attestations, epochOf E a.data.slot = previousEpoch E s)
    (hstay : ∀ v ∈ s.validators, ActiveAt v (previousEpoch E s) → ActiveAt v (epochOf E s.slot)) :
    dutyBalance E s d ≤ activeBalance E s := by
  unfold dutyBalance activeBalance
  have : totalEffective s (doers E s d) ≤
      totalEffective s (activeIndices s (epochOf E s.slot)) := by
    refine totalEffective_mono doers_nodup fun i hi => ?_
    obtain ⟨v, hv, ha⟩ := did_active hr hn hdata (mem_doers.1 hi)
    exact mem_activeIndices.2 ⟨v, hv, hstay v (List.mem_of_getElem? hv) ha⟩
  omega

theorem flag_balance_le {E : Env} {s : State} {j : Nat}
    (hstay : ∀ v ∈ s.validators, ActiveAt v (previousEpoch E s) → ActiveAt v (epochOf E s.slot)) :
    flagBalance E s j ≤ activeBalance E s := by
  unfold flagBalance activeBalance
  have : totalEffective s ((List.range s.validators.length).filter fun i => HasFlag E s j i) ≤
      totalEffective s (activeIndices s (epochOf E s.slot)) := by
    refine totalEffective_mono (List.nodup_range.filter _) fun i hi => ?_
    rw [List.mem_filter, decide_eq_true_iff] at hi
    obtain ⟨-, v, hv, -, ha, -⟩ := hi
    exact mem_activeIndices.2 ⟨v, hv, hstay v (List.mem_of_getElem? hv) ha⟩
  omega

theorem mul_div_le_of_le {q x y : Nat} (h : x ≤ y) : q * x / y ≤ q := by
  rcases Nat.eq_zero_or_pos y with rfl | hy
  · simp
  · rw [Nat.div_le_iff_le_mul_add_pred hy]
    have := Nat.mul_le_mul_left q h
    rw [Nat.mul_comm y q]
    omega

theorem duty_reward_le {E : Env} {s : State} {d : Duty} {i : Nat}
    (h : Leaking E s ∨ dutyBalance E s d ≤ activeBalance E s) :
    dutyReward E s d i ≤ quarterReward E s i := by
  unfold dutyReward
  split
  · split
    · exact Nat.le_refl _
    · rename_i hk
      exact mul_div_le_of_le (Nat.div_le_div_right (h.resolve_left hk))
  · exact Nat.zero_le _

theorem proposer_part_le {E : Env} {s : State} {i : Nat} :
    proposerPart E s i ≤ quarterReward E s i := Nat.div_le_self _ _

theorem delay_reward_le {E : Env} {s : State} {first : Nat → PendingAttestation} {i : Nat} :
    delayReward E s first i ≤ quarterReward E s i - proposerPart E s i := by
  unfold delayReward
  split
  · exact Nat.div_le_self _ _
  · exact Nat.zero_le _

theorem flag_reward_le {E : Env} {s : State} {j i : Nat}
    (h : flagBalance E s j ≤ activeBalance E s) :
    flagReward E s j i ≤ baseReward E s i * flagWeight j / 64 := by
  unfold flagReward
  split
  · rw [← Nat.div_div_eq_div_mul]
    exact Nat.div_le_div_right (mul_div_le_of_le (Nat.div_le_div_right h))
  · exact Nat.zero_le _

end Verif
