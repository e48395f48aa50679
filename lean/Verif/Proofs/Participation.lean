import Verif.Proofs.Attestations

namespace Verif
open Spec

/-! ## Base rewards -/

theorem total_fold_val {s : State} {l : List Nat} {acc : Nat}
    (hl : ∀ i ∈ l, i < s.validators.length) (ha : acc < U64_BOUND) :
    l.foldlM (fun acc i => do
      let v ← idx s.validators i
      U64.checkedAdd acc v.effective_balance) acc =
    if acc + totalEffective s l < U64_BOUND then .ok (acc + totalEffective s l)
    else (.error .overflow : R Nat) := by
  induction l generalizing acc with
  | nil => simp [totalEffective, ha]
  | cons i l ih =>
    have hi := hl i (List.mem_cons_self ..)
    have hv : effectiveBalance s i = s.validators[i].effective_balance := by
      simp [effectiveBalance, hi]
    have hx : idx s.validators i = .ok s.validators[i] := idx_eq_ok.2 (List.getElem?_eq_getElem hi)
    have ht : totalEffective s (i :: l) = s.validators[i].effective_balance + totalEffective s l := by
      rw [← hv]; rfl
    rw [List.foldlM_cons, ht, hx]
    show ((U64.checkedAdd acc s.validators[i].effective_balance) >>= _) = _
    have hadd : U64.checkedAdd acc s.validators[i].effective_balance = if acc +
        s.validators[i].effective_balance < U64_BOUND then .ok (acc +
        s.validators[i].effective_balance) else .error .overflow := rfl
    rw [hadd]
    split
    · rename_i h
      show List.foldlM _ _ l = _
      rw [ih (fun j hj => hl j (List.mem_cons_of_mem _ hj)) h, Nat.add_assoc]
    · rename_i h
      rw [if_neg (by omega)]
      rfl

/-- The total active balance, with its error, in no order of visits -/
theorem total_active_val {E : Env} {s : State} :
    get_total_active_balance E s = (do
      let _ ← get_current_epoch E s
      if totalEffective s (activeIndices s (epochOf E s.slot)) < U64_BOUND then
        .ok (max (totalEffective s (activeIndices s (epochOf E s.slot)))
          E.effective_balance_increment)
      else (.error .overflow : R Nat)) := by
  unfold get_total_active_balance
  cases hc : get_current_epoch E s with
  | error e => rfl
  | ok epoch =>
    obtain ⟨rfl, -⟩ := current_epoch_eq_ok.1 hc
    show get_total_balance E s _ = _
    have hp : totalEffective s (iterate E s (get_active_validator_indices s (epochOf E s.slot))) =
        totalEffective s (activeIndices s (epochOf E s.slot)) := by
      rw [activeIndices_eq]; exact sum_iterate _
    unfold get_total_balance
    rw [total_fold_val ?_ (by decide), hp, Nat.zero_add]
    · show (ite _ _ _ >>= _) = ite _ _ _
      split <;> rfl
    · intro i hi
      rw [mem_iterate, activeIndices_eq] at hi
      obtain ⟨v, hv, -⟩ := mem_activeIndices.1 hi
      exact (List.getElem?_eq_some_iff.1 hv).1

theorem total_active_eq_ok {E : Env} {s : State} {t : Nat} :
    get_total_active_balance E s = .ok t ↔ E.slots_per_epoch ≠ 0 ∧
      totalEffective s (activeIndices s (epochOf E s.slot)) < U64_BOUND ∧
      t = max (totalEffective s (activeIndices s (epochOf E s.slot)))
        E.effective_balance_increment := by
  simp only [get_total_active_balance, run, current_epoch_eq_ok, get_total_balance_eq_ok]
  constructor
  · rintro ⟨_, ⟨rfl, h⟩, -, h1, h2⟩
    rw [totalEffective, sum_iterate, activeIndices_eq] at h1 h2
    exact ⟨h, h1, h2⟩
  · rintro ⟨h, h1, h2⟩
    refine ⟨_, ⟨rfl, h⟩, ?_, ?_, ?_⟩
    · intro i hi
      rw [mem_iterate, activeIndices_eq] at hi
      obtain ⟨v, hv, -⟩ := mem_activeIndices.1 hi
      exact (List.getElem?_eq_some_iff.1 hv).1
    · rw [totalEffective, sum_iterate, activeIndices_eq]; exact h1
    · rw [totalEffective, sum_iterate, activeIndices_eq]; exact h2

/-- The reward per increment of effective balance. -/
def rewardPerIncrement (E : Env) (s : State) : Nat :=
  E.effective_balance_increment * E.base_reward_factor /
    Nat.sqrt (max (totalEffective s (activeIndices s (epochOf E s.slot)))
      E.effective_balance_increment)

theorem per_increment_eq {E : Env} {s : State} {r : Nat}
    (h : get_base_reward_per_increment E s = .ok r) : r = rewardPerIncrement E s := by
  simp only [get_base_reward_per_increment, run, total_active_eq_ok] at h
  obtain ⟨_, ⟨rfl, h1⟩, _, ⟨-, h2, rfl⟩, rfl, h3⟩ := h
  unfold rewardPerIncrement
  by_cases h0 : E.base_reward_factor = 0
  · rw [h0]; simp
  · have : E.effective_balance_increment ≤ E.effective_balance_increment * E.base_reward_factor :=
      Nat.le_mul_of_pos_right _ (by omega)
    rw [isqrt_eq]
    have := U64_BOUND_eq
    omega

theorem base_reward_eq {E : Env} {s : State} {v r : Nat}
    (h : Altair.get_base_reward E s v = .ok r) : r = baseReward E s v := by
  simp only [Altair.get_base_reward, run] at h
  obtain ⟨x, hx, _, ⟨rfl, -⟩, p, hp, rfl, -⟩ := h
  rw [per_increment_eq hp]
  simp only [baseReward, effectiveBalance, hx, rewardPerIncrement]

/-! ## Setting flags -/

/-- The base reward does not depend on participation. -/
theorem base_reward_setParticipation {E : Env} {s : State} {v : Nat} {c : Bool} {p : List UInt8} :
    Altair.get_base_reward E (setParticipation c p s) v = Altair.get_base_reward E s v := by
  unfold Altair.get_base_reward get_base_reward_per_increment
  rw [total_active_val, total_active_val]
  cases c <;> rfl

theorem baseReward_setParticipation {E : Env} {s : State} {v : Nat} {c : Bool} {p : List UInt8} :
    baseReward E (setParticipation c p s) v = baseReward E s v := by
  cases c <;> rfl

theorem participationOf_set {c : Bool} {p : List UInt8} {s : State} :
    participationOf c (setParticipation c p s) = p := by cases c <;> rfl

theorem setParticipation_twice {c : Bool} {p q : List UInt8} {s : State} :
    setParticipation c q (setParticipation c p s) = setParticipation c q s := by cases c <;> rfl

theorem setParticipation_self {c : Bool} {s : State} :
    setParticipation c (participationOf c s) s = s := by cases c <;> rfl

/-- Is the flag earned and still missing? -/
abbrev Missing (fl : List Nat) (x : UInt8) (j : Nat) : Prop := j ∈ fl ∧ ¬ FlagSet x j

theorem apply_flag_eq_ok {E : Env} {c : Bool} {fl : List Nat} {v num num' j w : Nat}
    {s s' : State} {x : UInt8} (hx : (participationOf c s)[v]? = some x) (hj : j < 8) :
    apply_flag E c fl v num (j, w) s = .ok num' s' ↔
      (Missing fl x j ∧ (∃ r, Altair.get_base_reward E s v = .ok r) ∧
        num' = num + baseReward E s v * w ∧ num' < U64_BOUND ∧
        s' = setParticipation c ((participationOf c s).set v (x ||| UInt8.ofNat (2 ^ j))) s) ∨
      (¬ Missing fl x j ∧ num' = num ∧ s' = s) := by
  have hb := has_flag_ok (flags := x) hj
  have hc : (fl.contains j = true) ↔ j ∈ fl := List.contains_iff_mem
  simp only [apply_flag, run, hx, add_flag_ok hj, Option.some.injEq]
  simp only [hb, hc, Except.ok.injEq, base_reward_setParticipation, exists_eq_left',
    decide_eq_true_eq]
  constructor
  · rintro (⟨h1, ⟨h2, rfl, rfl⟩ | ⟨h2, r, h3, _, ⟨rfl, h4⟩, ⟨rfl, h5⟩, rfl⟩⟩
      | ⟨h1, rfl, rfl⟩)
    · exact Or.inr ⟨fun h => h.2 h2, rfl, rfl⟩
    · refine Or.inl ⟨⟨h1, h2⟩, ⟨r, h3⟩, ?_, h5, rfl⟩
      rw [← base_reward_eq h3]
    · exact Or.inr ⟨fun h => h1 h.1, rfl, rfl⟩
  · rintro (⟨⟨h1, h2⟩, ⟨r, h3⟩, h4, h5, rfl⟩ | ⟨h1, rfl, rfl⟩)
    · rw [← base_reward_eq h3] at h4
      subst h4
      refine Or.inl ⟨h1, Or.inr ⟨h2, r, h3, _, ⟨rfl, by omega⟩, ⟨rfl, h5⟩, rfl⟩⟩
    · by_cases h2 : j ∈ fl
      · refine Or.inl ⟨h2, Or.inl ⟨?_, rfl, rfl⟩⟩
        by_contra h; exact h1 ⟨h2, h⟩
      · exact Or.inr ⟨h2, rfl, rfl⟩

/-- The weights of a list of weighted flags that are missing. -/
def missingIn (ws : List (Nat × Nat)) (fl : List Nat) (x : UInt8) : Nat :=
  (ws.map fun p => if Missing fl x p.1 then p.2 else 0).sum

/-- Add the flags of a list of weighted flags. -/
def addIn (ws : List (Nat × Nat)) (fl : List Nat) (x : UInt8) : UInt8 :=
  ws.foldl (fun x p => if Missing fl x p.1 then x ||| UInt8.ofNat (2 ^ p.1) else x) x

theorem missingIn_or {ws : List (Nat × Nat)} {fl : List Nat} {x : UInt8} {j : Nat}
    (hj : j < 8) (hws : ∀ p ∈ ws, p.1 < 8) (h : ∀ p ∈ ws, p.1 ≠ j) :
    missingIn ws fl (x ||| UInt8.ofNat (2 ^ j)) = missingIn ws fl x := by
  unfold missingIn
  congr 1
  apply List.map_congr_left
  intro p hp
  have : Missing fl (x ||| UInt8.ofNat (2 ^ j)) p.1 ↔ Missing fl x p.1 := by
    unfold Missing
    rw [flagSet_or hj (hws p hp)]
    simp [(h p hp).symm]
  simp only [this]

theorem inner_flags_eq_ok {E : Env} {c : Bool} {fl : List Nat} {v : Nat}
    {ws : List (Nat × Nat)} (hws : ∀ p ∈ ws, p.1 < 8) (hn : (ws.map (·.1)).Nodup)
    {num num' : Nat} (hnum : num < U64_BOUND)
    {s s' : State} {x : UInt8} (hx : (participationOf c s)[v]? = some x) :
    ws.foldlM (apply_flag E c fl v) num s = .ok num' s' ↔
      ((∃ p ∈ ws, Missing fl x p.1) → ∃ r, Altair.get_base_reward E s v = .ok r) ∧
      num' = num + baseReward E s v * missingIn ws fl x ∧ num' < U64_BOUND ∧
      s' = setParticipation c ((participationOf c s).set v (addIn ws fl x)) s := by
  induction ws generalizing num s x with
  | nil =>
    simp only [List.foldlM_nil, run, addIn, missingIn, List.foldl_nil]
    rw [set_self hx, setParticipation_self]
    simp
    constructor
    · rintro ⟨rfl, rfl⟩; exact ⟨rfl, hnum, rfl⟩
    · rintro ⟨rfl, -, rfl⟩; exact ⟨rfl, rfl⟩
  | cons p ws ih =>
    obtain ⟨j, w⟩ := p
    have hj : j < 8 := hws (j, w) (by simp)
    rw [List.foldlM_cons, M_bind_eq_ok]
    simp only [apply_flag_eq_ok hx hj]
    have hws' : ∀ p ∈ ws, p.1 < 8 := fun p hp => hws p (by simp [hp])
    rw [List.map_cons, List.nodup_cons] at hn
    have hne : ∀ p ∈ ws, p.1 ≠ j := fun p hp h => hn.1 (List.mem_map.2 ⟨p, hp, h⟩)
    have hl : v < (participationOf c s).length := (List.getElem?_eq_some_iff.1 hx).1
    by_cases hm : Missing fl x j
    · have e1 : missingIn ((j, w) :: ws) fl x = w + missingIn ws fl x := by
        simp only [missingIn, List.map_cons, List.sum_cons, if_pos hm]
      have e2 : addIn ((j, w) :: ws) fl x = addIn ws fl (x ||| UInt8.ofNat (2 ^ j)) := by
        simp only [addIn, List.foldl_cons, if_pos hm]
      have hx1 : (participationOf c (setParticipation c
          ((participationOf c s).set v (x ||| UInt8.ofNat (2 ^ j))) s))[v]? =
          some (x ||| UInt8.ofNat (2 ^ j)) := by
        rw [participationOf_set, List.getElem?_set_self hl]
      rw [e1, e2]
      constructor
      · rintro ⟨_, _, ⟨-, h1, rfl, h2, rfl⟩ | ⟨h, -⟩, h3⟩
        · rw [ih hws' hn.2 h2 hx1] at h3
          obtain ⟨-, rfl, h5, rfl⟩ := h3
          rw [baseReward_setParticipation, missingIn_or hj hws' hne] at h5 ⊢
          refine ⟨fun _ => h1, by rw [Nat.mul_add, Nat.add_assoc], h5, ?_⟩
          rw [participationOf_set, setParticipation_twice, List.set_set]
        · exact absurd hm h
      · rintro ⟨h1, rfl, h3, rfl⟩
        have h1 := h1 ⟨(j, w), by simp, hm⟩
        rw [Nat.mul_add] at h3
        have hb : num + baseReward E s v * w < U64_BOUND := by omega
        refine ⟨_, _, Or.inl ⟨hm, h1, rfl, hb, rfl⟩, ?_⟩
        rw [ih hws' hn.2 hb hx1]
        refine ⟨fun _ => ?_, ?_, ?_, ?_⟩
        · rw [base_reward_setParticipation]; exact h1
        · rw [baseReward_setParticipation, missingIn_or hj hws' hne, Nat.mul_add, Nat.add_assoc]
        · rw [Nat.mul_add]; exact h3
        · rw [participationOf_set, setParticipation_twice, List.set_set]
    · have e1 : missingIn ((j, w) :: ws) fl x = missingIn ws fl x := by
        simp only [missingIn, List.map_cons, List.sum_cons, if_neg hm, Nat.zero_add]
      have e2 : addIn ((j, w) :: ws) fl x = addIn ws fl x := by
        simp only [addIn, List.foldl_cons, if_neg hm]
      rw [e1, e2]
      have e3 : (∃ p ∈ (j, w) :: ws, Missing fl x p.1) ↔ ∃ p ∈ ws, Missing fl x p.1 := by
        simp only [List.mem_cons, exists_eq_or_imp]
        exact ⟨fun h => h.resolve_left hm, Or.inr⟩
      rw [e3, ← ih hws' hn.2 hnum hx]
      constructor
      · rintro ⟨_, _, ⟨h, -⟩ | ⟨-, rfl, rfl⟩, h3⟩
        · exact absurd h hm
        · exact h3
      · intro h; exact ⟨_, _, Or.inr ⟨hm, rfl, rfl⟩, h⟩

/-! ### All three flags -/

theorem missingIn_weights (fl : List Nat) (x : UInt8) :
    missingIn enumeratedWeights fl x = missingWeight fl x := by
  unfold missingIn missingWeight enumeratedWeights Missing
  by_cases h0 : 0 ∈ fl ∧ ¬ FlagSet x 0 <;> by_cases h1 : 1 ∈ fl ∧ ¬ FlagSet x 1 <;>
    by_cases h2 : 2 ∈ fl ∧ ¬ FlagSet x 2 <;>
    simp [flagWeight, h0, h1, h2]

theorem flagSet_addIn {ws : List (Nat × Nat)} {fl : List Nat} (hws : ∀ p ∈ ws, p.1 < 8)
    {x : UInt8} {j : Nat} (hj : j < 8) :
    FlagSet (addIn ws fl x) j ↔ FlagSet x j ∨ (j ∈ fl ∧ j ∈ ws.map (·.1)) := by
  induction ws generalizing x with
  | nil => simp [addIn]
  | cons p ws ih =>
    have hp := hws p (by simp)
    have : addIn (p :: ws) fl x =
        addIn ws fl (if Missing fl x p.1 then x ||| UInt8.ofNat (2 ^ p.1) else x) := rfl
    rw [this, ih fun p hp => hws p (by simp [hp])]
    split
    · rename_i hm
      rw [flagSet_or hp hj]
      simp only [List.map_cons, List.mem_cons]
      constructor
      · rintro ((h | rfl) | h)
        · exact Or.inl h
        · exact Or.inr ⟨hm.1, Or.inl rfl⟩
        · exact Or.inr ⟨h.1, Or.inr h.2⟩
      · rintro (h | ⟨h, rfl | h'⟩)
        · exact Or.inl (Or.inl h)
        · exact Or.inl (Or.inr rfl)
        · exact Or.inr ⟨h, h'⟩
    · rename_i hm
      simp only [List.map_cons, List.mem_cons]
      constructor
      · rintro (h | h)
        · exact Or.inl h
        · exact Or.inr ⟨h.1, Or.inr h.2⟩
      · rintro (h | ⟨h, rfl | h'⟩)
        · exact Or.inl h
        · by_cases hs : FlagSet x p.1
          · exact Or.inl hs
          · exact absurd ⟨h, hs⟩ hm
        · exact Or.inr ⟨h, h'⟩

theorem flagSet_addAll {fl : List Nat} (hfl : ∀ j ∈ fl, j < 3) {x : UInt8} {j : Nat} (hj : j < 8) :
    FlagSet (addIn enumeratedWeights fl x) j ↔ FlagSet x j ∨ j ∈ fl := by
  rw [flagSet_addIn (by decide) hj]
  have : j ∈ fl → j ∈ enumeratedWeights.map (·.1) := by
    intro h
    have := hfl j h
    simp only [enumeratedWeights, List.map_cons, List.map_nil, List.mem_cons, List.not_mem_nil]
    omega
  constructor
  · rintro (h | h)
    · exact Or.inl h
    · exact Or.inr h.1
  · rintro (h | h)
    · exact Or.inl h
    · exact Or.inr ⟨h, this h⟩

/-! ### All attesters -/

/-- The flags after the attesters of `l` have got the flags `fl`. -/
def flagsAfter (l fl : List Nat) (p : List UInt8) : List UInt8 :=
  p.mapIdx fun v x => if v ∈ l then addIn enumeratedWeights fl x else x

/-- What one attester earns, times the denominator. -/
def gain (E : Env) (s : State) (p : List UInt8) (fl : List Nat) (v : Nat) : Nat :=
  baseReward E s v * missingWeight fl (p.getD v 0)

theorem flagsAfter_cons {v : Nat} {l fl : List Nat} {p : List UInt8} {x : UInt8}
    (hx : p[v]? = some x) (hv : v ∉ l) :
    flagsAfter l fl (p.set v (addIn enumeratedWeights fl x)) = flagsAfter (v :: l) fl p := by
  apply List.ext_getElem?
  intro i
  simp only [flagsAfter, List.getElem?_mapIdx]
  by_cases hi : v = i
  · subst hi
    rw [List.getElem?_set_self (List.getElem?_eq_some_iff.1 hx).1, hx]
    simp [hv]
  · rw [List.getElem?_set_ne hi]
    have : i ≠ v := fun h => hi h.symm
    simp [this]

theorem all_flags_eq_ok {E : Env} {c : Bool} {fl : List Nat} {l : List Nat} (hl : l.Nodup)
    {num num' : Nat} (hnum : num < U64_BOUND) {s s' : State}
    (hin : ∀ v ∈ l, v < (participationOf c s).length) :
    (l.foldlM (fun numerator index =>
      enumeratedWeights.foldlM (apply_flag E c fl index) numerator) num : M Nat) s = .ok num' s' ↔
      (∀ v ∈ l, missingWeight fl ((participationOf c s).getD v 0) ≠ 0 →
        ∃ r, Altair.get_base_reward E s v = .ok r) ∧
      num' = num + (l.map (gain E s (participationOf c s) fl)).sum ∧ num' < U64_BOUND ∧
      s' = setParticipation c (flagsAfter l fl (participationOf c s)) s := by
  induction l generalizing num s with
  | nil =>
    have : flagsAfter [] fl (participationOf c s) = participationOf c s := by
      apply List.ext_getElem?; intro i; simp [flagsAfter]
    rw [this, setParticipation_self]
    simp only [List.foldlM_nil, run]
    simp
    constructor
    · rintro ⟨rfl, rfl⟩; exact ⟨rfl, hnum, rfl⟩
    · rintro ⟨rfl, -, rfl⟩; exact ⟨rfl, rfl⟩
  | cons v l ih =>
    have hv := hin v (by simp)
    have hx : (participationOf c s)[v]? = some (participationOf c s)[v] :=
      List.getElem?_eq_getElem hv
    have hgd : (participationOf c s).getD v 0 = (participationOf c s)[v] := by
      simp [List.getD, hx]
    rw [List.nodup_cons] at hl
    have hex : (∃ p ∈ enumeratedWeights, Missing fl (participationOf c s)[v] p.1) ↔
        missingWeight fl ((participationOf c s).getD v 0) ≠ 0 := by
      rw [hgd, ← missingIn_weights]
      unfold missingIn
      simp only [ne_eq, List.sum_eq_zero_iff_forall_eq_nat, List.mem_map, forall_exists_index,
        and_imp, forall_apply_eq_imp_iff₂, not_forall]
      constructor
      · rintro ⟨p, hp, hm⟩
        refine ⟨p, hp, ?_⟩
        rw [if_pos hm]
        revert p; unfold enumeratedWeights; simp
      · rintro ⟨p, hp, hm⟩
        refine ⟨p, hp, ?_⟩
        by_contra h
        rw [if_neg h] at hm
        exact hm rfl
    have inner := fun (a : Nat) (t : State) => inner_flags_eq_ok (E := E) (fl := fl) (num' := a)
      (s' := t) (ws := enumeratedWeights) (by decide) (by decide) hnum hx
    rw [List.foldlM_cons, M_bind_eq_ok]
    simp only [inner, hex, missingIn_weights]
    have hgain : ∀ (t : State), t = setParticipation c ((participationOf c s).set v
        (addIn enumeratedWeights fl (participationOf c s)[v])) s →
        l.map (gain E t (participationOf c t) fl) = l.map (gain E s (participationOf c s) fl) := by
      rintro t rfl
      apply List.map_congr_left
      intro w hw
      unfold gain
      rw [participationOf_set, baseReward_setParticipation, List.getD_eq_getElem?_getD,
        List.getElem?_set_ne (fun h => hl.1 (by rw [h]; exact hw)), List.getD_eq_getElem?_getD]
    have hin' : ∀ (t : State), t = setParticipation c ((participationOf c s).set v
        (addIn enumeratedWeights fl (participationOf c s)[v])) s →
        ∀ w ∈ l, w < (participationOf c t).length := by
      rintro t rfl w hw
      rw [participationOf_set, List.length_set]
      exact hin w (by simp [hw])
    have hmw : ∀ w ∈ l, (((participationOf c s).set v
        (addIn enumeratedWeights fl (participationOf c s)[v])).getD w 0) =
        (participationOf c s).getD w 0 := by
      intro w hw
      rw [List.getD_eq_getElem?_getD,
        List.getElem?_set_ne (fun h => hl.1 (by rw [h]; exact hw)), List.getD_eq_getElem?_getD]
    simp only [List.map_cons, List.sum_cons]
    constructor
    · rintro ⟨_, _, ⟨h1, rfl, h2, rfl⟩, h3⟩
      rw [ih hl.2 h2 (hin' _ rfl), hgain _ rfl] at h3
      obtain ⟨h4, rfl, h5, rfl⟩ := h3
      refine ⟨?_, ?_, ?_, ?_⟩
      · intro w hw hm
        rcases List.mem_cons.1 hw with rfl | hw
        · exact h1 hm
        · have := h4 w hw
          rw [participationOf_set, hmw w hw, base_reward_setParticipation] at this
          exact this hm
      · unfold gain; rw [hgd]; omega
      · exact h5
      · rw [participationOf_set, setParticipation_twice, flagsAfter_cons hx hl.1]
    · rintro ⟨h1, rfl, h3, rfl⟩
      have hg : gain E s (participationOf c s) fl v =
          baseReward E s v * missingWeight fl (participationOf c s)[v] := by
        unfold gain; rw [hgd]
      rw [hg] at h3
      refine ⟨_, _, ⟨h1 v (by simp), rfl, by omega, rfl⟩, ?_⟩
      rw [ih hl.2 (by omega) (hin' _ rfl), hgain _ rfl]
      refine ⟨?_, by rw [hg]; omega, by rw [hg]; omega, ?_⟩
      · intro w hw
        rw [participationOf_set, hmw w hw, base_reward_setParticipation]
        exact h1 w (by simp [hw])
      · rw [participationOf_set, setParticipation_twice, flagsAfter_cons hx hl.1]

theorem apply_flags_eq_ok {E : Env} {c : Bool} {fl : List Nat} {l : List Nat} (hl : l.Nodup)
    {num' : Nat} {s s' : State} (hin : ∀ v ∈ l, v < (participationOf c s).length) :
    apply_flags E c fl l s = .ok num' s' ↔
      (∀ v ∈ l, missingWeight fl ((participationOf c s).getD v 0) ≠ 0 →
        ∃ r, Altair.get_base_reward E s v = .ok r) ∧
      num' = (l.map (gain E s (participationOf c s) fl)).sum ∧ num' < U64_BOUND ∧
      s' = setParticipation c (flagsAfter l fl (participationOf c s)) s := by
  have := all_flags_eq_ok (E := E) (c := c) (fl := fl) hl (num := 0) (num' := num') (by decide)
    (s' := s') hin
  rw [Nat.zero_add] at this
  exact this

theorem flagsAfter_added {l fl : List Nat} (hfl : ∀ j ∈ fl, j < 3) (p : List UInt8) :
    FlagsAdded l fl p (flagsAfter l fl p) := by
  refine ⟨by simp [flagsAfter], ?_⟩
  intro v x y hx hy j hj
  simp only [flagsAfter, List.getElem?_mapIdx, hx, Option.map_some, Option.some.injEq] at hy
  subst hy
  split
  · rename_i h; rw [flagSet_addAll hfl hj]; simp [h]
  · rename_i h; simp [h]

/-! ## Earned flags -/

theorem earned_flags {E : Env} (hE : SaneConfig E) {f : Fork} {s : State} {d : AttestationData}
    {delay : Nat} {fl : List Nat}
    (h : get_attestation_participation_flag_indices E f s d delay = .ok fl) :
    EarnsFlags E f s d delay fl ∧
      d.source = (if d.target.epoch = epochOf E s.slot then s.current_justified_checkpoint
        else s.previous_justified_checkpoint) := by
  have h0 := hE.slots_per_epoch
  unfold get_attestation_participation_flag_indices at h
  simp only [run, current_epoch_eq_ok] at h
  obtain ⟨_, ⟨rfl, -⟩, h1, root, h2, head, h3, h4⟩ := h
  refine ⟨?_, by simpa using h1⟩
  have hsq : delay ≤ isqrt E.slots_per_epoch ↔
      delay * delay ≤ E.slots_per_epoch :=
    le_isqrt (by omega)
  have hT : (d.target.root = root) ↔ get_block_root E s d.target.epoch = .ok d.target.root := by
    rw [h2]; exact ⟨fun h => by rw [h], fun h => by cases h; rfl⟩
  have hH : head = true ↔ get_block_root E s d.target.epoch = .ok d.target.root ∧
      get_block_root_at_slot E s d.slot = .ok d.beacon_block_root := by
    rw [← hT]
    simp only [decide_eq_true_eq] at h3
    rcases h3 with ⟨h5, r, h6, rfl⟩ | ⟨h5, rfl⟩
    · rw [h6]
      simp only [decide_eq_true_eq, h5, true_and, Except.ok.injEq]
      exact eq_comm
    · simp [h5]
  have h4' : ∃ tim : Bool,
      (tim = true ↔ (f = .Deneb ∨ f = .Electra ∨ delay ≤ E.slots_per_epoch)) ∧
      (if delay ≤ isqrt E.slots_per_epoch then [TIMELY_SOURCE_FLAG_INDEX] else []) ++
      (if (decide (d.target.root = root) && tim) = true then [TIMELY_TARGET_FLAG_INDEX] else []) ++
      (if (head && delay == E.min_attestation_inclusion_delay) = true then
        [TIMELY_HEAD_FLAG_INDEX] else []) = fl := by
    cases f <;> exact ⟨_, by simp, h4⟩
  clear h4
  obtain ⟨tim, hm, h4⟩ := h4'
  subst h4
  simp only [TIMELY_SOURCE_FLAG_INDEX, TIMELY_TARGET_FLAG_INDEX, TIMELY_HEAD_FLAG_INDEX]
  refine ⟨?_, ?_, ?_, ?_⟩
  · rw [← hsq]
    by_cases c1 : delay ≤ isqrt E.slots_per_epoch <;> simp [c1]
  · rw [← hm, ← hT]
    by_cases c2 : d.target.root = root <;> cases tim <;> simp [c2]
  · rw [← and_assoc, ← hH]
    cases head <;>
      by_cases c3 : delay = E.min_attestation_inclusion_delay <;>
      simp [c3]
  · intro j hj
    simp only [List.mem_append] at hj
    rcases hj with (hj | hj) | hj
    all_goals
      split at hj
      · simp at hj; omega
      · simp at hj

/-! ## Paying the proposer -/

theorem reward_proposer_eq_ok {E : Env} {n : Nat} {s s' : State} :
    reward_attestation_proposer E n s = .ok () s' ↔
      ∃ p b, get_beacon_proposer_index E s = .ok p ∧ s.balances[p]? = some b ∧
        b + n / ((64 - 8) * 64 / 8) < U64_BOUND ∧
        s' = { s with balances := s.balances.set p (b + n / ((64 - 8) * 64 / 8)) } := by
  simp only [reward_attestation_proposer, run, increase_balance_eq_ok]
  constructor
  · rintro ⟨_, ⟨rfl, -⟩, _, ⟨rfl, -⟩, _, ⟨rfl, -⟩, _, ⟨rfl, -⟩, p, hp, b, hb, hf, rfl⟩
    exact ⟨p, b, hp, hb, hf, rfl⟩
  · rintro ⟨p, b, hp, hb, hf, rfl⟩
    exact ⟨_, ⟨rfl, by decide⟩, _, ⟨rfl, by decide⟩, _, ⟨rfl, by decide⟩, _, ⟨rfl, by decide⟩,
      p, hp, b, hb, hf, rfl⟩

/-- Setting the flags and paying the proposer. -/
theorem award_effect {E : Env} {d : AttestationData} {fl idxs l : List Nat} {s s' : State}
    (hfl : ∀ j ∈ fl, j < 3) (hn : idxs.Nodup) (hl : idxs.Perm l)
    (hin : ∀ v ∈ l, v < (flagsFor E s d).length)
    (h : (apply_flags E (decide (d.target.epoch = epochOf E s.slot)) fl idxs >>=
      reward_attestation_proposer E) s = .ok () s') :
    ∃ p b new, get_beacon_proposer_index E s = .ok p ∧ s.balances[p]? = some b ∧
      FlagsAdded l fl (flagsFor E s d) new ∧
      s' = { withFlags E s d new with
        balances := s.balances.set p (b + inclusionReward E s d l fl) } := by
  have hpo : participationOf (decide (d.target.epoch = epochOf E s.slot)) s = flagsFor E s d := by
    unfold participationOf flagsFor; simp only [decide_eq_true_eq]
  have hset : ∀ p, setParticipation (decide (d.target.epoch = epochOf E s.slot)) p s =
      withFlags E s d p := by
    intro p; unfold setParticipation withFlags; simp only [decide_eq_true_eq]
  rw [M_bind_eq_ok] at h
  obtain ⟨n, t, h1, h2⟩ := h
  rw [apply_flags_eq_ok hn (by rw [hpo]; exact fun v hv => hin v (hl.subset hv)), hpo, hset] at h1
  obtain ⟨-, rfl, -, rfl⟩ := h1
  obtain ⟨p, b, hp, hb, -, rfl⟩ := reward_proposer_eq_ok.1 h2
  have hw : ∀ q, (withFlags E s d q).balances = s.balances := by
    intro q; unfold withFlags; split <;> rfl
  have hsame : ∀ q, SameElection E s (withFlags E s d q) := by
    intro q; unfold withFlags; split <;> exact ⟨rfl, rfl, rfl, fun _ => rfl⟩
  refine ⟨p, b, flagsAfter idxs fl (flagsFor E s d), ?_, ?_, ?_, ?_⟩
  · rw [← proposer_congr (hsame _)]; exact hp
  · rw [hw] at hb; exact hb
  · have := flagsAfter_added (l := idxs) hfl (flagsFor E s d)
    refine ⟨this.1, fun v x y hx hy j hj => ?_⟩
    rw [this.2 v x y hx hy j hj, hl.mem_iff]
  · rw [hw]
    have : (idxs.map (gain E s (flagsFor E s d) fl)).sum / ((64 - 8) * 64 / 8) =
        inclusionReward E s d l fl := by
      unfold inclusionReward
      rw [(hl.map _).sum_nat]
      rfl
    rw [this]

theorem altair_attestation_effect {E : Env} (hE : SaneConfig E) {f : Fork} {s s' : State}
    (hs : s.slot < 2 ^ 63) {a : Attestation}
    (hpar : (flagsFor E s a.data).length = s.validators.length)
    (h : Altair.process_attestation E f a s = .ok () s') :
    TimelyVote E f s a.data ∧ ∃ l fl, CommitteeVote E s a l ∧ EarnedFlags E f s a.data fl ∧
    ∃ p b new, get_beacon_proposer_index E s = .ok p ∧ s.balances[p]? = some b ∧
      FlagsAdded l fl (flagsFor E s a.data) new ∧
      s' = { withFlags E s a.data new with
        balances := s.balances.set p (b + inclusionReward E s a.data l fl) } := by
  simp only [Altair.process_attestation, run, check_attestation_data_eq_ok hE hs] at h
  obtain ⟨_, ⟨rfl, h1⟩, h2, _, ⟨rfl, h3⟩, fl, h4, i, h5, h6, idxs, h7, h8⟩ := h
  obtain ⟨he, hsrc⟩ := earned_flags hE h4
  refine ⟨⟨h1.1, h1.2.1, h1.2.2.1, h1.2.2.2, hsrc⟩, sortBy (· ≤ ·) idxs, fl, ?_, he, ?_⟩
  · obtain ⟨l, hl⟩ := committee_vote_iff.1 ⟨h2, i, h5, h6⟩
    obtain ⟨idxs', h9, rfl⟩ := indexed_attestation_eq_ok.1 h5
    rw [h7] at h9; cases h9
    obtain ⟨c, hc, hbits, rfl⟩ := attesting_indices_eq_ok.1 h7
    exact ⟨hl.index, ⟨c, hc, hbits, voters_sorted⟩, valid_indexed_iff.1 h6⟩
  · obtain ⟨idxs', h9, rfl⟩ := indexed_attestation_eq_ok.1 h5
    rw [h7] at h9; cases h9
    obtain ⟨c, hc, hbits, rfl⟩ := attesting_indices_eq_ok.1 h7
    have hv := (valid_indexed_iff.1 h6).in_range
    have h8' : (apply_flags E (decide (a.data.target.epoch = epochOf E s.slot)) fl
        (iterate E s (attesters_of c a.aggregation_bits)) >>= reward_attestation_proposer E) s = .ok () s' := by
      rw [M_bind_eq_ok]; exact h8
    exact award_effect he.only (nodup_iterate nodup_setOfList) (sortBy_perm _).symm
      (fun v hv' => by rw [hpar]; exact hv v hv') h8'

theorem electra_attestation_effect {E : Env} (hE : SaneConfig E) {s s' : State}
    (hs : s.slot < 2 ^ 63) {a : Attestation}
    (hpar : (flagsFor E s a.data).length = s.validators.length)
    (h : Electra.process_attestation E a s = .ok () s') :
    TimelyVote E .Electra s a.data ∧ Electra.check_attestation_committees E s a = .ok () ∧
    ∃ idxs l fl, Electra.get_attesting_indices E s a = .ok idxs ∧ l = sortBy (· ≤ ·) idxs ∧
    ValidIndexed E s ⟨l, a.data, a.signature⟩ ∧ EarnedFlags E .Electra s a.data fl ∧
    ∃ p b new, get_beacon_proposer_index E s = .ok p ∧ s.balances[p]? = some b ∧
      FlagsAdded l fl (flagsFor E s a.data) new ∧
      s' = { withFlags E s a.data new with
        balances := s.balances.set p (b + inclusionReward E s a.data l fl) } := by
  simp only [Electra.process_attestation, Electra.get_indexed_attestation, run,
    check_attestation_data_eq_ok hE hs] at h
  obtain ⟨_, ⟨rfl, h1⟩, h2, _, ⟨rfl, h3⟩, fl, h4, _, ⟨idxs, h5, rfl⟩, h6, idxs', h7, h8⟩ := h
  rw [h5] at h7; cases h7
  obtain ⟨he, hsrc⟩ := earned_flags hE h4
  have hvi := valid_indexed_iff.1 h6
  refine ⟨⟨h1.1, h1.2.1, h1.2.2.1, h1.2.2.2, hsrc⟩, h2, idxs, _, fl, h5, rfl, hvi, he, ?_⟩
  have h8' : (apply_flags E (decide (a.data.target.epoch = epochOf E s.slot)) fl
      idxs >>= reward_attestation_proposer E) s = .ok () s' := by
    rw [M_bind_eq_ok]; exact h8
  have hn : idxs.Nodup := by
    simp only [Electra.get_attesting_indices, run] at h5
    obtain ⟨l, -, rfl⟩ := h5
    exact nodup_iterate nodup_setOfList
  exact award_effect he.only hn (sortBy_perm _).symm
    (fun v hv' => by rw [hpar]; exact hvi.in_range v hv') h8'

/-! ## Doing it twice -/

theorem flagsAdded_again {l fl : List Nat} {p q : List UInt8} (h : FlagsAdded l fl p q)
    {r : List UInt8} (h' : FlagsAdded l fl q r) : r = q := by
  apply List.ext_getElem
  · rw [h'.1]
  · intro i h1 h2
    have hq : q[i]? = some q[i] := List.getElem?_eq_getElem h2
    have hr : r[i]? = some r[i] := List.getElem?_eq_getElem h1
    have hp : p[i]? = some (p[i]'(by rw [← h.1]; exact h2)) := List.getElem?_eq_getElem _
    apply u8_ext
    intro j hj
    have e1 := h.2 i _ _ hp hq j hj
    have e2 := h'.2 i _ _ hq hr j hj
    rw [e2, e1]
    constructor
    · rintro ((h | h) | h)
      · exact Or.inl h
      · exact Or.inr h
      · exact Or.inr h
    · exact Or.inl

theorem missing_zero {l fl : List Nat} (hfl : ∀ j ∈ fl, j < 3) {p q : List UInt8}
    (h : FlagsAdded l fl p q) {v : Nat} (hv : v ∈ l) (hlen : v < q.length) :
    missingWeight fl (q.getD v 0) = 0 := by
  have hq : q[v]? = some q[v] := List.getElem?_eq_getElem hlen
  have hp : p[v]? = some (p[v]'(by rw [← h.1]; exact hlen)) := List.getElem?_eq_getElem _
  unfold missingWeight
  rw [List.getD_eq_getElem?_getD, hq, Option.getD_some]
  have : ([0, 1, 2].filter fun j => decide (j ∈ fl) && !decide (FlagSet q[v] j)) = [] := by
    rw [List.filter_eq_nil_iff]
    intro j hj hc
    simp only [Bool.and_eq_true, decide_eq_true_eq, Bool.not_eq_true', decide_eq_false_iff_not] at hc
    apply hc.2
    rw [h.2 v _ _ hp hq j (by have := hfl j hc.1; omega)]
    exact Or.inr ⟨hv, hc.1⟩
  rw [this]; rfl

end Verif

namespace Verif

open Spec

/-- The states between which only participation flags and balances differ. -/
structure SameButFlags (s s' : State) : Prop where
  eq : { s' with
    balances := s.balances
    previous_epoch_participation := s.previous_epoch_participation
    current_epoch_participation := s.current_epoch_participation } = s

theorem sameButFlags_effect {E : Env} {s : State} {d : AttestationData} {p : List UInt8}
    {b : List Nat} : SameButFlags s { withFlags E s d p with balances := b } := by
  unfold withFlags; split <;> exact ⟨rfl⟩

theorem committee_sameButFlags {E : Env} {s s' : State} (h : SameButFlags s s') (slot i : Nat) :
    get_beacon_committee E s' slot i = get_beacon_committee E s slot i := by
  rw [← h.eq]; rfl

theorem slot_sameButFlags {s s' : State} (h : SameButFlags s s') : s'.slot = s.slot := by
  rw [← h.eq]

theorem block_root_sameButFlags {E : Env} {s s' : State} (h : SameButFlags s s') (e : Nat) :
    get_block_root E s' e = get_block_root E s e := by
  rw [← h.eq]; rfl

theorem block_root_at_slot_sameButFlags {E : Env} {s s' : State} (h : SameButFlags s s')
    (e : Nat) : get_block_root_at_slot E s' e = get_block_root_at_slot E s e := by
  rw [← h.eq]; rfl

theorem earned_sameButFlags {E : Env} {f : Fork} {s s' : State} (h : SameButFlags s s')
    {d : AttestationData} {fl fl' : List Nat} (h1 : EarnedFlags E f s d fl)
    (h2 : EarnedFlags E f s' d fl') (j : Nat) : j ∈ fl' ↔ j ∈ fl := by
  have a := h1.source; have a' := h2.source
  have b := h1.target; have b' := h2.target
  have c := h1.head; have c' := h2.head
  rw [slot_sameButFlags h] at a' b' c'
  rw [block_root_sameButFlags h] at b' c'
  rw [block_root_at_slot_sameButFlags h] at c'
  rcases j with _ | _ | _ | j
  · rw [a, a']
  · exact b'.trans b.symm
  · exact c'.trans c.symm
  · constructor
    · intro hj; have := h2.only _ hj; omega
    · intro hj; have := h1.only _ hj; omega

theorem flagsFor_effect {E : Env} {s : State} {d : AttestationData} {p : List UInt8}
    {b : List Nat} : flagsFor E { withFlags E s d p with balances := b } d = p := by
  unfold flagsFor withFlags
  split <;> simp_all

theorem withFlags_self {E : Env} {d : AttestationData} (s : State) :
    ({ withFlags E s d (flagsFor E s d) with balances := s.balances } : State) = s := by
  unfold withFlags flagsFor; split <;> rfl

/-- A further attestation to the same data by voters all of whom have been counted
changes nothing. -/
theorem included_again {E : Env} (hE : SaneConfig E) {f : Fork} {s s' s'' : State}
    (hs : s.slot < 2 ^ 63) {a b : Attestation}
    (hpar : (flagsFor E s a.data).length = s.validators.length) (hd : b.data = a.data)
    (hb : ∀ k : Nat, b.aggregation_bits[k]? = some true → a.aggregation_bits[k]? = some true)
    (h : Altair.process_attestation E f a s = .ok () s')
    (h' : Altair.process_attestation E f b s' = .ok () s'') : s'' = s' := by
  obtain ⟨-, l, fl, hcv, hfl, p, bal, new, -, -, hadd, rfl⟩ :=
    altair_attestation_effect hE hs hpar h
  generalize hbal : s.balances.set p (bal + inclusionReward E s a.data l fl) = bals at *
  have hsame : SameButFlags s { withFlags E s a.data new with balances := bals } :=
    sameButFlags_effect
  generalize hgen : ({ withFlags E s a.data new with balances := bals } : State) = t at *
  have hff : flagsFor E t a.data = new := by rw [← hgen]; exact flagsFor_effect
  have hval : t.validators = s.validators := by rw [← hsame.eq]
  have hlen : (flagsFor E t b.data).length = t.validators.length := by
    rw [hd, hff, hadd.1, hval]; exact hpar
  obtain ⟨-, l', fl', hcv', hfl', q, bal', new', -, hq, hadd', rfl⟩ :=
    altair_attestation_effect hE (by rw [slot_sameButFlags hsame]; exact hs) hlen h'
  have hmem := earned_sameButFlags hsame hfl (by rw [hd] at hfl'; exact hfl')
  obtain ⟨c, hc, -, hv⟩ := hcv.members
  obtain ⟨c', hc', -, hv'⟩ := hcv'.members
  rw [hd, committee_sameButFlags hsame, hc] at hc'
  cases hc'
  have hsub : ∀ v ∈ l', v ∈ l := by
    intro v hvl
    obtain ⟨k, hk1, hk2⟩ := (hv'.2 v).1 hvl
    exact (hv.2 v).2 ⟨k, hk1, hb k hk2⟩
  have hin : ∀ v ∈ l', v < new.length := by
    intro v hvl
    have := hcv'.signed.in_range v hvl
    rw [hadd.1, hpar, ← hval]; exact this
  rw [hd, hff] at hadd'
  have hnew : new' = new := by
    apply List.ext_getElem
    · rw [hadd'.1]
    · intro i h1 h2
      have hq : new[i]? = some new[i] := List.getElem?_eq_getElem h2
      have hr : new'[i]? = some new'[i] := List.getElem?_eq_getElem h1
      have hp : (flagsFor E s a.data)[i]? =
          some ((flagsFor E s a.data)[i]'(by rw [← hadd.1]; exact h2)) :=
        List.getElem?_eq_getElem _
      apply u8_ext
      intro j hj
      rw [hadd'.2 i _ _ hq hr j hj]
      constructor
      · rintro (h | ⟨h, h'⟩)
        · exact h
        · exact (hadd.2 i _ _ hp hq j hj).2 (Or.inr ⟨hsub i h, (hmem j).1 h'⟩)
      · exact Or.inl
  have hzero : inclusionReward E t b.data l' fl' = 0 := by
    unfold inclusionReward
    rw [hd, hff]
    have : (l'.map fun v => baseReward E t v * missingWeight fl' (new.getD v 0)) =
        l'.map fun _ => 0 := by
      apply List.map_congr_left
      intro v hvl
      have hfl3 : missingWeight fl' (new.getD v 0) = missingWeight fl (new.getD v 0) := by
        unfold missingWeight
        have : (fun j => decide (j ∈ fl') && !decide (FlagSet (new.getD v 0) j)) =
            fun j => decide (j ∈ fl) && !decide (FlagSet (new.getD v 0) j) := by
          funext j; rw [decide_eq_decide.2 (hmem j)]
        rw [this]
      rw [hfl3, missing_zero hfl.only hadd (hsub v hvl) (hin v hvl), Nat.mul_zero]
    rw [this]
    have : (l'.map fun _ => 0).sum = 0 := by
      clear * -
      induction l' with
      | nil => rfl
      | cons x xs ih => simp
    rw [this]
  rw [hzero, hd, hnew, Nat.add_zero]
  have : t.balances.set q bal' = t.balances := set_self hq
  rw [this, ← hff]
  exact withFlags_self t

/-- The order in which the attesters are visited does not matter. -/
theorem apply_flags_perm {E : Env} {c : Bool} {fl l l' : List Nat} {s : State}
    (hl : l.Nodup) (hp : l.Perm l') (hin : ∀ v ∈ l, v < (participationOf c s).length)
    {n : Nat} {s' : State} :
    apply_flags E c fl l s = .ok n s' ↔ apply_flags E c fl l' s = .ok n s' := by
  rw [apply_flags_eq_ok hl hin,
    apply_flags_eq_ok (hp.nodup_iff.1 hl) (fun v hv => hin v (hp.symm.subset hv))]
  have h1 : ∀ P : Nat → Prop, (∀ v ∈ l, P v) ↔ ∀ v ∈ l', P v := fun P =>
    ⟨fun h v hv => h v (hp.symm.subset hv), fun h v hv => h v (hp.subset hv)⟩
  have h2 : flagsAfter l fl (participationOf c s) = flagsAfter l' fl (participationOf c s) := by
    unfold flagsAfter
    simp only [hp.mem_iff]
  rw [(hp.map _).sum_nat, h2]
  constructor
  · rintro ⟨a, b⟩; exact ⟨(h1 _).1 a, b⟩
  · rintro ⟨a, b⟩; exact ⟨(h1 _).2 a, b⟩

end Verif
