import Verif.Proofs.Participation
import Verif.Proofs.Rings
import Verif.Spec.Casper

namespace Verif

open Spec

/-! ## Voters -/

theorem nodup_activeIndices {s : State} {e : Nat} : (activeIndices s e).Nodup :=
  (List.pairwise_lt_range.filter _).imp Nat.ne_of_lt

theorem filterAuxM_eq_ok {α : Type} {f : α → R Bool} {p : α → Bool} {l acc r : List α}
    (hf : ∀ i ∈ l, ∀ b, f i = .ok b → b = p i) (h : l.filterAuxM f acc = .ok r) :
    r = (l.filter p).reverse ++ acc := by
  induction l generalizing acc r with
  | nil => simp only [List.filterAuxM, run] at h; simp [← h]
  | cons a l ih =>
    simp only [List.filterAuxM, run] at h
    obtain ⟨b, hb, h⟩ := h
    have hb' := hf a (by simp) b hb
    rw [List.filter_cons, ← hb', ih (fun i hi => hf i (by simp [hi])) h]
    cases b <;> simp

theorem filterM_eq_ok {α : Type} {f : α → R Bool} {p : α → Bool} {l r : List α}
    (hf : ∀ i ∈ l, ∀ b, f i = .ok b → b = p i) (h : l.filterM f = .ok r) : r = l.filter p := by
  simp only [List.filterM, run] at h
  obtain ⟨as, h, rfl⟩ := h
  rw [filterAuxM_eq_ok hf h]
  simp

/-- The unslashed participants of an epoch with a flag. -/
theorem participating_eq_ok {E : Env} {s : State} {j epoch : Nat} {l : List Nat} (hj : j < 8)
    (h : get_unslashed_participating_indices E s j epoch = .ok l) :
    l.Nodup ∧ ∀ i, i ∈ l ↔ ∃ v, s.validators[i]? = some v ∧ v.slashed = false ∧
      ActiveAt v epoch ∧ ∃ flags,
        (if epoch = epochOf E s.slot then s.current_epoch_participation
          else s.previous_epoch_participation)[i]? = some flags ∧ FlagSet flags j := by
  simp only [get_unslashed_participating_indices, run, current_epoch_eq_ok,
    previous_epoch_eq_ok, activeIndices_eq] at h
  obtain ⟨_, ⟨rfl, -⟩, _, ⟨rfl, -⟩, -, l, h, rfl⟩ := h
  generalize hp : (if epoch = epochOf E s.slot then s.current_epoch_participation
    else s.previous_epoch_participation) = part at h
  have key : ∀ i b, (do
      let flags ← idx part i
      let did_participate ← has_flag flags j
      let v ← idx s.validators i
      return did_participate && !v.slashed : R Bool) = .ok b →
      ∃ flags v, part[i]? = some flags ∧ s.validators[i]? = some v ∧
        b = (decide (FlagSet flags j) && !v.slashed) := by
    intro i b hb
    simp only [run, has_flag_ok hj, Except.ok.injEq] at hb
    obtain ⟨fl, h1, _, rfl, v, h2, rfl⟩ := hb
    exact ⟨fl, v, h1, h2, rfl⟩
  let p : Nat → Bool := fun i => match part[i]?, s.validators[i]? with
    | some fl, some v => decide (FlagSet fl j) && !v.slashed
    | _, _ => false
  have hl := filterM_eq_ok (p := p) (fun i _ b hb => by
    obtain ⟨fl, v, h1, h2, rfl⟩ := key i b hb
    simp [p, h1, h2]) h
  subst hl
  refine ⟨nodup_iterate (nodup_activeIndices.filter _), fun i => ?_⟩
  rw [mem_iterate, List.mem_filter, mem_activeIndices]
  constructor
  · rintro ⟨⟨v, hv, ha⟩, hp⟩
    simp only [p] at hp
    cases hf : part[i]? with
    | none => simp [hf] at hp
    | some fl =>
      simp only [hf, hv, Bool.and_eq_true, decide_eq_true_eq, Bool.not_eq_true'] at hp
      exact ⟨v, hv, hp.2, ha, fl, rfl, hp.1⟩
  · rintro ⟨v, hv, hsl, ha, fl, hf, hfl⟩
    exact ⟨⟨v, hv, ha⟩, by simp [p, hf, hv, hfl, hsl]⟩

theorem insertUnslashed_eq_ok {s : State} {out l r : List Nat}
    (h : Phase0.insertUnslashed s out l = .ok r) :
    (out.Nodup → r.Nodup) ∧ ∀ i, i ∈ r ↔ i ∈ out ∨
      (i ∈ l ∧ ∃ v, s.validators[i]? = some v ∧ v.slashed = false) := by
  induction l generalizing out with
  | nil => cases h; simp
  | cons a l ih =>
    simp only [Phase0.insertUnslashed, run] at h
    obtain ⟨v, hv, h⟩ := h
    obtain ⟨h1, h2⟩ := ih h
    refine ⟨fun hn => h1 ?_, fun i => ?_⟩
    · split
      · exact hn
      · exact nodup_setInsert hn
    · rw [h2]
      by_cases hs : v.slashed = true
      · simp only [hs, if_true, List.mem_cons]
        constructor
        · rintro (h | ⟨h, h'⟩)
          · exact Or.inl h
          · exact Or.inr ⟨Or.inr h, h'⟩
        · rintro (h | ⟨rfl | h, h'⟩)
          · exact Or.inl h
          · obtain ⟨w, hw, hw'⟩ := h'
            rw [hv] at hw; cases hw
            simp [hs] at hw'
          · exact Or.inr ⟨h, h'⟩
      · simp only [hs, Bool.false_eq_true, if_false, mem_setInsert, List.mem_cons]
        constructor
        · rintro ((h | rfl) | ⟨h, h'⟩)
          · exact Or.inl h
          · exact Or.inr ⟨Or.inl rfl, v, hv, by simpa using hs⟩
          · exact Or.inr ⟨Or.inr h, h'⟩
        · rintro (h | ⟨rfl | h, h'⟩)
          · exact Or.inl (Or.inl h)
          · exact Or.inl (Or.inr rfl)
          · exact Or.inr ⟨h, h'⟩

theorem attested_of_ok {E : Env} {s : State} {a : PendingAttestation} {l : List Nat}
    (h : get_attesting_indices E s a.data a.aggregation_bits = .ok l) (i : Nat) :
    i ∈ l ↔ Attested E s a i := by
  obtain ⟨c, hc, -, rfl⟩ := attesting_indices_eq_ok.1 h
  rw [mem_iterate, mem_attesters_of]
  unfold Attested
  constructor
  · intro hk; exact ⟨c, hc, hk⟩
  · rintro ⟨c', hc', hk⟩
    rw [hc] at hc'; cases hc'
    exact hk

theorem unslashedFrom_eq_ok {E : Env} {s : State} {out r : List Nat} {l : List PendingAttestation}
    (h : Phase0.unslashedFrom E s out l = .ok r) :
    (out.Nodup → r.Nodup) ∧ ∀ i, i ∈ r ↔ i ∈ out ∨
      (∃ v, s.validators[i]? = some v ∧ v.slashed = false) ∧ ∃ a ∈ l, Attested E s a i := by
  induction l generalizing out with
  | nil => cases h; simp
  | cons a l ih =>
    simp only [Phase0.unslashedFrom, run] at h
    obtain ⟨is, h1, out', h2, h⟩ := h
    obtain ⟨i1, i2⟩ := insertUnslashed_eq_ok h2
    obtain ⟨j1, j2⟩ := ih h
    refine ⟨fun hn => j1 (i1 hn), fun i => ?_⟩
    rw [j2, i2, attested_of_ok h1]
    simp only [List.mem_cons, exists_eq_or_imp]
    constructor
    · rintro ((h | ⟨h, h'⟩) | ⟨h, h'⟩)
      · exact Or.inl h
      · exact Or.inr ⟨h', Or.inl h⟩
      · exact Or.inr ⟨h, Or.inr h'⟩
    · rintro (h | ⟨h, h' | h'⟩)
      · exact Or.inl (Or.inl h)
      · exact Or.inl (Or.inr ⟨h', h⟩)
      · exact Or.inr ⟨h, h'⟩

theorem unslashed_attesting_eq_ok {E : Env} {s : State} {r : List Nat}
    {l : List PendingAttestation}
    (h : Phase0.get_unslashed_attesting_indices E s l = .ok r) :
    r.Nodup ∧ ∀ i, i ∈ r ↔ (∃ v, s.validators[i]? = some v ∧ v.slashed = false) ∧
      ∃ a ∈ l, Attested E s a i := by
  simp only [Phase0.get_unslashed_attesting_indices, run] at h
  obtain ⟨r, h, rfl⟩ := h
  obtain ⟨h1, h2⟩ := unslashedFrom_eq_ok h
  refine ⟨nodup_iterate (h1 List.nodup_nil), fun i => ?_⟩
  rw [mem_iterate, h2]; simp

theorem matching_source_eq_ok {E : Env} {s : State} {epoch : Nat} {l : List PendingAttestation}
    (h : Phase0.get_matching_source_attestations E s epoch = .ok l) :
    l = if epoch = epochOf E s.slot then s.current_epoch_attestations
      else s.previous_epoch_attestations := by
  simp only [Phase0.get_matching_source_attestations, run, current_epoch_eq_ok,
    previous_epoch_eq_ok] at h
  obtain ⟨_, ⟨rfl, -⟩, _, ⟨rfl, -⟩, -, h⟩ := h
  exact h.symm

theorem matching_target_eq_ok {E : Env} {s : State} {epoch : Nat} {l : List PendingAttestation}
    (h : Phase0.get_matching_target_attestations E s epoch = .ok l) (a : PendingAttestation) :
    a ∈ l ↔ a ∈ (if epoch = epochOf E s.slot then s.current_epoch_attestations
      else s.previous_epoch_attestations) ∧ get_block_root E s epoch = .ok a.data.target.root := by
  simp only [Phase0.get_matching_target_attestations, run] at h
  obtain ⟨src, h1, h⟩ := h
  rw [← matching_source_eq_ok h1]
  rcases h with ⟨h2, rfl⟩ | ⟨-, root, h2, rfl⟩
  · rw [List.isEmpty_iff] at h2
    simp [h2]
  · rw [List.mem_filter, h2, decide_eq_true_eq, Except.ok.injEq, eq_comm (a := root)]

theorem phase0_target_balance {E : Env} {s : State} {epoch b : Nat} {l : List PendingAttestation}
    (h : Phase0.get_matching_target_attestations E s epoch = .ok l)
    (hb : Phase0.get_attesting_balance E s l = .ok b) : TargetBalance E .Phase0 s epoch b := by
  simp only [Phase0.get_attesting_balance, run] at hb
  obtain ⟨r, h1, h2⟩ := hb
  obtain ⟨n1, n2⟩ := unslashed_attesting_eq_ok h1
  obtain ⟨-, -, rfl⟩ := get_total_balance_eq_ok.1 h2
  refine ⟨r, n1, fun i => ?_, rfl⟩
  rw [n2]
  simp only [VotedTarget, if_true, matching_target_eq_ok h, and_assoc]
  constructor
  · rintro ⟨⟨v, h1, h2⟩, h3⟩; exact ⟨v, h1, h2, h3⟩
  · rintro ⟨v, h1, h2, h3⟩; exact ⟨⟨v, h1, h2⟩, h3⟩

theorem altair_target_balance {E : Env} {f : Fork} {s : State} {epoch b : Nat} {l : List Nat}
    (hf : f ≠ .Phase0) (h : get_unslashed_participating_indices E s 1 epoch = .ok l)
    (hb : get_total_balance E s l = .ok b) : TargetBalance E f s epoch b := by
  obtain ⟨n1, n2⟩ := participating_eq_ok (by decide) h
  obtain ⟨-, -, rfl⟩ := get_total_balance_eq_ok.1 hb
  refine ⟨l, n1, fun i => ?_, rfl⟩
  rw [n2]
  simp only [VotedTarget, hf, if_false]

theorem justification_balances_ok {E : Env} {f : Fork} {s : State} {t p c : Nat}
    (h : justification_balances E f s = .ok (t, p, c)) :
    t = activeBalance E s ∧ TargetBalance E f s (epochOf E s.slot - 1) p ∧
      TargetBalance E f s (epochOf E s.slot) c := by
  unfold justification_balances at h
  cases f
  case Phase0 =>
    simp only [run, current_epoch_eq_ok, previous_epoch_eq_ok, total_active_eq_ok,
      Prod.mk.injEq] at h
    obtain ⟨_, ⟨rfl, -⟩, pa, h1, _, ⟨rfl, -⟩, ca, h2, _, ⟨-, -, rfl⟩, _, h3, _, h4, rfl, rfl, rfl⟩ := h
    exact ⟨rfl, phase0_target_balance h1 h3, phase0_target_balance h2 h4⟩
  all_goals
    simp only [run, current_epoch_eq_ok, previous_epoch_eq_ok, total_active_eq_ok,
      Prod.mk.injEq] at h
    obtain ⟨_, ⟨rfl, -⟩, _, ⟨rfl, -⟩, pa, h1, ca, h2, _, ⟨-, -, rfl⟩, _, h3, _, h4, rfl, rfl, rfl⟩ := h
    exact ⟨rfl, altair_target_balance (by decide) h1 h3, altair_target_balance (by decide) h2 h4⟩

theorem totalEffective_congr {s : State} {l m : List Nat} (hl : l.Nodup) (hm : m.Nodup)
    (h : ∀ i, i ∈ l ↔ i ∈ m) : totalEffective s l = totalEffective s m := by
  have hp : l.Perm m := (List.perm_ext_iff_of_nodup hl hm).2 fun i => h i
  exact (hp.map _).sum_nat

theorem supermajority_iff {E : Env} {f : Fork} {s : State} {epoch b : Nat}
    (h : TargetBalance E f s epoch b) :
    Supermajority E f s epoch ↔ 2 * activeBalance E s ≤ 3 * b := by
  constructor
  · rintro ⟨b', ⟨l', n', m', rfl⟩, hb⟩
    obtain ⟨l, n, m, rfl⟩ := h
    rwa [totalEffective_congr n n' fun i => (m i).trans (m' i).symm]
  · intro hb; exact ⟨b, h, hb⟩

/-! ## Weighing -/

theorem justify_epoch_ok {E : Env} {epoch bit b t : Nat} {s s' : State}
    (h : justify_epoch E epoch bit b t s = .ok () s') :
    2 * t ≤ 3 * b ∧ (∃ root, get_block_root E s epoch = .ok root ∧
      s' = { s with
        current_justified_checkpoint := ⟨epoch, root⟩
        justification_bits := s.justification_bits.set bit true }) ∨
    ¬ 2 * t ≤ 3 * b ∧ s' = s := by
  simp only [justify_epoch, run] at h
  obtain ⟨_, ⟨rfl, -⟩, _, ⟨rfl, -⟩, h⟩ := h
  rcases h with ⟨h1, root, h2, h3⟩ | ⟨h1, -, rfl⟩
  · left
    refine ⟨by omega, root, h2, h3.symm⟩
  · right; exact ⟨by omega, rfl⟩

theorem finalizes_ok {bits : List Bool} {lo hi k cur : Nat} {c : Checkpoint} {b : Bool}
    (h : finalizes bits lo hi c k cur = .ok b) :
    b = (((bits.drop lo).take (hi - lo)).all id && (c.epoch + k == cur)) := by
  simp only [finalizes] at h
  split at h
  · rename_i h1
    simp only [run] at h
    obtain ⟨_, ⟨rfl, -⟩, rfl⟩ := h
    rw [h1, Bool.true_and]
    rfl
  · rename_i h1
    cases h
    simp [h1]

theorem process_finalizations_ok {P C : Checkpoint} {cur : Nat} {s s' : State}
    {b0 b1 b2 b3 : Bool} (hb : s.justification_bits = [b0, b1, b2, b3])
    (h : process_finalizations P C cur s = .ok () s') :
    s' = { s with
      finalized_checkpoint := finalizedBy s.justification_bits P C s.finalized_checkpoint cur } := by
  simp only [process_finalizations, run] at h
  obtain ⟨f1, h1, f2, h2, f3, h3, f4, h4, h⟩ := h
  have h1 := finalizes_ok h1
  have h2 := finalizes_ok h2
  have h3 := finalizes_ok h3
  have h4 := finalizes_ok h4
  rw [← h]
  simp only [hb] at h1 h2 h3 h4
  simp at h1 h2 h3 h4
  subst h1 h2 h3 h4
  simp only [finalizedBy, hb]
  simp [Bool.and_assoc]

theorem weigh_ok {E : Env} {t p c : Nat} {s s' : State}
    (hlen : s.justification_bits.length = 4)
    (h : weigh_justification_and_finalization E t p c s = .ok () s') :
    Weighed E s s' (decide (2 * t ≤ 3 * p)) (decide (2 * t ≤ 3 * c)) := by
  obtain ⟨b0, b1, b2, b3, hb⟩ : ∃ b0 b1 b2 b3, s.justification_bits = [b0, b1, b2, b3] := by
    match hs : s.justification_bits, hlen with
    | [b0, b1, b2, b3], _ => exact ⟨b0, b1, b2, b3, rfl⟩
  simp only [weigh_justification_and_finalization, run, current_epoch_eq_ok,
    previous_epoch_eq_ok] at h
  obtain ⟨_, ⟨rfl, -⟩, _, ⟨rfl, -⟩, s1, h1, s2, h2, h3⟩ := h
  replace h1 := justify_epoch_ok h1
  replace h2 := justify_epoch_ok h2
  rcases h1 with ⟨h1, r1, g1, rfl⟩ | ⟨h1, rfl⟩ <;> rcases h2 with ⟨h2, r2, g2, rfl⟩ | ⟨h2, rfl⟩ <;>
    (replace h3 := process_finalizations_ok
        (by simp only [hb, List.take, List.set]; exact rfl) h3
     subst h3
     constructor <;> simp [h1, h2, hb] <;> assumption)

theorem justification_ok {E : Env} {f : Fork} {s s' : State}
    (hlen : s.justification_bits.length = 4)
    (h : process_justification_and_finalization E f s = .ok () s') :
    epochOf E s.slot ≤ 1 ∧ s' = s ∨
    1 < epochOf E s.slot ∧ ∃ jp jc, Weighed E s s' jp jc ∧
      (jp = true ↔ Supermajority E f s (epochOf E s.slot - 1)) ∧
      (jc = true ↔ Supermajority E f s (epochOf E s.slot)) := by
  simp only [process_justification_and_finalization, run, current_epoch_eq_ok] at h
  obtain ⟨_, ⟨rfl, -⟩, h⟩ := h
  rcases h with ⟨h1, h2⟩ | ⟨h1, ⟨t, p, c⟩, h2, h3⟩
  · left
    exact ⟨h1, h2.2.symm⟩
  · right
    have h1 : 1 < epochOf E s.slot := by
      unfold GENESIS_EPOCH at h1; omega
    obtain ⟨rfl, hp, hc⟩ := justification_balances_ok h2
    refine ⟨h1, _, _, weigh_ok hlen h3, ?_, ?_⟩
    · rw [decide_eq_true_eq, supermajority_iff hp]
    · rw [decide_eq_true_eq, supermajority_iff hc]

/-! ## Runs -/

theorem finalizedBy_cases {b : List Bool} {P C F : Checkpoint} {cur : Nat} :
    (finalizedBy b P C F cur = C ∧ b.getD 0 false = true ∧ b.getD 1 false = true ∧
      (C.epoch + 1 = cur ∨ b.getD 2 false = true ∧ C.epoch + 2 = cur)) ∨
    (finalizedBy b P C F cur = P ∧ b.getD 1 false = true ∧ b.getD 2 false = true ∧
      (P.epoch + 2 = cur ∨ b.getD 3 false = true ∧ P.epoch + 3 = cur)) ∨
    finalizedBy b P C F cur = F := by
  simp only [finalizedBy]
  split
  · rename_i h; simp only [Bool.and_eq_true, beq_iff_eq] at h
    exact Or.inl ⟨rfl, h.1.1, h.1.2, Or.inl h.2⟩
  split
  · rename_i h; simp only [Bool.and_eq_true, beq_iff_eq] at h
    exact Or.inl ⟨rfl, h.1.1.1, h.1.1.2, Or.inr ⟨h.1.2, h.2⟩⟩
  split
  · rename_i h; simp only [Bool.and_eq_true, beq_iff_eq] at h
    exact Or.inr (Or.inl ⟨rfl, h.1.1, h.1.2, Or.inl h.2⟩)
  split
  · rename_i h; simp only [Bool.and_eq_true, beq_iff_eq] at h
    exact Or.inr (Or.inl ⟨rfl, h.1.1.1, h.1.1.2, Or.inr ⟨h.1.2, h.2⟩⟩)
  · exact Or.inr (Or.inr rfl)

/-- The epochs of `J` and those justified by the step at the end of the epoch of `s`. -/
def Later (E : Env) (f : Fork) (s : State) (J : Nat → Prop) (e : Nat) : Prop :=
  J e ∨ 1 < epochOf E s.slot ∧ (e = epochOf E s.slot ∨ e + 1 = epochOf E s.slot) ∧
    Supermajority E f s e

/-- The checkpoints did not move backwards, and what was finalized had the votes. -/
structure Forward (E : Env) (s s' : State) (J : Nat → Prop) : Prop where
  current : s.current_justified_checkpoint.epoch ≤ s'.current_justified_checkpoint.epoch
  previous : s.previous_justified_checkpoint.epoch ≤ s'.previous_justified_checkpoint.epoch
  finalized : s.finalized_checkpoint.epoch ≤ s'.finalized_checkpoint.epoch
  finalized_eq : s'.finalized_checkpoint = s.finalized_checkpoint ∨
    (s'.finalized_checkpoint = s.previous_justified_checkpoint ∨
      s'.finalized_checkpoint = s.current_justified_checkpoint) ∧
    s'.finalized_checkpoint.epoch < epochOf E s.slot ∧
    epochOf E s.slot ≤ s'.finalized_checkpoint.epoch + 3 ∧
    J (s'.finalized_checkpoint.epoch + 1) ∧
    ∀ e, s'.finalized_checkpoint.epoch ≤ e → e < epochOf E s.slot → J e

theorem getD_true {b : List Bool} {j : Nat} (h : b.getD j false = true) : b[j]? = some true := by
  rw [List.getD_eq_getElem?_getD] at h
  cases hb : b[j]? with
  | none => simp [hb] at h
  | some x => rw [hb] at h; simp at h; rw [h]

/-- The step keeps the order: the state counts as being in the next epoch. -/
theorem justification_forward {E : Env} {f : Fork} {s s' : State} {J : Nat → Prop}
    (ho : Ordered E s J) (h : process_justification_and_finalization E f s = .ok () s') :
    Forward E s s' (Later E f s J) ∧
    s'.finalized_checkpoint.epoch ≤ s'.previous_justified_checkpoint.epoch ∧
    s'.previous_justified_checkpoint.epoch ≤ s'.current_justified_checkpoint.epoch ∧
    s'.current_justified_checkpoint.epoch ≤ epochOf E s.slot ∧
    s'.justification_bits.length = 4 ∧
    (∀ j : Nat, s'.justification_bits[j]? = some true →
      1 < epochOf E s.slot + 1 ∧ ∃ e, e + j = epochOf E s.slot ∧ Later E f s J e) ∧
    Later E f s J s'.finalized_checkpoint.epoch ∧
    Later E f s J s'.previous_justified_checkpoint.epoch ∧
    Later E f s J s'.current_justified_checkpoint.epoch ∧
    (s'.current_justified_checkpoint = s.current_justified_checkpoint ∨
      1 < epochOf E s.slot ∧
      (s'.current_justified_checkpoint.epoch = epochOf E s.slot ∨
        s'.current_justified_checkpoint.epoch + 1 = epochOf E s.slot) ∧
      Supermajority E f s s'.current_justified_checkpoint.epoch ∧
      get_block_root E s s'.current_justified_checkpoint.epoch =
        .ok s'.current_justified_checkpoint.root) := by
  obtain ⟨o1, o2, o3, o4, o5, o6, o7, o8⟩ := ho
  rcases justification_ok o4 h with ⟨h1, rfl⟩ | ⟨h1, jp, jc, w, hp, hc⟩
  · refine ⟨⟨Nat.le_refl _, Nat.le_refl _, Nat.le_refl _, Or.inl rfl⟩, o1, o2, by omega, o4, ?_,
      Or.inl o6, Or.inl o7, Or.inl o8, Or.inl rfl⟩
    intro j hj
    have := (o5 j hj).1
    omega
  · -- the bits after the step
    have hbits : ∀ j : Nat, s'.justification_bits[j]? = some true →
        ∃ e, e + j = epochOf E s.slot ∧ Later E f s J e := by
      intro j hj
      rw [w.bits] at hj
      match j with
      | 0 =>
        simp at hj
        exact ⟨_, rfl, Or.inr ⟨h1, Or.inl rfl, hc.1 hj⟩⟩
      | 1 =>
        simp only [List.getElem?_cons_succ, List.getElem?_cons_zero, Option.some.injEq,
          Bool.or_eq_true] at hj
        rcases hj with hj | hj
        · exact ⟨epochOf E s.slot - 1, by omega, Or.inr ⟨h1, Or.inr (by omega), hp.1 hj⟩⟩
        · obtain ⟨-, e, he, hJ⟩ := o5 0 (getD_true hj)
          exact ⟨e, by omega, Or.inl hJ⟩
      | 2 =>
        simp only [List.getElem?_cons_succ, List.getElem?_cons_zero, Option.some.injEq] at hj
        obtain ⟨-, e, he, hJ⟩ := o5 1 (getD_true hj)
        exact ⟨e, by omega, Or.inl hJ⟩
      | 3 =>
        simp only [List.getElem?_cons_succ, List.getElem?_cons_zero, Option.some.injEq] at hj
        obtain ⟨-, e, he, hJ⟩ := o5 2 (getD_true hj)
        exact ⟨e, by omega, Or.inl hJ⟩
      | k + 4 => simp at hj
    have bit : ∀ j e, s'.justification_bits.getD j false = true → e + j = epochOf E s.slot →
        Later E f s J e := by
      intro j e hj he
      obtain ⟨e', he', hJ⟩ := hbits j (getD_true hj)
      have : e = e' := by omega
      exact this ▸ hJ
    -- the current justified checkpoint
    have hcur : s'.current_justified_checkpoint = s.current_justified_checkpoint ∨
        (s'.current_justified_checkpoint.epoch = epochOf E s.slot ∨
          s'.current_justified_checkpoint.epoch + 1 = epochOf E s.slot) ∧
        Supermajority E f s s'.current_justified_checkpoint.epoch ∧
        get_block_root E s s'.current_justified_checkpoint.epoch =
          .ok s'.current_justified_checkpoint.root := by
      cases hjc : jc with
      | true =>
        obtain ⟨w1, w2⟩ := w.both hjc
        right; rw [w2]
        exact ⟨Or.inl rfl, hc.1 hjc, w1⟩
      | false =>
        cases hjp : jp with
        | true =>
          obtain ⟨w1, w2⟩ := w.one hjc hjp
          right; rw [w2]
          exact ⟨Or.inr (by omega), hp.1 hjp, w1⟩
        | false => exact Or.inl (w.none hjc hjp)
    have hcle : s.current_justified_checkpoint.epoch ≤ s'.current_justified_checkpoint.epoch ∧
        s'.current_justified_checkpoint.epoch ≤ epochOf E s.slot ∧
        Later E f s J s'.current_justified_checkpoint.epoch := by
      rcases hcur with h | ⟨h, h2, -⟩
      · rw [h]; exact ⟨Nat.le_refl _, by omega, Or.inl o8⟩
      · exact ⟨by omega, by omega, Or.inr ⟨h1, h, h2⟩⟩
    have hprev := w.previous
    have hfin := w.finalized
    refine ⟨⟨hcle.1, by rw [hprev]; exact o2, ?_, ?_⟩, ?_, by rw [hprev]; exact hcle.1, hcle.2.1,
      by rw [w.bits]; rfl, fun j hj => ⟨by omega, hbits j hj⟩, ?_, by rw [hprev]; exact Or.inl o8,
      hcle.2.2, ?_⟩
    · rw [hfin]
      rcases finalizedBy_cases (b := s'.justification_bits) (P := s.previous_justified_checkpoint)
        (C := s.current_justified_checkpoint) (F := s.finalized_checkpoint)
        (cur := epochOf E s.slot) with h | h | h
      · rw [h.1]; omega
      · rw [h.1]; omega
      · rw [h]
    · rcases finalizedBy_cases (b := s'.justification_bits) (P := s.previous_justified_checkpoint)
        (C := s.current_justified_checkpoint) (F := s.finalized_checkpoint)
        (cur := epochOf E s.slot) with ⟨h, b0, b1, h2⟩ | ⟨h, b1, b2, h2⟩ | h
      · right
        rw [hfin, h]
        rcases h2 with h2 | ⟨b2, h2⟩
        · refine ⟨Or.inr rfl, by omega, by omega, bit 0 _ b0 (by omega), fun e he he' => ?_⟩
          exact bit 1 _ b1 (by omega)
        · refine ⟨Or.inr rfl, by omega, by omega, bit 1 _ b1 (by omega), fun e he he' => ?_⟩
          rcases Nat.lt_or_ge (e + 1) (epochOf E s.slot) with h3 | h3
          · exact bit 2 _ b2 (by omega)
          · exact bit 1 _ b1 (by omega)
      · right
        rw [hfin, h]
        rcases h2 with h2 | ⟨b3, h2⟩
        · refine ⟨Or.inl rfl, by omega, by omega, bit 1 _ b1 (by omega), fun e he he' => ?_⟩
          rcases Nat.lt_or_ge (e + 1) (epochOf E s.slot) with h3 | h3
          · exact bit 2 _ b2 (by omega)
          · exact bit 1 _ b1 (by omega)
        · refine ⟨Or.inl rfl, by omega, by omega, bit 2 _ b2 (by omega), fun e he he' => ?_⟩
          rcases Nat.lt_or_ge (e + 2) (epochOf E s.slot) with h3 | h3
          · exact bit 3 _ b3 (by omega)
          rcases Nat.lt_or_ge (e + 1) (epochOf E s.slot) with h3 | h3
          · exact bit 2 _ b2 (by omega)
          · exact bit 1 _ b1 (by omega)
      · left; rw [hfin, h]
    · rw [hfin, hprev]
      rcases finalizedBy_cases (b := s'.justification_bits) (P := s.previous_justified_checkpoint)
        (C := s.current_justified_checkpoint) (F := s.finalized_checkpoint)
        (cur := epochOf E s.slot) with h | h | h
      · rw [h.1]
      · rw [h.1]; omega
      · rw [h]; omega
    · rw [hfin]
      rcases finalizedBy_cases (b := s'.justification_bits) (P := s.previous_justified_checkpoint)
        (C := s.current_justified_checkpoint) (F := s.finalized_checkpoint)
        (cur := epochOf E s.slot) with h | h | h
      · rw [h.1]; exact Or.inl o8
      · rw [h.1]; exact Or.inl o7
      · rw [h]; exact Or.inl o6
    · rcases hcur with h | h
      · exact Or.inl h
      · exact Or.inr ⟨h1, h⟩

/-- The checkpoints and the justification bits are the same. -/
def SameCheckpoints (s s' : State) : Prop :=
  s'.justification_bits = s.justification_bits ∧
  s'.previous_justified_checkpoint = s.previous_justified_checkpoint ∧
  s'.current_justified_checkpoint = s.current_justified_checkpoint ∧
  s'.finalized_checkpoint = s.finalized_checkpoint

theorem same_mod {W : List Field} {s s' : State} (h : ChangesOnly W s s')
    (hW : ∀ x ∈ [Field.justification_bits, .previous_justified_checkpoint,
      .current_justified_checkpoint, .finalized_checkpoint], x ∉ W) : SameCheckpoints s s' :=
  ⟨h .justification_bits (hW _ (by decide)), h .previous_justified_checkpoint (hW _ (by decide)),
    h .current_justified_checkpoint (hW _ (by decide)), h .finalized_checkpoint (hW _ (by decide))⟩

theorem ordered_congr {E : Env} {s s' : State} {J J' : Nat → Prop} (h : SameCheckpoints s s')
    (he : epochOf E s'.slot = epochOf E s.slot) (hJ : ∀ e, J e → J' e) (ho : Ordered E s J) :
    Ordered E s' J' := by
  obtain ⟨h1, h2, h3, h4⟩ := h
  obtain ⟨o1, o2, o3, o4, o5, o6, o7, o8⟩ := ho
  refine ⟨?_, ?_, ?_, ?_, ?_, ?_, ?_, ?_⟩
  · rw [h4, h2]; exact o1
  · rw [h2, h3]; exact o2
  · rw [h3, he]; exact o3
  · rw [h1]; exact o4
  · rw [h1, he]
    intro j hj
    obtain ⟨a, e, b, c⟩ := o5 j hj
    exact ⟨a, e, b, hJ _ c⟩
  · rw [h4]; exact hJ _ o6
  · rw [h2]; exact hJ _ o7
  · rw [h3]; exact hJ _ o8

/-- The epochs justified after leaving the slot of `s`. -/
def NextJ (E : Env) (f : Fork) (s : State) (J : Nat → Prop) (e : Nat) : Prop :=
  J e ∨ ((s.slot + 1) % E.slots_per_epoch = 0 ∧ 1 < epochOf E s.slot ∧
    (e = epochOf E s.slot ∨ e + 1 = epochOf E s.slot) ∧
    Supermajority E f (finalState (process_slot E f) s) e)

theorem slot_step_casper {E : Env} {f : Fork} {s s' : State} {J : Nat → Prop}
    (ho : Ordered E s J) (h : slot_step E f s = .ok () s') :
    Ordered E s' (NextJ E f s J) ∧ Forward E s s' (NextJ E f s J) ∧
    (s'.current_justified_checkpoint = s.current_justified_checkpoint ∨
      (s.slot + 1) % E.slots_per_epoch = 0 ∧
      (s'.current_justified_checkpoint.epoch = epochOf E s.slot ∨
        s'.current_justified_checkpoint.epoch + 1 = epochOf E s.slot) ∧
      Supermajority E f (finalState (process_slot E f) s) s'.current_justified_checkpoint.epoch ∧
      get_block_root E (finalState (process_slot E f) s) s'.current_justified_checkpoint.epoch =
        .ok s'.current_justified_checkpoint.root) := by
  obtain ⟨s₁, s₂, h1, h2, h3, h4, rfl⟩ := slot_step_eq_ok.1 h
  have e1 := process_slot_slot h1
  have hsame : SameCheckpoints s s₁ := same_mod (slot_mod.ok h1) (by decide)
  have hfs : finalState (process_slot E f) s = s₁ := by unfold finalState; rw [h1]
  have hd : epochOf E (s.slot + 1) =
      epochOf E s.slot + if E.slots_per_epoch ∣ s.slot + 1 then 1 else 0 := Nat.succ_div
  rcases h4 with ⟨h4, h5⟩ | ⟨h4, rfl⟩
  · rw [if_pos (Nat.dvd_of_mod_eq_zero h4)] at hd
    obtain ⟨e⟩ := epoch_steps h5
    have ho₁ : Ordered E s₁ J := ordered_congr hsame (by rw [e1]) (fun _ h => h) ho
    have hrest : SameCheckpoints e.s₁ s₂ := same_mod e.from1 (by decide)
    obtain ⟨fw, a1, a2, a3, a4, a5, a6, a7, a8, a9⟩ := justification_forward ho₁ e.justification
    have hJ : ∀ x, Later E f s₁ J x → NextJ E f s J x := by
      rintro x (hx | ⟨x1, x2, x3⟩)
      · exact Or.inl hx
      · rw [e1] at x1 x2
        exact Or.inr ⟨h4, x1, x2, hfs.symm ▸ x3⟩
    obtain ⟨r1, r2, r3, r4⟩ := hrest
    obtain ⟨q1, q2, q3, q4⟩ := hsame
    obtain ⟨f1, f2, f3, f4⟩ := fw
    rw [e1] at a3 a5 a9 f4
    rw [q2] at f2 f4
    rw [q3] at f1 f4 a9
    rw [q4] at f3 f4
    rw [hfs]
    refine ⟨⟨?_, ?_, ?_, ?_, ?_, ?_, ?_, ?_⟩, ⟨?_, ?_, ?_, ?_⟩, ?_⟩ <;> dsimp only
    · rw [r4, r2]; exact a1
    · rw [r2, r3]; exact a2
    · rw [r3, hd]; left; omega
    · rw [r1]; exact a4
    · rw [r1, hd]
      intro j hj
      obtain ⟨b1, x, b2, b3⟩ := a5 j hj
      exact ⟨b1, x, by omega, hJ _ b3⟩
    · rw [r4]; exact hJ _ a6
    · rw [r2]; exact hJ _ a7
    · rw [r3]; exact hJ _ a8
    · rw [r3]; exact f1
    · rw [r2]; exact f2
    · rw [r4]; exact f3
    · rw [r4]
      rcases f4 with f4 | ⟨g1, g2, g3, g4, g5⟩
      · exact Or.inl f4
      · exact Or.inr ⟨g1, g2, g3, hJ _ g4, fun x hx hx' => hJ _ (g5 x hx hx')⟩
    · rw [r3]
      rcases a9 with a9 | ⟨-, b1, b2, b3⟩
      · exact Or.inl a9
      · exact Or.inr ⟨h4, b1, b2, b3⟩
  · rw [if_neg (fun hd => h4 (Nat.mod_eq_zero_of_dvd hd))] at hd
    have hs' : SameCheckpoints s { s₂ with slot := s.slot + 1 } := hsame
    refine ⟨ordered_congr hs' hd (fun _ h => Or.inl h) ho, ?_, Or.inl hsame.2.2.1⟩
    obtain ⟨q1, q2, q3, q4⟩ := hs'
    exact ⟨Nat.le_of_eq (by rw [q3]), Nat.le_of_eq (by rw [q2]), Nat.le_of_eq (by rw [q4]),
      Or.inl q4⟩

theorem final_same {E : Env} {f : Fork} {b : BeaconBlock} {s : State} :
    SameCheckpoints s (finalState (process_block E f b) s) ∧
      (finalState (process_block E f b) s).slot = s.slot :=
  ⟨same_mod (block_mod.final s) (by decide), block_mod.final s .slot (by decide)⟩

theorem casperRun_ordered {E : Env} {f₀ f : Fork} {s₀ s : State} {J₀ J : Nat → Prop}
    (ho : Ordered E s₀ J₀) (h : CasperRun E f₀ s₀ J₀ f s J) :
    Ordered E s J ∧ s₀.slot ≤ s.slot ∧
    s₀.current_justified_checkpoint.epoch ≤ s.current_justified_checkpoint.epoch ∧
    s₀.previous_justified_checkpoint.epoch ≤ s.previous_justified_checkpoint.epoch ∧
    s₀.finalized_checkpoint.epoch ≤ s.finalized_checkpoint.epoch := by
  induction h with
  | start => exact ⟨ho, Nat.le_refl _, Nat.le_refl _, Nat.le_refl _, Nat.le_refl _⟩
  | @block f s J b _ ih =>
    obtain ⟨h1, h2⟩ := final_same (E := E) (f := f) (b := b) (s := s)
    have := h1
    obtain ⟨q1, q2, q3, q4⟩ := h1
    refine ⟨ordered_congr this (by rw [h2]) (fun _ h => h) ih.1, ?_⟩
    rw [h2, q2, q3, q4]
    exact ih.2
  | @slot f s s' J _ h ih =>
    have hs := process_slots_one h
    obtain ⟨h1, ⟨f1, f2, f3, -⟩, -⟩ := slot_step_casper ih.1 hs
    obtain ⟨-, i1, i2, i3, i4⟩ := ih
    refine ⟨h1, ?_, by omega, by omega, by omega⟩
    rw [slot_step_slot hs]; omega
  | @upgrade f g s s' J _ h ih =>
    obtain ⟨h1, -, -, h2, h3, h4, h5⟩ := upgrade_common h
    refine ⟨ordered_congr ⟨h2, h3, h4, h5⟩ (by rw [h1]) (fun _ h => h) ih.1, ?_⟩
    rw [h1, h3, h4, h5]
    exact ih.2

theorem genesis_ordered {E : Env} {f : Fork} {h : Bytes32} {t : Nat} {ds : List Deposit}
    {p : Option ExecutionPayloadHeader} {s : State}
    (hs : initialize_beacon_state_from_eth1 E f h t ds p = .ok s) :
    Ordered E s fun e => e = 0 := by
  obtain ⟨h1, -, -, h2, h3, h4, h5, -⟩ := genesis_common hs
  refine ⟨by omega, by omega, Or.inr h4, by rw [h2]; rfl, ?_, h5, h3, h4⟩
  intro j hj
  rw [h2] at hj
  match j with
  | 0 | 1 | 2 | 3 => simp at hj
  | k + 4 => simp at hj

end Verif
