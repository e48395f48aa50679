import Verif.Proofs.Iterate
import Verif.Proofs.Slash
import Verif.Proofs.Sort
import Verif.Proofs.Indexed
import Verif.Model.Operations
import Verif.Model.Loops

namespace Verif
open Spec

theorem is_slashable_validator_iff {v : Validator} {e : Nat} :
    is_slashable_validator v e = true ↔ Slashable v e := by
  simp [is_slashable_validator, Slashable]

theorem epoch_at_slot_eq_ok {E : Env} {slot e : Nat} :
    compute_epoch_at_slot E slot = .ok e ↔ e = epochOf E slot ∧ E.slots_per_epoch ≠ 0 := by
  rw [compute_epoch_at_slot, div_eq_ok, epochOf, eq_comm]

theorem process_proposer_slashing_eq_ok {E : Env} {f : Fork} {op : ProposerSlashing}
    {s s' : State} :
    process_proposer_slashing E f op s = .ok () s' ↔
      E.slots_per_epoch ≠ 0 ∧ (∃ v, ProposerEquivocation E s op v) ∧
      slash_validator E f op.signed_header_1.message.proposer_index none s = .ok () s' := by
  simp only [process_proposer_slashing, run, current_epoch_eq_ok, epoch_at_slot_eq_ok,
    get_domain_some, compute_signing_root]
  constructor
  · rintro ⟨h1, h2, h3, v, hv, _, ⟨rfl, hne⟩, h4, _, ⟨rfl, _⟩, _, rfl, h5, h6, h7⟩
    refine ⟨hne, ⟨v, by simpa using h1, by simpa using h2, by simpa using h3, hv, ?_,
      by simpa using h5, by simpa using h6⟩, h7⟩
    rw [← is_slashable_validator_iff]; simpa using h4
  · rintro ⟨hne, ⟨v, h1, h2, h3, hv, h4, h5, h6⟩, h7⟩
    refine ⟨by simpa using h1, by simpa using h2, by simpa using h3, v, hv, _, ⟨rfl, hne⟩, ?_, _,
      ⟨rfl, hne⟩, _, rfl, by simpa using h5, by simpa using h6, h7⟩
    rw [← is_slashable_validator_iff] at h4; simpa using h4

theorem process_proposer_slashing_error {E : Env} {f : Fork} {op : ProposerSlashing}
    {s s' : State} {e : Err} (h : process_proposer_slashing E f op s = .error e s') :
    s' = s ∨ ((∃ v, ProposerEquivocation E s op v) ∧
      slash_validator E f op.signed_header_1.message.proposer_index none s = .error e s') := by
  have : wp (process_proposer_slashing E f op) (fun _ _ => True) (fun e s' =>
      s' = s ∨ ((∃ v, ProposerEquivocation E s op v) ∧
      slash_validator E f op.signed_header_1.message.proposer_index none s = .error e s')) s := by
    simp only [process_proposer_slashing, wps, rejectIf_eq_ok, getOr_eq_ok, current_epoch_eq_ok,
      epoch_at_slot_eq_ok, get_domain_some, compute_signing_root, true_or, implies_true,
      and_true, Except.ok.injEq]
    rintro _ h1 _ h2 _ h3 v hv _ ⟨rfl, hne⟩ _ h4 _ ⟨rfl, _⟩ _ rfl _ h5 _ h6
    unfold wp
    split
    · trivial
    · rename_i e s' heq
      refine Or.inr ⟨⟨v, by simpa using h1, by simpa using h2, by simpa using h3, hv, ?_,
        by simpa using h5, by simpa using h6⟩, heq⟩
      rw [← is_slashable_validator_iff]; simpa using h4
  exact wp_of_error this h

/-! ## Attester slashings -/

theorem mem_setInsert {l : List Nat} {x y : Nat} : y ∈ setInsert l x ↔ y ∈ l ∨ y = x := by
  unfold setInsert; split <;> grind

theorem nodup_setInsert {l : List Nat} {x : Nat} (h : l.Nodup) : (setInsert l x).Nodup := by
  unfold setInsert; split
  · exact h
  · rw [List.nodup_append]
    refine ⟨h, by simp, ?_⟩
    rintro a ha b hb rfl
    simp at hb; subst hb; contradiction

theorem foldl_setInsert {l acc : List Nat} :
    (∀ y, y ∈ l.foldl setInsert acc ↔ y ∈ acc ∨ y ∈ l) ∧
    (acc.Nodup → (l.foldl setInsert acc).Nodup) := by
  induction l generalizing acc with
  | nil => simp
  | cons x l ih =>
    simp only [List.foldl_cons]
    refine ⟨fun y => ?_, fun h => ih.2 (nodup_setInsert h)⟩
    rw [ih.1, mem_setInsert, List.mem_cons, or_assoc]

theorem mem_setOfList {l : List Nat} {y : Nat} : y ∈ setOfList l ↔ y ∈ l := by
  simp [setOfList, foldl_setInsert.1]

theorem nodup_setOfList {l : List Nat} : (setOfList l).Nodup := foldl_setInsert.2 List.nodup_nil

/-- A sorted duplicate-free list is determined by its elements. -/
theorem sorted_unique {l m : List Nat} (hl : l.Pairwise (· < ·)) (hm : m.Pairwise (· < ·))
    (h : ∀ x, x ∈ l ↔ x ∈ m) : l = m := by
  refine List.Perm.eq_of_pairwise (le := (· < ·)) ?_ hl hm ?_
  · intro a b _ _ h h'; omega
  · rw [List.perm_ext_iff_of_nodup (hl.imp (by intro a b h; omega))
      (hm.imp (by intro a b h; omega))]
    exact h

theorem sortBy_lt {l : List Nat} (h : l.Nodup) : (sortBy (· ≤ ·) l).Pairwise (· < ·) := by
  have h1 : (sortBy (· ≤ ·) l).Pairwise (fun a b => decide (a ≤ b) = true) :=
    sortBy_sorted (by intro a b c; simp; omega) (by intro a b; simp; omega) l
  have h2 : (sortBy (· ≤ ·) l).Nodup := (sortBy_perm l).nodup_iff.2 h
  exact (h1.and h2).imp (by intro a b h; have := h.1; have := h.2; simp at *; omega)

/-- After slashing `i`, other validators are as before. -/
theorem SlashEffect_other {E : Env} {f : Fork} {i p w sh : Nat} {s s' : State} {v v₁ : Validator}
    (h : SlashEffect E f i p w sh s s' v v₁) {j : Nat} (hj : j ≠ i) :
    s'.validators[j]? = s.validators[j]? := by
  rw [h.validators]; simp [Ne.symm hj]

theorem SlashEffect_slot {E : Env} {f : Fork} {i p w sh : Nat} {s s' : State} {v v₁ : Validator}
    (h : SlashEffect E f i p w sh s s' v v₁) : s'.slot = s.slot := by
  have := congrArg State.slot h.frame
  exact this

theorem slash_all_eq_ok {E : Env} {f : Fork} {ep : Nat} {l : List Nat} (hn : l.Nodup)
    {s s' : State} {b c : Bool} :
    slash_all E f ep l b s = .ok c s' ↔
      (∀ i ∈ l, i < s.validators.length) ∧
      (∃ u, forEach (l.filter fun i => match s.validators[i]? with
        | some v => decide (Slashable v ep)
        | none => false) (fun i => slash_validator E f i none) s = .ok u s') ∧
      c = (b || !(l.filter fun i => match s.validators[i]? with
        | some v => decide (Slashable v ep)
        | none => false).isEmpty) := by
  induction l generalizing s b with
  | nil =>
    simp only [slash_all, run, List.filter_nil, forEach, List.isEmpty_nil]
    simp [eq_comm, and_comm]
  | cons i l ih =>
    obtain ⟨hi, hl⟩ := List.nodup_cons.1 hn
    simp only [slash_all, run]
    constructor
    · rintro ⟨v, hv, ⟨hsl, t, ht, h⟩ | ⟨hsl, h⟩⟩
      · obtain ⟨p, sh, w, w₁, _, _, hx⟩ := slash_validator_effect ht
        rw [ih hl] at h
        obtain ⟨h1, ⟨u, h2⟩, h3⟩ := h
        have hlen : t.validators.length = s.validators.length := by
          rw [hx.validators, List.length_set]
        have hcong : ∀ j ∈ l, (match t.validators[j]? with
            | some v => decide (Slashable v ep) | none => false) =
            (match s.validators[j]? with
            | some v => decide (Slashable v ep) | none => false) := by
          intro j hj
          rw [SlashEffect_other hx (by rintro rfl; exact hi hj)]
        rw [List.filter_congr hcong] at h2 h3
        have hslash : Slashable v ep := is_slashable_validator_iff.1 hsl
        refine ⟨?_, ?_, ?_⟩
        · intro j hj
          rcases List.mem_cons.1 hj with rfl | hj
          · exact (List.getElem?_eq_some_iff.1 hv).1
          · rw [← hlen]; exact h1 j hj
        · refine ⟨u, ?_⟩
          simp only [List.filter_cons, hv, hslash, decide_true, if_true, forEach, run]
          exact ⟨t, ht, h2⟩
        · simp only [List.filter_cons, hv, hslash, decide_true, if_true]
          simp [h3]
      · rw [ih hl] at h
        obtain ⟨h1, ⟨u, h2⟩, h3⟩ := h
        have hslash : ¬ Slashable v ep := fun h => hsl (is_slashable_validator_iff.2 h)
        refine ⟨?_, ⟨u, ?_⟩, ?_⟩
        · intro j hj
          rcases List.mem_cons.1 hj with rfl | hj
          · exact (List.getElem?_eq_some_iff.1 hv).1
          · exact h1 j hj
        · simp only [List.filter_cons, hv, hslash, decide_false]
          exact h2
        · simp only [List.filter_cons, hv, hslash, decide_false]
          exact h3
    · rintro ⟨h1, ⟨u, h2⟩, h3⟩
      have hil := h1 i (by simp)
      have hv : s.validators[i]? = some s.validators[i] := by simp [hil]
      refine ⟨_, hv, ?_⟩
      by_cases hslash : Slashable s.validators[i] ep
      · left
        refine ⟨is_slashable_validator_iff.2 hslash, ?_⟩
        simp only [List.filter_cons, hv, hslash, decide_true, if_true, forEach, run] at h2
        obtain ⟨t, ht, h2⟩ := h2
        refine ⟨t, ht, ?_⟩
        obtain ⟨p, sh, w, w₁, _, _, hx⟩ := slash_validator_effect ht
        have hlen : t.validators.length = s.validators.length := by
          rw [hx.validators, List.length_set]
        have hcong : ∀ j ∈ l, (match t.validators[j]? with
            | some v => decide (Slashable v ep) | none => false) =
            (match s.validators[j]? with
            | some v => decide (Slashable v ep) | none => false) := by
          intro j hj
          rw [SlashEffect_other hx (by rintro rfl; exact hi hj)]
        rw [ih hl]
        refine ⟨fun j hj => ?_, ⟨u, ?_⟩, ?_⟩
        · rw [hlen]; exact h1 j (by simp [hj])
        · rw [List.filter_congr hcong]; exact h2
        · simp only [List.filter_cons, hv, hslash, decide_true, if_true] at h3
          simp [h3]
      · right
        refine ⟨fun h => hslash (is_slashable_validator_iff.1 h), ?_⟩
        simp only [List.filter_cons, hv, hslash, decide_false] at h2 h3
        rw [ih hl]
        exact ⟨fun j hj => h1 j (by simp [hj]), ⟨u, h2⟩, h3⟩

theorem process_attester_slashing_eq_ok {E : Env} {f : Fork} {op : AttesterSlashing}
    {s s' : State} :
    process_attester_slashing E f op s = .ok () s' ↔
      E.slots_per_epoch ≠ 0 ∧
      (DoubleVote op.attestation_1.data op.attestation_2.data ∨
        Surrounds op.attestation_1.data op.attestation_2.data) ∧
      ValidIndexed E s op.attestation_1 ∧ ValidIndexed E s op.attestation_2 ∧
      culprits E s op.attestation_1 op.attestation_2 ≠ [] ∧
      forEach (culprits E s op.attestation_1 op.attestation_2)
        (fun i => slash_validator E f i none) s = .ok () s' := by
  have hcul : ValidIndexed E s op.attestation_1 →
      ((sortBy (· ≤ ·) (iterate E s ((setOfList op.attestation_1.attesting_indices).filter fun i =>
        decide (i ∈ setOfList op.attestation_2.attesting_indices)))).filter
        fun i => match s.validators[i]? with
        | some v => decide (Slashable v (epochOf E s.slot))
        | none => false) = culprits E s op.attestation_1 op.attestation_2 := by
    intro hv
    apply sorted_unique
    · exact (sortBy_lt (nodup_iterate (nodup_setOfList.filter _))).filter _
    · exact List.Pairwise.filter _ List.pairwise_lt_range
    · intro x
      simp only [culprits, List.mem_filter, mem_sortBy, mem_iterate, mem_setOfList, List.mem_range,
        decide_eq_true_eq, Bool.and_eq_true]
      constructor
      · rintro ⟨⟨h1, h2⟩, h3⟩
        exact ⟨hv.in_range x h1, ⟨h1, h2⟩, h3⟩
      · rintro ⟨_, h, h3⟩; exact ⟨h, h3⟩
  have hnd : (sortBy (· ≤ ·) (iterate E s ((setOfList op.attestation_1.attesting_indices).filter fun i =>
        decide (i ∈ setOfList op.attestation_2.attesting_indices)))).Nodup :=
    (sortBy_lt (nodup_iterate (nodup_setOfList.filter _))).imp (by intro a b h; omega)
  simp only [process_attester_slashing, run, valid_indexed_iff, current_epoch_eq_ok]
  rw [← slashable_data_iff]
  constructor
  · rintro ⟨h1, h2, h3, _, ⟨rfl, hne⟩, c, _, h4, h5, rfl⟩
    rw [slash_all_eq_ok hnd] at h4
    obtain ⟨h6, ⟨u, h7⟩, h8⟩ := h4
    rw [hcul h2] at h7 h8
    refine ⟨hne, by simpa using h1, h2, h3, ?_, h7⟩
    intro h
    simp [h] at h8
    simp [h8] at h5
  · rintro ⟨hne, h1, h2, h3, h4, h5⟩
    refine ⟨by simpa using h1, h2, h3, _, ⟨rfl, hne⟩, true, s', ?_, rfl, rfl⟩
    rw [slash_all_eq_ok hnd, hcul h2]
    refine ⟨?_, ⟨(), h5⟩, ?_⟩
    · intro i hi
      simp only [List.mem_filter, mem_sortBy, mem_iterate, mem_setOfList] at hi
      exact h2.in_range i hi.1
    · cases h : culprits E s op.attestation_1 op.attestation_2 with
      | nil => exact absurd h h4
      | cons => rfl

/-- A run of slashings slashes exactly its list. -/
theorem slash_run {E : Env} {f : Fork} {l : List Nat} {s s' : State}
    (h : forEach l (fun i => slash_validator E f i none) s = .ok () s') :
    s'.validators.length = s.validators.length ∧ s'.slot = s.slot ∧
    (∀ j ∉ l, s'.validators[j]? = s.validators[j]?) ∧
    (∀ j ∈ l, ∃ v, s'.validators[j]? = some v ∧ v.slashed = true) := by
  induction l generalizing s with
  | nil => cases h; simp
  | cons i l ih =>
    simp only [forEach, run] at h
    obtain ⟨t, ht, h⟩ := h
    obtain ⟨h1, h2, h3, h4⟩ := ih h
    obtain ⟨p, sh, w, w₁, _, _, hx⟩ := slash_validator_effect ht
    have hlen : t.validators.length = s.validators.length := by
      rw [hx.validators, List.length_set]
    refine ⟨h1.trans hlen, h2.trans (SlashEffect_slot hx), ?_, ?_⟩
    · intro j hj
      simp only [List.mem_cons, not_or] at hj
      rw [h3 j hj.2, SlashEffect_other hx hj.1]
    · intro j hj
      by_cases hjl : j ∈ l
      · exact h4 j hjl
      · rcases List.mem_cons.1 hj with rfl | hj
        · rw [h3 j hjl, hx.validators]
          obtain ⟨t', he, _⟩ := hx.exit
          have := (List.getElem?_eq_some_iff.1 he.before).1
          exact ⟨_, List.getElem?_set_self this, rfl⟩
        · exact absurd hj hjl

end Verif
