import Verif.Proofs.SafetyElectra

/-! # Electra's attestations do not panic -/

namespace Verif

open Spec Props

variable {E : Env} {s s' : State}

/-- A committee of a slot with several committees is not empty. -/
theorem electra_committee_calm (hE : SaneConfig E) (h : Wellformed E s) {slot index count : Nat}
    (hs : slot < 2 ^ 48) (hc : get_committee_count_per_slot E s (epochOf E slot) = .ok count)
    (hi : index < count) :
    Calm (get_beacon_committee E s slot index) fun c => (∀ i ∈ c, i < s.validators.length) ∧
      (2 ≤ count → c ≠ []) ∧ c.length ≤ 2 ^ 40 := by
  have hspe := hE.slots_per_epoch
  have htar := hE.target_committee_size
  have hle := epochOf_le E slot
  have key := get_beacon_committee_eq E hE s h.shaped (epochOf E slot) (by omega) count hc
    (slot % E.slots_per_epoch) index (Nat.mod_lt _ hspe.1) hi
  have hdm : epochOf E slot * E.slots_per_epoch + slot % E.slots_per_epoch = slot :=
    Nat.div_add_mod' _ _
  rw [hdm] at key
  have hmem := committee_calm hE h hs hc hi
  rw [key] at hmem ⊢
  refine ⟨hmem, fun h2 => ?_, ?_⟩
  · have hk : slot % E.slots_per_epoch * count + index < count * E.slots_per_epoch := by
      have h1 : slot % E.slots_per_epoch + 1 ≤ E.slots_per_epoch := Nat.mod_lt _ hspe.1
      have h3 := Nat.mul_le_mul_left count h1
      rw [Nat.mul_add, Nat.mul_one, Nat.mul_comm count (slot % _)] at h3
      omega
    have hb := (piece_len_bounds (shuffledList E (seedAt E s (epochOf E slot) .BeaconAttester)
      (activeIndices s (epochOf E slot))) _ _ hk).1
    rw [(shuffledList_perm _ _ _).length_eq] at hb
    rw [committee_count_eq hE] at hc
    injection hc with hc
    have h4 : count ≤ (activeIndices s (epochOf E slot)).length / E.slots_per_epoch /
      E.target_committee_size := by omega
    have h5 : count ≤ (activeIndices s (epochOf E slot)).length / E.slots_per_epoch :=
      Nat.le_trans h4 (Nat.div_le_self _ _)
    have h6 : count * E.slots_per_epoch ≤ (activeIndices s (epochOf E slot)).length :=
      (Nat.le_div_iff_mul_le hspe.1).1 h5
    have h7 : 1 ≤ (activeIndices s (epochOf E slot)).length / (count * E.slots_per_epoch) :=
      (Nat.one_le_div_iff (Nat.mul_pos (by omega) hspe.1)).2 h6
    intro h0
    rw [h0] at hb
    simp only [List.length_nil] at hb
    omega
  · have hl : (activeIndices s (epochOf E slot)).length ≤ 2 ^ 40 := by
      rw [← activeIndices_eq]; exact Nat.le_trans (length_active_le s _) h.shaped.registry
    refine Nat.le_trans ((List.drop_sublist _ _).trans (List.take_sublist _ _)).length_le ?_
    rw [(shuffledList_perm _ _ _).length_eq]
    exact hl

/-- The committees that the check reads. -/
def Committees (E : Env) (s : State) (slot count : Nat) : List Nat → List (List Nat) → Prop :=
  List.Forall₂ fun i c => get_beacon_committee E s slot i = .ok c ∧
    (∀ v ∈ c, v < s.validators.length) ∧ (2 ≤ count → c ≠ []) ∧ i < count

theorem participants_calm (hE : SaneConfig E) (h : Wellformed E s) {slot count : Nat}
    (hs : slot < 2 ^ 48) (hc : get_committee_count_per_slot E s (epochOf E slot) = .ok count)
    {l : List Nat} (hl : l.Pairwise (· < ·)) {n : Nat} (hn : ∀ i ∈ l, n ≤ i * 2 ^ 40) :
    Calm (Electra.participants_count E s slot count l n) fun m => ∃ cs,
      Committees E s slot count l cs ∧ m = n + (cs.map List.length).sum := by
  have hU : U64_BOUND = 2 ^ 64 := rfl
  have hcnt : count ≤ 2 ^ 8 := by
    have hm := hE.max_committees_per_slot
    have hc' := hc
    rw [committee_count_eq hE] at hc'
    injection hc' with hc'
    omega
  induction l generalizing n with
  | nil => unfold Electra.participants_count; exact ⟨[], .nil, by simp⟩
  | cons i l ih =>
    unfold Electra.participants_count
    simp only [calm]
    refine ⟨fun _ => rfl, fun hi => ?_⟩
    have hi : i < count := by simpa using hi
    have hni := hn i (by simp)
    refine (electra_committee_calm hE h hs hc hi).mono' fun c hok ⟨c1, c2, c3⟩ => ?_
    have him : i * 2 ^ 40 ≤ 2 ^ 8 * 2 ^ 40 := Nat.mul_le_mul_right _ (by omega)
    have hp := List.pairwise_cons.1 hl
    refine ⟨by omega, (ih hp.2 fun j hj => ?_).mono ?_⟩
    · have := hp.1 j hj
      omega
    · rintro m ⟨cs, hcs, rfl⟩
      exact ⟨c :: cs, .cons ⟨hok, c1, c2, hi⟩ hcs, by simp; omega⟩

theorem committee_attesters_calm {bits : List Bool} {off i : Nat} {c : List Nat}
    (h : off + i + c.length ≤ bits.length) :
    Calm (Electra.committee_attesters bits off i c) fun l => ∀ v ∈ l, v ∈ c := by
  induction c generalizing i with
  | nil => unfold Electra.committee_attesters; simp [calm]
  | cons v c ih =>
    rw [List.length_cons] at h
    unfold Electra.committee_attesters
    simp only [calm]
    refine ⟨_, List.getElem?_eq_getElem (by omega), (ih (by omega)).mono fun l hl => ?_⟩
    intro u hu
    split at hu
    · rcases List.mem_cons.1 hu with rfl | hu
      · simp
      · simp [hl u hu]
    · simp [hl u hu]

/-- The bits that the code reads for each committee exist. -/
def Covers (bits : List Bool) (off : Nat) (cs : List (List Nat)) : Prop :=
  ∀ k c, cs[k]? = some c → off + k + c.length ≤ bits.length

theorem covers_sum {bits : List Bool} {off : Nat} {cs : List (List Nat)}
    (hne : ∀ c ∈ cs, c ≠ []) (hs : off + (cs.map List.length).sum ≤ bits.length) :
    Covers bits off cs := by
  induction cs generalizing off with
  | nil => intro k c h; simp at h
  | cons x cs ih =>
    rw [List.map_cons, List.sum_cons] at hs
    have hx : 0 < x.length := List.length_pos_of_ne_nil (hne x (by simp))
    intro k c h
    cases k with
    | zero => simp only [List.getElem?_cons_zero, Option.some.injEq] at h; subst h; omega
    | succ k =>
      simp only [List.getElem?_cons_succ] at h
      have := ih (off := off + 1) (fun c hc => hne c (by simp [hc])) (by omega) k c h
      omega

theorem attesters_calm {a : Attestation} {count : Nat} {l : List Nat} {cs : List (List Nat)}
    (hcs : Committees E s a.data.slot count l cs) {off : Nat}
    (hf : Covers a.aggregation_bits off cs) :
    Calm (Electra.attesters_from E s a off l) fun r => ∀ v ∈ r, v < s.validators.length := by
  induction hcs generalizing off with
  | nil => unfold Electra.attesters_from; simp [calm]
  | @cons i c l cs hc hcs ih =>
    obtain ⟨h1, h2, -⟩ := hc
    unfold Electra.attesters_from
    simp only [calm, h1]
    refine (committee_attesters_calm (by have := hf 0 c (by simp); omega)).mono fun r hr => ?_
    refine (ih (off := off + 1) fun k d hd => ?_).mono fun r' hr' => ?_
    · have := hf (k + 1) d (by simpa using hd); omega
    · intro v hv
      rcases List.mem_append.1 hv with hv | hv
      · exact h2 v (hr v hv)
      · exact hr' v hv

/-- After the checks, the committees of the attestation are known. -/
theorem electra_committees_calm (hE : SaneConfig E) (h : Wellformed E s) {a : Attestation}
    (ht : a.data.target.epoch = epochOf E a.data.slot) (hs : a.data.slot < 2 ^ 48) :
    Calm (Electra.check_attestation_committees E s a) fun _ =>
      Calm (Electra.get_attesting_indices E s a)
        fun l => l.Nodup ∧ ∀ i ∈ l, i < s.validators.length := by
  unfold Electra.check_attestation_committees
  simp only [calm]
  refine ⟨fun _ => rfl, fun _ => (count_calm hE).mono' fun count hc _ => ?_⟩
  rw [ht] at hc
  refine (participants_calm hE h hs hc committee_indices_sorted (by simp)).mono ?_
  rintro n ⟨cs, hcs, rfl⟩
  refine ⟨fun _ => rfl, fun hlen => ?_⟩
  have hlen : a.aggregation_bits.length = (cs.map List.length).sum := by simpa using hlen
  have hfit : Covers a.aggregation_bits 0 cs := by
    by_cases h2 : 2 ≤ count
    · refine covers_sum (fun c hc => ?_) (by omega)
      obtain ⟨k, hk, hkc⟩ := List.mem_iff_getElem.1 hc
      have := (List.forall₂_iff_get.1 hcs).2 k (by have := hcs.length_eq; omega) hk
      simp only [List.get_eq_getElem] at this
      rw [hkc] at this
      exact this.2.2.1 h2
    · have hone : cs.length ≤ 1 := by
        rw [← hcs.length_eq]
        have hso := committee_indices_sorted (bits := a.committee_bits)
        have hall : ∀ i ∈ Electra.get_committee_indices a.committee_bits, i < count := by
          intro i hi
          obtain ⟨k, hk, hki⟩ := List.mem_iff_getElem.1 hi
          have := (List.forall₂_iff_get.1 hcs).2 k hk (by have := hcs.length_eq; omega)
          simp only [List.get_eq_getElem] at this
          rw [hki] at this
          exact this.2.2.2
        generalize Electra.get_committee_indices a.committee_bits = l at hso hall
        match l, hso, hall with
        | [], _, _ => simp
        | [_], _, _ => simp
        | x :: y :: l, hso, hall =>
          have h1 := (List.pairwise_cons.1 hso).1 y (by simp)
          have h3 := hall y (by simp)
          omega
      intro k c hk
      match cs, hone, hk, hlen with
      | [x], _, hk, hlen =>
        cases k with
        | zero => simp at hk hlen; subst hk; omega
        | succ k => simp at hk
  unfold Electra.get_attesting_indices
  simp only [calm]
  refine (attesters_calm hcs hfit).mono fun l hl => ⟨nodup_iterate nodup_setOfList, fun i hi => hl i ?_⟩
  exact mem_setOfList.1 (mem_iterate.1 hi)

theorem electra_attestation_calm (hE : SaneConfig E) (hq : SaneQuotients E) {k : Nat}
    (h : Wellformed E s) (hr : Room (k + effectiveSum s) s) (hp : Parallel .Electra s)
    (hT : effectiveSum s ≤ 2 ^ 57) (a : Attestation) :
    CalmM (process_attestation E .Electra a) (fun _ s' => Kept E k s s') s := by
  have hslot := h.slot
  have hd := hq.inclusion_delay
  have hpar := hp.2 (by decide)
  unfold process_attestation Electra.process_attestation
  simp only [calm]
  refine (attestation_data_calm hE h).mono fun c ⟨h1, h2, h3, _, _⟩ => ?_
  refine (electra_committees_calm hE h h1 (by omega)).mono fun _ hatt => ⟨by omega, ?_⟩
  refine (participation_flags_calm hE h (by omega) h2).mono fun fl _ => ?_
  unfold Electra.get_indexed_attestation
  simp only [calm]
  refine hatt.mono fun l _ => ?_
  refine (indexed_calm hE).mono fun _ _ => hatt.mono fun l' ⟨hn, hl⟩ => ?_
  have hpl : (participationOf c s).length = s.validators.length := by
    unfold participationOf; split
    · exact hpar.2.1
    · exact hpar.1
  refine (apply_flags_calm hE hq h hpl hn hl hT).mono ?_
  rintro n - ⟨g1, p', -, rfl⟩
  refine (reward_proposer_calm hE (wf_participation h) (room_participation hr) ?_).mono ?_
  · omega
  · rintro - s2 g
    refine ⟨g.wf, g.room, g.effective.trans ?_, g.slot.trans ?_⟩
    · rw [setParticipation_validators]
    · cases c <;> rfl

end Verif
