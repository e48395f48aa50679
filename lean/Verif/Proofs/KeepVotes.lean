import Verif.Proofs.Liveness
import Verif.Spec.Keep

/-! # Lemmas for C98: the flags of a timely vote -/

namespace Verif.Props

open Spec

variable {E : Env} {f g : Fork} {s s' t u : State} {i e : Nat}

/-- Validator `i` has the flags `0` and `1` for epoch `e`. -/
def Flagged (E : Env) (s : State) (e i : Nat) : Prop :=
  ∃ x, (flagsOf E s e)[i]? = some x ∧ FlagSet x 0 ∧ FlagSet x 1

theorem vote_flagged (hE : SaneConfig E) (hV : VotesRemembered E) (hmax : 0 < E.max_deposits)
    (hf : f ≠ .Phase0) (hfit : Modest E s) (hpar : Parallel f s) {b : BeaconBlock}
    (h : process_block E f b s = .ok () s') (hc : CarriesTimelyVote E f s b i e) :
    e ≤ epochOf E s.slot ∧ Flagged E s' e i := by
  obtain ⟨a, ha, he, hroot, hsoon, l, hl, hi⟩ := hc
  have hmix : E.min_seed_lookahead + 3 < E.epochs_per_historical_vector := by
    have := hV.mixes; omega
  have hslot : s'.slot = s.slot := block_mod.toOk.ok h .slot (by decide)
  have hrange := attested_range hl i hi
  obtain ⟨k1, k2, k3⟩ := C86_attestations hE hmax hmix hfit.slot hfit.registry hf hpar h
  obtain ⟨ht, -⟩ := k1 a ha
  have hle : e ≤ epochOf E s.slot := by rcases ht.target with h | h <;> omega
  obtain ⟨fl, hfl⟩ := flags_exist_delay E f s a.data (s.slot - a.data.slot)
  have hearn0 : EarnsFlag E f s a i 0 := ⟨l, fl, hl, hfl, hi, hfl.source.2 hsoon⟩
  have hearn1 : EarnsFlag E f s a i 1 := by
    refine ⟨l, fl, hl, hfl, hi, hfl.target.2 ⟨by rw [he]; exact hroot, ?_⟩⟩
    by_cases h1 : f = .Deneb
    · exact Or.inl h1
    by_cases h2 : f = .Electra
    · exact Or.inr (Or.inl h2)
    have := ht.window h1 h2
    exact Or.inr (Or.inr (by omega))
  refine ⟨hle, ?_⟩
  have hlen := hpar.2 hf
  unfold Flagged flagsOf
  rw [hslot]
  split
  · rename_i hc
    obtain ⟨y, hy, hj⟩ := k2 i _ (List.getElem?_eq_getElem (by rw [hlen.2.1]; exact hrange))
    exact ⟨y, hy, (hj 0 (by decide)).2 (Or.inr ⟨a, ha, by rw [he, hc], hearn0⟩),
      (hj 1 (by decide)).2 (Or.inr ⟨a, ha, by rw [he, hc], hearn1⟩)⟩
  · rename_i hc
    obtain ⟨y, hy, hj⟩ := k3 i _ (List.getElem?_eq_getElem (by rw [hlen.1]; exact hrange))
    exact ⟨y, hy, (hj 0 (by decide)).2 (Or.inr ⟨a, ha, by rw [he]; exact hc, hearn0⟩),
      (hj 1 (by decide)).2 (Or.inr ⟨a, ha, by rw [he]; exact hc, hearn1⟩)⟩

theorem block_flagged (hE : SaneConfig E) (hV : VotesRemembered E) (hmax : 0 < E.max_deposits)
    (hf : f ≠ .Phase0) (hfit : Modest E s) (hpar : Parallel f s) {b : BeaconBlock}
    (h : process_block E f b s = .ok () s') (hr : Flagged E s e i) : Flagged E s' e i := by
  have hmix : E.min_seed_lookahead + 3 < E.epochs_per_historical_vector := by
    have := hV.mixes; omega
  have hslot : s'.slot = s.slot := block_mod.toOk.ok h .slot (by decide)
  obtain ⟨x, q1, q0, q2⟩ := hr
  obtain ⟨-, k2, k3⟩ := C86_attestations hE hmax hmix hfit.slot hfit.registry hf hpar h
  unfold Flagged
  unfold flagsOf at q1 ⊢
  rw [hslot]
  split at q1
  · rename_i hc
    rw [if_pos hc]
    obtain ⟨y, hy, hj⟩ := k2 i x q1
    exact ⟨y, hy, (hj 0 (by decide)).2 (Or.inl q0), (hj 1 (by decide)).2 (Or.inl q2)⟩
  · rename_i hc
    rw [if_neg hc]
    obtain ⟨y, hy, hj⟩ := k3 i x q1
    exact ⟨y, hy, (hj 0 (by decide)).2 (Or.inl q0), (hj 1 (by decide)).2 (Or.inl q2)⟩

theorem slot_flagged (hf : f ≠ .Phase0) (h : slot_step E f s = .ok () s')
    (he : e ≤ epochOf E s.slot) (hn : epochOf E s'.slot ≤ e + 1) (hr : Flagged E s e i) :
    Flagged E s' e i := by
  have hps : process_slots E f (s.slot + 1) s = .ok () s' := process_slots_one_iff.2 h
  have hslot := slot_step_slot h
  have hrec : flagsOf E s' e = flagsOf E s e := by
    unfold flagsOf
    rw [hslot] at hn ⊢
    rcases epoch_next (E := E) (n := s.slot) with ⟨h1, h2⟩ | ⟨h1, h2⟩
    · obtain ⟨-, k2⟩ := C62_epoch_end E f s s' h1 hps
      have he : e = epochOf E s.slot := by omega
      have hne : e ≠ epochOf E (s.slot + 1) := by omega
      rw [if_neg hne, if_pos he]
      exact (k2 hf).1
    · obtain ⟨k1, k2, k3, k4⟩ := C62_within_epoch E f s s' h1 hps
      rw [h2, k3, k4]
  unfold Flagged
  rw [hrec]
  exact hr

theorem slots_flagged (hf : f ≠ .Phase0) {n : Nat} (h : process_slots E f n s = .ok () s')
    (he : e ≤ epochOf E s.slot) (hn : epochOf E s'.slot ≤ e + 1) (hr : Flagged E s e i) :
    Flagged E s' e i := by
  have key : ∀ k s, slots_loop E f n k s = .ok () s' → e ≤ epochOf E s.slot → Flagged E s e i →
      Flagged E s' e i := by
    intro k
    induction k with
    | zero =>
      intro s h _ hr
      obtain ⟨-, rfl⟩ := slots_loop_zero.1 h
      exact hr
    | succ k ih =>
      intro s h he hr
      rcases slots_loop_succ.1 h with ⟨-, s₁, h1, h2⟩ | ⟨-, rfl⟩
      · have hl : Duty E s₁ s' := slots_loop_duty h2
        have hm : Duty E s s₁ := slots_duty.toOk.ok (process_slots_one_iff.2 h1)
        exact ih s₁ h2 (Nat.le_trans he (epoch_mono hm.1))
          (slot_flagged hf h1 he (Nat.le_trans (epoch_mono hl.1) hn) hr)
      · exact hr
  rw [process_slots_eq] at h
  split at h
  · exact key _ _ h he hr
  · cases h

theorem upgrade_flagged (hf : f ≠ .Phase0) (ho : g.ord = f.ord + 1) (h : upgrade_to E g s = .ok s')
    (hr : Flagged E s e i) : Flagged E s' e i := by
  obtain ⟨hc, -⟩ := C34_carried E g s s' h
  have hslot := (upgrade_common h).1
  have h1 : s'.previous_epoch_participation = s.previous_epoch_participation := by
    have : Field.previous_epoch_participation ∈ carried g := by
      cases g <;> cases f <;> first | decide | simp_all [Fork.ord]
    exact hc _ this
  have h2 : s'.current_epoch_participation = s.current_epoch_participation := by
    have : Field.current_epoch_participation ∈ carried g := by
      cases g <;> cases f <;> first | decide | simp_all [Fork.ord]
    exact hc _ this
  unfold Flagged flagsOf
  rw [hslot, h1, h2]
  exact hr

theorem journey_fork {l : List (Fork × State × BeaconBlock)} (h : Journey E f s l g t)
    (hf : f ≠ .Phase0) : g ≠ .Phase0 := by
  induction h with
  | start => exact hf
  | slots _ _ ih => exact ih
  | block _ _ ih => exact ih
  | upgrade _ _ _ h _ => rintro rfl; cases h

theorem journey_flagged (hE : SaneConfig E) (hV : VotesRemembered E) (hmax : 0 < E.max_deposits)
    {l : List (Fork × State × BeaconBlock)} (hre : Reachable E f s) (hf : f ≠ .Phase0)
    (h : Journey E f s l g t) (hfit : Modest E t) (he : e ≤ epochOf E s.slot)
    (hn : epochOf E t.slot ≤ e + 1) (hr : Flagged E s e i) : Flagged E t e i := by
  induction h with
  | start => exact hr
  | @slots l g n t u h1 hx ih =>
    have hd : Duty E t u := slots_duty.toOk.ok hx
    exact slots_flagged (journey_fork h1 hf) hx (Nat.le_trans he (epoch_mono (journey_duty h1).1)) hn
      (ih (hfit.back hd) (Nat.le_trans (epoch_mono hd.1) hn))
  | @block l g b t u h1 hx ih =>
    have hd : Duty E t u := block_duty.toOk.ok hx
    exact block_flagged hE hV hmax (journey_fork h1 hf) (hfit.back hd)
      (reachable_inv hE (journey_reachable hre h1)).parallel hx
      (ih (hfit.back hd) (Nat.le_trans (epoch_mono hd.1) hn))
  | @upgrade l g g' t u h1 ho _ hx ih =>
    have hd : Duty E t u := (upgrade_duty hx).1
    exact upgrade_flagged (journey_fork h1 hf) ho hx
      (ih (hfit.back hd) (Nat.le_trans (epoch_mono hd.1) hn))

theorem journey_attested (hE : SaneConfig E) (hV : VotesRemembered E) (hmax : 0 < E.max_deposits)
    {l : List (Fork × State × BeaconBlock)} (hre : Reachable E f s) (hf : f ≠ .Phase0)
    (h : Journey E f s l g t) (hfit : Modest E t) {x : Fork × State × BeaconBlock} (hx : x ∈ l)
    (h0 : 0 < epochOf E t.slot)
    (hc : CarriesTimelyVote E x.1 x.2.1 x.2.2 i (previousEpoch E t)) : HasAttested E t i := by
  obtain ⟨l₁, l₂, u, h1, h2, h3⟩ := journey_mem h hx
  have hr1 := journey_reachable hre h1
  have hr2 : Reachable E x.1 u := journey_reachable hre (.block h1 h2)
  have hfu := hfit.back (journey_duty h3)
  have hpe : previousEpoch E t = epochOf E t.slot - 1 := rfl
  have hslot : u.slot = x.2.1.slot := block_mod.toOk.ok h2 .slot (by decide)
  obtain ⟨k1, k2⟩ := vote_flagged hE hV hmax (journey_fork h1 hf)
    (hfu.back (block_duty.toOk.ok h2)) (reachable_inv hE hr1).parallel h2 hc
  have := journey_flagged hE hV hmax hr2 (journey_fork h1 hf) h3 hfit
    (by rw [hslot]; exact k1) (by omega) k2
  intro v hv _
  obtain ⟨y, hy, hy'⟩ := this
  unfold flagsOf at hy
  rw [if_neg (by omega)] at hy
  exact ⟨y, hy, hy'⟩

end Verif.Props
