import Verif.Spec.Liveness
import Verif.Proofs.Finality
import Verif.Proofs.Supply
import Verif.Proofs.Leaving
import Verif.Props.Parts
import Verif.Props.Rotation
import Verif.Props.Upgrade

/-! # Votes stay on record until they are counted -/

namespace Verif

open Spec Verif.Props

variable {E : Env} {f g : Fork} {s s' t u : State}

/-! ## Journeys -/

theorem journey_reachable {l : List (Fork × State × BeaconBlock)} (hr : Reachable E f s)
    (h : Journey E f s l g t) : Reachable E g t := by
  induction h with
  | start => exact hr
  | @slots l g n t u _ hx ih =>
    have := Reachable.call ih (.process_slots n)
    unfold finalState at this
    rwa [hx] at this
  | @block l g b t u _ hx ih =>
    have := Reachable.call ih (.process_block b)
    unfold finalState at this
    rwa [hx] at this
  | upgrade _ ho _ hx ih => exact .upgrade ih ho hx

theorem journey_duty {l : List (Fork × State × BeaconBlock)} (h : Journey E f s l g t) :
    Duty E s t := by
  induction h with
  | start => exact (dutyPre E).refl _
  | slots _ hx ih => exact (dutyPre E).trans ih (slots_duty.toOk.ok hx)
  | block _ hx ih => exact (dutyPre E).trans ih (block_duty.toOk.ok hx)
  | upgrade _ _ _ hx ih => exact (dutyPre E).trans ih (upgrade_duty hx).1

theorem journey_append {l m : List (Fork × State × BeaconBlock)} {k : Fork}
    (h : Journey E f s l g t) (h' : Journey E g t m k u) : Journey E f s (l ++ m) k u := by
  induction h' with
  | start => rw [List.append_nil]; exact h
  | slots _ hx ih => exact .slots ih hx
  | block _ hx ih => rw [← List.append_assoc]; exact .block ih hx
  | upgrade _ ho hd hx ih => exact .upgrade ih ho hd hx

/-- A block on the way has a way to it and a way from it. -/
theorem journey_mem {l : List (Fork × State × BeaconBlock)} (h : Journey E f s l g t)
    {x : Fork × State × BeaconBlock} (hx : x ∈ l) :
    ∃ l₁ l₂ u, Journey E f s l₁ x.1 x.2.1 ∧ process_block E x.1 x.2.2 x.2.1 = .ok () u ∧
      Journey E x.1 u l₂ g t := by
  induction h with
  | start => cases hx
  | slots _ hs ih =>
    obtain ⟨l₁, l₂, u, h1, h2, h3⟩ := ih hx
    exact ⟨l₁, l₂, u, h1, h2, .slots h3 hs⟩
  | @block l g b t u h1 hb ih =>
    rcases List.mem_append.1 hx with hx | hx
    · obtain ⟨l₁, l₂, u, h1, h2, h3⟩ := ih hx
      exact ⟨l₁, _, u, h1, h2, .block h3 hb⟩
    · cases List.mem_singleton.1 hx
      exact ⟨l, [], u, h1, hb, .start⟩
  | upgrade _ ho hd hs ih =>
    obtain ⟨l₁, l₂, u, h1, h2, h3⟩ := ih hx
    exact ⟨l₁, l₂, u, h1, h2, .upgrade h3 ho hd hs⟩

/-! ## Block roots -/

theorem block_root_step (h : slot_step E f s = .ok () s') {k : Nat} {r : Root}
    (hk : get_block_root_at_slot E s k = .ok r) (hw : s'.slot ≤ k + E.slots_per_historical_root) :
    get_block_root_at_slot E s' k = .ok r := by
  obtain ⟨s₁, s₂, h1, h2, h3, h4, rfl⟩ := slot_step_eq_ok.1 h
  rw [block_root_at_slot_eq_ok] at hk ⊢
  obtain ⟨k1, k2, k3, k4, k5⟩ := hk
  dsimp only at hw ⊢
  have hb : s₂.block_roots = s₁.block_roots := by
    rcases h4 with ⟨-, h4⟩ | ⟨-, rfl⟩
    · exact epoch_mod.toOk.ok h4 .block_roots (by decide)
    · rfl
  obtain ⟨-, -, -, rfl⟩ := process_slot_eq_ok.1 h1
  refine ⟨by omega, hw, k3, k4, ?_⟩
  rw [hb]
  dsimp only
  rw [List.getElem?_set_ne (mod_ne_of_window k1 (by omega))]
  exact k5

theorem block_root_ok {e : Nat} {r : Root} : get_block_root E s e = .ok r ↔
    e * E.slots_per_epoch < U64_BOUND ∧
      get_block_root_at_slot E s (e * E.slots_per_epoch) = .ok r := by
  unfold get_block_root compute_start_slot_at_epoch
  simp only [run]
  constructor
  · rintro ⟨_, ⟨rfl, h⟩, h'⟩; exact ⟨h, h'⟩
  · rintro ⟨h, h'⟩; exact ⟨_, ⟨rfl, h⟩, h'⟩

theorem block_root_same {e : Nat} (h1 : s'.slot = s.slot) (h2 : s'.block_roots = s.block_roots) :
    get_block_root E s' e = get_block_root E s e := by
  unfold get_block_root get_block_root_at_slot
  rw [h1, h2]

/-! ## A vote on record -/

/-- The attestations recorded for epoch `e`, in phase0. -/
def recordsOf (E : Env) (s : State) (e : Nat) : List PendingAttestation :=
  if e = epochOf E s.slot then s.current_epoch_attestations else s.previous_epoch_attestations

/-- The flags for epoch `e`, from altair on. -/
def flagsOf (E : Env) (s : State) (e : Nat) : List UInt8 :=
  if e = epochOf E s.slot then s.current_epoch_participation else s.previous_epoch_participation

/-- The vote of `i` for epoch `e` is on record. -/
structure OnRecord (E : Env) (f : Fork) (s : State) (e i : Nat) : Prop where
  time : e ≤ epochOf E s.slot
  active : ∃ v, s.validators[i]? = some v ∧ ActiveAt v e
  pending : f = .Phase0 → ∃ r, get_block_root E s e = .ok r ∧ ∃ a ∈ recordsOf E s e,
    a.data.target = ⟨e, r⟩ ∧ epochOf E a.data.slot = e ∧ a.inclusion_delay ≤ E.slots_per_epoch ∧
    Attested E s a i
  flag : f ≠ .Phase0 → ∃ x, (flagsOf E s e)[i]? = some x ∧ FlagSet x 1
  begun : e * E.slots_per_epoch < s.slot

theorem duty_active (h : Duty E s t) {i e : Nat} (he : e ≤ epochOf E s.slot)
    (hf : e < FAR_FUTURE_EPOCH) (ha : ∃ v, s.validators[i]? = some v ∧ ActiveAt v e) :
    ∃ v, t.validators[i]? = some v ∧ ActiveAt v e := by
  obtain ⟨v, hv, ha⟩ := ha
  obtain ⟨w, hw, hx⟩ := h.2.1 i v hv
  exact ⟨w, hw, (hx.active (by unfold decided; omega) hf).2 ha⟩

theorem far_of_slot (h : s.slot < 2 ^ 63) : epochOf E s.slot < FAR_FUTURE_EPOCH := by
  have : FAR_FUTURE_EPOCH = 2 ^ 64 - 1 := rfl
  have : epochOf E s.slot ≤ s.slot := Nat.div_le_self _ _
  omega

/-! ## How it gets there -/

theorem flags_exist_delay (E : Env) (f : Fork) (s : State) (d : AttestationData) (delay : Nat) :
    ∃ fl, EarnsFlags E f s d delay fl := by
  classical
  let p : Nat → Prop := fun j =>
    if j = 0 then delay * delay ≤ E.slots_per_epoch
    else if j = 1 then get_block_root E s d.target.epoch = .ok d.target.root ∧
      (f = .Deneb ∨ f = .Electra ∨ delay ≤ E.slots_per_epoch)
    else get_block_root E s d.target.epoch = .ok d.target.root ∧
      get_block_root_at_slot E s d.slot = .ok d.beacon_block_root ∧
      delay = E.min_attestation_inclusion_delay
  refine ⟨[0, 1, 2].filter fun j => decide (p j), ?_, ?_, ?_, ?_⟩
  · simp [p]
  · simp [p]
  · simp [p]
  · intro j hj
    have := List.mem_of_mem_filter hj
    simp at this
    omega

structure Modest (E : Env) (t : State) : Prop where
  slot : t.slot < 2 ^ 63
  registry : t.validators.length ≤ 2 ^ 40

theorem Modest.back (h : Modest E t) (hd : Duty E s t) : Modest E s :=
  ⟨Nat.lt_of_le_of_lt hd.1 h.slot, Nat.le_trans (duty_length hd) h.registry⟩

section Block

variable (hE : SaneConfig E) (hV : VotesRemembered E) (hmax : 0 < E.max_deposits)
include hE hV hmax

theorem vote_recorded (hfit : Modest E s) (hpar : Parallel f s) {b : BeaconBlock}
    (h : process_block E f b s = .ok () s') {i e : Nat} (hc : CarriesVote E f s b i e) :
    OnRecord E f s' e i := by
  obtain ⟨a, ha, he, hroot, l, hl, hi⟩ := hc
  have hmix : E.min_seed_lookahead + 3 < E.epochs_per_historical_vector := by
    have := hV.mixes; omega
  have hslot : s'.slot = s.slot := block_mod.toOk.ok h .slot (by decide)
  have hroots : s'.block_roots = s.block_roots := block_mod.toOk.ok h .block_roots (by decide)
  have hd : Duty E s s' := block_duty.toOk.ok h
  have hm : Mix E s s' := block_mix.toOk.ok h
  have hfar : epochOf E s.slot < FAR_FUTURE_EPOCH := far_of_slot hfit.slot
  have hbegun : e * E.slots_per_epoch < s.slot :=
    (block_root_at_slot_eq_ok.1 (block_root_ok.1 hroot).2).1
  have hact := attested_active hE hfit.registry hl i hi
  have hrange := attested_range hl i hi
  by_cases hf : f = .Phase0
  · subst hf
    obtain ⟨k1, k2, k3⟩ := C86_attestations_phase0 hE hmax hmix hfit.slot hfit.registry h
    obtain ⟨ht, -⟩ := k1 a ha
    have hle : e ≤ epochOf E s.slot := by rcases ht.target with h | h <;> omega
    rw [ht.slot, he] at hact
    refine ⟨by rw [hslot]; exact hle, duty_active hd hle (by omega) hact, fun _ => ?_,
      fun h => absurd rfl h, by rw [hslot]; exact hbegun⟩
    refine ⟨_, (block_root_same hslot hroots).trans hroot, pendingOf s a b.proposer_index, ?_, ?_, ?_,
      ?_, ?_⟩
    · unfold recordsOf
      rw [hslot]
      split
      · rename_i hc
        rw [k2]
        refine List.mem_append_right _ (List.mem_map_of_mem (List.mem_filter.2 ⟨ha, ?_⟩))
        simp [he, ← hc]
      · rename_i hc
        rw [k3]
        refine List.mem_append_right _ (List.mem_map_of_mem (List.mem_filter.2 ⟨ha, ?_⟩))
        simp [he, hc]
    · show a.data.target = _
      rw [← he]
    · exact ht.slot.trans he
    · have := ht.window (by decide) (by decide)
      show s.slot - a.data.slot ≤ _
      omega
    · have hep : epochOf E (pendingOf s a b.proposer_index).data.slot = e := ht.slot.trans he
      refine (attested_mono hV hd hm hfar (by rw [hep]; exact hle) ?_ i).2 ?_
      · rw [hslot, hep]
        rcases ht.target with h | h <;> omega
      · obtain ⟨c, c1, -, c2⟩ := hl.members
        exact ⟨c, c1, (c2.2 i).1 hi⟩
  · obtain ⟨k1, k2, k3⟩ := C86_attestations hE hmax hmix hfit.slot hfit.registry hf hpar h
    obtain ⟨ht, -⟩ := k1 a ha
    have hle : e ≤ epochOf E s.slot := by rcases ht.target with h | h <;> omega
    rw [ht.slot, he] at hact
    have hearn : EarnsFlag E f s a i 1 := by
      obtain ⟨fl, hfl⟩ := flags_exist_delay E f s a.data (s.slot - a.data.slot)
      refine ⟨l, fl, hl, hfl, hi, hfl.target.2 ⟨by rw [he]; exact hroot, ?_⟩⟩
      by_cases h1 : f = .Deneb
      · exact Or.inl h1
      by_cases h2 : f = .Electra
      · exact Or.inr (Or.inl h2)
      have := ht.window h1 h2
      exact Or.inr (Or.inr (by omega))
    refine ⟨by rw [hslot]; exact hle, duty_active hd hle (by omega) hact, fun h => absurd h hf,
      fun _ => ?_, by rw [hslot]; exact hbegun⟩
    have hlen := hpar.2 hf
    unfold flagsOf
    rw [hslot]
    split
    · rename_i hc
      obtain ⟨y, hy, hj⟩ := k2 i _ (List.getElem?_eq_getElem (by rw [hlen.2.1]; exact hrange))
      exact ⟨y, hy, (hj 1 (by decide)).2 (Or.inr ⟨a, ha, by rw [he, hc], hearn⟩)⟩
    · rename_i hc
      obtain ⟨y, hy, hj⟩ := k3 i _ (List.getElem?_eq_getElem (by rw [hlen.1]; exact hrange))
      exact ⟨y, hy, (hj 1 (by decide)).2 (Or.inr ⟨a, ha, by rw [he]; exact hc, hearn⟩)⟩

theorem block_recorded (hfit : Modest E s) (hpar : Parallel f s) {b : BeaconBlock}
    (h : process_block E f b s = .ok () s') {i e : Nat} (hn : epochOf E s.slot ≤ e + 1)
    (hr : OnRecord E f s e i) : OnRecord E f s' e i := by
  have hmix : E.min_seed_lookahead + 3 < E.epochs_per_historical_vector := by
    have := hV.mixes; omega
  have hslot : s'.slot = s.slot := block_mod.toOk.ok h .slot (by decide)
  have hroots : s'.block_roots = s.block_roots := block_mod.toOk.ok h .block_roots (by decide)
  have hd : Duty E s s' := block_duty.toOk.ok h
  have hm : Mix E s s' := block_mix.toOk.ok h
  have hfar : epochOf E s.slot < FAR_FUTURE_EPOCH := far_of_slot hfit.slot
  obtain ⟨r1, r2, r3, r4, r5⟩ := hr
  refine ⟨by rw [hslot]; exact r1, duty_active hd r1 (by omega) r2, fun hf => ?_, fun hf => ?_,
    by rw [hslot]; exact r5⟩
  · obtain ⟨r, q1, a, q2, q3, q4, q5, q6⟩ := r3 hf
    subst hf
    obtain ⟨-, k2, k3⟩ := C86_attestations_phase0 hE hmax hmix hfit.slot hfit.registry h
    refine ⟨r, (block_root_same hslot hroots).trans q1, a, ?_, q3, q4, q5,
      (attested_mono hV hd hm hfar (by omega) (by rw [hslot]; omega) i).2 q6⟩
    unfold recordsOf at q2 ⊢
    rw [hslot, k2, k3]
    split at q2
    · rename_i hc
      rw [if_pos hc]; exact List.mem_append_left _ q2
    · rename_i hc
      rw [if_neg hc]; exact List.mem_append_left _ q2
  · obtain ⟨x, q1, q2⟩ := r4 hf
    obtain ⟨-, k2, k3⟩ := C86_attestations hE hmax hmix hfit.slot hfit.registry hf hpar h
    unfold flagsOf at q1 ⊢
    rw [hslot]
    split at q1
    · rename_i hc
      rw [if_pos hc]
      obtain ⟨y, hy, hj⟩ := k2 i x q1
      exact ⟨y, hy, (hj 1 (by decide)).2 (Or.inl q2)⟩
    · rename_i hc
      rw [if_neg hc]
      obtain ⟨y, hy, hj⟩ := k3 i x q1
      exact ⟨y, hy, (hj 1 (by decide)).2 (Or.inl q2)⟩

end Block

/-! ## How it stays there -/

theorem process_slots_one_iff :
    process_slots E f (s.slot + 1) s = .ok () s' ↔ slot_step E f s = .ok () s' := by
  refine ⟨process_slots_one, fun h => ?_⟩
  rw [process_slots_eq, if_pos (Nat.lt_succ_self _), Nat.add_sub_cancel_left, slots_loop_succ]
  exact Or.inl ⟨Nat.lt_succ_self _, s', h,
    slots_loop_zero.2 ⟨Nat.le_of_eq (slot_step_slot h).symm, rfl⟩⟩

theorem slots_loop_duty {n k : Nat} (h : slots_loop E f n k s = .ok () s') : Duty E s s' := by
  induction k generalizing s with
  | zero => obtain ⟨-, rfl⟩ := slots_loop_zero.1 h; exact (dutyPre E).refl _
  | succ k ih =>
    rcases slots_loop_succ.1 h with ⟨-, s₁, h1, h2⟩ | ⟨-, rfl⟩
    · exact (dutyPre E).trans (slots_duty.toOk.ok (process_slots_one_iff.2 h1)) (ih h2)
    · exact (dutyPre E).refl _

theorem epoch_next {n : Nat} :
    (n + 1) % E.slots_per_epoch = 0 ∧ epochOf E (n + 1) = epochOf E n + 1 ∨
    (n + 1) % E.slots_per_epoch ≠ 0 ∧ epochOf E (n + 1) = epochOf E n := by
  unfold epochOf
  rw [Nat.succ_div]
  by_cases h : E.slots_per_epoch ∣ n + 1
  · exact Or.inl ⟨Nat.mod_eq_zero_of_dvd h, by rw [if_pos h]⟩
  · exact Or.inr ⟨fun h' => h (Nat.dvd_of_mod_eq_zero h'), by rw [if_neg h]; rfl⟩

theorem epoch_within (hS : 0 < E.slots_per_epoch) {n e k : Nat} (h : epochOf E n ≤ e + k) :
    n < e * E.slots_per_epoch + (k + 1) * E.slots_per_epoch := by
  have : n / E.slots_per_epoch < e + k + 1 := Nat.lt_succ_of_le h
  have := (Nat.div_lt_iff_lt_mul hS).1 this
  rw [← Nat.add_mul]
  rwa [Nat.add_assoc] at this

theorem slot_recorded (hE : SaneConfig E) (hV : VotesRemembered E) (hfit : Modest E s)
    (h : slot_step E f s = .ok () s') {i e : Nat} (hn : epochOf E s'.slot ≤ e + 1)
    (hr : OnRecord E f s e i) : OnRecord E f s' e i := by
  have hS := hE.slots_per_epoch.1
  have hps : process_slots E f (s.slot + 1) s = .ok () s' := process_slots_one_iff.2 h
  have hd : Duty E s s' := slots_duty.toOk.ok hps
  have hm : Mix E s s' := slots_mix.toOk.ok hps
  have hslot := slot_step_slot h
  have hfar : epochOf E s.slot < FAR_FUTURE_EPOCH := far_of_slot hfit.slot
  have hmono := epoch_mono (E := E) hd.1
  obtain ⟨r1, r2, r3, r4, r5⟩ := hr
  have hwin : s'.slot ≤ e * E.slots_per_epoch + E.slots_per_historical_root := by
    have := epoch_within hS hn
    have := hV.roots
    omega
  have hrec : (f = .Phase0 → recordsOf E s' e = recordsOf E s e) ∧
      (f ≠ .Phase0 → flagsOf E s' e = flagsOf E s e) := by
    unfold recordsOf flagsOf
    rw [hslot] at hn ⊢
    rcases epoch_next (E := E) (n := s.slot) with ⟨h1, h2⟩ | ⟨h1, h2⟩
    · obtain ⟨k1, k2⟩ := C62_epoch_end E f s s' h1 hps
      have he : e = epochOf E s.slot := by omega
      have hne : e ≠ epochOf E (s.slot + 1) := by omega
      rw [if_neg hne, if_neg hne, if_pos he, if_pos he]
      exact ⟨fun hf => (k1 hf).1, fun hf => (k2 hf).1⟩
    · obtain ⟨k1, k2, k3, k4⟩ := C62_within_epoch E f s s' h1 hps
      rw [h2, k1, k2, k3, k4]
      exact ⟨fun _ => rfl, fun _ => rfl⟩
  refine ⟨Nat.le_trans r1 hmono, duty_active hd r1 (by omega) r2, fun hf => ?_, fun hf => ?_, by omega⟩
  · obtain ⟨r, q1, a, q2, q3, q4, q5, q6⟩ := r3 hf
    refine ⟨r, ?_, a, by rw [hrec.1 hf]; exact q2, q3, q4, q5,
      (attested_mono hV hd hm hfar (by omega) (by omega) i).2 q6⟩
    rw [block_root_ok] at q1 ⊢
    exact ⟨q1.1, block_root_step h q1.2 hwin⟩
  · rw [hrec.2 hf]
    exact r4 hf

theorem slots_recorded (hE : SaneConfig E) (hV : VotesRemembered E) {n : Nat}
    (hfit : Modest E s') (h : process_slots E f n s = .ok () s') {i e : Nat}
    (hn : epochOf E s'.slot ≤ e + 1) (hr : OnRecord E f s e i) : OnRecord E f s' e i := by
  have hd : ∀ {s s' : State}, slot_step E f s = .ok () s' → Duty E s s' := fun h =>
    slots_duty.toOk.ok (process_slots_one_iff.2 h)
  have key : ∀ k s, slots_loop E f n k s = .ok () s' → OnRecord E f s e i →
      OnRecord E f s' e i := by
    intro k
    induction k with
    | zero =>
      intro s h hr
      obtain ⟨-, rfl⟩ := slots_loop_zero.1 h
      exact hr
    | succ k ih =>
      intro s h hr
      rcases slots_loop_succ.1 h with ⟨-, s₁, h1, h2⟩ | ⟨-, rfl⟩
      · have hl : Duty E s₁ s' := slots_loop_duty h2
        exact ih s₁ h2 (slot_recorded hE hV (hfit.back ((dutyPre E).trans (hd h1) hl)) h1
          (Nat.le_trans (epoch_mono hl.1) hn) hr)
      · exact hr
  rw [process_slots_eq] at h
  split at h
  · exact key _ _ h hr
  · cases h

theorem upgrade_recorded (hE : SaneConfig E) (hfit : Modest E s)
    (ho : g.ord = f.ord + 1) (hdiv : E.slots_per_epoch ∣ s.slot) (h : upgrade_to E g s = .ok s')
    {i e : Nat} (hn : epochOf E s.slot ≤ e + 1) (hr : OnRecord E f s e i) :
    OnRecord E g s' e i := by
  have hS := hE.slots_per_epoch.1
  obtain ⟨hc, -⟩ := C34_carried E g s s' h
  obtain ⟨hd, -, -⟩ := upgrade_duty h
  have hfar : epochOf E s.slot < FAR_FUTURE_EPOCH := far_of_slot hfit.slot
  obtain ⟨r1, r2, r3, r4, r5⟩ := hr
  have hslot := (upgrade_common h).1
  have hg : g ≠ .Phase0 := by rintro rfl; cases h
  have hne : e ≠ epochOf E s.slot := by
    rintro rfl
    have : epochOf E s.slot * E.slots_per_epoch = s.slot := Nat.div_mul_cancel hdiv
    omega
  have hact := duty_active hd r1 (by omega) r2
  refine ⟨by rw [hslot]; exact r1, hact, fun h => absurd h hg, fun _ => ?_, by rw [hslot]; exact r5⟩
  unfold flagsOf
  rw [hslot, if_neg hne]
  by_cases hf : f = .Phase0
  · subst hf
    obtain rfl : g = .Altair := by cases g <;> simp_all [Fork.ord]
    obtain ⟨r, q1, a, q2, q3, q4, q5, q6⟩ := r3 rfl
    obtain ⟨⟨hl, hx⟩, -⟩ := C34_altair E hE s s' h
    obtain ⟨v, hv, -⟩ := r2
    have hlt := (List.getElem?_eq_some_iff.1 hv).1
    refine ⟨_, List.getElem?_eq_getElem (by rw [hl]; exact hlt), ?_⟩
    rw [hx i _ (List.getElem?_eq_getElem (by rw [hl]; exact hlt)) 1 (by decide)]
    unfold recordsOf at q2
    rw [if_neg hne] at q2
    obtain ⟨fl, hfl⟩ := flags_exist_delay E .Altair s a.data a.inclusion_delay
    refine ⟨a, q2, q6, fl, hfl, hfl.target.2 ⟨by rw [q3]; exact q1, Or.inr (Or.inr q5)⟩⟩
  · obtain ⟨x, q1, q2⟩ := r4 hf
    unfold flagsOf at q1
    rw [if_neg hne] at q1
    refine ⟨x, ?_, q2⟩
    rw [show s'.previous_epoch_participation = s.previous_epoch_participation from ?_]
    · exact q1
    · have : Field.previous_epoch_participation ∈ carried g := by
        cases g <;> cases f <;> first | decide | simp_all [Fork.ord]
      exact hc _ this

theorem journey_recorded (hE : SaneConfig E) (hV : VotesRemembered E) (hmax : 0 < E.max_deposits)
    {l : List (Fork × State × BeaconBlock)} (hre : Reachable E f s) (h : Journey E f s l g t)
    (hfit : Modest E t) {i e : Nat} (hn : epochOf E t.slot ≤ e + 1) (hr : OnRecord E f s e i) :
    OnRecord E g t e i := by
  induction h with
  | start => exact hr
  | @slots l g n t u _ hx ih =>
    have hd : Duty E t u := slots_duty.toOk.ok hx
    exact slots_recorded hE hV hfit hx hn
      (ih (hfit.back hd) (Nat.le_trans (epoch_mono hd.1) hn))
  | @block l g b t u h1 hx ih =>
    have hd : Duty E t u := block_duty.toOk.ok hx
    have hn' := Nat.le_trans (epoch_mono hd.1) hn
    exact block_recorded hE hV hmax (hfit.back hd)
      (reachable_inv hE (journey_reachable hre h1)).parallel hx hn' (ih (hfit.back hd) hn')
  | @upgrade l g g' t u h1 ho hdiv hx ih =>
    have hd : Duty E t u := (upgrade_duty hx).1
    have hn' := Nat.le_trans (epoch_mono hd.1) hn
    exact upgrade_recorded hE (hfit.back hd) ho hdiv hx hn' (ih (hfit.back hd) hn')

/-- A vote in one of the blocks is on record at the end. -/
theorem vote_kept (hE : SaneConfig E) (hV : VotesRemembered E) (hmax : 0 < E.max_deposits)
    {l : List (Fork × State × BeaconBlock)} (hre : Reachable E f s) (h : Journey E f s l g t)
    (hfit : Modest E t) {i e : Nat} (hn : epochOf E t.slot ≤ e + 1)
    {x : Fork × State × BeaconBlock} (hx : x ∈ l) (hc : CarriesVote E x.1 x.2.1 x.2.2 i e) :
    OnRecord E g t e i := by
  obtain ⟨l₁, l₂, u, h1, h2, h3⟩ := journey_mem h hx
  have hr1 := journey_reachable hre h1
  have hr2 : Reachable E x.1 u := journey_reachable hre (.block h1 h2)
  have hfu := hfit.back (journey_duty h3)
  exact journey_recorded hE hV hmax hr2 h3 hfit hn
    (vote_recorded hE hV hmax (hfu.back (block_duty.toOk.ok h2)) (reachable_inv hE hr1).parallel h2 hc)

/-! ## Counting -/

theorem root_after_slot (h : process_slot E f t = .ok () u) {e : Nat} {r : Root}
    (hw : t.slot < e * E.slots_per_epoch + E.slots_per_historical_root)
    (hr : get_block_root E t e = .ok r) : get_block_root E u e = .ok r := by
  obtain ⟨-, -, -, rfl⟩ := process_slot_eq_ok.1 h
  rw [block_root_ok, block_root_at_slot_eq_ok] at hr ⊢
  obtain ⟨h1, h2, h3, h4, h5, h6⟩ := hr
  refine ⟨h1, h2, h3, h4, h5, ?_⟩
  dsimp only
  rw [List.getElem?_set_ne (mod_ne_of_window h2 hw)]
  exact h6

theorem recorded_voted {e i : Nat} (hr : OnRecord E f t e i) (h : process_slot E f t = .ok () u)
    (hs : ∀ v, t.validators[i]? = some v → v.slashed = false)
    (hw : t.slot < e * E.slots_per_epoch + E.slots_per_historical_root) :
    VotedTarget E f u e i := by
  obtain ⟨-, ⟨v, hv, ha⟩, h3, h4, -⟩ := hr
  have hu := (process_slot_eq_ok.1 h).2.2.2
  refine ⟨v, by rw [hu]; exact hv, hs v hv, ?_⟩
  split
  · rename_i hf
    obtain ⟨r, q1, a, q2, q3, -, -, q6⟩ := h3 hf
    refine ⟨a, ?_, ?_, ?_⟩
    · unfold recordsOf at q2
      rw [hu]; exact q2
    · rw [q3]
      exact root_after_slot h hw q1
    · rw [hu]; exact q6
  · rename_i hf
    obtain ⟨x, q1, q2⟩ := h4 hf
    refine ⟨ha, x, ?_, q2⟩
    unfold flagsOf at q1
    rw [hu]; exact q1

theorem quorum_supermajority (hE : SaneConfig E) (hV : VotesRemembered E)
    (hmax : 0 < E.max_deposits) {l : List (Fork × State × BeaconBlock)} (hre : Reachable E f s)
    (h : Journey E f s l g t) (hfit : Modest E t) {e : Nat} {Q : List Nat}
    (hn : epochOf E t.slot ≤ e + 1) (hq : Quorum E l t e Q)
    (hs : process_slot E g t = .ok () u) : Supermajority E g u e := by
  classical
  have hu := (process_slot_eq_ok.1 hs).2.2.2
  have hw : t.slot < e * E.slots_per_epoch + E.slots_per_historical_root := by
    have := epoch_within hE.slots_per_epoch.1 hn
    have := hV.roots
    omega
  let voters := (List.range u.validators.length).filter fun i => decide (VotedTarget E g u e i)
  have hmem : ∀ i, i ∈ voters ↔ VotedTarget E g u e i := by
    intro i
    rw [List.mem_filter, decide_eq_true_eq, List.mem_range]
    exact ⟨fun h => h.2, fun h => ⟨(List.getElem?_eq_some_iff.1 h.choose_spec.1).1, h⟩⟩
  refine ⟨_, ⟨voters, List.nodup_range.filter _, hmem, rfl⟩, ?_⟩
  have hsub : Q ⊆ voters := by
    intro i hi
    obtain ⟨x, hx, hc⟩ := hq.voted i hi
    exact (hmem i).2 (recorded_voted (vote_kept hE hV hmax hre h hfit hn hx hc) hs
      (hq.unslashed i hi) hw)
  have h1 : activeBalance E u = activeBalance E t := by rw [hu]; rfl
  have h2 : totalEffective u Q = totalEffective t Q := by rw [hu]; rfl
  have h3 := totalEffective_mono (s := u) hq.distinct hsub
  have h4 := hq.majority
  have h5 : totalEffective u voters ≤ max (totalEffective u voters) E.effective_balance_increment :=
    Nat.le_max_left _ _
  omega

/-! ## The end of an epoch -/

theorem sameCheckpoints_trans (h : SameCheckpoints s t) (h' : SameCheckpoints t u) :
    SameCheckpoints s u :=
  ⟨h'.1.trans h.1, h'.2.1.trans h.2.1, h'.2.2.1.trans h.2.2.1, h'.2.2.2.trans h.2.2.2⟩

theorem slot_step_same (h : slot_step E f s = .ok () s')
    (he : epochOf E s'.slot = epochOf E s.slot) : SameCheckpoints s s' := by
  have hs := slot_step_slot h
  obtain ⟨s₁, s₂, h1, -, -, h4, rfl⟩ := slot_step_eq_ok.1 h
  have m := same_mod (slot_mod.toOk.ok h1) (by decide)
  rcases h4 with ⟨h4, -⟩ | ⟨-, rfl⟩
  · rcases epoch_next (E := E) (n := s.slot) with ⟨-, h6⟩ | ⟨h5, -⟩
    · dsimp only at he; omega
    · exact absurd h4 h5
  · exact m

theorem slots_loop_same {n k : Nat} (h : slots_loop E f n k s = .ok () s')
    (he : epochOf E s'.slot = epochOf E s.slot) : SameCheckpoints s s' := by
  induction k generalizing s with
  | zero => obtain ⟨-, rfl⟩ := slots_loop_zero.1 h; exact ⟨rfl, rfl, rfl, rfl⟩
  | succ k ih =>
    rcases slots_loop_succ.1 h with ⟨-, s₁, h1, h2⟩ | ⟨-, rfl⟩
    · have e1 := epoch_mono (E := E) (slots_duty.toOk.ok (process_slots_one_iff.2 h1) : Duty E s s₁).1
      have e2 := epoch_mono (E := E) (slots_loop_duty h2).1
      exact sameCheckpoints_trans (slot_step_same h1 (by omega)) (ih h2 (by omega))
    · exact ⟨rfl, rfl, rfl, rfl⟩

theorem journey_same {l : List (Fork × State × BeaconBlock)} (h : Journey E f s l g t)
    (he : epochOf E t.slot = epochOf E s.slot) : SameCheckpoints s t := by
  induction h with
  | start => exact ⟨rfl, rfl, rfl, rfl⟩
  | @slots l g n t u h1 hx ih =>
    have e1 := epoch_mono (E := E) (journey_duty h1).1
    have e2 := epoch_mono (E := E) (slots_duty.toOk.ok hx : Duty E t u).1
    refine sameCheckpoints_trans (ih (by omega)) ?_
    rw [process_slots_eq] at hx
    split at hx
    · exact slots_loop_same hx (by omega)
    · cases hx
  | @block l g b t u h1 hx ih =>
    have e1 := epoch_mono (E := E) (journey_duty h1).1
    have e2 := epoch_mono (E := E) (block_duty.toOk.ok hx : Duty E t u).1
    exact sameCheckpoints_trans (ih (by omega)) (same_mod (block_mod.toOk.ok hx) (by decide))
  | @upgrade l g g' t u h1 _ _ hx ih =>
    have e1 := epoch_mono (E := E) (journey_duty h1).1
    have e2 := epoch_mono (E := E) (upgrade_duty hx).1.1
    obtain ⟨-, -, -, h2, h3, h4, h5⟩ := upgrade_common hx
    exact sameCheckpoints_trans (ih (by omega)) ⟨h2, h3, h4, h5⟩

/-- What the end of an epoch does, in terms of the states around it. -/
structure Tallied (E : Env) (f : Fork) (t s' : State) (jp jc : Bool) : Prop where
  previous : s'.previous_justified_checkpoint = t.current_justified_checkpoint
  bits : s'.justification_bits =
    [jc, jp || t.justification_bits.getD 0 false, t.justification_bits.getD 1 false,
      t.justification_bits.getD 2 false]
  both : jc = true → get_block_root E s' (epochOf E t.slot) =
      .ok s'.current_justified_checkpoint.root ∧
    s'.current_justified_checkpoint.epoch = epochOf E t.slot
  one : jc = false → jp = true → get_block_root E s' (epochOf E t.slot - 1) =
      .ok s'.current_justified_checkpoint.root ∧
    s'.current_justified_checkpoint.epoch = epochOf E t.slot - 1
  finalized : s'.finalized_checkpoint = finalizedBy s'.justification_bits
    t.previous_justified_checkpoint t.current_justified_checkpoint t.finalized_checkpoint
    (epochOf E t.slot)

theorem root_at_end (hE : SaneConfig E) (hV : VotesRemembered E) (h1 : process_slot E f t = .ok () u)
    (h2 : s'.block_roots = u.block_roots) (h3 : s'.slot = t.slot + 1) {e : Nat} {r : Root}
    (he : epochOf E t.slot ≤ e + 1) (hr : get_block_root E u e = .ok r) :
    get_block_root E s' e = .ok r := by
  have hs := process_slot_slot h1
  have := epoch_within hE.slots_per_epoch.1 he
  have := hV.roots
  rw [block_root_ok, block_root_at_slot_eq_ok] at hr ⊢
  obtain ⟨k1, k2, k3, k4, k5, k6⟩ := hr
  exact ⟨k1, by omega, by omega, k4, k5, by rw [h2]; exact k6⟩

theorem epoch_tallied (hE : SaneConfig E) (hV : VotesRemembered E)
    (hlen : t.justification_bits.length = 4)
    (hlast : (t.slot + 1) % E.slots_per_epoch = 0) (hone : 1 < epochOf E t.slot)
    (h : process_slots E f (t.slot + 1) t = .ok () s') :
    ∃ u jp jc, process_slot E f t = .ok () u ∧ Tallied E f t s' jp jc ∧
      (jp = true ↔ Supermajority E f u (epochOf E t.slot - 1)) ∧
      (jc = true ↔ Supermajority E f u (epochOf E t.slot)) := by
  obtain ⟨u, s₂, h1, -, -, h4, rfl⟩ := slot_step_eq_ok.1 (process_slots_one h)
  have hs := process_slot_slot h1
  obtain ⟨q1, q2, q3, q4⟩ := same_mod (slot_mod.toOk.ok h1) (by decide)
  rcases h4 with ⟨-, h4⟩ | ⟨h4, -⟩
  swap
  · exact absurd hlast h4
  have hroots : s₂.block_roots = u.block_roots := epoch_mod.toOk.ok h4 .block_roots (by decide)
  obtain ⟨e⟩ := epoch_steps h4
  obtain ⟨r1, r2, r3, r4⟩ := same_mod e.from1 (by decide)
  rcases justification_ok (by rw [q1]; exact hlen) e.justification with ⟨k, -⟩ |
    ⟨-, jp, jc, k, hp, hc⟩
  · rw [hs] at k; omega
  rw [hs] at hp hc
  refine ⟨u, jp, jc, h1, ⟨?_, ?_, fun hj => ?_, fun hj hj' => ?_, ?_⟩, hp, hc⟩ <;> dsimp only
  · rw [r2, k.previous, q3]
  · rw [r1, k.bits, q1]
  · have kb := k.both hj
    rw [hs] at kb
    rw [r3]
    exact ⟨root_at_end (s' := { s₂ with slot := t.slot + 1 }) hE hV h1 hroots rfl (by omega) kb.1, kb.2⟩
  · have kb := k.one hj hj'
    rw [hs] at kb
    rw [r3]
    exact ⟨root_at_end (s' := { s₂ with slot := t.slot + 1 }) hE hV h1 hroots rfl (by omega) kb.1, kb.2⟩
  · rw [r4, r1, k.finalized, hs, q2, q3, q4]

end Verif
