import Verif.Spec.Activation
import Verif.Proofs.Casper
import Verif.Proofs.Sort
import Verif.Proofs.Pointwise
import Verif.Proofs.Exit

/-! # Registry updates -/

namespace Verif

open Spec

/-- `s` with other entries in the registry and, in electra, a changed exit churn. -/
def Touched (f : Fork) (s t : State) : Prop :=
  ∃ vs a b, t = { s with validators := vs, exit_balance_to_consume := a, earliest_exit_epoch := b } ∧
    vs.length = s.validators.length ∧
    (f ≠ .Electra → a = s.exit_balance_to_consume ∧ b = s.earliest_exit_epoch)

theorem set_same {α : Type} {l : List α} {i : Nat} {x : α} (h : l[i]? = some x) : l.set i x = l := by
  apply List.ext_getElem?
  intro j
  by_cases hij : i = j
  · subst hij; rw [List.getElem?_set_self', h]; rfl
  · rw [List.getElem?_set_ne hij]

theorem churn_step_ge {E : Env} {s : State} {a b c : Nat} {r : Nat × Nat}
    (h : Electra.churn_step E s a b c = .ok r) : nextFreeEpoch E s ≤ r.1 ∧ a ≤ r.1 := by
  unfold nextFreeEpoch
  simp only [Electra.churn_step, run, current_epoch_eq_ok, activation_exit_epoch_eq_ok] at h
  obtain ⟨_, ⟨rfl, -⟩, _, ⟨rfl, -⟩, _, -, h⟩ := h
  rcases h with ⟨-, _, -, _, -, _, -, _, -, _, ⟨rfl, -⟩, _, -, _, -, rfl⟩ | ⟨-, rfl⟩
  · dsimp only; omega
  · dsimp only; omega

/-- A successful exit, in any fork. -/
theorem fork_exit_ok {E : Env} {f : Fork} {i : Nat} {s s' : State}
    (h : f.initiate_validator_exit E i s = .ok () s') :
    ∃ v w, s.validators[i]? = some v ∧
      (∃ a b, s' = { s with
          validators := s.validators.set i w, exit_balance_to_consume := a,
          earliest_exit_epoch := b } ∧
        (f ≠ .Electra → a = s.exit_balance_to_consume ∧ b = s.earliest_exit_epoch)) ∧
      (v.exit_epoch ≠ FAR_FUTURE_EPOCH → w = v) ∧
      (v.exit_epoch = FAR_FUTURE_EPOCH → ∃ e, nextFreeEpoch E s ≤ e ∧
        w = { v with
          exit_epoch := e
          withdrawable_epoch := e + E.min_validator_withdrawability_delay }) := by
  by_cases hf : f = .Electra
  · subst hf
    simp only [Fork.initiate_validator_exit, Electra.initiate_validator_exit,
      Electra.compute_exit_epoch_and_update_churn, run] at h
    obtain ⟨v, hv, h⟩ := h
    rcases h with ⟨h1, -, rfl⟩ | ⟨h1, e, t, ⟨r, hr, rest, -, rfl, rfl⟩, w, hw, _, ⟨rfl, -⟩, w', hw', rfl⟩
    · refine ⟨v, v, hv, ⟨s.exit_balance_to_consume, s.earliest_exit_epoch, ?_,
        fun h => absurd rfl h⟩, fun _ => rfl, fun h => absurd h h1⟩
      rw [set_same hv]
    · have := Option.some.inj (hv.symm.trans hw); subst this
      have hi := (List.getElem?_eq_some_iff.1 hv).1
      simp only [List.getElem?_set, hi, if_true, Option.some.injEq] at hw'
      subst hw'
      refine ⟨v, _, hv, ⟨rest, r.1, ?_, fun h => absurd rfl h⟩, fun h => absurd h h1,
        fun _ => ⟨_, (churn_step_ge hr).1, rfl⟩⟩
      simp only [List.set_set]
  · have h : initiate_validator_exit E i s = .ok () s' := by
      cases f <;> first | exact h | exact absurd rfl hf
    rw [initiate_validator_exit_eq_ok] at h
    obtain ⟨v, hv, h⟩ := h
    rcases h with ⟨h1, rfl⟩ | ⟨h1, e, he, -, w, hw, rfl⟩
    · refine ⟨v, v, hv, ⟨_, _, ?_, fun _ => ⟨rfl, rfl⟩⟩, fun _ => rfl, fun h => absurd h h1⟩
      rw [set_same hv]
    · have := Option.some.inj (hv.symm.trans hw); subst this
      exact ⟨v, _, hv, ⟨_, _, rfl, fun _ => ⟨rfl, rfl⟩⟩, fun h => absurd h1 h,
        fun _ => ⟨e, (exit_queue_epoch_spec he).1, rfl⟩⟩

theorem eligible_iff {E : Env} {f : Fork} {v : Validator} :
    f.is_eligible_for_activation_queue E v = true ↔ JoinsQueue E f v := by
  cases f <;> simp [Fork.is_eligible_for_activation_queue, JoinsQueue,
    is_eligible_for_activation_queue, Electra.is_eligible_for_activation_queue]

/-- One pass of the first loop over a fresh entry. -/
theorem registry_pass {E : Env} {f : Fork} {i : Nat} {t t' : State}
    (h : (do mark_eligible E f (epochOf E t.slot) i; eject_if_low E f (epochOf E t.slot) i : M Unit) t
      = .ok () t') :
    ∃ v w, t.validators[i]? = some v ∧ (∃ a b, t' = { t with
          validators := t.validators.set i w, exit_balance_to_consume := a,
          earliest_exit_epoch := b } ∧
        (f ≠ .Electra → a = t.exit_balance_to_consume ∧ b = t.earliest_exit_epoch)) ∧
      (JoinsQueue E f v → epochOf E t.slot + 1 < U64_BOUND) ∧
      ∀ A, i ∉ A → QueueStep E f t A i v w := by
  have key : ∃ v w, t.validators[i]? = some v ∧
      (JoinsQueue E f v → epochOf E t.slot + 1 < U64_BOUND) ∧
      w = { v with activation_eligibility_epoch :=
              if JoinsQueue E f v then epochOf E t.slot + 1 else v.activation_eligibility_epoch } ∧
      eject_if_low E f (epochOf E t.slot) i { t with validators := t.validators.set i w } =
        .ok () t' := by
    rw [M_bind_unit_eq_ok] at h
    obtain ⟨t1, h1, h2⟩ := h
    simp only [mark_eligible, run] at h1
    obtain ⟨v, hv, h1⟩ := h1
    refine ⟨v, _, hv, ?_, rfl, ?_⟩
    · rcases h1 with ⟨h1, _, ⟨rfl, hb⟩, -⟩ | ⟨h1, -⟩
      · exact fun _ => hb
      · exact fun hj => absurd (eligible_iff.2 hj) h1
    · rcases h1 with ⟨h1, _, ⟨rfl, -⟩, w, hw, rfl⟩ | ⟨h1, -, rfl⟩
      · rw [hv] at hw; cases hw
        rw [if_pos (eligible_iff.1 h1)]; exact h2
      · rw [if_neg fun hj => h1 (eligible_iff.2 hj)]
        rw [set_same hv]; exact h2
  obtain ⟨v, w, hv, hb, hw, h2⟩ := key
  have hi := (List.getElem?_eq_some_iff.1 hv).1
  simp only [eject_if_low, run, List.getElem?_set, hi, if_true] at h2
  obtain ⟨_, hww, h2⟩ := h2
  cases hww
  have hlow : is_active_validator w (epochOf E t.slot) = true ↔ ActiveAt v (epochOf E t.slot) := by
    rw [is_active_iff, hw]; rfl
  rcases h2 with ⟨h1, h2⟩ | ⟨h1, -, rfl⟩
  · obtain ⟨v', w', hv', ⟨a, b, rfl, hab⟩, h3, h4⟩ := fork_exit_ok h2
    simp only [List.getElem?_set, hi, if_true, Option.some.injEq] at hv'
    subst hv'
    refine ⟨v, w', hv, ⟨a, b, by simp only [List.set_set], hab⟩, hb, fun A hA => ?_⟩
    rw [Bool.and_eq_true, decide_eq_true_eq, hlow] at h1
    have hexit : w.exit_epoch = v.exit_epoch := by rw [hw]
    have heff : w.effective_balance = v.effective_balance := by rw [hw]
    by_cases hx : v.exit_epoch = FAR_FUTURE_EPOCH
    · obtain ⟨e, he, rfl⟩ := h4 (hexit.trans hx)
      subst hw
      exact ⟨rfl, by rw [if_neg hA], fun _ => ⟨he, rfl⟩,
        fun hl => absurd ⟨h1.1, by omega, hx⟩ hl, rfl, rfl, rfl, rfl⟩
    · have := h3 (by rw [hexit]; exact hx)
      subst this
      subst hw
      exact ⟨rfl, by rw [if_neg hA], fun hl => absurd hl.2.2 hx, fun _ => ⟨rfl, rfl⟩, rfl, rfl, rfl, rfl⟩
  · refine ⟨v, w, hv, ⟨_, _, rfl, fun _ => ⟨rfl, rfl⟩⟩, hb, fun A hA => ?_⟩
    rw [Bool.and_eq_true, decide_eq_true_eq, hlow] at h1
    have heff : w.effective_balance = v.effective_balance := by rw [hw]
    subst hw
    exact ⟨rfl, by rw [if_neg hA], fun hl => absurd ⟨hl.1, by rw [heff]; exact hl.2.1⟩ h1,
      fun _ => ⟨rfl, rfl⟩, rfl, rfl, rfl, rfl⟩

/-- The first loop. -/
theorem registry_loop {E : Env} {f : Fork} {s t : State}
    (h : forEach (List.range s.validators.length) (fun i => do
      mark_eligible E f (epochOf E s.slot) i
      eject_if_low E f (epochOf E s.slot) i) s = .ok () t) :
    Touched f s t ∧ ∀ (i : Nat) v, s.validators[i]? = some v → ∃ w, t.validators[i]? = some w ∧
      (JoinsQueue E f v → epochOf E s.slot + 1 < U64_BOUND) ∧
      ∀ A, i ∉ A → QueueStep E f s A i v w := by
  have key := forEach_ok (fun rest t => ∃ before, before ++ rest = List.range s.validators.length ∧
      Touched f s t ∧ ∀ (i : Nat) v, s.validators[i]? = some v → ∃ w, t.validators[i]? = some w ∧
        (i ∉ before → w = v) ∧
        (i ∈ before → (JoinsQueue E f v → epochOf E s.slot + 1 < U64_BOUND) ∧
          ∀ A, i ∉ A → QueueStep E f s A i v w))
    (by
      rintro x rest t t' ⟨before, hb, ⟨vs, a, b, rfl, hl, hab⟩, ht⟩ hr
      have hx : x ∉ before := by
        have hn := List.nodup_range (n := s.validators.length)
        rw [← hb, List.nodup_append] at hn
        intro hx
        exact hn.2.2 x hx x (by simp) rfl
      obtain ⟨v, w, hv, ⟨a', b', rfl, hab'⟩, hj, hq⟩ := registry_pass (E := E) (f := f) hr
      refine ⟨before ++ [x], by simpa using hb, ⟨vs.set x w, a', b', rfl, by simpa using hl, ?_⟩, ?_⟩
      · intro hf
        exact ⟨(hab' hf).1.trans (hab hf).1, (hab' hf).2.trans (hab hf).2⟩
      · intro i u hu
        obtain ⟨w', hw', h1, h2⟩ := ht i u hu
        by_cases hi : x = i
        · subst hi
          have hlt := (List.getElem?_eq_some_iff.1 hv).1
          have hvv := hv.symm.trans hw'
          cases hvv
          have := h1 hx
          subst this
          refine ⟨w, ?_, fun h => absurd (by simp) h, fun _ => ⟨hj, fun A hA => ?_⟩⟩
          · rw [List.getElem?_set_self hlt]
          · have q := hq A hA
            exact ⟨q.1, q.2, q.3, q.4, q.5, q.6, q.7, q.8⟩
        · refine ⟨w', ?_, ?_, ?_⟩
          · rw [List.getElem?_set_ne hi]; exact hw'
          · intro h; exact h1 fun h' => h (by simp [h'])
          · intro h
            rw [List.mem_append, List.mem_singleton] at h
            exact h2 (h.resolve_right fun e => hi e.symm))
    ⟨[], rfl, ⟨_, _, _, rfl, rfl, fun _ => ⟨rfl, rfl⟩⟩, fun i v hv => ⟨v, hv, fun _ => rfl,
      fun h => by cases h⟩⟩ h
  obtain ⟨before, hb, ht, hk⟩ := key
  rw [List.append_nil] at hb
  subst hb
  refine ⟨ht, fun i v hv => ?_⟩
  obtain ⟨w, hw, -, h2⟩ := hk i v hv
  obtain ⟨h3, h4⟩ := h2 (List.mem_range.2 (List.getElem?_eq_some_iff.1 hv).1)
  exact ⟨w, hw, h3, h4⟩

/-- The validators eligible for activation. -/
theorem queue_members {s : State} {i e : Nat} :
    (e, i) ∈ (s.validators.zipIdx.filterMap fun (v, i) =>
      if is_eligible_for_activation s v then some (v.activation_eligibility_epoch, i) else none) ↔
    ∃ v, s.validators[i]? = some v ∧ e = v.activation_eligibility_epoch ∧
      v.activation_eligibility_epoch ≤ s.finalized_checkpoint.epoch ∧
      v.activation_epoch = FAR_FUTURE_EPOCH := by
  simp only [List.mem_filterMap, Prod.exists, List.mem_zipIdx_iff_getElem?]
  constructor
  · rintro ⟨v, j, hv, h⟩
    split at h
    · rename_i hel
      simp only [Option.some.injEq, Prod.mk.injEq] at h
      obtain ⟨rfl, rfl⟩ := h
      simp only [is_eligible_for_activation, Bool.and_eq_true, decide_eq_true_eq, beq_iff_eq] at hel
      exact ⟨v, hv, rfl, hel⟩
    · cases h
  · rintro ⟨v, hv, rfl, h1, h2⟩
    refine ⟨v, i, hv, ?_⟩
    rw [if_pos]
    simp [is_eligible_for_activation, h1, h2]

/-- The queue lists the waiting validators, ordered. -/
theorem queue_spec (s : State) :
    (∀ i, i ∈ activation_queue s ↔ WaitsInQueue s i) ∧
    (activation_queue s).Pairwise (Before s) := by
  unfold activation_queue
  dsimp only
  generalize hp : (s.validators.zipIdx.filterMap fun (v, i) =>
      if is_eligible_for_activation s v then some (v.activation_eligibility_epoch, i) else none) = ps
  have hmem : ∀ e i, (e, i) ∈ ps ↔ ∃ v, s.validators[i]? = some v ∧
      e = v.activation_eligibility_epoch ∧
      v.activation_eligibility_epoch ≤ s.finalized_checkpoint.epoch ∧
      v.activation_epoch = FAR_FUTURE_EPOCH := fun e i => by rw [← hp]; exact queue_members
  have hnd : ps.Nodup := by
    have h1 : (ps.map (·.2)).Sublist (s.validators.zipIdx.map (·.2)) := by
      rw [← hp]
      generalize s.validators.zipIdx = zs
      induction zs with
      | nil => simp
      | cons z zs ih =>
        rw [List.filterMap_cons]
        split
        · exact ih.cons _
        · rename_i b hb
          have : b.2 = z.2 := by
            dsimp only at hb
            split at hb
            · cases hb; rfl
            · cases hb
          simp only [List.map_cons, this]
          exact ih.cons_cons _
    have h2 : (ps.map (·.2)).Nodup := by
      refine h1.nodup ?_
      rw [List.zipIdx_map_snd]
      exact List.nodup_range'
    exact (List.pairwise_map.1 h2).imp fun h e => h (by rw [e])
  constructor
  · intro i
    rw [List.mem_map]
    constructor
    · rintro ⟨⟨e, j⟩, h, rfl⟩
      rw [mem_sortBy, hmem] at h
      obtain ⟨v, hv, -, h1, h2⟩ := h
      exact ⟨v, hv, h1, h2⟩
    · rintro ⟨v, hv, h1, h2⟩
      exact ⟨(_, i), mem_sortBy.2 ((hmem _ _).2 ⟨v, hv, rfl, h1, h2⟩), rfl⟩
  · have hs := sortBy_sorted (le := fun a b : Nat × Nat => a.1 < b.1 || (a.1 == b.1 && a.2 ≤ b.2))
      (by intro a b c; simp; omega) (by intro a b; simp; omega) ps
    have hn : (sortBy (fun a b : Nat × Nat => a.1 < b.1 || (a.1 == b.1 && a.2 ≤ b.2)) ps).Nodup :=
      (sortBy_perm ps).nodup_iff.2 hnd
    rw [List.pairwise_map]
    have hboth := hs.and hn
    refine hboth.imp_of_mem ?_
    rintro ⟨e, i⟩ ⟨e', j⟩ hi hj ⟨h1, h2⟩
    rw [mem_sortBy, hmem] at hi hj
    obtain ⟨v, hv, rfl, -⟩ := hi
    obtain ⟨w, hw, rfl, -⟩ := hj
    refine ⟨v, w, hv, hw, ?_⟩
    simp only [Bool.or_eq_true, decide_eq_true_eq, Bool.and_eq_true, beq_iff_eq] at h1
    rcases h1 with h1 | ⟨h1, h3⟩
    · exact Or.inl h1
    · refine Or.inr ⟨h1, Nat.lt_of_le_of_ne h3 ?_⟩
      rintro rfl
      exact h2 (by rw [h1])

section

variable {E : Env} {f : Fork} {s t : State}
  (ht : Touched f s t)
  (hq : ∀ (i : Nat) v, s.validators[i]? = some v → ∃ w, t.validators[i]? = some w ∧
      (JoinsQueue E f v → epochOf E s.slot + 1 < U64_BOUND) ∧
      ∀ A, i ∉ A → QueueStep E f s A i v w)
include ht hq

theorem pre_entry {i : Nat} {w : Validator} (h : t.validators[i]? = some w) :
    ∃ v, s.validators[i]? = some v ∧ (JoinsQueue E f v → epochOf E s.slot + 1 < U64_BOUND) ∧
      QueueStep E f s [] i v w := by
  obtain ⟨vs, a, b, rfl, hl, -⟩ := ht
  have hi := (List.getElem?_eq_some_iff.1 h).1
  obtain ⟨w', hw', h1, h2⟩ := hq i _ (List.getElem?_eq_getElem (hl ▸ hi))
  have := h.symm.trans hw'
  cases this
  exact ⟨_, List.getElem?_eq_getElem (hl ▸ hi), h1, h2 [] (by simp)⟩

theorem waits_iff (hfin : s.finalized_checkpoint.epoch ≤ epochOf E s.slot) {i : Nat} :
    WaitsInQueue t i ↔ WaitsInQueue s i := by
  have hF : t.finalized_checkpoint = s.finalized_checkpoint := by
    obtain ⟨vs, a, b, rfl, -⟩ := ht; rfl
  constructor
  · rintro ⟨w, hw, h1, h2⟩
    obtain ⟨v, hv, -, q⟩ := pre_entry ht hq hw
    have e1 := q.eligibility
    have e2 := q.activation
    rw [if_neg (by simp)] at e2
    rw [hF] at h1
    refine ⟨v, hv, ?_, e2.symm.trans h2⟩
    split at e1
    · omega
    · omega
  · rintro ⟨v, hv, h1, h2⟩
    obtain ⟨w, hw, hb, q⟩ := hq i v hv
    have q := q [] (by simp)
    have e1 := q.eligibility
    have e2 := q.activation
    rw [if_neg (by simp)] at e2
    refine ⟨w, hw, ?_, e2.trans h2⟩
    rw [hF]
    split at e1
    · rename_i hj
      have hb := hb hj
      rw [hj.1] at h1
      unfold FAR_FUTURE_EPOCH at h1
      have := U64_BOUND_eq
      omega
    · omega

theorem before_of (hfin : s.finalized_checkpoint.epoch ≤ epochOf E s.slot) {i j : Nat}
    (hi : WaitsInQueue s i) (hj : WaitsInQueue s j) (h : Before t i j) : Before s i j := by
  obtain ⟨v, w, hv, hw, h⟩ := h
  obtain ⟨v', hv', hb, q⟩ := pre_entry ht hq hv
  obtain ⟨w', hw', hb', q'⟩ := pre_entry ht hq hw
  have key : ∀ {v : Validator} {i : Nat}, s.validators[i]? = some v → WaitsInQueue s i →
      (JoinsQueue E f v → epochOf E s.slot + 1 < U64_BOUND) → ¬ JoinsQueue E f v := by
    rintro v i hv ⟨v', hv', h1, -⟩ hb hj
    rw [hv] at hv'; cases hv'
    have hb := hb hj
    rw [hj.1] at h1
    unfold FAR_FUTURE_EPOCH at h1
    have := U64_BOUND_eq
    omega
  have e1 := q.eligibility
  have e2 := q'.eligibility
  rw [if_neg (key hv' hi hb)] at e1
  rw [if_neg (key hw' hj hb')] at e2
  refine ⟨v', w', hv', hw', ?_⟩
  rw [← e1, ← e2]
  exact h

theorem churn_same : churnLimit E t = churnLimit E s := by
  have hslot : t.slot = s.slot := by obtain ⟨vs, a, b, rfl, -⟩ := ht; rfl
  have hlen : t.validators.length = s.validators.length := by
    obtain ⟨vs, a, b, rfl, h, -⟩ := ht; exact h
  unfold churnLimit
  rw [hslot]
  congr 3
  unfold activeIndices
  rw [hlen]
  apply List.filter_congr
  intro i hi
  rw [List.mem_range] at hi
  obtain ⟨w, hw, -, q⟩ := hq i _ (List.getElem?_eq_getElem hi)
  rw [hw, List.getElem?_eq_getElem hi]
  have q := q [] (by simp)
  have e := q.activation
  rw [if_neg (by simp)] at e
  apply decide_eq_decide.2
  unfold ActiveAt
  rw [e]
  by_cases hl : LowStake E s s.validators[i]
  · have h1 := (q.ejected hl).1
    have h2 := hl.1.2
    unfold nextFreeEpoch at h1
    constructor <;> (rintro ⟨h3, -⟩; refine ⟨h3, ?_⟩; omega)
  · rw [(q.stays hl).1]

end

/-- The second loop. -/
theorem activate_loop {A : List Nat} {e : Nat} (hn : A.Nodup) {t t' : State}
    (h : forEach A (fun i => updValidator i fun v => { v with activation_epoch := e }) t = .ok () t') :
    ∃ vs, t' = { t with validators := vs } ∧ vs.length = t.validators.length ∧
      ∀ (i : Nat) v, t.validators[i]? = some v →
        vs[i]? = some (if i ∈ A then { v with activation_epoch := e } else v) := by
  obtain ⟨vs, h1, h2, h3, h4⟩ := forEach_pointwise (get := State.validators)
    (put := fun s l => { s with validators := l }) (fun _ => rfl)
    (P := fun i o => ∃ v, t.validators[i]? = some v ∧ o = some { v with activation_epoch := e }) hn
    (by
      intro i _ l t'' hl hli hb
      simp only [run] at hb
      obtain ⟨v, hv, rfl⟩ := hb
      have hi := (List.getElem?_eq_some_iff.1 hv).1
      refine ⟨_, rfl, List.length_set .., fun j hj => List.getElem?_set_ne (Ne.symm hj),
        v, hli ▸ hv, ?_⟩
      rw [List.getElem?_set_self hi]) h
  refine ⟨vs, h1, h2, fun i v hv => ?_⟩
  by_cases hi : i ∈ A
  · obtain ⟨v', hv', h⟩ := h3 i hi
    rw [hv] at hv'; cases hv'
    rw [if_pos hi]; exact h
  · rw [if_neg hi, h4 i hi]; exact hv

/-- The activated validators are a prefix of the queue, or in electra everybody on it. -/
theorem to_activate_ok {E : Env} {f : Fork} {t : State} {A : List Nat}
    (h : to_activate E f t = .ok A) :
    A.Nodup ∧ (∀ i ∈ A, WaitsInQueue t i) ∧
    (f ≠ .Electra → A.length ≤ activationLimit E f t) ∧
    (∀ j, WaitsInQueue t j → j ∉ A → f ≠ .Electra ∧ A.length = activationLimit E f t ∧
      ∀ i ∈ A, Before t i j) := by
  obtain ⟨hm, hp⟩ := queue_spec t
  by_cases hf : f = .Electra
  · subst hf
    simp only [to_activate, Except.ok.injEq] at h
    subst h
    have hmem : ∀ i, i ∈ (t.validators.zipIdx.filterMap fun (v, i) =>
        if is_eligible_for_activation t v then some i else none) ↔ WaitsInQueue t i := by
      intro i
      simp only [List.mem_filterMap, Prod.exists, List.mem_zipIdx_iff_getElem?]
      constructor
      · rintro ⟨v, j, hv, h⟩
        split at h
        · rename_i hel
          cases h
          simp only [is_eligible_for_activation, Bool.and_eq_true, decide_eq_true_eq,
            beq_iff_eq] at hel
          exact ⟨v, hv, hel⟩
        · cases h
      · rintro ⟨v, hv, h1, h2⟩
        refine ⟨v, i, hv, ?_⟩
        rw [if_pos]
        simp [is_eligible_for_activation, h1, h2]
    refine ⟨?_, fun i hi => (hmem i).1 hi, fun h => absurd rfl h,
      fun j hj hA => absurd ((hmem j).2 hj) hA⟩
    have h1 : (t.validators.zipIdx.filterMap fun (v, i) =>
        if is_eligible_for_activation t v then some i else none).Sublist
        (t.validators.zipIdx.map (·.2)) := by
      generalize t.validators.zipIdx = zs
      induction zs with
      | nil => simp
      | cons z zs ih =>
        rw [List.filterMap_cons]
        split
        · exact ih.cons _
        · rename_i b hb
          have : b = z.2 := by
            dsimp only at hb
            split at hb
            · cases hb; rfl
            · cases hb
          simp only [List.map_cons, this]
          exact ih.cons_cons _
    refine h1.nodup ?_
    rw [List.zipIdx_map_snd]
    exact List.nodup_range'
  · have h : ∃ n, activation_limit E f t = .ok n ∧ A = (activation_queue t).take n := by
      cases f <;> simp only [to_activate, run] at h <;> first
        | exact absurd rfl hf
        | (obtain ⟨n, hn, rfl⟩ := h; exact ⟨n, hn, rfl⟩)
    obtain ⟨n, hn, rfl⟩ := h
    have hn : n = activationLimit E f t := by
      simp only [activation_limit, run] at hn
      obtain ⟨c, hc, rfl⟩ := hn
      rw [churn_limit_eq_ok hc]
      cases f <;> rfl
    subst hn
    have hirr : ∀ i, ¬ Before t i i := by
      rintro i ⟨v, w, hv, hw, h⟩
      rw [hv] at hw; cases hw
      omega
    have hnd : (activation_queue t).Nodup := by
      refine hp.imp ?_
      rintro a b h rfl
      exact hirr a h
    generalize hk : activationLimit E f t = k at *
    refine ⟨hnd.sublist (List.take_sublist _ _), fun i hi => (hm i).1 (List.mem_of_mem_take hi),
      fun _ => ?_, fun j hj hA => ⟨hf, ?_, fun i hi => ?_⟩⟩
    · rw [List.length_take]; exact Nat.min_le_left _ _
    · have hj := (hm j).2 hj
      rw [List.length_take, Nat.min_eq_left]
      refine Nat.le_of_not_lt fun hlt => hA ?_
      rw [List.take_of_length_le (Nat.le_of_lt hlt)]; exact hj
    · have hj := (hm j).2 hj
      rw [← List.take_append_drop k (activation_queue t)] at hp hj
      rw [List.pairwise_append] at hp
      exact hp.2.2 i hi j ((List.mem_append.1 hj).resolve_left hA)

theorem registry_updates_ok {E : Env} {f : Fork} {s s' : State}
    (hfin : s.finalized_checkpoint.epoch ≤ epochOf E s.slot)
    (h : process_registry_updates E f s = .ok () s') :
    ∃ A, Touched f s s' ∧
      (∀ (i : Nat) v, s.validators[i]? = some v →
        ∃ w, s'.validators[i]? = some w ∧ QueueStep E f s A i v w) ∧
      A.Nodup ∧ (∀ i ∈ A, WaitsInQueue s i) ∧
      (f ≠ .Electra → A.length ≤ activationLimit E f s) ∧
      (∀ j, WaitsInQueue s j → j ∉ A → f ≠ .Electra ∧ A.length = activationLimit E f s ∧
        ∀ i ∈ A, Before s i j) := by
  simp only [process_registry_updates, run, current_epoch_eq_ok, activation_exit_epoch_eq_ok] at h
  obtain ⟨_, ⟨rfl, -⟩, t, h1, _, ⟨rfl, -⟩, A, hA, h2⟩ := h
  obtain ⟨ht, hq⟩ := registry_loop (E := E) (f := f) (by simpa only [mark_eligible] using h1)
  obtain ⟨a1, a2, a3, a4⟩ := to_activate_ok hA
  obtain ⟨vs, rfl, e1, e2⟩ := activate_loop a1 h2
  have hlim : activationLimit E f t = activationLimit E f s := by
    unfold activationLimit; rw [churn_same ht hq]
  refine ⟨A, ?_, ?_, a1, fun i hi => (waits_iff ht hq hfin).1 (a2 i hi), hlim ▸ a3, ?_⟩
  · obtain ⟨us, a, b, rfl, e3, e4⟩ := ht
    exact ⟨vs, a, b, rfl, e1.trans e3, e4⟩
  · intro i v hv
    obtain ⟨w, hw, -, q⟩ := hq i v hv
    have q := q [] (by simp)
    refine ⟨_, e2 i w hw, ?_⟩
    have e5 := q.activation
    rw [if_neg (by simp)] at e5
    by_cases hi : i ∈ A
    · rw [if_pos hi]
      exact ⟨q.1, by rw [if_pos hi]; rfl, q.3, q.4, q.5, q.6, q.7, q.8⟩
    · rw [if_neg hi]
      exact ⟨q.1, by rw [if_neg hi]; exact e5, q.3, q.4, q.5, q.6, q.7, q.8⟩
  · intro j hj hjA
    obtain ⟨h3, h4, h5⟩ := a4 j ((waits_iff ht hq hfin).2 hj) hjA
    exact ⟨h3, h4.trans hlim, fun i hi =>
      before_of ht hq hfin ((waits_iff ht hq hfin).1 (a2 i hi)) hj (h5 i hi)⟩

end Verif
