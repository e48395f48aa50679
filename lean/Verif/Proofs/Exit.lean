import Verif.Proofs.Predicates
import Verif.Spec.Exits
import Verif.Model.Slash

namespace Verif
open Spec

theorem foldl_max_ge {l : List Nat} {a : Nat} : a ≤ l.foldl max a ∧ ∀ x ∈ l, x ≤ l.foldl max a := by
  induction l generalizing a with
  | nil => simp
  | cons y l ih =>
    simp only [List.foldl_cons, List.mem_cons]
    have h := @ih (max a y)
    refine ⟨by omega, ?_⟩
    rintro x (rfl | hx)
    · omega
    · exact h.2 x hx

theorem current_epoch_eq_ok {E : Env} {s : State} {e : Nat} :
    get_current_epoch E s = .ok e ↔ e = epochOf E s.slot ∧ E.slots_per_epoch ≠ 0 := by
  rw [get_current_epoch, compute_epoch_at_slot, div_eq_ok, epochOf, eq_comm]

theorem churn_limit_eq_ok {E : Env} {s : State} {n : Nat}
    (h : get_validator_churn_limit E s = .ok n) : n = churnLimit E s := by
  simp only [get_validator_churn_limit, run, current_epoch_eq_ok, activeIndices_eq] at h
  obtain ⟨_, ⟨rfl, _⟩, _, ⟨rfl, _⟩, rfl⟩ := h
  rfl

theorem activation_exit_epoch_eq_ok {E : Env} {e x : Nat} :
    compute_activation_exit_epoch E e = .ok x ↔
      x = e + 1 + E.max_seed_lookahead ∧ e + 1 + E.max_seed_lookahead < U64_BOUND := by
  simp only [compute_activation_exit_epoch, run]
  constructor
  · rintro ⟨_, ⟨rfl, _⟩, rfl, h⟩; exact ⟨rfl, h⟩
  · rintro ⟨rfl, h⟩; exact ⟨_, ⟨rfl, by omega⟩, rfl, h⟩

/-- What `exit_queue_epoch` guarantees. -/
theorem exit_queue_epoch_spec {E : Env} {s : State} {e : Nat}
    (h : exit_queue_epoch E s = .ok e) :
    epochOf E s.slot + 1 + E.max_seed_lookahead ≤ e ∧
    (∀ v ∈ s.validators, v.exit_epoch ≠ FAR_FUTURE_EPOCH → v.exit_epoch ≤ e) ∧
    (e ≠ FAR_FUTURE_EPOCH → exitsIn s e = 0 ∨ exitsIn s e < churnLimit E s) := by
  simp only [exit_queue_epoch, run, current_epoch_eq_ok, activation_exit_epoch_eq_ok] at h
  obtain ⟨_, ⟨rfl, _⟩, x, ⟨rfl, _⟩, n, hn, h⟩ := h
  replace hn := churn_limit_eq_ok hn
  subst hn
  generalize hl : (List.map (fun x => x.exit_epoch)
    (List.filter (fun v => decide (v.exit_epoch ≠ FAR_FUTURE_EPOCH)) s.validators)) ++
      [epochOf E s.slot + 1 + E.max_seed_lookahead] = l at h
  have hmax := @foldl_max_ge l 0
  have h1 : epochOf E s.slot + 1 + E.max_seed_lookahead ≤ l.foldl max 0 :=
    hmax.2 _ (by rw [← hl]; simp)
  have h2 : ∀ v ∈ s.validators, v.exit_epoch ≠ FAR_FUTURE_EPOCH →
      v.exit_epoch ≤ l.foldl max 0 := by
    intro v hv hf
    apply hmax.2
    rw [← hl, List.mem_append]
    left
    exact List.mem_map_of_mem (List.mem_filter.2 ⟨hv, by simpa using hf⟩)
  rcases h with ⟨hc, h, _⟩ | ⟨hc, h⟩
  · subst h
    refine ⟨by omega, fun v hv hf => by have := h2 v hv hf; omega, fun hne => Or.inl ?_⟩
    unfold exitsIn
    rw [List.countP_eq_zero]
    intro v hv he
    simp only [beq_iff_eq] at he
    have := h2 v hv (by rw [he]; exact hne)
    omega
  · subst h
    refine ⟨h1, h2, fun _ => Or.inr ?_⟩
    unfold exitsIn; omega

theorem initiate_validator_exit_eq_ok {E : Env} {i : Nat} {s s' : State} :
    initiate_validator_exit E i s = .ok () s' ↔ ∃ v, s.validators[i]? = some v ∧
      ((v.exit_epoch ≠ FAR_FUTURE_EPOCH ∧ s' = s) ∨
       (v.exit_epoch = FAR_FUTURE_EPOCH ∧ ∃ e, exit_queue_epoch E s = .ok e ∧
         e + E.min_validator_withdrawability_delay < U64_BOUND ∧ ExitsAt E s s' i e)) := by
  simp only [initiate_validator_exit, run, ExitsAt]
  constructor
  · rintro ⟨v, hv, ⟨h, _, rfl⟩ | ⟨h, e, he, w, hw, _, ⟨rfl, hd⟩, w', hw', rfl⟩⟩
    · exact ⟨v, hv, Or.inl ⟨h, rfl⟩⟩
    · have := Option.some.inj (hv.symm.trans hw); subst this
      have hi := (List.getElem?_eq_some_iff.1 hv).1
      simp only [List.getElem?_set, hi, if_true, Option.some.injEq] at hw'
      subst hw'
      refine ⟨v, hv, Or.inr ⟨by simpa using h, e, he, hd, v, hv, ?_⟩⟩
      simp [List.set_set]
  · rintro ⟨v, hv, ⟨h, rfl⟩ | ⟨h, e, he, hd, w, hw, rfl⟩⟩
    · exact ⟨v, hv, Or.inl ⟨h, trivial, rfl⟩⟩
    · have := Option.some.inj (hv.symm.trans hw); subst this
      have hi := (List.getElem?_eq_some_iff.1 hv).1
      refine ⟨v, hv, Or.inr ⟨by simpa using h, e, he, v, hv, _, ⟨rfl, hd⟩, ?_⟩⟩
      simp [List.set_set, hi]

theorem exitsIn_set {s s' : State} {E : Env} {i e x : Nat} (h : ExitsAt E s s' i e)
    (hf : ∀ v, s.validators[i]? = some v → v.exit_epoch ≠ x) :
    exitsIn s' x = exitsIn s x + (if e = x then 1 else 0) := by
  obtain ⟨v, hv, rfl⟩ := h
  have hi := (List.getElem?_eq_some_iff.1 hv).1
  have hv' := (List.getElem?_eq_some_iff.1 hv).2
  have := hf v hv
  unfold exitsIn
  rw [List.countP_set hi, hv']
  simp [this]

theorem activeIndices_exit {E : Env} {s s' : State} {i e x : Nat} (h : ExitsAt E s s' i e)
    (hf : ∀ v, s.validators[i]? = some v → x < v.exit_epoch) (hx : x < e) :
    activeIndices s' x = activeIndices s x := by
  obtain ⟨v, hv, rfl⟩ := h
  unfold activeIndices
  simp only [List.length_set]
  apply List.filter_congr
  intro j hj
  have hlt := hf v hv
  by_cases hij : i = j
  · subst hij
    have hi := (List.getElem?_eq_some_iff.1 hv).1
    simp [hi, ActiveAt, hx]
    rw [(List.getElem?_eq_some_iff.1 hv).2]
    simp [hlt]
  · simp [hij]

end Verif

namespace Verif
open Spec

theorem foldl_max_lt {l : List Nat} {a b : Nat} (ha : a < b) (h : ∀ x ∈ l, x < b) :
    l.foldl max a < b := by
  induction l generalizing a with
  | nil => simpa
  | cons y l ih =>
    simp only [List.foldl_cons]
    exact ih (by have := h y (by simp); omega) fun x hx => h x (by simp [hx])

/-- `exit_queue_epoch` returns when the epochs in play are below `2^62`. -/
theorem exit_queue_epoch_total {E : Env} {s : State} (hE : SaneConfig E)
    (hs : epochOf E s.slot < 2 ^ 62)
    (hv : ∀ v ∈ s.validators, v.exit_epoch ≠ FAR_FUTURE_EPOCH → v.exit_epoch < 2 ^ 62) :
    ∃ e, exit_queue_epoch E s = .ok e ∧ e ≤ 2 ^ 63 := by
  have h1 := hE.slots_per_epoch
  have h2 := hE.max_seed_lookahead
  have h3 := hE.churn_limit_quotient
  have hb := U64_BOUND_eq
  unfold exit_queue_epoch
  rw [current_epoch_eq_ok.2 ⟨rfl, by omega⟩]
  simp only [R_bind_ok]
  rw [activation_exit_epoch_eq_ok.2 ⟨rfl, by omega⟩]
  simp only [R_bind_ok]
  generalize hl : (List.map (fun x => x.exit_epoch)
    (List.filter (fun v => decide (v.exit_epoch ≠ FAR_FUTURE_EPOCH)) s.validators)) ++
      [epochOf E s.slot + 1 + E.max_seed_lookahead] = l
  have hm : l.foldl max 0 < 2 ^ 63 := by
    apply foldl_max_lt (by omega)
    rw [← hl]
    intro x hx
    rcases List.mem_append.1 hx with hx | hx
    · obtain ⟨v, hv', rfl⟩ := List.mem_map.1 hx
      obtain ⟨hv1, hv2⟩ := List.mem_filter.1 hv'
      have := hv v hv1 (by simpa using hv2)
      omega
    · simp only [List.mem_singleton] at hx; omega
  unfold get_validator_churn_limit
  rw [current_epoch_eq_ok.2 ⟨rfl, by omega⟩]
  simp only [R_bind_ok]
  rw [div_ok (by omega)]
  simp only [R_bind_ok, R_pure]
  split
  · exact ⟨_, add_ok (by omega), by omega⟩
  · exact ⟨_, rfl, by omega⟩

end Verif
