import Verif.Proofs.SafetyElectraEpoch

/-! # Electra's slashing penalties overflow -/

namespace Verif

open Spec Props

variable {E : Env} {s : State}

/-- Every failure of `m` is a panic. -/
def OnlyPanics {α : Type} (m : M α) : Prop := ∀ s e t, m s = .error e t → ∃ p, e = .panic p

/-- Every failure of `x` is a panic. -/
def OnlyPanicsR {α : Type} (x : R α) : Prop := ∀ e, x = .error e → ∃ p, e = .panic p

theorem only_bind_at {α β : Type} {m : M α} {k : α → M β}
    (hm : ∀ e t, m s = .error e t → ∃ p, e = .panic p)
    (hk : ∀ a t, m s = .ok a t → ∀ e u, k a t = .error e u → ∃ p, e = .panic p) :
    ∀ e t, (m >>= k) s = .error e t → ∃ p, e = .panic p := by
  intro e t h
  have h' : EStateM.bind m k s = .error e t := h
  unfold EStateM.bind at h'
  split at h'
  · rename_i a t' hm'
    exact hk _ _ hm' _ _ h'
  · rename_i e' t' hm'
    cases h'
    exact hm _ _ hm'

theorem only_bind {α β : Type} {m : M α} {k : α → M β} (hm : OnlyPanics m)
    (hk : ∀ a, OnlyPanics (k a)) : OnlyPanics (m >>= k) :=
  fun s => only_bind_at (hm s) fun a t _ => hk a t

theorem only_pure {α : Type} {a : α} : OnlyPanics (pure a) := fun _ _ _ h => by cases h

theorem only_get : OnlyPanics (get : M State) := fun _ _ _ h => by cases h

theorem only_lift {α : Type} {x : R α} (h : OnlyPanicsR x) :
    OnlyPanics (liftM (n := M) x) := by
  intro s e t he
  have he' : rd (fun _ => x) s = .error e t := he
  unfold rd at he'
  split at he'
  · cases he'
  · rename_i e' hx
    cases he'
    exact h _ hx

theorem onlyR_bind {α β : Type} {m : R α} {k : α → R β} (hm : OnlyPanicsR m)
    (hk : ∀ a, OnlyPanicsR (k a)) : OnlyPanicsR (m >>= k) := by
  intro e h
  have h' : Except.bind m k = .error e := h
  unfold Except.bind at h'
  split at h'
  · rename_i e' hm'
    cases h'
    exact hm _ rfl
  · exact hk _ _ h'

theorem onlyR_add {a b : Nat} : OnlyPanicsR (a +? b) := by
  intro e h; unfold U64.add at h; split at h <;> cases h; exact ⟨_, rfl⟩

theorem onlyR_sub {a b : Nat} : OnlyPanicsR (a -? b) := by
  intro e h; unfold U64.sub at h; split at h <;> cases h; exact ⟨_, rfl⟩

theorem onlyR_mul {a b : Nat} : OnlyPanicsR (a *? b) := by
  intro e h; unfold U64.mul at h; split at h <;> cases h; exact ⟨_, rfl⟩

theorem onlyR_div {a b : Nat} : OnlyPanicsR (a /? b) := by
  intro e h; unfold U64.div at h; split at h <;> cases h; exact ⟨_, rfl⟩

theorem onlyR_idx {α : Type} {l : List α} {i : Nat} : OnlyPanicsR (idx l i) := by
  intro e h; unfold idx at h; split at h <;> cases h; exact ⟨_, rfl⟩

theorem penalty_only {a b c i : Nat} : OnlyPanics (apply_slashing_penalty E a b c i) := by
  unfold apply_slashing_penalty
  refine only_bind only_get fun t => only_bind (only_lift onlyR_idx) fun v => ?_
  split
  · refine only_bind (only_lift onlyR_div) fun _ => only_bind (only_lift onlyR_add) fun _ => ?_
    split
    · refine only_bind (only_lift ?_) fun p => ?_
      · unfold slashing_penalty
        exact onlyR_bind onlyR_div fun _ => onlyR_bind onlyR_mul fun _ => onlyR_bind onlyR_div
          fun _ => onlyR_mul
      · unfold decrease_balance
        refine only_bind only_get fun t => only_bind (only_lift onlyR_idx) fun b => ?_
        refine only_bind ?_ fun _ => fun _ _ _ h => by cases h
        split
        · exact only_pure
        · exact only_lift onlyR_sub
    · exact only_pure
  · exact only_pure

theorem only_forEach {α : Type} {l : List α} {body : α → M Unit} (h : ∀ x, OnlyPanics (body x)) :
    OnlyPanics (forEach l body) := by
  induction l with
  | nil => exact only_pure
  | cons x l ih => exact only_bind (h x) fun _ => ih

theorem onlyR_sum {l : List Nat} : OnlyPanicsR (sumU64 l) := by
  unfold sumU64
  generalize 0 = a
  induction l generalizing a with
  | nil => intro e h; cases h
  | cons x l ih =>
    rw [List.foldlM_cons]
    exact onlyR_bind onlyR_add fun b => ih b

theorem slashings_only (he : E.slots_per_epoch ≠ 0)
    (hT : totalEffective s (activeIndices s (epochOf E s.slot)) < 2 ^ 64) {f : Fork} :
    ∀ e t, process_slashings E f s = .error e t → ∃ p, e = .panic p := by
  unfold process_slashings
  refine only_bind_at (fun e t h => by cases h) fun a t h => ?_
  cases h
  refine only_bind_at (only_lift onlyR_div s) fun e t h => ?_
  obtain rfl : t = s := by
    have h' : rd (fun _ => get_current_epoch E s) s = .ok e t := h
    unfold rd at h'
    split at h' <;> cases h'
    rfl
  have hok := total_active_eq_ok.2 ⟨he, hT, rfl⟩
  rw [hok]
  refine only_bind_at (fun e t h => by cases h) fun T t' h => ?_
  cases h
  exact only_bind (only_lift onlyR_sum) (fun _ => only_bind (only_lift onlyR_mul) fun _ =>
    only_forEach fun _ => penalty_only) _

/-- A penalty that does not fit makes it fail. -/
theorem slashings_ok_fits {f : Fork} {s' : State} (h : process_slashings E f s = .ok () s') {i : Nat}
    {v : Validator} (hv : s.validators[i]? = some v) (hd : PenaltyDue E s v) :
    v.effective_balance / E.effective_balance_increment *
      min (s.slashings.sum * slashingMultiplier E f) (activeBalance E s) < 2 ^ 64 := by
  simp only [process_slashings, run, current_epoch_eq_ok, total_active_eq_ok, sumU64_eq_ok] at h
  obtain ⟨_, ⟨rfl, -⟩, _, ⟨-, -, rfl⟩, _, ⟨-, rfl⟩, _, ⟨rfl, -⟩, h⟩ := h
  have hm : proportional_slashing_multiplier_of E f = slashingMultiplier E f := by cases f <;> rfl
  rw [hm] at h
  obtain ⟨bs, h1, h2, h3, h4⟩ := forEach_pointwise (get := State.balances)
    (put := fun s l => { s with balances := l }) (fun _ => rfl)
    (P := fun i _ => ∃ v, s.validators[i]? = some v ∧ (PenaltyDue E s v →
      v.effective_balance / E.effective_balance_increment *
      min (s.slashings.sum * slashingMultiplier E f) (activeBalance E s) < 2 ^ 64))
    List.nodup_range (by
      intro i hi l t' hl hli ht
      simp only [apply_slashing_penalty, run] at ht
      obtain ⟨v, hv, ht⟩ := ht
      rcases ht with ⟨hs, _, ⟨rfl, -⟩, _, ⟨rfl, -⟩, ht⟩ | ⟨hs, -, rfl⟩
      · rcases ht with ⟨he, p, hp, ht⟩ | ⟨he, -, rfl⟩
        · obtain ⟨b, hb, rfl⟩ := decrease_balance_eq_ok.1 ht
          refine ⟨_, rfl, List.length_set, fun j hj => List.getElem?_set_ne (Ne.symm hj), v, hv, ?_⟩
          simp only [slashing_penalty, run] at hp
          obtain ⟨_, ⟨rfl, -⟩, _, ⟨rfl, hlt⟩, _, ⟨rfl, -⟩, rfl, -⟩ := hp
          exact fun _ => hlt
        · exact ⟨l, rfl, rfl, fun _ _ => rfl, v, hv, fun hd => absurd hd.2.symm he⟩
      · exact ⟨l, rfl, rfl, fun _ _ => rfl, v, hv, fun hd => absurd hd.1 hs⟩) h
  obtain ⟨w, hw, hf⟩ := h3 i (List.mem_range.2 (List.getElem?_eq_some_iff.1 hv).1)
  rw [hv] at hw; cases hw
  exact hf hd

end Verif
