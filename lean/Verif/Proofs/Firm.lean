import Verif.Proofs.Calm
import Verif.Proofs.SafetyAltair

/-!
# Runs that can only fail by a panic

`Firm T x`: if the reader `x` fails, it panics or the error is one of `T`. `FirmM T m s`: the same
for a computation started in `s`. Together with `Calm` this gives success: `SureM T m Q s`, which
says that `m` succeeds from `s` with `Q`, or fails with an error of `T`.
-/

namespace Verif

open Spec Props

variable {α β : Type} {T : Err → Prop} {E : Env} {s : State}

def Firm (T : Err → Prop) (x : R α) : Prop := ∀ e, x = .error e → e.isPanic = true ∨ T e

def FirmM (T : Err → Prop) (m : M α) (s : State) : Prop :=
  ∀ e s', m s = .error e s' → e.isPanic = true ∨ T e

def SureM (T : Err → Prop) (m : M α) (Q : α → State → Prop) (s : State) : Prop :=
  match m s with
  | .ok a s' => Q a s'
  | .error e _ => T e

theorem CalmM.sure {m : M α} {Q : α → State → Prop} (h : CalmM m Q s) (hf : FirmM T m s) :
    SureM T m Q s := by
  unfold CalmM at h
  unfold SureM
  cases he : m s with
  | ok a s' => rw [he] at h; exact h
  | error e s' =>
    rw [he] at h
    rcases hf e s' he with h' | h'
    · simp only at h; rw [h] at h'; cases h'
    · exact h'

theorem SureM.mono {m : M α} {Q Q' : α → State → Prop} (h : SureM T m Q s)
    (hQ : ∀ a s', m s = .ok a s' → Q a s' → Q' a s') : SureM T m Q' s := by
  unfold SureM at *
  cases he : m s with
  | ok a s' => rw [he] at h; exact hQ a s' he h
  | error e s' => rw [he] at h; exact h

theorem SureM.weaken {m : M α} {T' : Err → Prop} {Q : α → State → Prop} (h : SureM T m Q s)
    (hT : ∀ e, T e → T' e) : SureM T' m Q s := by
  unfold SureM at *
  cases he : m s with
  | ok a s' => rw [he] at h; exact h
  | error e s' => rw [he] at h; exact hT e h

theorem SureM_bind {m : M α} {f : α → M β} {Q : β → State → Prop}
    (h : SureM T m (fun a s' => SureM T (f a) Q s') s) : SureM T (m >>= f) Q s := by
  unfold SureM at h ⊢
  show match EStateM.bind m f s with | .ok a s' => Q a s' | .error e _ => T e
  unfold EStateM.bind
  cases he : m s with
  | ok a s' => rw [he] at h; exact h
  | error e s' => rw [he] at h; exact h

theorem SureM.firm {m : M α} {Q : α → State → Prop} (h : SureM T m Q s) : FirmM T m s := by
  intro e s' he
  unfold SureM at h
  rw [he] at h
  exact .inr h

theorem SureM.total {m : M Unit} {Q : Unit → State → Prop} (h : SureM (fun _ => False) m Q s) :
    ∃ s', m s = .ok () s' ∧ Q () s' := by
  unfold SureM at h
  cases he : m s with
  | ok a s' => rw [he] at h; exact ⟨s', rfl, h⟩
  | error e s' => rw [he] at h; exact h.elim

theorem SureM.cases {m : M Unit} {Q : Unit → State → Prop} (h : SureM T m Q s) :
    (∃ s', m s = .ok () s' ∧ Q () s') ∨ ∃ e s', m s = .error e s' ∧ T e := by
  unfold SureM at h
  cases he : m s with
  | ok a s' => rw [he] at h; exact .inl ⟨s', rfl, h⟩
  | error e s' => rw [he] at h; exact .inr ⟨e, s', rfl, h⟩

/-! ## Readers -/

theorem Firm_ok {a : α} : Firm T (.ok a : R α) := by intro e h; cases h
theorem Firm_pure {a : α} : Firm T (pure a : R α) := by intro e h; cases h

theorem Firm_of_ok {x : R α} {a : α} (h : x = .ok a) : Firm T x := by
  intro e he; rw [h] at he; cases he

theorem Firm_bind {x : R α} {f : α → R β} (h : Firm T x) (hf : ∀ a, x = .ok a → Firm T (f a)) :
    Firm T (x >>= f) := by
  intro e he
  cases hx : x with
  | ok a => rw [hx] at he; exact hf a hx e he
  | error e' =>
    rw [hx] at he
    cases he
    exact h _ hx

theorem Firm_panic {k : Panic} : Firm T (.error (.panic k) : R α) := by
  intro e he; cases he; exact .inl rfl

theorem Firm_add {a b : Nat} : Firm T (a +? b) := by
  unfold U64.add; split; exacts [Firm_ok, Firm_panic]
theorem Firm_sub {a b : Nat} : Firm T (a -? b) := by
  unfold U64.sub; split; exacts [Firm_ok, Firm_panic]
theorem Firm_mul {a b : Nat} : Firm T (a *? b) := by
  unfold U64.mul; split; exacts [Firm_ok, Firm_panic]
theorem Firm_div {a b : Nat} : Firm T (a /? b) := by
  unfold U64.div; split; exacts [Firm_panic, Firm_ok]
theorem Firm_mod {a b : Nat} : Firm T (a %? b) := by
  unfold U64.mod; split; exacts [Firm_panic, Firm_ok]
theorem Firm_idx {xs : List α} {i : Nat} : Firm T (idx xs i) := by
  unfold idx; split; exacts [Firm_ok, Firm_panic]
theorem Firm_setIdx {xs : List α} {i : Nat} {v : α} : Firm T (setIdx xs i v) := by
  unfold setIdx; split; exacts [Firm_ok, Firm_panic]

theorem Firm_foldlM {xs : List α} {f : β → α → R β} {b : β} (h : ∀ b x, Firm T (f b x)) :
    Firm T (xs.foldlM f b) := by
  induction xs generalizing b with
  | nil => exact Firm_pure
  | cons x xs ih => rw [List.foldlM_cons]; exact Firm_bind (h b x) fun _ _ => ih

theorem Firm_filterAuxM {xs acc : List α} {f : α → R Bool} (h : ∀ x ∈ xs, Firm T (f x)) :
    Firm T (List.filterAuxM f xs acc) := by
  induction xs generalizing acc with
  | nil => exact Firm_pure
  | cons x xs ih =>
    unfold List.filterAuxM
    exact Firm_bind (h x (by simp)) fun _ _ => ih fun y hy => h y (by simp [hy])

theorem Firm_filterM {xs : List α} {f : α → R Bool} (h : ∀ x ∈ xs, Firm T (f x)) :
    Firm T (xs.filterM f) := by
  unfold List.filterM
  exact Firm_bind (Firm_filterAuxM h) fun _ _ => Firm_pure

theorem Firm_mapM {xs : List α} {f : α → R β} (h : ∀ x ∈ xs, Firm T (f x)) :
    Firm T (xs.mapM f) := by
  induction xs with
  | nil => exact Firm_pure
  | cons x xs ih =>
    rw [List.mapM_cons]
    exact Firm_bind (h x (by simp)) fun _ _ =>
      Firm_bind (ih fun y hy => h y (by simp [hy])) fun _ _ => Firm_pure

/-! ## Computations -/

theorem FirmM_pure {a : α} : FirmM T (pure a : M α) s := by intro e s' h; cases h
theorem FirmM_get : FirmM T (get : M State) s := by intro e s' h; cases h
theorem FirmM_upd {f : State → State} : FirmM T (upd f) s := by intro e s' h; cases h

theorem FirmM_bind {m : M α} {f : α → M β} (h : FirmM T m s)
    (hf : ∀ a s', m s = .ok a s' → FirmM T (f a) s') : FirmM T (m >>= f) s := by
  intro e s' he
  change EStateM.bind m f s = _ at he
  unfold EStateM.bind at he
  cases hx : m s with
  | ok a t => rw [hx] at he; exact hf a t hx e s' he
  | error e' t =>
    rw [hx] at he
    cases he
    exact h _ _ hx

theorem FirmM_get_bind {f : State → M β} (h : FirmM T (f s) s) :
    FirmM T ((get : M State) >>= f) s := h

theorem FirmM_rd {f : State → R α} (h : Firm T (f s)) : FirmM T (rd f) s := by
  intro e s' he
  unfold rd at he
  cases hx : f s with
  | ok a => rw [hx] at he; cases he
  | error e' => rw [hx] at he; cases he; exact h _ hx

theorem FirmM_lift {x : R α} (h : Firm T x) : FirmM T (liftM x : M α) s := FirmM_rd h
theorem FirmM_liftR {x : R α} (h : Firm T x) : FirmM T (liftR x) s := FirmM_rd h

theorem FirmM_lift_bind {x : R α} {f : α → M β} (h : Firm T x)
    (hf : ∀ a, x = .ok a → FirmM T (f a) s) : FirmM T ((liftM x : M α) >>= f) s := by
  refine FirmM_bind (FirmM_lift h) fun a t ht => ?_
  rw [liftM_eq_ok] at ht
  obtain ⟨h1, rfl⟩ := ht
  exact hf a h1

theorem FirmM_upd_bind {g : State → State} {f : Unit → M β} (h : FirmM T (f ()) (g s)) :
    FirmM T (upd g >>= f) s := h

theorem FirmM_updValidator {i : Nat} {f : Validator → Validator} :
    FirmM T (updValidator i f) s := by
  intro e s' he
  unfold updValidator at he
  cases hx : s.validators[i]? with
  | some v => rw [hx] at he; cases he
  | none => rw [hx] at he; cases he; exact .inl rfl

/-- A loop, with an invariant. -/
theorem FirmM_forEach' {xs : List α} {body : α → M Unit} (I : List α → State → Prop)
    (step : ∀ x rest s, I (x :: rest) s →
      FirmM T (body x) s ∧ ∀ s', body x s = .ok () s' → I rest s')
    (h : I xs s) : FirmM T (forEach xs body) s := by
  induction xs generalizing s with
  | nil => exact FirmM_pure
  | cons x xs ih =>
    unfold forEach
    obtain ⟨h1, h2⟩ := step x xs s h
    exact FirmM_bind h1 fun () s' hs => ih (h2 s' hs)

/-- A loop without one. -/
theorem FirmM_forEach {xs : List α} {body : α → M Unit} (h : ∀ x s, FirmM T (body x) s) :
    FirmM T (forEach xs body) s :=
  FirmM_forEach' (fun _ _ => True) (fun x _ s _ => ⟨h x s, fun _ _ => trivial⟩) trivial

/-- Walks through a computation whose parts are firm. -/
syntax "firm" "[" term,* "]" : tactic
macro_rules
  | `(tactic| firm [$ts,*]) => do
    let mut alts : Array (Lean.TSyntax `Lean.Parser.Tactic.tacticSeq) := #[]
    for t in ts.getElems do
      alts := alts.push (← `(tacticSeq| apply $t))
    `(tactic| repeat' first
      | with_reducible exact Firm_ok
      | with_reducible exact Firm_pure
      | with_reducible exact Firm_panic
      | with_reducible exact Firm_add
      | with_reducible exact Firm_sub
      | with_reducible exact Firm_mul
      | with_reducible exact Firm_div
      | with_reducible exact Firm_mod
      | with_reducible exact Firm_idx
      | with_reducible exact Firm_setIdx
      | with_reducible exact FirmM_pure
      | with_reducible exact FirmM_upd
      | with_reducible exact FirmM_updValidator
      | assumption
      $[| with_reducible $alts]*
      | with_reducible refine FirmM_get_bind ?_
      | with_reducible refine Firm_bind ?_ fun _ _ => ?_
      | with_reducible refine FirmM_lift_bind ?_ fun _ _ => ?_
      | with_reducible refine FirmM_upd_bind ?_
      | with_reducible refine FirmM_bind ?_ fun _ _ _ => ?_
      | with_reducible refine FirmM_lift ?_
      | with_reducible refine FirmM_liftR ?_
      | with_reducible refine Firm_foldlM fun _ _ => ?_
      | with_reducible refine FirmM_forEach fun _ _ => ?_
      | with_reducible refine Firm_filterM fun _ _ => ?_
      | with_reducible refine Firm_mapM fun _ _ => ?_
      | split)

end Verif
