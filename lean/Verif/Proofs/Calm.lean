import Verif.Proofs.CalmAttr
import Verif.Proofs.Wp
import Verif.Spec.Safety

/-!
# Runs without panics

`Calm x Q`: the reader `x` does not panic, and if it succeeds its result satisfies `Q`.
`CalmM m Q s`: the same for a computation started in `s`.
-/

namespace Verif

open Spec

variable {α β : Type}

def Calm (x : R α) (Q : α → Prop) : Prop :=
  match x with
  | .ok a => Q a
  | .error e => e.isPanic = false

def CalmM (m : M α) (Q : α → State → Prop) (s : State) : Prop :=
  match m s with
  | .ok a s' => Q a s'
  | .error e _ => e.isPanic = false

theorem CalmM_iff {m : M α} {Q : α → State → Prop} {s : State} :
    CalmM m Q s ↔ wp m Q (fun e _ => e.isPanic = false) s := Iff.rfl

theorem Calm.mono {x : R α} {Q Q' : α → Prop} (h : Calm x Q) (hQ : ∀ a, Q a → Q' a) :
    Calm x Q' := by
  unfold Calm at *; cases x <;> simp_all

theorem Calm.mono' {x : R α} {Q Q' : α → Prop} (h : Calm x Q)
    (hQ : ∀ a, x = .ok a → Q a → Q' a) : Calm x Q' := by
  unfold Calm at *; cases x <;> simp_all

theorem Calm.and_ok {x : R α} {Q : α → Prop} (h : Calm x Q) : Calm x (fun a => x = .ok a ∧ Q a) :=
  h.mono' fun _ h1 h2 => ⟨h1, h2⟩

theorem CalmM.mono {m : M α} {Q Q' : α → State → Prop} {s : State} (h : CalmM m Q s)
    (hQ : ∀ a s', Q a s' → Q' a s') : CalmM m Q' s := by
  unfold CalmM at *; split <;> simp_all

theorem CalmM.mono' {m : M α} {Q Q' : α → State → Prop} {s : State} (h : CalmM m Q s)
    (hQ : ∀ a s', m s = .ok a s' → Q a s' → Q' a s') : CalmM m Q' s := by
  unfold CalmM at *; split <;> simp_all

theorem CalmM.neverPanics {m : M α} {Q : α → State → Prop} {s : State} (h : CalmM m Q s) :
    NeverPanics m s := by
  intro k s' he
  unfold CalmM at h
  rw [he] at h
  simp [Err.isPanic] at h

theorem CalmM.ok {m : M α} {Q : α → State → Prop} {s s' : State} {a : α} (h : CalmM m Q s)
    (he : m s = .ok a s') : Q a s' := by
  unfold CalmM at h; rw [he] at h; exact h

theorem Calm.ok {x : R α} {Q : α → Prop} {a : α} (h : Calm x Q) (he : x = .ok a) : Q a := by
  unfold Calm at h; rw [he] at h; exact h

/-! ## Readers -/

@[calm] theorem Calm_ok {a : α} {Q : α → Prop} : Calm (.ok a) Q ↔ Q a := Iff.rfl
@[calm] theorem Calm_pure {a : α} {Q : α → Prop} : Calm (pure a : R α) Q ↔ Q a := Iff.rfl
@[calm] theorem Calm_error {e : Err} {Q : α → Prop} :
    Calm (.error e : R α) Q ↔ e.isPanic = false := Iff.rfl

@[calm] theorem Calm_bind {x : R α} {f : α → R β} {Q : β → Prop} :
    Calm (x >>= f) Q ↔ Calm x fun a => Calm (f a) Q := by
  unfold Calm; cases x <;> rfl

@[calm] theorem Calm_ite {c : Prop} [Decidable c] {x y : R α} {Q : α → Prop} :
    Calm (if c then x else y) Q ↔ (c → Calm x Q) ∧ (¬ c → Calm y Q) := by
  split <;> simp [*]

@[calm] theorem Calm_add {a b : Nat} {Q : Nat → Prop} :
    Calm (a +? b) Q ↔ a + b < U64_BOUND ∧ Q (a + b) := by
  by_cases h : a + b < U64_BOUND <;> simp [Calm, U64.add, h, Err.isPanic]

@[calm] theorem Calm_sub {a b : Nat} {Q : Nat → Prop} :
    Calm (a -? b) Q ↔ b ≤ a ∧ Q (a - b) := by
  by_cases h : b ≤ a <;> simp [Calm, U64.sub, h, Err.isPanic]

@[calm] theorem Calm_mul {a b : Nat} {Q : Nat → Prop} :
    Calm (a *? b) Q ↔ a * b < U64_BOUND ∧ Q (a * b) := by
  by_cases h : a * b < U64_BOUND <;> simp [Calm, U64.mul, h, Err.isPanic]

@[calm] theorem Calm_div {a b : Nat} {Q : Nat → Prop} :
    Calm (a /? b) Q ↔ b ≠ 0 ∧ Q (a / b) := by
  by_cases h : b = 0 <;> simp [Calm, U64.div, h, Err.isPanic]

@[calm] theorem Calm_mod {a b : Nat} {Q : Nat → Prop} :
    Calm (a %? b) Q ↔ b ≠ 0 ∧ Q (a % b) := by
  by_cases h : b = 0 <;> simp [Calm, U64.mod, h, Err.isPanic]

@[calm] theorem Calm_checkedAdd {a b : Nat} {Q : Nat → Prop} :
    Calm (U64.checkedAdd a b) Q ↔ (a + b < U64_BOUND → Q (a + b)) := by
  by_cases h : a + b < U64_BOUND <;> simp [Calm, U64.checkedAdd, h, Err.isPanic]

@[calm] theorem Calm_checkedSub {a b : Nat} {Q : Nat → Prop} :
    Calm (U64.checkedSub a b) Q ↔ (b ≤ a → Q (a - b)) := by
  by_cases h : b ≤ a <;> simp [Calm, U64.checkedSub, h, Err.isPanic]

@[calm] theorem Calm_idx {xs : List α} {i : Nat} {Q : α → Prop} :
    Calm (idx xs i) Q ↔ ∃ x, xs[i]? = some x ∧ Q x := by
  unfold Calm idx; cases xs[i]? <;> simp [Err.isPanic]

@[calm] theorem Calm_setIdx {xs : List α} {i : Nat} {v : α} {Q : List α → Prop} :
    Calm (setIdx xs i v) Q ↔ i < xs.length ∧ Q (xs.set i v) := by
  by_cases h : i < xs.length <;> simp [Calm, setIdx, h, Err.isPanic]

@[calm] theorem Calm_getOr {xs : List α} {i : Nat} {e : Err} {Q : α → Prop} :
    Calm (getOr xs i e) Q ↔
      (∀ x, xs[i]? = some x → Q x) ∧ (xs[i]? = none → e.isPanic = false) := by
  unfold Calm getOr; cases xs[i]? <;> simp

@[calm] theorem Calm_rejectIf {b : Bool} {e : Err} {Q : Unit → Prop} :
    Calm (rejectIf b e) Q ↔ (b = true → e.isPanic = false) ∧ (b = false → Q ()) := by
  unfold Calm rejectIf; cases b <;> simp

theorem Calm_mapM {xs : List α} {f : α → R β} {Q : List β → Prop}
    (h : ∀ x ∈ xs, Calm (f x) fun _ => True) (hQ : ∀ ys, xs.mapM f = .ok ys → Q ys) :
    Calm (xs.mapM f) Q := by
  have key : Calm (xs.mapM f) fun _ => True := by
    clear hQ
    induction xs with
    | nil => simp [Calm]
    | cons x xs ih =>
      rw [List.mapM_cons]
      simp only [calm]
      refine (h x (by simp)).mono fun y _ => ?_
      exact (ih fun z hz => h z (by simp [hz])).mono fun _ _ => trivial
  exact key.mono' fun ys h1 _ => hQ ys h1

theorem Calm_filterAuxM {xs acc : List α} {f : α → R Bool}
    (h : ∀ x ∈ xs, Calm (f x) fun _ => True) :
    Calm (xs.filterAuxM f acc) fun _ => True := by
  induction xs generalizing acc with
  | nil => simp [List.filterAuxM, Calm]
  | cons x xs ih =>
    rw [List.filterAuxM]
    simp only [calm]
    exact (h x (by simp)).mono fun y _ => ih fun z hz => h z (by simp [hz])

theorem Calm_filterM {xs : List α} {f : α → R Bool} {Q : List α → Prop}
    (h : ∀ x ∈ xs, Calm (f x) fun _ => True) (hQ : ∀ ys, xs.filterM f = .ok ys → Q ys) :
    Calm (xs.filterM f) Q := by
  have key : Calm (xs.filterM f) fun _ => True := by
    unfold List.filterM
    simp only [calm]
    exact (Calm_filterAuxM h).mono fun _ _ => trivial
  exact key.mono' fun ys h1 _ => hQ ys h1

/-- Invariant rule for a fold. -/
theorem Calm_foldlM {xs : List α} {f : β → α → R β} {b : β} (I : List α → β → Prop)
    {Q : β → Prop} (step : ∀ x rest b, I (x :: rest) b → Calm (f b x) (I rest))
    (done : ∀ b, I [] b → Q b) (h : I xs b) : Calm (xs.foldlM f b) Q := by
  induction xs generalizing b with
  | nil => exact done b h
  | cons x xs ih =>
    rw [List.foldlM_cons]
    simp only [calm]
    exact (step x xs b h).mono fun b' h' => ih h'

/-! ## Computations -/

variable {Q : α → State → Prop} {s : State}

@[calm] theorem CalmM_bind {m : M α} {f : α → M β} {Q : β → State → Prop} :
    CalmM (m >>= f) Q s ↔ CalmM m (fun a s' => CalmM (f a) Q s') s := by
  simp only [CalmM_iff, wps]

@[calm] theorem CalmM_pure {a : α} : CalmM (pure a : M α) Q s ↔ Q a s := Iff.rfl

@[calm] theorem CalmM_get {Q : State → State → Prop} : CalmM (get : M State) Q s ↔ Q s s := Iff.rfl

@[calm] theorem CalmM_rd {f : State → R α} :
    CalmM (rd f) Q s ↔ Calm (f s) fun a => Q a s := by
  unfold CalmM rd Calm; cases f s <;> rfl

@[calm] theorem CalmM_liftR {x : R α} : CalmM (liftR x) Q s ↔ Calm x fun a => Q a s := CalmM_rd
@[calm] theorem CalmM_liftM {x : R α} : CalmM (liftM x) Q s ↔ Calm x fun a => Q a s := CalmM_rd
@[calm] theorem CalmM_monadLift {x : R α} :
    CalmM (monadLift x) Q s ↔ Calm x fun a => Q a s := CalmM_rd

@[calm] theorem CalmM_upd {f : State → State} {Q : Unit → State → Prop} :
    CalmM (upd f) Q s ↔ Q () (f s) := Iff.rfl

@[calm] theorem CalmM_updValidator {i : Nat} {f : Validator → Validator}
    {Q : Unit → State → Prop} :
    CalmM (updValidator i f) Q s ↔ ∃ v, s.validators[i]? = some v ∧
      Q () { s with validators := s.validators.set i (f v) } := by
  unfold CalmM updValidator; cases s.validators[i]? <;> simp [Err.isPanic]

@[calm] theorem CalmM_ite {c : Prop} [Decidable c] {x y : M α} :
    CalmM (if c then x else y) Q s ↔ (c → CalmM x Q s) ∧ (¬ c → CalmM y Q s) := by
  split <;> simp [*]

/-- Invariant rule for `forEach`. -/
theorem CalmM_forEach {xs : List α} {body : α → M Unit} (I : List α → State → Prop)
    {Q : Unit → State → Prop}
    (step : ∀ x rest s, I (x :: rest) s → CalmM (body x) (fun _ s' => I rest s') s)
    (done : ∀ s, I [] s → Q () s) (h : I xs s) : CalmM (forEach xs body) Q s :=
  wp_forEach I step done h

/-- Invariant rule for a fold. -/
theorem CalmM_foldlM {xs : List α} {f : β → α → M β} {b : β} (I : List α → β → State → Prop)
    {Q : β → State → Prop}
    (step : ∀ x rest b s, I (x :: rest) b s → CalmM (f b x) (fun b' s' => I rest b' s') s)
    (done : ∀ b s, I [] b s → Q b s) (h : I xs b s) : CalmM (xs.foldlM f b) Q s := by
  induction xs generalizing b s with
  | nil => exact done b s h
  | cons x xs ih =>
    rw [List.foldlM_cons]
    simp only [calm]
    exact (step x xs b s h).mono fun b' s' h' => ih h'

end Verif
