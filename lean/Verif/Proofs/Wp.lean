import Verif.Proofs.Attr
import Verif.Proofs.Basic
import Verif.Model.Loops

/-!
# Weakest preconditions and preserved relations

`wp m Q X s`: running `m` from `s` ends in success with `Q` or in an error with `X`.
`Pres r m`: the relation `r` holds between every start state and the state `m`
leaves behind, whether it succeeds or fails.
-/

namespace Verif

variable {α β : Type}

attribute [run] M_bind_eq_ok rd_eq_ok liftR_eq_ok get_eq_ok upd_eq_ok
  updValidator_eq_ok pure_eq_ok throw_eq_ok M_ite_eq_ok R_bind_eq_ok
  add_eq_ok sub_eq_ok mul_eq_ok div_eq_ok mod_eq_ok checkedAdd_eq_ok checkedSub_eq_ok
  idx_eq_ok getOr_eq_ok setIdx_eq_ok rejectIf_eq_ok Except.ok.injEq R_ite_eq_ok

/-! ## Inversion of a bind, by the form of its first part -/

@[run 1100] theorem R_bind_unit_eq_ok {x : R Unit} {f : Unit → R β} {b : β} :
    (x >>= f) = .ok b ↔ x = .ok () ∧ f () = .ok b := by
  cases x <;> simp

@[run 1100] theorem M_bind_unit_eq_ok {m : M Unit} {f : Unit → M β} {s s'' : State} {b : β} :
    (m >>= f) s = .ok b s'' ↔ ∃ s', m s = .ok () s' ∧ f () s' = .ok b s'' := by
  rw [M_bind_eq_ok]; exact ⟨fun ⟨(), h⟩ => h, fun h => ⟨(), h⟩⟩

@[run 1200] theorem M_get_bind_eq_ok {f : State → M β} {s s'' : State} {b : β} :
    ((get : M State) >>= f) s = .ok b s'' ↔ f s s = .ok b s'' := Iff.rfl

@[run 1200] theorem M_lift_bind_eq_ok {x : R α} {f : α → M β} {s s'' : State} {b : β} :
    ((liftM x : M α) >>= f) s = .ok b s'' ↔ ∃ a, x = .ok a ∧ f a s = .ok b s'' := by
  rw [M_bind_eq_ok, liftM_eq]; simp only [liftR_eq_ok]
  constructor
  · rintro ⟨a, _, ⟨h, rfl⟩, h'⟩; exact ⟨a, h, h'⟩
  · rintro ⟨a, h, h'⟩; exact ⟨a, _, ⟨h, rfl⟩, h'⟩

@[run 1300] theorem M_lift_unit_bind_eq_ok {x : R Unit} {f : Unit → M β} {s s'' : State}
    {b : β} :
    ((liftM x : M Unit) >>= f) s = .ok b s'' ↔ x = .ok () ∧ f () s = .ok b s'' := by
  rw [M_lift_bind_eq_ok]; exact ⟨fun ⟨(), h⟩ => h, fun h => ⟨(), h⟩⟩

@[run] theorem R_pure_eq_ok {a b : α} : (pure a : R α) = .ok b ↔ a = b := by simp

@[run] theorem liftM_eq_ok {x : R α} {s s' : State} {a : α} :
    (liftM x : M α) s = .ok a s' ↔ x = .ok a ∧ s = s' := by
  rw [liftM_eq]; exact liftR_eq_ok

@[run 1200] theorem M_rd_bind_eq_ok {x : State → R α} {f : α → M β} {s s'' : State} {b : β} :
    (rd x >>= f) s = .ok b s'' ↔ ∃ a, x s = .ok a ∧ f a s = .ok b s'' := by
  rw [M_bind_eq_ok]; simp only [rd_eq_ok]
  constructor
  · rintro ⟨a, _, ⟨h, rfl⟩, h'⟩; exact ⟨a, h, h'⟩
  · rintro ⟨a, h, h'⟩; exact ⟨a, _, ⟨h, rfl⟩, h'⟩

@[run 1200] theorem M_upd_bind_eq_ok {g : State → State} {f : Unit → M β} {s s'' : State}
    {b : β} : (upd g >>= f) s = .ok b s'' ↔ f () (g s) = .ok b s'' := Iff.rfl

@[run 1200] theorem M_updValidator_bind_eq_ok {i : Nat} {g : Validator → Validator}
    {f : Unit → M β} {s s'' : State} {b : β} :
    (updValidator i g >>= f) s = .ok b s'' ↔ ∃ v, s.validators[i]? = some v ∧
      f () { s with validators := s.validators.set i (g v) } = .ok b s'' := by
  rw [M_bind_unit_eq_ok]; simp only [updValidator_eq_ok]
  constructor
  · rintro ⟨_, ⟨v, h, rfl⟩, h'⟩; exact ⟨v, h, h'⟩
  · rintro ⟨v, h, h'⟩; exact ⟨_, ⟨v, h, rfl⟩, h'⟩

def wp (m : M α) (Q : α → State → Prop) (X : Err → State → Prop) (s : State) : Prop :=
  match m s with
  | .ok a s' => Q a s'
  | .error e s' => X e s'

variable {Q Q' : α → State → Prop} {X X' : Err → State → Prop} {s : State}

theorem wp_mono {m : M α} (h : wp m Q X s) (hQ : ∀ a s', Q a s' → Q' a s')
    (hX : ∀ e s', X e s' → X' e s') : wp m Q' X' s := by
  unfold wp at *; split <;> simp_all

theorem wp_of_ok {m : M α} {a : α} {s' : State} (h : wp m Q X s) (he : m s = .ok a s') :
    Q a s' := by
  unfold wp at h; simpa [he] using h

theorem wp_of_error {m : M α} {e : Err} {s' : State} (h : wp m Q X s) (he : m s = .error e s') :
    X e s' := by
  unfold wp at h; simpa [he] using h

theorem wp_iff {m : M α} : wp m Q X s ↔
    (∀ a s', m s = .ok a s' → Q a s') ∧ (∀ e s', m s = .error e s' → X e s') := by
  unfold wp; split <;> simp_all

@[wps] theorem wp_bind {m : M α} {f : α → M β} {Q : β → State → Prop} :
    wp (m >>= f) Q X s ↔ wp m (fun a s' => wp (f a) Q X s') X s := by
  show (match EStateM.bind m f s with | .ok a s' => Q a s' | .error e s' => X e s') ↔ _
  unfold wp EStateM.bind
  cases h : m s <;> simp

@[wps] theorem wp_pure {a : α} : wp (pure a : M α) Q X s ↔ Q a s := Iff.rfl

@[wps] theorem wp_get {Q : State → State → Prop} : wp (get : M State) Q X s ↔ Q s s := Iff.rfl

@[wps] theorem wp_rd {f : State → R α} :
    wp (rd f) Q X s ↔ (∀ a, f s = .ok a → Q a s) ∧ (∀ e, f s = .error e → X e s) := by
  unfold wp rd; cases f s <;> simp

@[wps] theorem wp_liftR {x : R α} :
    wp (liftR x) Q X s ↔ (∀ a, x = .ok a → Q a s) ∧ (∀ e, x = .error e → X e s) := wp_rd

@[wps] theorem wp_liftM {x : R α} :
    wp (liftM x) Q X s ↔ (∀ a, x = .ok a → Q a s) ∧ (∀ e, x = .error e → X e s) := wp_rd

@[wps] theorem wp_monadLift {x : R α} :
    wp (monadLift x) Q X s ↔ (∀ a, x = .ok a → Q a s) ∧ (∀ e, x = .error e → X e s) := wp_rd

@[wps] theorem wp_upd {f : State → State} {Q : Unit → State → Prop} :
    wp (upd f) Q X s ↔ Q () (f s) := Iff.rfl

@[wps] theorem wp_updValidator {i : Nat} {f : Validator → Validator} {Q : Unit → State → Prop} :
    wp (updValidator i f) Q X s ↔
      (∀ v, s.validators[i]? = some v → Q () { s with validators := s.validators.set i (f v) }) ∧
      (s.validators[i]? = none → X (.panic .outOfBounds) s) := by
  unfold wp updValidator; cases s.validators[i]? <;> simp

@[wps] theorem wp_ite {c : Prop} [Decidable c] {x y : M α} :
    wp (if c then x else y) Q X s ↔ (c → wp x Q X s) ∧ (¬ c → wp y Q X s) := by
  split <;> simp [*]

/-! ## Preserved relations -/

/-- A preorder on states. -/
structure Preorder' (r : State → State → Prop) : Prop where
  refl : ∀ s, r s s
  trans : ∀ {a b c}, r a b → r b c → r a c

def Pres (r : State → State → Prop) (m : M α) : Prop :=
  ∀ s, wp m (fun _ s' => r s s') (fun _ s' => r s s') s

variable {r : State → State → Prop}

theorem Pres.final {m : M α} (h : Pres r m) (s : State) : r s (finalState m s) := by
  have := h s
  unfold wp at this; unfold finalState
  split at this <;> simp_all

theorem Pres.ok {m : M α} (h : Pres r m) {s s' : State} {a : α} (e : m s = .ok a s') : r s s' :=
  wp_of_ok (Q := fun _ s' => r s s') (h s) e

theorem Pres.pure (hr : Preorder' r) (a : α) : Pres r (pure a) := fun s => hr.refl s

theorem Pres.get (hr : Preorder' r) : Pres r (get : M State) := fun s => hr.refl s

theorem Pres.rd (hr : Preorder' r) (f : State → R α) : Pres r (rd f) := fun s => by
  simp [wp_rd, hr.refl]

theorem Pres.liftR (hr : Preorder' r) (x : R α) : Pres r (liftR x) := Pres.rd hr _

theorem Pres.liftM (hr : Preorder' r) (x : R α) : Pres r (liftM x : M α) := Pres.rd hr _

theorem Pres.bind (hr : Preorder' r) {m : M α} {f : α → M β} (hm : Pres r m)
    (hf : ∀ a, Pres r (f a)) : Pres r (m >>= f) := fun s => by
  rw [wp_bind]
  refine wp_mono (hm s) (fun a s' h => ?_) (fun e s' h => h)
  exact wp_mono (hf a s') (fun _ _ h' => hr.trans h h') (fun _ _ h' => hr.trans h h')

/-- `bind` after `get`: the continuation starts in the state read. -/
theorem Pres.get_bind {f : State → M β}
    (hf : ∀ s, wp (f s) (fun _ s' => r s s') (fun _ s' => r s s') s) :
    Pres r ((MonadState.get : M State) >>= f) := fun s => by
  rw [wp_bind]; exact hf s

theorem Pres.upd {f : State → State} (h : ∀ s, r s (f s)) : Pres r (upd f) := fun s => h s

theorem Pres.ite {c : Prop} [Decidable c] {x y : M α} (hx : Pres r x) (hy : Pres r y) :
    Pres r (if c then x else y) := by split <;> assumption

theorem Pres.updValidator (hr : Preorder' r) {i : Nat} {f : Validator → Validator}
    (h : ∀ s v, s.validators[i]? = some v →
      r s { s with validators := s.validators.set i (f v) }) : Pres r (updValidator i f) := by
  intro s; simp only [wps]; exact ⟨h s, fun _ => hr.refl s⟩

theorem Pres.forEach (hr : Preorder' r) {xs : List α} {body : α → M Unit}
    (h : ∀ x, Pres r (body x)) : Pres r (forEach xs body) := by
  induction xs with
  | nil => exact Pres.pure hr _
  | cons x xs ih => exact Pres.bind hr (h x) fun _ => ih

theorem Pres.foldlM (hr : Preorder' r) {xs : List α} {body : β → α → M β} {b : β}
    (h : ∀ b x, Pres r (body b x)) : Pres r (xs.foldlM body b) := by
  induction xs generalizing b with
  | nil => exact Pres.pure hr _
  | cons x xs ih => exact Pres.bind hr (h b x) fun _ => ih

/-- Invariant rule for `forEach`. -/
theorem wp_forEach {xs : List α} {body : α → M Unit} (I : List α → State → Prop)
    {Q : Unit → State → Prop}
    (step : ∀ x rest s, I (x :: rest) s → wp (body x) (fun _ s' => I rest s') X s)
    (done : ∀ s, I [] s → Q () s) (h : I xs s) : wp (forEach xs body) Q X s := by
  induction xs generalizing s with
  | nil => exact done s h
  | cons x xs ih =>
    show wp (body x >>= fun _ => forEach xs body) Q X s
    rw [wp_bind]
    exact wp_mono (step x xs s h) (fun _ s' h' => ih h') (fun _ _ h' => h')

/-! ## Frames: a part of the state that is not written -/

/-- `m` never changes `π` of the state. -/
abbrev Frame {γ : Type} (π : State → γ) (m : M α) : Prop := Pres (fun s s' => π s' = π s) m

theorem framePre {γ : Type} (π : State → γ) : Preorder' (fun s s' => π s' = π s) :=
  ⟨fun _ => rfl, fun h h' => h'.trans h⟩

end Verif
