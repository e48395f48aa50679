import Verif.Model.Monad

/-! # Basic lemmas about the result monads and checked arithmetic -/

namespace Verif

variable {α β γ : Type}

theorem U64_BOUND_eq : U64_BOUND = 18446744073709551616 := rfl

/-! ## `R` -/

@[simp] theorem R_pure (a : α) : (pure a : R α) = .ok a := rfl

@[simp] theorem R_throw (e : Err) : (throw e : R α) = .error e := rfl

@[simp] theorem R_bind_ok (a : α) (f : α → R β) : ((Except.ok a : R α) >>= f) = f a := rfl

@[simp] theorem R_bind_error (e : Err) (f : α → R β) :
    ((Except.error e : R α) >>= f) = .error e := rfl

theorem R_bind_eq_ok {x : R α} {f : α → R β} {b : β} :
    (x >>= f) = .ok b ↔ ∃ a, x = .ok a ∧ f a = .ok b := by
  cases x <;> simp

theorem R_bind_eq_error {x : R α} {f : α → R β} {e : Err} :
    (x >>= f) = .error e ↔ x = .error e ∨ ∃ a, x = .ok a ∧ f a = .error e := by
  cases x <;> simp

@[simp] theorem add_eq_ok {a b c : Nat} : a +? b = .ok c ↔ a + b = c ∧ a + b < U64_BOUND := by
  unfold U64.add; split <;> simp [*]

@[simp] theorem sub_eq_ok {a b c : Nat} : a -? b = .ok c ↔ a - b = c ∧ b ≤ a := by
  unfold U64.sub; split <;> simp [*]

@[simp] theorem mul_eq_ok {a b c : Nat} : a *? b = .ok c ↔ a * b = c ∧ a * b < U64_BOUND := by
  unfold U64.mul; split <;> simp [*]

@[simp] theorem div_eq_ok {a b c : Nat} : a /? b = .ok c ↔ a / b = c ∧ b ≠ 0 := by
  unfold U64.div; split <;> simp [*]

@[simp] theorem mod_eq_ok {a b c : Nat} : a %? b = .ok c ↔ a % b = c ∧ b ≠ 0 := by
  unfold U64.mod; split <;> simp [*]

@[simp] theorem checkedAdd_eq_ok {a b c : Nat} :
    U64.checkedAdd a b = .ok c ↔ a + b = c ∧ a + b < U64_BOUND := by
  unfold U64.checkedAdd; split <;> simp [*]

@[simp] theorem checkedSub_eq_ok {a b c : Nat} :
    U64.checkedSub a b = .ok c ↔ a - b = c ∧ b ≤ a := by
  unfold U64.checkedSub; split <;> simp [*]

@[simp] theorem idx_eq_ok {xs : List α} {i : Nat} {x : α} : idx xs i = .ok x ↔ xs[i]? = some x := by
  unfold idx; split <;> simp [*]

@[simp] theorem getOr_eq_ok {xs : List α} {i : Nat} {e : Err} {x : α} :
    getOr xs i e = .ok x ↔ xs[i]? = some x := by
  unfold getOr; split <;> simp [*]

@[simp] theorem setIdx_eq_ok {xs ys : List α} {i : Nat} {v : α} :
    setIdx xs i v = .ok ys ↔ i < xs.length ∧ xs.set i v = ys := by
  unfold setIdx; split <;> simp [*]

@[simp] theorem rejectIf_eq_ok {b : Bool} {e : Err} {u : Unit} :
    rejectIf b e = .ok u ↔ b = false := by
  unfold rejectIf; split <;> simp [*]

theorem rejectIf_true (e : Err) : rejectIf true e = .error e := rfl
theorem rejectIf_false (e : Err) : rejectIf false e = .ok () := rfl

theorem add_ok {a b : Nat} (h : a + b < U64_BOUND) : a +? b = .ok (a + b) := by simp [h]
theorem sub_ok {a b : Nat} (h : b ≤ a) : a -? b = .ok (a - b) := by simp [h]
theorem mul_ok {a b : Nat} (h : a * b < U64_BOUND) : a *? b = .ok (a * b) := by simp [h]
theorem div_ok {a b : Nat} (h : b ≠ 0) : a /? b = .ok (a / b) := by simp [h]
theorem mod_ok {a b : Nat} (h : b ≠ 0) : a %? b = .ok (a % b) := by simp [h]
theorem idx_ok {xs : List α} {i : Nat} (h : i < xs.length) : idx xs i = .ok xs[i] := by
  simp [h]

theorem R_ite_eq_ok {c : Prop} [Decidable c] {x y : R α} {a : α} :
    (if c then x else y) = .ok a ↔ (c ∧ x = .ok a) ∨ (¬ c ∧ y = .ok a) := by
  split <;> simp [*]

/-! ## `M` -/

theorem M_pure (a : α) (s : State) : (pure a : M α) s = .ok a s := rfl

theorem M_bind_eq_ok {m : M α} {f : α → M β} {s s'' : State} {b : β} :
    (m >>= f) s = .ok b s'' ↔ ∃ a s', m s = .ok a s' ∧ f a s' = .ok b s'' := by
  show EStateM.bind m f s = _ ↔ _
  unfold EStateM.bind
  cases h : m s <;> grind

theorem M_bind_eq_error {m : M α} {f : α → M β} {s s'' : State} {e : Err} :
    (m >>= f) s = .error e s'' ↔
      m s = .error e s'' ∨ ∃ a s', m s = .ok a s' ∧ f a s' = .error e s'' := by
  show EStateM.bind m f s = _ ↔ _
  unfold EStateM.bind
  cases h : m s <;> grind

theorem M_bind_of_ok {m : M α} {f : α → M β} {s s' : State} {a : α} (h : m s = .ok a s') :
    (m >>= f) s = f a s' := by
  show EStateM.bind m f s = _
  unfold EStateM.bind; rw [h]

theorem M_bind_of_error {m : M α} {f : α → M β} {s s' : State} {e : Err}
    (h : m s = .error e s') : (m >>= f) s = .error e s' := by
  show EStateM.bind m f s = _
  unfold EStateM.bind; rw [h]

theorem liftM_eq (x : R α) : (liftM x : M α) = liftR x := rfl

theorem monadLift_eq (x : R α) : (monadLift x : M α) = liftR x := rfl

theorem rd_eq_ok {f : State → R α} {s s' : State} {a : α} :
    rd f s = .ok a s' ↔ f s = .ok a ∧ s = s' := by
  unfold rd; cases f s <;> simp

theorem rd_eq_error {f : State → R α} {s s' : State} {e : Err} :
    rd f s = .error e s' ↔ f s = .error e ∧ s = s' := by
  unfold rd; cases f s <;> simp

theorem liftR_eq_ok {x : R α} {s s' : State} {a : α} :
    liftR x s = .ok a s' ↔ x = .ok a ∧ s = s' := rd_eq_ok

theorem liftR_eq_error {x : R α} {s s' : State} {e : Err} :
    liftR x s = .error e s' ↔ x = .error e ∧ s = s' := rd_eq_error

theorem get_eq_ok {s s' a : State} : (get : M State) s = .ok a s' ↔ s = a ∧ s = s' := by
  show EStateM.Result.ok s s = _ ↔ _
  simp

theorem upd_eq_ok {f : State → State} {s s' : State} {u : Unit} :
    upd f s = .ok u s' ↔ f s = s' := by
  unfold upd; simp

theorem updValidator_eq_ok {i : Nat} {f : Validator → Validator} {s s' : State} {u : Unit} :
    updValidator i f s = .ok u s' ↔
      ∃ v, s.validators[i]? = some v ∧
        { s with validators := s.validators.set i (f v) } = s' := by
  unfold updValidator; split <;> simp [*]

theorem pure_eq_ok {a b : α} {s s' : State} : (pure a : M α) s = .ok b s' ↔ a = b ∧ s = s' := by
  show EStateM.Result.ok a s = _ ↔ _
  simp

theorem throw_eq_ok {e : Err} {a : α} {s s' : State} :
    (throw e : M α) s = .ok a s' ↔ False := by
  show EStateM.Result.error e s = _ ↔ _
  simp

theorem M_ite_eq_ok {c : Prop} [Decidable c] {x y : M α} {s s' : State} {a : α} :
    (if c then x else y) s = .ok a s' ↔ (c ∧ x s = .ok a s') ∨ (¬ c ∧ y s = .ok a s') := by
  split <;> simp [*]

end Verif
