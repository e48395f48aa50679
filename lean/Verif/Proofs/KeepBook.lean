import Verif.Props.Identity
import Verif.Spec.Keep

/-! # Lemmas for C98: what belongs to one validator, in the books -/

namespace Verif.Props

open Spec

/-- What belongs to account `i`. -/
def held (f : Fork) (B : Book) (i : Nat) : Nat :=
  (B.accounts[i]?.map (·.balance)).getD 0 + if f = .Electra then depositedTo B.queue i else 0

theorem depositedTo_append (a b : List PendingBalanceDeposit) (i : Nat) :
    depositedTo (a ++ b) i = depositedTo a i + depositedTo b i := by
  unfold depositedTo; rw [List.filter_append, List.map_append, List.sum_append]

theorem held_book {f : Fork} {s : State} (h : s.balances.length = s.validators.length) (i : Nat) :
    held f (bookOf s) i = wealth f s i := by
  unfold held wealth bookOf
  congr 1
  dsimp only
  rw [List.getElem?_zipWith, List.getD_eq_getElem?_getD]
  cases hv : s.validators[i]? with
  | none =>
    rw [List.getElem?_eq_none (by rw [h]; exact List.getElem?_eq_none_iff.1 hv)]
    rfl
  | some v =>
    obtain ⟨x, hx⟩ : ∃ x, s.balances[i]? = some x :=
      ⟨_, List.getElem?_eq_getElem (by have := (List.getElem?_eq_some_iff.1 hv).1; omega)⟩
    rw [hx]; rfl

variable {f : Fork} {B : Book} {i j x : Nat}

theorem held_debit : held f B i ≤ held f (B.debit j x) i + if j = i then x else 0 := by
  unfold held Book.debit
  dsimp only
  rw [List.getElem?_modify]
  cases B.accounts[i]? with
  | none => simp
  | some a => by_cases h : j = i <;> simp [h]; omega

theorem held_credit : held f B i ≤ held f (B.credit j x) i := by
  unfold held Book.credit
  dsimp only
  rw [List.getElem?_modify]
  cases B.accounts[i]? with
  | none => simp
  | some a => by_cases h : j = i <;> simp [h]

theorem held_execution : held f (B.toExecution j) i = held f B i := by
  unfold held Book.toExecution
  dsimp only
  rw [List.getElem?_modify]
  cases B.accounts[i]? with
  | none => simp
  | some a => by_cases h : j = i <;> simp [h]

theorem held_fold_le {α : Type} {g : Book → α → Book} {l : List α}
    (h : ∀ B, ∀ a ∈ l, held f B i ≤ held f (g B a) i) (B : Book) :
    held f B i ≤ held f (l.foldl g B) i := by
  induction l generalizing B with
  | nil => exact Nat.le_refl _
  | cons a l ih =>
    exact Nat.le_trans (h B a (List.mem_cons_self ..))
      (ih (fun B b hb => h B b (List.mem_cons_of_mem _ hb)) _)

theorem held_withdrawals (l : List Withdrawal) (B : Book) :
    held f B i ≤ held f (l.foldl (fun B w => B.debit w.validator_index w.amount) B) i +
      ((l.filter (·.validator_index = i)).map (·.amount)).sum := by
  induction l generalizing B with
  | nil => simp
  | cons w l ih =>
    rw [List.foldl_cons, List.filter_cons]
    have h1 := held_debit (f := f) (B := B) (i := i) (j := w.validator_index) (x := w.amount)
    have h2 := ih (B.debit w.validator_index w.amount)
    by_cases h : w.validator_index = i
    · simp only [h, if_true, decide_true, List.map_cons, List.sum_cons] at h1 h2 ⊢
      omega
    · simp only [h, if_false, decide_false, Bool.false_eq_true] at h1 h2 ⊢
      omega

variable {E : Env} {s : State}

theorem held_slash {p : Nat} (h : j ≠ i) : held f B i ≤ held f (B.slash E f s p j) i := by
  unfold Book.slash
  have h1 := held_debit (f := f) (B := B) (i := i) (j := j)
    (x := effectiveBalance s j / slashPenaltyQuotient E f)
  rw [if_neg h] at h1
  exact Nat.le_trans h1 held_credit

theorem held_append {l : List Account} :
    held f B i ≤ held f { B with accounts := B.accounts ++ l } i := by
  unfold held
  dsimp only
  cases h : B.accounts[i]? with
  | none => simp
  | some a =>
    rw [List.getElem?_append_left (List.getElem?_eq_some_iff.1 h).1, h]

theorem held_queue {l : List PendingBalanceDeposit} :
    held f B i ≤ held f { B with queue := B.queue ++ l } i := by
  unfold held
  dsimp only
  rw [depositedTo_append]
  split <;> omega

theorem held_compound {a : Account} (ha : B.accounts[j]? = some a) :
    held .Electra B i ≤ held .Electra (B.compound E j a) i := by
  unfold held Book.compound
  simp only [if_true]
  rw [depositedTo_append]
  by_cases h : j = i
  · subst h
    rw [List.getElem?_set_self (List.getElem?_eq_some_iff.1 ha).1, ha]
    simp only [Option.map_some, Option.getD_some]
    by_cases hb : a.balance > E.min_activation_balance
    · rw [if_pos hb]
      have : depositedTo [(⟨j, a.balance - E.min_activation_balance⟩ : PendingBalanceDeposit)] j =
          a.balance - E.min_activation_balance := by simp [depositedTo]
      omega
    · omega
  · rw [List.getElem?_set_ne h]
    omega

theorem held_deposit {d : DepositData} : held f B i ≤ held f (B.deposit E f d) i := by
  unfold Book.deposit
  split
  · split
    · exact Nat.le_refl _
    split
    · exact Nat.le_trans held_append
        (held_queue (B := { B with accounts := B.accounts ++ _ }))
    · exact held_append
  · rename_i k hk
    split
    · rename_i hf
      subst hf
      dsimp only
      split
      · rename_i a ha
        split
        · refine Nat.le_trans held_queue (held_compound (B := { B with queue := _ }) ha)
        · exact held_queue
      · exact held_queue
    · exact held_credit

theorem held_seat {r q p : Nat} {y : Nat × Bool} (h : y.1 = i → y.2 = true) :
    held f B i ≤ held f (B.seat r q p y) i := by
  obtain ⟨j, c⟩ := y
  cases c with
  | true => exact Nat.le_trans held_credit held_credit
  | false =>
    have h1 := held_debit (f := f) (B := B) (i := i) (j := j) (x := r)
    rw [if_neg (fun hj => by have := h hj; cases this)] at h1
    exact h1

/-- A block takes from a validator that it does not slash, and that signs on the sync committee, only
what it pays out to it. -/
theorem held_ledger {b : BeaconBlock} {rewards seats : List Nat}
    (ho : i ∉ offenders E s b.body)
    (hs : f ≠ .Phase0 → ∀ y ∈ seats.zip b.body.sync_aggregate.sync_committee_bits,
      y.1 = i → y.2 = true) :
    held f (bookOf s) i ≤ held f (ledger E f s b rewards seats) i + paidOut f b i := by
  unfold ledger paidOut
  dsimp only
  have opt : ∀ (p : Prop) [Decidable p] (A B : Book), held f B i ≤ held f A i →
      held f B i ≤ held f (if p then A else B) i := by
    intro p _ A B h; split
    · exact h
    · exact Nat.le_refl _
  have opt' : ∀ (p : Prop) [Decidable p] (A B : Book), (¬ p → held f B i ≤ held f A i) →
      held f B i ≤ held f (if p then B else A) i := by
    intro p _ A B h; split
    · exact Nat.le_refl _
    · rename_i hp; exact h hp
  refine Nat.le_trans ?_ (Nat.add_le_add_right (opt' _ _ _ fun hf =>
    held_fold_le (fun B y hy => held_seat (hs hf y hy)) _) _)
  refine Nat.le_trans ?_ (Nat.add_le_add_right (opt _ _ _
    (held_fold_le (fun B y hy => held_deposit) _)) _)
  refine Nat.le_trans ?_ (Nat.add_le_add_right (opt _ _ _
    (held_fold_le (fun B y hy => Nat.le_of_eq held_execution.symm) _)) _)
  refine Nat.le_trans ?_ (Nat.add_le_add_right
    (held_fold_le (fun B y hy => held_deposit) _) _)
  refine Nat.le_trans ?_ (Nat.add_le_add_right (opt' _ _ _ fun hf =>
    held_fold_le (fun B y hy => held_credit) _) _)
  refine Nat.le_trans ?_ (Nat.add_le_add_right
    (held_fold_le (fun B y hy => held_slash (i := i) (j := y) (fun h => ho (h ▸ hy))) _) _)
  split
  · exact held_withdrawals _ _
  · exact Nat.le_refl _

end Verif.Props
