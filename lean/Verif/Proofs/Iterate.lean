import Verif.Model.Phase0.Helpers

/-! # The order of hash sets -/

namespace Verif

theorem iterate_perm (E : Env) (s : State) (l : List Nat) : (iterate E s l).Perm l := (E.visit s l).2

@[simp] theorem mem_iterate {E : Env} {s : State} {l : List Nat} {i : Nat} :
    i ∈ iterate E s l ↔ i ∈ l :=
  (iterate_perm E s l).mem_iff

@[simp] theorem length_iterate {E : Env} {s : State} {l : List Nat} :
    (iterate E s l).length = l.length :=
  (iterate_perm E s l).length_eq

theorem nodup_iterate {E : Env} {s : State} {l : List Nat} (h : l.Nodup) : (iterate E s l).Nodup :=
  (iterate_perm E s l).nodup_iff.2 h

theorem contains_iterate {E : Env} {s : State} {l : List Nat} {i : Nat} :
    (iterate E s l).contains i = l.contains i := by
  rw [Bool.eq_iff_iff]
  simp

theorem sum_iterate {E : Env} {s : State} {l : List Nat} (g : Nat → Nat) :
    ((iterate E s l).map g).sum = (l.map g).sum :=
  ((iterate_perm E s l).map g).sum_nat

end Verif
