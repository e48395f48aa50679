import Mathlib.Data.List.Forall2
import Verif.Model.Json

/-! # What one JSON value says of another -/

namespace Verif.Spec

open Json

/-- `a` says everything that `b` says: the objects of `a`, at every depth, have all the members of
the objects of `b`, in any order and possibly among others. -/
inductive Extends : Json → Json → Prop
  | refl (j : Json) : Extends j j
  | arr {xs ys : List Json} : List.Forall₂ Extends xs ys → Extends (.arr xs) (.arr ys)
  | obj {a b : List (String × Json)} (at_ : String → Json) :
      (∀ name x, lookup name b = some x → lookup name a = some (at_ name)) →
      (∀ name x, lookup name b = some x → Extends (at_ name) x) →
      Extends (.obj a) (.obj b)

/-- No JSON number occurs in the value, at any depth. -/
inductive NumberFree : Json → Prop
  | null : NumberFree .null
  | bool (b : Bool) : NumberFree (.bool b)
  | str (s : List Char) : NumberFree (.str s)
  | arr {xs : List Json} : (∀ x ∈ xs, NumberFree x) → NumberFree (.arr xs)
  | obj {ms : List (String × Json)} : (∀ m ∈ ms, NumberFree m.2) → NumberFree (.obj ms)

end Verif.Spec
