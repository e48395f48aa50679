import Verif.Model.Executor

/-! # Specification: another order of the hash sets -/

namespace Verif.Spec

/-- An order for each hash set: some rearrangement of its elements, which may depend on the state
at hand. -/
abbrev Order := State → (set : List Nat) → { order : List Nat // order.Perm set }

/-- The same node, except that it visits its hash sets in the order `v`. -/
def reorder (E : Env) (v : Order) : Env := { E with visit := v }

/-- A node imports a chain of blocks, each with orders of its own: from state `t` to state `t'`. -/
inductive Imports (E : Env) : TaggedState → List (Fork × SignedBeaconBlock) → TaggedState → Prop
  | done (t : TaggedState) : Imports E t [] t
  | next {t u t' : TaggedState} {f : Fork} {b : SignedBeaconBlock}
      {rest : List (Fork × SignedBeaconBlock)} (v : Order) :
      apply_block (reorder E v) f b t = .ok () u → Imports E u rest t' →
        Imports E t ((f, b) :: rest) t'

/-- A node rejects a block of the chain, with some orders for its hash sets. -/
inductive Rejects (E : Env) : TaggedState → List (Fork × SignedBeaconBlock) → Prop
  | here {t : TaggedState} {f : Fork} {b : SignedBeaconBlock}
      {rest : List (Fork × SignedBeaconBlock)} (v : Order) :
      (∀ u, apply_block (reorder E v) f b t ≠ .ok () u) → Rejects E t ((f, b) :: rest)
  | later {t u : TaggedState} {f : Fork} {b : SignedBeaconBlock}
      {rest : List (Fork × SignedBeaconBlock)} (v : Order) :
      apply_block (reorder E v) f b t = .ok () u → Rejects E u rest →
        Rejects E t ((f, b) :: rest)

end Verif.Spec
