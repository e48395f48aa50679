import Verif.Model.SpecGen

/-
What the generated `spec` module of a fork should export, said from the sources of the forks alone.
-/

namespace Verif.SpecGen

/-- Fork `k` has, in file `m`, the public item `d`. -/
def Declares (srcs : List Source) (k : Nat) (m : Name) (d : Decl) : Prop :=
  ∃ src items, srcs[k]? = some src ∧ (m, items) ∈ src ∧ Item.decl d ∈ items ∧ d.isPub = true

/-- Fork `k` has a public item of that name. -/
def DeclaresName (srcs : List Source) (k : Nat) (n : Name) : Prop :=
  ∃ m d, Declares srcs k m d ∧ d.name = n

/-- At fork `i`, the definition in force of a name is the item `d` of file `m` of fork `k`: no fork
after `k` up to `i` has an item of that name, or lists it among the functions to leave out. -/
structure InForce (dropped : Nat → Name → Bool) (srcs : List Source) (i k : Nat) (m : Name) (d : Decl) :
    Prop where
  le : k ≤ i
  declares : Declares srcs k m d
  last : ∀ j, k < j → j ≤ i → ¬ DeclaresName srcs j d.name
  kept : d.kind = .fn → ∀ j, k < j → j ≤ i → dropped j d.name = false

/-- Fork `j` has a container of its own that the types of `d`, a function, mention. -/
def Retyped (srcs : List Source) (j : Nat) (d : Decl) : Prop :=
  d.kind = .fn ∧ ∃ m c, Declares srcs j m c ∧ c.kind = .container ∧ c.name ∈ d.mentions

/-- The public items of the files of a fork. -/
def publicItems (src : Source) : List (Name × Decl) :=
  src.flatMap fun file => file.2.filterMap fun
    | .decl d => if d.isPub then some (file.1, d) else none
    | _ => none

/-- The conventions the sources of the forks follow. -/
structure Tidy (srcs : List Source) : Prop where
  /-- the generator knows every kind of item there is -/
  supported : ∀ src ∈ srcs, ∀ file ∈ src, Item.unsupported ∉ file.2
  /-- no two public items of a fork have the same name -/
  distinct : ∀ src ∈ srcs, ((publicItems src).map fun p => p.2.name).Nodup
  /-- a name is of the same kind in all the forks -/
  sameKind : ∀ j k m m' d d', Declares srcs j m d → Declares srcs k m' d' → d.name = d'.name →
    d.kind = d'.kind
  /-- no fork redefines a constant -/
  constants : ∀ j k m m' d d', Declares srcs j m d → Declares srcs k m' d' → d.name = d'.name →
    d.kind = .constant → j = k
  /-- type parameters are bounded by traits -/
  bounds : ∀ j k m m' d d', Declares srcs j m d → Declares srcs k m' d' → d'.name ∈ d.bounds →
    d'.kind = .traitDef

/-- Once a fork has redefined a container mentioned by a function that stays in force, every later fork
redefines one of the containers it mentions. -/
def Steady (dropped : Nat → Name → Bool) (srcs : List Source) : Prop :=
  ∀ i k m d j, i < srcs.length → InForce dropped srcs i k m d → k < j → j < i → Retyped srcs j d →
    Retyped srcs i d

/-- If a fork redefines a function, or one of the containers that function mentions, it also redefines
a container mentioned by each older function in force that calls it. -/
def Threaded (dropped : Nat → Name → Bool) (srcs : List Source) : Prop :=
  ∀ j k m d k' m' g, InForce dropped srcs j k m d → d.kind = .fn → InForce dropped srcs j k' m' g →
    g.kind = .fn → g.name ∈ d.calls → k < j → (k' = j ∨ Retyped srcs j g) → Retyped srcs j d

open Classical in
/-- What the generated module of fork `i` should have for the definition `d`, in file `m` of fork `k`: the
text of the function, if a fork since `k` has redefined a container it mentions, and an import of the
definition otherwise. -/
noncomputable def wanted (srcs : List Source) (i k : Nat) (m : Name) (d : Decl) : Export :=
  if ∃ j, k < j ∧ j ≤ i ∧ Retyped srcs j d then .define d.name d.text else .use k m d.name

end Verif.SpecGen
