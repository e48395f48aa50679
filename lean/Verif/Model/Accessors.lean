import Verif.Model.JsonForks

/-! # What the accessors of the enums over forks do

`ethereum-consensus/src/types/` wraps the containers of the forks in enums such as `BeaconState`, with
`BeaconStateRef` and `BeaconStateRefMut` around a reference instead of a value. Each has functions that
match on the variant and then read a field, or hand out a reference to it. Here is what the arms of
such a match mean; the arms themselves are in `AccessorTables`. Structs and their values are those of
`Json`: no field of these containers is renamed in JSON. -/

namespace Verif.Accessors

open Json

/-- A value together with its type -/
abbrev Any := (s : Schema) × s.Val

/-- `inner.name` -/
def getField (name : String) : (fs : Fields) → fs.Val → Option Any
  | .nil, _ => none
  | .cons n s rest, v => if n = name then some ⟨s, v.1⟩ else getField name rest v.2

/-- What becomes of a struct when `g` is applied to the place `inner.name`, through a `&mut` -/
def overField (name : String) (g : (s : Schema) → s.Val → s.Val) : (fs : Fields) → fs.Val → fs.Val
  | .nil, v => v
  | .cons n s rest, v => if n = name then (g s v.1, v.2) else (v.1, overField name g rest v.2)

/-- `inner.name` where `inner` is of any type: only structs have fields. -/
def get (name : String) : (s : Schema) → s.Val → Option Any
  | .record fs, v => getField name fs v
  | _, _ => none

/-- The same for a change through `&mut inner.name` -/
def over (name : String) (g : (s : Schema) → s.Val → s.Val) : (s : Schema) → s.Val → s.Val
  | .record fs, v => overField name g fs v
  | .int _, v => v
  | .num _, v => v
  | .bool, v => v
  | .text, v => v
  | .tag _, v => v
  | .bytes _, v => v
  | .byteList _, v => v
  | .bitvector _, v => v
  | .bitlist _, v => v
  | .ints _ _, v => v
  | .seq _ _, v => v

/-- The right side of an arm, without the `Some(..)` that a signature with `Option` asks for -/
inductive Arm
  /-- `None` -/
  | none
  /-- `inner` -/
  | all
  /-- `Version::F` -/
  | version (f : Fork)
  /-- `inner.name`, `&inner.name` or `&mut inner.name` -/
  | field (name : String)
  /-- `From::from(&inner.name)` or `From::from(&mut inner.name)`, where the signature asks for the
  type `dest` -/
  | view (name dest : String)
  deriving DecidableEq

/-- A function of an enum over forks -/
structure Accessor where
  /-- without the suffix `_mut` -/
  name : String
  /-- takes `&mut self`, and has the suffix `_mut` -/
  exclusive : Bool
  /-- returns an `Option` -/
  optional : Bool
  /-- the arms of `match self`; `none` stands for `_` -/
  arms : List (Option Fork × Arm)

/-- Whether an enum holds values, as `BeaconState`, or references to them, as `BeaconStateRef` and
`BeaconStateRefMut` -/
inductive Kind
  | owned
  | shared
  | exclusive
  deriving DecidableEq

/-- An enum over forks, or the enum of the references to its variants -/
structure ForkType where
  name : String
  kind : Kind
  /-- the enum over the values of the same containers -/
  base : Consts → ForkEnum
  accessors : List Accessor
  /-- `impl From<&F::X>`: the fork of the container, and the variant that is made of it -/
  froms : List (Fork × Fork)

/-- `match self`: the first arm that fits the variant -/
def Accessor.arm (a : Accessor) (f : Fork) : Option Arm :=
  (a.arms.find? fun p => p.1 = some f ∨ p.1 = none).map (·.2)

/-- What an accessor returns -/
inductive Out
  | version (f : Fork)
  /-- a value, or a reference to it -/
  | value (x : Any)
  /-- a variant of the enum named `dest`, around a reference to a value -/
  | view (dest : String) (f : Fork) (x : Any)

/-- `From::from` into the type named `dest`, of a reference to the container of fork `f`. Which `impl` is
meant is decided in Rust by the type of the reference. -/
def viewOf (types : List ForkType) (dest : String) (f : Fork) (x : Any) : Option Out := do
  let t ← types.find? fun t => t.name = dest
  let p ← t.froms.find? fun p => p.1 = f
  some (.view dest p.2 x)

/-- Call an accessor. The result is `none` where the accessor returns `None`. -/
def Accessor.call (types : List ForkType) (a : Accessor) {schema : Fork → Schema}
    (v : Versioned schema) : Option Out := do
  match ← a.arm v.1 with
  | .none => none
  | .all => some (.value ⟨schema v.1, v.2⟩)
  | .version f => some (.version f)
  | .field name => (get name (schema v.1) v.2).map .value
  | .view name dest => (get name (schema v.1) v.2).bind (viewOf types dest v.1)

/-- What becomes of the value of an enum when an accessor that takes `&mut self` is called, and `g` is
applied to the place that it returned a reference to. A function may change a place only to a value
of the same type. -/
def Accessor.change (a : Accessor) {schema : Fork → Schema} (g : (s : Schema) → s.Val → s.Val)
    (v : Versioned schema) : Versioned schema :=
  match a.arm v.1 with
  | some .all => ⟨v.1, g _ v.2⟩
  | some (.field name) | some (.view name _) => ⟨v.1, over name g (schema v.1) v.2⟩
  | _ => v

end Verif.Accessors
