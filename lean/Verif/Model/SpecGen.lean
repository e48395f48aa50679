/-
The generator of the `spec` modules: which fork and which file each name exported by the `spec`
module of a fork comes from.

/repo/spec-gen/src/generator.rs.  Rust source is represented by what the generator reads off it: for
each top-level item of a file its kind, its visibility, its name and, for a function, the names found
by `TypeNameVisitor` in its signature and type annotations, the traits bounding its type parameters,
and its text.  Simplifications:

* names are numbers, those of files in the order of the alphabet (which is the order in which a
  `BTreeMap` is visited);
* the generic arguments written by `ArgumentsEditor` and `collate_generics_from` are not modelled: the
  text of an expanded function is the text of its source.  So neither are the names of the constant
  parameters, which `TypeNameVisitor` also returns but which name no container;
* the fixed imports (`Fork::imports`, `render`) and the printing of the file are not modelled;
* a `panic!`, `unwrap`, `expect`, `assert!` or `unimplemented!` is `none`.
-/

namespace Verif.SpecGen

/-- An identifier, or the name of a source file. -/
abbrev Name := Nat

/-- The kinds of item a generated module may export: generator.rs:312-319 (`Module`). -/
inductive Kind
  | constant | container | typeDef | fn | traitDef
deriving DecidableEq, Repr

/-- A top-level item of a source file, as far as the generator looks at it: `syn::ItemConst`,
`ItemStruct`, `ItemType`, `ItemFn` and `ItemTrait`.  `calls` (the functions its text calls) is not read
by the generator: it is there to say what the text means. -/
structure Decl where
  kind : Kind
  isPub : Bool
  name : Name
  /-- generator.rs:441-443: `TypeNameVisitor::analyze` -/
  mentions : List Name
  /-- generator.rs:477-478: the traits returned by `collect_type_params`, one for each parameter -/
  bounds : List Name
  calls : List Name
  text : Nat
deriving DecidableEq, Repr

/-- generator.rs:618-667: the items of a file, in the cases of the `match`. -/
inductive Item
  | decl (d : Decl)
  /-- `use`, `impl` and `mod` -/
  | skipped
  /-- anything else, such as `enum` -/
  | unsupported
deriving DecidableEq, Repr

/-- The files of a fork, in the order of `modules_in_diff` (generator.rs:31-109), with their items. -/
abbrev Source := List (Name × List Item)

/-- `TypeDef`, `Constant`, `Fn`, `Container` and `TraitDef` (generator.rs:204-303).  Only `Fn` has a
`can_import`; for the others it stays `true` here. -/
structure Entry where
  decl : Decl
  fork : Nat
  canImport : Bool
deriving DecidableEq, Repr

/-- `ForkDiff` (generator.rs:350-353): a `BTreeMap` from files to modules.  The five lists of a
`Module` are one list here, told apart by the kind of the entries. -/
abbrev Modules := List (Name × List Entry)

/-- `Spec` (generator.rs:355-362), without the rendered items. -/
structure Spec where
  fork : Nat
  modules : Modules
  index : List (Name × Name)
deriving DecidableEq, Repr

/-- generator.rs:321-339 (`Module::merge`) and the uses of `entry(..).or_default()`: add entries at the end of a module,
which is created if it is not there.  The modules stay in the order of their names. -/
def upsert : Modules → Name → List Entry → Modules
  | [], m, es => [(m, es)]
  | (k, xs) :: rest, m, es =>
    if m = k then (k, xs ++ es) :: rest
    else if m < k then (m, es) :: (k, xs) :: rest
    else (k, xs) :: upsert rest m es

/-- generator.rs:618-667: one item of a file. -/
def parseItem (m : Name) (s : Spec) : Item → Option Spec
  | .skipped => some s
  | .unsupported => none
  | .decl d =>
    if d.isPub then
      some { s with
        modules := upsert s.modules m [⟨d, s.fork, true⟩]
        index := if d.kind = .constant then s.index else (d.name, m) :: s.index }
    else some s

/-- generator.rs:607-670 `parse_fork_diff_with_symbol_index`, 365-368 `Spec::parse`. -/
def parse (fork : Nat) (src : Source) : Option Spec :=
  src.foldlM (fun s (file : Name × List Item) =>
    file.2.foldlM (parseItem file.1) { s with modules := upsert s.modules file.1 [] })
    ⟨fork, [], []⟩

/-- `index.contains_key(&name)` -/
def known (s : Spec) (n : Name) : Bool := (s.index.lookup n).isSome

/-- generator.rs:378-387, 395-403, 411-419 and 510-518: a constant, container, type or trait of the
previous fork. -/
def inheritPlain (m : Name) (acc : Spec × List Entry) (e : Entry) : Option (Spec × List Entry) :=
  if known acc.1 e.decl.name then some acc
  else some ({ acc.1 with index := (e.decl.name, m) :: acc.1.index }, acc.2 ++ [e])

/-- generator.rs:446-450: the container of that name in the module the index gives. -/
def containerOf (s : Spec) (n : Name) : Option (Option Entry) :=
  match s.index.lookup n with
  | none => some none
  | some m =>
    match s.modules.lookup m with
    | none => none
    | some es => some (es.find? fun c => c.decl.kind == .container && c.decl.name == n)

/-- generator.rs:445-465: what a name found in the types of a function does to it. -/
def retypeBy (s : Spec) (f : Entry) (n : Name) : Option Entry := do
  match ← containerOf s n with
  | none => pure f
  | some c =>
    if c.fork = s.fork then pure { f with fork := s.fork } else pure { f with canImport := true }

/-- generator.rs:478-493: a trait bounding a type parameter. -/
def checkBound (s : Spec) (b : Name) : Option Unit :=
  match s.index.lookup b with
  | none => some ()
  | some m =>
    match s.modules.lookup m with
    | none => none
    | some es =>
      if es.any (fun c => c.decl.kind == .traitDef && c.decl.name == b) then some () else none

/-- generator.rs:437-500: a function of the previous fork that this one does not redefine. -/
def retype (s : Spec) (f : Entry) : Option Entry := do
  let f ← f.decl.mentions.foldlM (retypeBy s) f
  if f.fork ≠ s.fork then
    if f.canImport then pure f else none
  else do
    let _ ← f.decl.bounds.mapM (checkBound s)
    pure { f with canImport := false }

/-- generator.rs:427-502: a function of the previous fork.  `dropped` is `should_filter_fn_by_name`
(generator.rs:111-133). -/
def inheritFn (dropped : Nat → Name → Bool) (m : Name) (acc : Spec × List Entry) (f : Entry) :
    Option (Spec × List Entry) :=
  if dropped acc.1.fork f.decl.name then some acc
  else if known acc.1 f.decl.name then some acc
  else do
    let f' ← retype acc.1 f
    some ({ acc.1 with index := (f.decl.name, m) :: acc.1.index }, acc.2 ++ [f'])

/-- One of the five loops of `on_top_of` (generator.rs:376-391, 393-407, 409-423, 425-506, 508-522). -/
def pass (kind : Kind) (step : Name → Spec × List Entry → Entry → Option (Spec × List Entry))
    (previous : Modules) (s : Spec) : Option Spec :=
  previous.foldlM (fun s (mod : Name × List Entry) => do
    let r ← (mod.2.filter fun e => e.decl.kind == kind).foldlM (step mod.1) (s, [])
    pure { r.1 with modules := upsert r.1.modules mod.1 r.2 }) s

/-- generator.rs:370-523 `Spec::on_top_of`. -/
def onTopOf (dropped : Nat → Name → Bool) (previous : Spec) (s : Spec) : Option Spec := do
  let s ← pass .constant inheritPlain previous.modules s
  let s ← pass .container inheritPlain previous.modules s
  let s ← pass .typeDef inheritPlain previous.modules s
  let s ← pass .fn (inheritFn dropped) previous.modules s
  pass .traitDef inheritPlain previous.modules s

/-- generator.rs:704-733 `run`: the specs of the forks, each on top of the one before. -/
def generate (dropped : Nat → Name → Bool) : Option Spec → Nat → List Source → Option (List Spec)
  | _, _, [] => some []
  | previous, fork, src :: rest => do
    let s ← parse fork src
    let s ← match previous with
      | none => pure s
      | some p => onTopOf dropped p s
    let later ← generate dropped (some s) (fork + 1) rest
    pure (s :: later)

/-- An item of a generated module: `pub use crate::fork::file::name`, or a function written out. -/
inductive Export
  | use (fork : Nat) (file : Name) (name : Name)
  | define (name : Name) (text : Nat)
deriving DecidableEq, Repr

/-- The name under which an item is exported. -/
def Export.name : Export → Name
  | .use _ _ n => n
  | .define n _ => n

/-- The statement a generated module has for an entry: generator.rs:531-538, 543-551, 556-563,
580-591 and 595-602. -/
def render (m : Name) (e : Entry) : Export :=
  if e.canImport then .use e.fork m e.decl.name else .define e.decl.name e.decl.text

/-- The entries of a kind with their modules, module by module. -/
def ofKind (kind : Kind) (mods : Modules) : List (Name × Entry) :=
  mods.flatMap fun mod => (mod.2.filter fun e => e.decl.kind == kind).map fun e => (mod.1, e)

/-- generator.rs:525-604 `assemble_items`: constants, containers, types, functions that can be
imported, functions that are written out, traits. -/
def assemble (s : Spec) : List Export :=
  let line := fun (p : Name × Entry) => render p.1 p.2
  (ofKind .constant s.modules).map line ++ (ofKind .container s.modules).map line ++
    (ofKind .typeDef s.modules).map line ++
    ((ofKind .fn s.modules).filter fun p => p.2.canImport).map line ++
    ((ofKind .fn s.modules).filter fun p => !p.2.canImport).map line ++
    (ofKind .traitDef s.modules).map line

/-- generator.rs:704-733 `run`, 672-702 `render`: the items of the module written for each fork. -/
def run (dropped : Nat → Name → Bool) (srcs : List Source) : Option (List (List Export)) := do
  let specs ← generate dropped none 0 srcs
  pure (specs.map assemble)

end Verif.SpecGen
