import Verif.Model.Prelude
import Verif.Model.Network
import Verif.Model.Text

/-! # Configurations: `configs/mod.rs`, `Context::from` and `Context::try_from_file` -/

namespace Verif.Config

open Text

/-- The values of the parameters: integers of `u64`, `usize` and `U256`, `Version`, `Hash32` and
`ExecutionAddress`, `String`, `Network` -/
inductive Value
  | num (n : Nat)
  | bytes (data : List UInt8)
  | text (s : String)
  | network (n : Network)
  deriving DecidableEq, Repr

/-- The types of the fields of `Config`; `usize` is taken to be 64 bits. -/
inductive Kind
  | u64
  | u256
  | bytes (n : Nat)
  | text
  | network
  deriving DecidableEq, Repr

/-- The arguments of `Context::from`, `state_transition/context.rs:196-204` -/
inductive Source
  | phase0 | altair | bellatrix | capella | deneb | electra | config
  deriving DecidableEq, Repr

/-- The value of a name -/
def get {α : Type} (table : List (String × α)) (name : String) : Option α :=
  (table.find? fun p => p.1 == name).map (·.2)

/-- The fields of a struct that is made of constants -/
def select (constants : List (String × Nat)) (fields : List (String × String)) :
    List (String × Nat) :=
  fields.filterMap fun p => (get constants p.2).map fun v => (p.1, v)

/-- What `serde_yaml` makes of a node of a file when an integer, a `U256` or a `String` is asked for.
Nothing is assumed of it: in particular the notation of numbers is left open. -/
structure Yaml where
  Node : Type
  uint : Node → Option Nat
  u256 : Node → Option Nat
  text : Node → Option String

/-- Reading a field: bytes are written in hexadecimal (`as_hex::deserialize`, `serde.rs:58-69`, for
versions; `Deserialize` of `ByteVector` for the others), networks by name (`from = "String"`,
`networks.rs:11`). -/
def read (Y : Yaml) (node : Y.Node) : Kind → Option Value
  | .u64 => do
    let n ← Y.uint node
    if n < 2 ^ 64 then some (.num n) else none
  | .u256 => do
    let n ← Y.u256 node
    if n < 2 ^ 256 then some (.num n) else none
  | .bytes k => do
    let s ← Y.text node
    let data ← try_bytes_from_hex_str s.toList
    if data.length = k then some (.bytes data) else none
  | .text => do some (.text (← Y.text node))
  | .network => do some (.network (Network.ofString (← Y.text node)))

/-- Errors of `try_from_file`: from the file system, from `serde_yaml`, `UnknownPreset` -/
inductive ConfigError
  | io
  | yaml
  | unknownPreset (name : String)
  deriving DecidableEq, Repr

/-- A file: a mapping -/
abbrev File (Y : Yaml) := List (String × Y.Node)

/-- The derived `Deserialize` of `Config`, for one field: it is an error if the key is missing or occurs
twice. -/
def readField (Y : Yaml) (file : File Y) (key : String) (kind : Kind) : Option Value :=
  match file.filter fun p => p.1 == key with
  | [p] => read Y p.2 kind
  | _ => none

/-- The derived `Deserialize` of `Config`, `configs/mod.rs:13-66`. Other keys are ignored. -/
def readConfig (Y : Yaml) (fields : List (String × String × Kind)) (file : File Y) :
    Option (List (String × Value)) :=
  fields.mapM fun p => do some (p.1, ← readField Y file p.2.1 p.2.2)

end Verif.Config
