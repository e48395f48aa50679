import Verif.Model.Text
import Verif.Model.Types

/-! # JSON

How the consensus types are written to JSON and read back: `ethereum-consensus/src/serde.rs`, the
`serde` attributes on the types, and the hand-written `Deserialize` of the enums over forks in
`ethereum-consensus/src/types/`.

The model starts at the tree of JSON values, `serde_json::Value`; how a tree is spelled as text is
left to `serde_json`. The libraries are modelled from their documented behaviour: the code that
`#[derive(Serialize, Deserialize)]` generates for structs, and the instances that `ssz_rs` gives for
`List`, `Vector`, `Bitlist`, `Bitvector` and `Node`. Which error is returned is not modelled. -/

namespace Verif.Json

open Text

/-- A JSON value, `serde_json::Value`. Of the numbers only the unsigned integers are needed. An object
is the list of its members, with different names; `serde_json::Value` holds them in a map. -/
inductive Json
  | null
  | bool (b : Bool)
  | num (n : Nat)
  | str (s : List Char)
  | arr (xs : List Json)
  | obj (ms : List (String × Json))
  deriving Repr, Inhabited

/-- The member of an object with a given name -/
def lookup (name : String) : List (String × Json) → Option Json
  | [] => none
  | (n, x) :: rest => if n = name then some x else lookup name rest

/-- Where the strings of a JSON value live while it is read. `&'de str` can be read only from a
source that outlives the reading: `serde_json::from_str`, `from_slice`, or a `&serde_json::Value`.
From `serde_json::from_reader` and `from_value` the strings are transient. -/
inductive Source
  | borrowed
  | owned
  deriving DecidableEq, Repr

/-- How many elements a collection may have: `Vector<_, N>`, `List<_, N>` or `Vec<_>` -/
inductive Len
  | exactly (n : Nat)
  | atMost (n : Nat)
  | any
  deriving DecidableEq, Repr

/-- Whether a collection can have that many elements -/
def Len.ok : Len → Nat → Bool
  | .exactly n, k => k == n
  | .atMost n, k => k ≤ n
  | .any, _ => true

/-! ## Numbers and bits -/

/-- The digit loop of `FromStr` for an unsigned integer type with `b` values -/
def parseBelow (b acc : Nat) : List Char → Option Nat
  | [] => some acc
  | c :: cs => do
    let d ← decValue c
    if acc * 10 + d < b then parseBelow b (acc * 10 + d) cs else none

/-- `FromStr` for an unsigned integer type with `b` values: an optional `+`, then at least one digit.
`U256` also accepts underscores and radix prefixes, which are errors here. -/
def parseUint (b : Nat) (s : List Char) : Option (Fin b) :=
  let r := match s with
    | [] => none
    | ['+'] => none
    | '+' :: rest => parseBelow b 0 rest
    | s => parseBelow b 0 s
  match r with
  | some n => if h : n < b then some ⟨n, h⟩ else none
  | none => none

/-- The byte whose bits are `bits`, least significant first, missing bits being zero -/
def byteOf : List Bool → Nat
  | [] => 0
  | b :: bs => b.toNat + 2 * byteOf bs

/-- The bytes of a sequence of bits, eight to a byte, least significant bit first
(`ssz_rs`, `bitvector.rs` and `bitlist.rs`: `as_raw_slice` of a `BitVec<u8, Lsb0>`) -/
def packBits (bits : List Bool) : List UInt8 :=
  if bits.length ≤ 8 then
    if bits.isEmpty then [] else [UInt8.ofNat (byteOf bits)]
  else UInt8.ofNat (byteOf (bits.take 8)) :: packBits (bits.drop 8)
termination_by bits.length
decreasing_by simp; omega

/-- The bits of a sequence of bytes -/
def unpackBits (bytes : List UInt8) : List Bool :=
  bytes.flatMap fun b => (List.range 8).map fun i => b.toNat.testBit i

/-- The encoding of `Bitvector<N>` -/
def bitvector_serialize (bits : List Bool) : List UInt8 := packBits bits

/-- The decoding of `Bitvector<N>`: the right number of bytes, and zeros after the last bit -/
def bitvector_deserialize (n : Nat) (bytes : List UInt8) : Option (List Bool) :=
  if bytes.length = (n + 7) / 8 ∧ ((unpackBits bytes).drop n).all (!·) then
    some ((unpackBits bytes).take n)
  else none

/-- The encoding of `Bitlist<N>`: a one marks the end -/
def bitlist_serialize (bits : List Bool) : List UInt8 := packBits (bits ++ [true])

/-- A list without the zeros at its end -/
def stripZeros (bits : List Bool) : List Bool := (bits.reverse.dropWhile (!·)).reverse

/-- The decoding of `Bitlist<N>`: the mark is in the last byte, and at most `N` bits precede it -/
def bitlist_deserialize (n : Nat) (bytes : List UInt8) : Option (List Bool) :=
  match bytes.getLast? with
  | none => none
  | some last =>
    if last = 0 then none
    else
      let bits := (stripZeros (unpackBits bytes)).dropLast
      if bits.length ≤ n then some bits else none

/-! ## The shape of a type -/

mutual

/-- How the values of a type are written -/
inductive Schema
  /-- an unsigned integer with `b` values, `#[serde(with = "crate::serde::as_str")]` -/
  | int (b : Nat)
  /-- an unsigned integer with `b` values, without an attribute: a JSON number -/
  | num (b : Nat)
  | bool
  /-- `String` -/
  | text
  /-- an enum whose variants have no data, under their names in JSON -/
  | tag (names : List String)
  /-- `N` bytes: `ByteVector<N>`, `Node`, and `[u8; N]` with `crate::serde::as_hex` -/
  | bytes (n : Nat)
  /-- `ByteList<N>` -/
  | byteList (n : Nat)
  | bitvector (n : Nat)
  | bitlist (n : Nat)
  /-- a collection of integers, `#[serde(with = "crate::serde::seq_of_str")]` -/
  | ints (b : Nat) (l : Len)
  | seq (l : Len) (s : Schema)
  /-- a struct with `#[derive(Serialize, Deserialize)]` -/
  | record (fs : Fields)

/-- The fields of a struct, under their names in JSON, in the order of the declaration -/
inductive Fields
  | nil
  | cons (name : String) (s : Schema) (rest : Fields)

end

/-- The fields in a list -/
def Fields.of : List (String × Schema) → Fields
  | [] => .nil
  | (n, s) :: rest => .cons n s (Fields.of rest)

/-- The schema of the field with a given name -/
def Fields.find (name : String) : Fields → Option Schema
  | .nil => none
  | .cons n s rest => if n = name then some s else rest.find name

mutual

/-- The values of a type -/
@[reducible] def Schema.Val : Schema → Type
  | .int b => Fin b
  | .num b => Fin b
  | .bool => Bool
  | .text => List Char
  | .tag names => Fin names.length
  | .bytes n => {data : List UInt8 // data.length = n}
  | .byteList n => {data : List UInt8 // data.length ≤ n}
  | .bitvector n => {bits : List Bool // bits.length = n}
  | .bitlist n => {bits : List Bool // bits.length ≤ n}
  | .ints b l => {xs : List (Fin b) // l.ok xs.length = true}
  | .seq l s => {xs : List s.Val // l.ok xs.length = true}
  | .record fs => fs.Val

/-- The values of a struct: a value for each field -/
@[reducible] def Fields.Val : Fields → Type
  | .nil => Unit
  | .cons _ s rest => s.Val × rest.Val

end

mutual

/-- `Serialize`. Bytes and bits are written in hexadecimal (`as_hex::serialize`, `serde.rs:49-56`),
integers in decimal (`as_str::serialize`, `serde.rs:76-81`; `seq_of_str::serialize`,
`serde.rs:101-114`), collections as arrays and structs as objects. -/
def Schema.enc : (s : Schema) → s.Val → Json
  | .int _, v => .str (decimal v.val)
  | .num _, v => .num v.val
  | .bool, v => .bool v
  | .text, v => .str v
  | .tag names, v => .str names[v].toList
  | .bytes _, v => .str (write_bytes_to_lower_hex v.val)
  | .byteList _, v => .str (write_bytes_to_lower_hex v.val)
  | .bitvector _, v => .str (write_bytes_to_lower_hex (bitvector_serialize v.val))
  | .bitlist _, v => .str (write_bytes_to_lower_hex (bitlist_serialize v.val))
  | .ints _ _, v => .arr (v.val.map fun x => .str (decimal x.val))
  | .seq _ s, v => .arr (v.val.map fun x => s.enc x)
  | .record fs, v => .obj (fs.enc v)

/-- The members of the object that a struct is written as -/
def Fields.enc : (fs : Fields) → fs.Val → List (String × Json)
  | .nil, _ => []
  | .cons n s rest, v => (n, s.enc v.1) :: rest.enc v.2

end

/-- One element of `seq_of_str`, `serde.rs:131-137`: `access.next_element()` is asked for a `&str`. -/
def elem_of_str (src : Source) (b : Nat) : Json → Option (Fin b)
  | .str t => if src = .borrowed then parseUint b t else none
  | _ => none

/-- A collection that has the right number of elements: `T::try_from(data)`, `serde.rs:147`, and the
instances of `ssz_rs` for `List` and `Vector` -/
def collect {α : Type} (l : Len) (xs : List α) : Option {xs : List α // l.ok xs.length = true} :=
  if h : l.ok xs.length = true then some ⟨xs, h⟩ else none

mutual

/-- `Deserialize`. Integers, bytes and bits are read from strings (`as_hex::deserialize`,
`serde.rs:58-69`; `as_str::deserialize`, `serde.rs:83-91`; `seq_of_str::deserialize`,
`serde.rs:116-149`). A struct is read from an object or, as the derived visitors also allow, from
an array with one element for each field. -/
def Schema.dec (src : Source) : (s : Schema) → Json → Option s.Val
  | .int b, .str t => parseUint b t
  | .num b, .num n => if h : n < b then some ⟨n, h⟩ else none
  | .bool, .bool b => some b
  | .text, .str t => some t
  | .tag names, .str t => names.findFinIdx? fun n => n.toList == t
  | .bytes n, .str t => do
    let data ← try_bytes_from_hex_str t
    if h : data.length = n then some ⟨data, h⟩ else none
  | .byteList n, .str t => do
    let data ← try_bytes_from_hex_str t
    if h : data.length ≤ n then some ⟨data, h⟩ else none
  | .bitvector n, .str t => do
    let data ← try_bytes_from_hex_str t
    let bits ← bitvector_deserialize n data
    if h : bits.length = n then some ⟨bits, h⟩ else none
  | .bitlist n, .str t => do
    let data ← try_bytes_from_hex_str t
    let bits ← bitlist_deserialize n data
    if h : bits.length ≤ n then some ⟨bits, h⟩ else none
  | .ints b l, .arr xs => do
    let data ← xs.mapM (elem_of_str src b)
    collect l data
  | .seq l s, .arr xs => do
    let data ← xs.mapM fun x => s.dec src x
    collect l data
  | .record fs, .obj ms => fs.decObj src ms
  | .record fs, .arr xs => fs.decArr src xs
  | _, _ => none

/-- The derived `visit_map`: every field has to be there, and members that are not fields are
ignored. -/
def Fields.decObj (src : Source) : (fs : Fields) → List (String × Json) → Option fs.Val
  | .nil, _ => some ()
  | .cons n s rest, ms => do
    let x ← lookup n ms
    let v ← s.dec src x
    let vs ← rest.decObj src ms
    some (v, vs)

/-- The derived `visit_seq`, and the check of `serde_json` that no element is left -/
def Fields.decArr (src : Source) : (fs : Fields) → List Json → Option fs.Val
  | .nil, [] => some ()
  | .cons _ s rest, x :: xs => do
    let v ← s.dec src x
    let vs ← rest.decArr src xs
    some (v, vs)
  | _, _ => none

end

/-! ## The enums over forks -/

/-- A value of an enum over forks, such as `types::BeaconState`: the variant is named by its fork. -/
def Versioned (schema : Fork → Schema) : Type := (f : Fork) × (schema f).Val

/-- `#[derive(Serialize)]` with `#[serde(untagged)]`, for example `types/beacon_state.rs:19-22`: the
variant leaves no trace in the JSON. -/
def Versioned.enc {schema : Fork → Schema} (x : Versioned schema) : Json := (schema x.1).enc x.2

/-- `impl Deserialize` for the enums, for example `types/beacon_state.rs:939-961`: the JSON is first
read into a `serde_json::Value`, which any source allows, and then each variant of `order` is tried
on the borrowed value in turn. -/
def Versioned.dec (order : List Fork) (schema : Fork → Schema) (j : Json) :
    Option (Versioned schema) :=
  order.findSome? fun f => ((schema f).dec .borrowed j).map (⟨f, ·⟩)

end Verif.Json
