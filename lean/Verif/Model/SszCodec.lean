import Verif.Model.Ssz

/-! # SSZ encodings

`serialize` and `deserialize` of the types that derive `SimpleSerialize` or `Serializable`, and of
`ByteList` and `ByteVector` (`ethereum-consensus/src/ssz/byte_list.rs:11-20`, `byte_vector.rs:11-20`).
The code that is derived, and the instances for integers, bits and collections, are in `ssz_rs`, which
is modelled from the SSZ specification; which error is returned is not modelled. The shapes of the
types are those of `JsonTypes`, whose fields are in the order of the declarations. -/

namespace Verif.Ssz

open Json

mutual

/-- The number of bytes of the encodings of a type, if they all have the same (`size_hint` and
`is_variable_size` of `ssz_rs`) -/
def fixedSize : Schema → Option Nat
  | .int b => some (width b)
  | .num b => some (width b)
  | .bool => some 1
  | .text => none
  | .tag _ => none
  | .bytes n => some n
  | .byteList _ => none
  | .bitvector n => some ((n + 7) / 8)
  | .bitlist _ => none
  | .ints b (.exactly n) => some (n * width b)
  | .ints _ _ => none
  | .seq (.exactly n) s => (fixedSize s).map (n * ·)
  | .seq _ _ => none
  | .record fs => fixedSizes fs

/-- The number of bytes of all fields together -/
def fixedSizes : Fields → Option Nat
  | .nil => some 0
  | .cons _ s rest =>
    match fixedSize s, fixedSizes rest with
    | some m, some n => some (m + n)
    | _, _ => none

end

/-! ## Composing -/

/-- The encoding of an element of a composite, and whether its type is one of fixed size -/
structure Part where
  fixed : Bool
  bytes : List UInt8

/-- The length of the first section of a composite, with the elements of fixed size and the offsets of
the others, four bytes each -/
def headLength : List Part → Nat
  | [] => 0
  | p :: ps => (if p.fixed then p.bytes.length else 4) + headLength ps

/-- The first section of a composite; the next element of variable size is at `offset`. -/
def heads (offset : Nat) : List Part → List UInt8
  | [] => []
  | p :: ps =>
    if p.fixed then p.bytes ++ heads offset ps
    else leBytes 4 offset ++ heads (offset + p.bytes.length) ps

/-- The second section: the elements of variable size -/
def tails : List Part → List UInt8
  | [] => []
  | p :: ps => if p.fixed then tails ps else p.bytes ++ tails ps

/-- The encoding of a composite (`Serializer` of `ssz_rs`). It is an error if the offsets do not fit
into 32 bits. -/
def compose (ps : List Part) : Option (List UInt8) :=
  let bytes := heads (headLength ps) ps ++ tails ps
  if bytes.length < 2 ^ 32 then some bytes else none

mutual

/-- `serialize` -/
def ser : (s : Schema) → s.Val → Option (List UInt8)
  | .int b, v => some (leBytes (width b) v.val)
  | .num b, v => some (leBytes (width b) v.val)
  | .bool, v => some [if v then 1 else 0]
  | .text, _ => none
  | .tag _, _ => none
  | .bytes _, v => some v.val
  | .byteList _, v => some v.val
  | .bitvector _, v => some (bitvector_serialize v.val)
  | .bitlist _, v => some (bitlist_serialize v.val)
  | .ints b _, v => some (v.val.flatMap fun x => leBytes (width b) x.val)
  | .seq _ s, v => do
    let parts ← v.val.mapM fun x => ser s x
    compose (parts.map fun bytes => ⟨(fixedSize s).isSome, bytes⟩)
  | .record fs, v => do compose (← sers fs v)

/-- The encodings of the fields of a struct -/
def sers : (fs : Fields) → fs.Val → Option (List Part)
  | .nil, _ => some []
  | .cons _ s rest, v => do
    let bytes ← ser s v.1
    let parts ← sers rest v.2
    some (⟨(fixedSize s).isSome, bytes⟩ :: parts)

end

/-! ## Taking apart -/

/-- Reads the first section, given the sizes of the elements: the bytes of an element of fixed size,
the offset of one of variable size. -/
def readHeads : List (Option Nat) → List UInt8 → Option (List (List UInt8 ⊕ Nat))
  | [], _ => some []
  | some n :: sizes, bytes => do
    if bytes.length < n then none
    let rest ← readHeads sizes (bytes.drop n)
    some (.inl (bytes.take n) :: rest)
  | none :: sizes, bytes => do
    if bytes.length < 4 then none
    let rest ← readHeads sizes (bytes.drop 4)
    some (.inr (ofLeBytes (bytes.take 4)) :: rest)

/-- The length of the first section -/
def headSize : List (Option Nat) → Nat
  | [] => 0
  | some n :: sizes => n + headSize sizes
  | none :: sizes => 4 + headSize sizes

/-- The first of the offsets or, if there is none, the end of the encoding -/
def firstOffset (length : Nat) : List (List UInt8 ⊕ Nat) → Nat
  | [] => length
  | .inl _ :: rest => firstOffset length rest
  | .inr offset :: _ => offset

/-- The bytes of every element: one of variable size goes from its offset to the next. -/
def cut (bytes : List UInt8) : List (List UInt8 ⊕ Nat) → Option (List (List UInt8))
  | [] => some []
  | .inl x :: rest => do some (x :: (← cut bytes rest))
  | .inr offset :: rest => do
    let next := firstOffset bytes.length rest
    if offset > next ∨ next > bytes.length then none
    let xs ← cut bytes rest
    some ((bytes.take next).drop offset :: xs)

/-- Takes an encoding apart, given the sizes of the elements. The second section has to begin where the
first ends. -/
def takeApart (sizes : List (Option Nat)) (bytes : List UInt8) : Option (List (List UInt8)) := do
  let items ← readHeads sizes bytes
  if firstOffset bytes.length items ≠ headSize sizes then none
  cut bytes items

/-- The sizes of the elements of a collection, with the number that its encoding tells: from its length
or, for elements of variable size, from the first offset -/
def elementSizes (size : Option Nat) (bytes : List UInt8) : Option (List (Option Nat)) :=
  match size with
  | some n => if n = 0 ∨ bytes.length % n ≠ 0 then none else some (List.replicate (bytes.length / n) size)
  | none =>
    if bytes.isEmpty then some []
    else
      let first := ofLeBytes (bytes.take 4)
      if first = 0 ∨ first % 4 ≠ 0 then none else some (List.replicate (first / 4) size)

/-- The sizes of the fields -/
def fieldSizes : Fields → List (Option Nat)
  | .nil => []
  | .cons _ s rest => fixedSize s :: fieldSizes rest

/-- The integer type with `b` values -/
def deInt (b : Nat) (bytes : List UInt8) : Option (Fin b) :=
  if bytes.length = width b then
    if h : ofLeBytes bytes < b then some ⟨_, h⟩ else none
  else none

mutual

/-- `deserialize` -/
def de : (s : Schema) → List UInt8 → Option s.Val
  | .int b, bytes => deInt b bytes
  | .num b, bytes => deInt b bytes
  | .bool, [b] => if b = 0 then some false else if b = 1 then some true else none
  | .bytes n, bytes => if h : bytes.length = n then some ⟨bytes, h⟩ else none
  | .byteList n, bytes => if h : bytes.length ≤ n then some ⟨bytes, h⟩ else none
  | .bitvector n, bytes => do
    let bits ← bitvector_deserialize n bytes
    if h : bits.length = n then some ⟨bits, h⟩ else none
  | .bitlist n, bytes => do
    let bits ← bitlist_deserialize n bytes
    if h : bits.length ≤ n then some ⟨bits, h⟩ else none
  | .ints b l, bytes => do
    let xs ← takeApart (← elementSizes (some (width b)) bytes) bytes
    collect l (← xs.mapM (deInt b))
  | .seq l s, bytes => do
    let xs ← takeApart (← elementSizes (fixedSize s) bytes) bytes
    collect l (← xs.mapM fun x => de s x)
  | .record fs, bytes => do des fs (← takeApart (fieldSizes fs) bytes)
  | _, _ => none

/-- The fields of a struct from their encodings -/
def des : (fs : Fields) → List (List UInt8) → Option fs.Val
  | .nil, [] => some ()
  | .cons _ s rest, x :: xs => do
    let v ← de s x
    let vs ← des rest xs
    some (v, vs)
  | _, _ => none

end

end Verif.Ssz
