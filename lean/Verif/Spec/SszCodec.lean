import Verif.Spec.Ssz
import Verif.Model.SszCodec

/-! # What SSZ encodings look like -/

namespace Verif.Spec

open Json Ssz

/-- The type has an SSZ encoding: it is `Sszable`, its integers have at least one byte and its
collections have elements of at least one byte. -/
def HasEncoding : Schema → Bool
  | .int b => b == 256 ^ width b && 0 < width b
  | .num b => b == 256 ^ width b && 0 < width b
  | .bool => true
  | .text => false
  | .tag _ => false
  | .bytes _ => true
  | .byteList _ => true
  | .bitvector _ => true
  | .bitlist _ => true
  | .ints b _ => b == 256 ^ width b && 0 < width b
  | .seq _ s => fixedSize s != some 0 && HasEncoding s
  | .record fs => HasEncodingFields fs
where
  HasEncodingFields : Fields → Bool
    | .nil => true
    | .cons _ s rest => HasEncoding s && HasEncodingFields rest

/-- The bytes that an element takes in its composite besides its own: four for the offset of one of
variable size -/
def overhead (s : Schema) : Nat := if (fixedSize s).isSome then 0 else 4

/-- The length of the encoding of a value -/
def encodedSize : (s : Schema) → s.Val → Nat
  | .int b, _ => width b
  | .num b, _ => width b
  | .bool, _ => 1
  | .text, _ => 0
  | .tag _, _ => 0
  | .bytes n, _ => n
  | .byteList _, v => v.val.length
  | .bitvector n, _ => (n + 7) / 8
  | .bitlist _, v => v.val.length / 8 + 1
  | .ints b _, v => v.val.length * width b
  | .seq _ s, v => (v.val.map fun x => overhead s + encodedSize s x).sum
  | .record fs, v => ofFields fs v
where
  ofFields : (fs : Fields) → fs.Val → Nat
    | .nil, _ => 0
    | .cons _ s rest, v => overhead s + encodedSize s v.1 + ofFields rest v.2

/-- `n` bytes from a position -/
def slice (bytes : List UInt8) (position n : Nat) : List UInt8 := (bytes.drop position).take n

/-- The bytes that an element has in the first section of its composite -/
def slotSize (s : Schema) : Nat := (fixedSize s).getD 4

/-- The position of a field in the first section -/
def slotOf (name : String) : Fields → Nat
  | .nil => 0
  | .cons n s rest => if n = name then 0 else slotSize s + slotOf name rest

/-- The encoding of an element of type `s` is found in the encoding of its composite: at its slot or, if
it is of variable size, at the offset that is at its slot. -/
def FoundAt (bytes : List UInt8) (slot : Nat) (s : Schema) (element : List UInt8) : Prop :=
  if (fixedSize s).isSome then slice bytes slot element.length = element
  else ∃ offset < 2 ^ 32, slice bytes slot 4 = leBytes 4 offset ∧
    slice bytes offset element.length = element

end Verif.Spec
