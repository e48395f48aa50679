import Verif.Model.Ssz

/-! # What goes into a hash tree root

The pairs of nodes that are hashed on the way to a root. They are listed so that a collision can be
said to be one among them: SHA-256, like every function into 32 bytes, has collisions somewhere. -/

namespace Verif.Spec

open Json Ssz

/-- The pairs hashed by `merkleize` -/
def MerkleHashes (H : Hash) : Nat → List Node → Node × Node → Prop
  | 0, _, _ => False
  | d + 1, xs, p =>
    p = (merkleize H d (xs.take (2 ^ d)), merkleize H d (xs.drop (2 ^ d))) ∨
      MerkleHashes H d (xs.take (2 ^ d)) p ∨ MerkleHashes H d (xs.drop (2 ^ d)) p

/-- The pairs hashed for a collection -/
def CollectionHashes (H : Hash) (most : Nat → Nat) : Len → Nat → List Node → Node × Node → Prop
  | .exactly n, _, xs, p => MerkleHashes H (depth (most n)) xs p
  | .atMost n, k, xs, p =>
    p = (merkleize H (depth (most n)) xs, leBytes 32 k) ∨ MerkleHashes H (depth (most n)) xs p
  | .any, k, xs, p => p = (merkleize H 64 xs, leBytes 32 k) ∨ MerkleHashes H 64 xs p

mutual

/-- The pairs of nodes that are hashed to find the root of a value -/
def Hashes (H : Hash) : (s : Schema) → s.Val → Node × Node → Prop
  | .int _, _, _ => False
  | .num _, _, _ => False
  | .bool, _, _ => False
  | .text, _, _ => False
  | .tag _, _, _ => False
  | .bytes n, v, p => MerkleHashes H (depth (chunkCount n)) (chunks v.val) p
  | .byteList n, v, p =>
    CollectionHashes H chunkCount (.atMost n) v.val.length (chunks v.val) p
  | .bitvector n, v, p => MerkleHashes H (depth (chunkCount ((n + 7) / 8))) (chunks (packBits v.val)) p
  | .bitlist n, v, p =>
    CollectionHashes H (fun n => chunkCount ((n + 7) / 8)) (.atMost n) v.val.length
      (chunks (packBits v.val)) p
  | .ints b l, v, p =>
    CollectionHashes H (fun n => chunkCount (n * width b)) l v.val.length
      (chunks (v.val.flatMap fun x => leBytes (width b) x.val)) p
  | .seq l s, v, p =>
    CollectionHashes H id l v.val.length (v.val.map fun x => root H s x) p ∨
      ∃ x ∈ v.val, Hashes H s x p
  | .record fs, v, p =>
    MerkleHashes H (depth (Fields.count fs)) (roots H fs v) p ∨ FieldHashes H fs v p

/-- The pairs hashed for the fields of a struct -/
def FieldHashes (H : Hash) : (fs : Fields) → fs.Val → Node × Node → Prop
  | .nil, _, _ => False
  | .cons _ s rest, v, p => Hashes H s v.1 p ∨ FieldHashes H rest v.2 p

end

/-- Two different pairs of nodes, one from each family, with the same hash -/
def Collision (H : Hash) (P Q : Node × Node → Prop) : Prop :=
  ∃ p q, P p ∧ Q q ∧ p ≠ q ∧ H p.1 p.2 = H q.1 q.2

/-- The integers in the type have 1 to 32 whole bytes and the collections at most `2^256 - 1`
elements; there are no strings, enums and unbounded collections in it. -/
def Sszable : Schema → Bool
  | .int b => b == 256 ^ width b && width b ≤ 32
  | .num b => b == 256 ^ width b && width b ≤ 32
  | .bool => true
  | .text => false
  | .tag _ => false
  | .bytes _ => true
  | .byteList n => n < 256 ^ 32
  | .bitvector _ => true
  | .bitlist n => n < 256 ^ 32
  | .ints b l => b == 256 ^ width b && limited l
  | .seq l s => limited l && Sszable s
  | .record fs => SszableFields fs
where
  limited : Len → Bool
    | .exactly _ => true
    | .atMost n => n < 256 ^ 32
    | .any => false
  SszableFields : Fields → Bool
    | .nil => true
    | .cons _ s rest => Sszable s && SszableFields rest

/-! ## Branches -/

/-- The value of a field -/
def fieldAt (name : String) : (fs : Fields) → fs.Val → Option ((s : Schema) × s.Val)
  | .nil, _ => none
  | .cons n s rest, v => if n = name then some ⟨s, v.1⟩ else fieldAt name rest v.2

/-- The part of a value at the end of a path -/
def valueAt : List PathElement → (s : Schema) → s.Val → Option ((s : Schema) × s.Val)
  | [], s, v => some ⟨s, v⟩
  | .field name :: path, .record fs, v =>
    match fieldAt name fs v with
    | some x => valueAt path x.1 x.2
    | none => none
  | .at i :: path, .seq _ s, v =>
    match v.val[i]? with
    | some x => valueAt path s x
    | none => none
  | _, _, _ => none

/-- The shape at the end of a path -/
def typeAt : List PathElement → Schema → Option Schema
  | [], s => some s
  | e :: path, s => (step e s).bind fun q => typeAt path q.2.2

/-- The pairs hashed when a branch is checked -/
def BranchHashes (H : Hash) : Nat → Node → List Node → Node × Node → Prop
  | _, _, [], _ => False
  | index, node, b :: bs, p =>
    p = (if index % 2 = 1 then (b, node) else (node, b)) ∨
      BranchHashes H (index / 2) (if index % 2 = 1 then H b node else H node b) bs p

/-- A pair of nodes that hashes to the chunk of zeros -/
def HashesToZero (H : Hash) (P : Node × Node → Prop) : Prop := ∃ p, P p ∧ H p.1 p.2 = zeroNode

/-- Both families -/
def Either (P Q : Node × Node → Prop) (p : Node × Node) : Prop := P p ∨ Q p

end Verif.Spec
