import Verif.Model.Prelude
import Verif.Model.JsonTypes

/-! # Hash tree roots

The roots that the types derive from `SimpleSerialize`, and the checks of branches against them:
`is_valid_merkle_branch` and `generalized_index` of `ssz_rs`, used by
`ethereum-consensus/src/deneb/blob_sidecar.rs` and `ethereum-consensus/src/phase0/block_processing.rs`.
`ssz_rs` is modelled from the SSZ specification. The shapes of the types are those of `JsonTypes`,
whose fields are in the order of the declarations. The hash of two nodes, SHA-256 of their
concatenation, is a parameter. -/

namespace Verif.Ssz

open Json

/-- A node of a Merkle tree. Those of `ssz_rs` have 32 bytes. -/
abbrev Node := List UInt8

/-- The hash of two nodes -/
abbrev Hash := Node → Node → Node

/-- The chunk of zeros -/
def zeroNode : Node := List.replicate 32 0

/-- The first bytes of a chunk, padded with zeros -/
def pad (bytes : List UInt8) : Node := (bytes ++ zeroNode).take 32

/-- Bytes in chunks of 32, the last padded with zeros (`pack_bytes`) -/
def chunks (bytes : List UInt8) : List Node :=
  if bytes.isEmpty then [] else pad (bytes.take 32) :: chunks (bytes.drop 32)
termination_by bytes.length
decreasing_by
  have : bytes ≠ [] := by rintro rfl; simp_all
  have := List.length_pos_iff.2 this
  simp; omega

/-- The depth of a tree that has room for `n` chunks -/
def depth (n : Nat) : Nat := if n ≤ 1 then 0 else Nat.log2 (n - 1) + 1

/-- The roots of the trees of zeros, which `ssz_rs` keeps in a table -/
def zeroRoot (H : Hash) : Nat → Node
  | 0 => zeroNode
  | d + 1 => let z := zeroRoot H d; H z z

/-- The root of the tree of that depth with the chunks at its leaves, from the left, and zeros at the
others (`merkleize`) -/
def merkleize (H : Hash) : Nat → List Node → Node
  | 0, xs => xs.headD zeroNode
  | d + 1, [] => zeroRoot H (d + 1)
  | d + 1, xs => H (merkleize H d (xs.take (2 ^ d))) (merkleize H d (xs.drop (2 ^ d)))

/-- `mix_in_length` -/
def mixInLength (H : Hash) (root : Node) (n : Nat) : Node := H root (leBytes 32 n)

/-- The number of bytes of an integer type with `b` values -/
def width (b : Nat) : Nat := Nat.log2 b / 8

/-- The root of a collection from the chunks it is packed into, of which `most n` hold `n` elements -/
def collection (H : Hash) (most : Nat → Nat) : Len → Nat → List Node → Node
  | .exactly n, _, xs => merkleize H (depth (most n)) xs
  | .atMost n, k, xs => mixInLength H (merkleize H (depth (most n)) xs) k
  | .any, k, xs => mixInLength H (merkleize H 64 xs) k

/-- The number of chunks with `n` bytes -/
def chunkCount (n : Nat) : Nat := (n + 31) / 32

/-- The number of fields -/
def Fields.count : Fields → Nat
  | .nil => 0
  | .cons _ _ rest => Fields.count rest + 1

mutual

/-- `hash_tree_root`. The types with a `String`, or `Vec` or an enum in them do not implement it; their
roots here mean nothing. -/
def root (H : Hash) : (s : Schema) → s.Val → Node
  | .int b, v => pad (leBytes (width b) v.val)
  | .num b, v => pad (leBytes (width b) v.val)
  | .bool, v => pad [if v then 1 else 0]
  | .text, _ => zeroNode
  | .tag _, _ => zeroNode
  | .bytes n, v => merkleize H (depth (chunkCount n)) (chunks v.val)
  | .byteList n, v => mixInLength H (merkleize H (depth (chunkCount n)) (chunks v.val)) v.val.length
  | .bitvector n, v => merkleize H (depth (chunkCount ((n + 7) / 8))) (chunks (packBits v.val))
  | .bitlist n, v =>
    mixInLength H (merkleize H (depth (chunkCount ((n + 7) / 8))) (chunks (packBits v.val)))
      v.val.length
  | .ints b l, v =>
    collection H (fun n => chunkCount (n * width b)) l v.val.length
      (chunks (v.val.flatMap fun x => leBytes (width b) x.val))
  | .seq l s, v => collection H id l v.val.length (v.val.map fun x => root H s x)
  | .record fs, v => merkleize H (depth (Fields.count fs)) (roots H fs v)

/-- The roots of the fields of a struct -/
def roots (H : Hash) : (fs : Fields) → fs.Val → List Node
  | .nil, _ => []
  | .cons _ s rest, v => root H s v.1 :: roots H rest v.2

end

/-- `compute_signing_root`, `signing.rs:14-22`: the root of a `SigningData`, a struct with two fields of
32 bytes, which are their own roots -/
def compute_signing_root (H : Hash) (s : Schema) (v : s.Val) (domain : Node) : Node :=
  merkleize H (depth 2) [root H s v, domain]

/-! ## Branches -/

/-- The loop of `is_valid_merkle_branch`: bit `i` of the index says on which side the path goes. -/
def climb (H : Hash) (index : Nat) : Node → List Node → Node
  | node, [] => node
  | node, b :: bs =>
    climb H (index / 2) (if index % 2 = 1 then H b node else H node b) bs

/-- `ssz_rs::proofs::is_valid_merkle_branch` -/
def is_valid_merkle_branch (H : Hash) (leaf : Node) (branch : List Node) (depth index : Nat)
    (root : Node) : Bool :=
  branch.length == depth && climb H index leaf branch == root

/-- `ssz_rs::proofs::get_subtree_index`: the index without its leading one -/
def get_subtree_index (g : Nat) : Nat := g % 2 ^ Nat.log2 g

/-- An element of a path: the name of a field or a position in a collection -/
inductive PathElement
  | field (name : String)
  | at (i : Nat)
  deriving DecidableEq, Repr

/-- The position of a field and its shape -/
def Fields.position (name : String) : Fields → Option (Nat × Schema)
  | .nil => none
  | .cons n s rest =>
    if n = name then some (0, s)
    else (Fields.position name rest).map fun p => (p.1 + 1, p.2)

/-- One element of a path: the depth of the tree it goes through, the position of the leaf it leads to
and the shape there. The tree of a list has one more level, for the length. Paths into packed integers,
bytes and bits are not modelled. -/
def step : PathElement → Schema → Option (Nat × Nat × Schema)
  | .field name, .record fs =>
    (Fields.position name fs).map fun p => (depth (Fields.count fs), p.1, p.2)
  | .at i, .seq (.exactly n) s => if i < n then some (depth n, i, s) else none
  | .at i, .seq (.atMost n) s => if i < n then some (depth n + 1, i, s) else none
  | _, _ => none

/-- `GeneralizedIndexable::compute_generalized_index`, starting at the generalized index `g` -/
def generalizedIndexFrom (g : Nat) : List PathElement → Schema → Option Nat
  | [], _ => some g
  | e :: path, s =>
    match step e s with
    | some (d, i, t) => generalizedIndexFrom (g * 2 ^ d + i) path t
    | none => none

/-- `generalized_index` -/
def generalized_index (s : Schema) (path : List PathElement) : Option Nat :=
  generalizedIndexFrom 1 path s

/-- `FINALIZED_ROOT_INDEX`, `altair/light_client.rs:10` -/
def FINALIZED_ROOT_INDEX : Nat := 105

/-- `CURRENT_SYNC_COMMITTEE_INDEX`, `altair/light_client.rs:13` -/
def CURRENT_SYNC_COMMITTEE_INDEX : Nat := 54

/-- `NEXT_SYNC_COMMITTEE_INDEX`, `altair/light_client.rs:16` -/
def NEXT_SYNC_COMMITTEE_INDEX : Nat := 55

/-- `EXECUTION_PAYLOAD_INDEX`, `capella/light_client.rs:13` -/
def EXECUTION_PAYLOAD_INDEX : Nat := 25

/-- The fields of `BlobSidecar` that `verify_blob_sidecar_inclusion_proof` reads -/
structure Sidecar where
  index : Nat
  kzg_commitment : (Schema.bytes 48).Val
  body_root : Node
  kzg_commitment_inclusion_proof : List Node

/-- `verify_blob_sidecar_inclusion_proof`, `deneb/blob_sidecar.rs:47-64`: `body` is the shape of the
type `BlockBody` and `d` is `KZG_COMMITMENT_INCLUSION_PROOF_DEPTH`. The length of the proof is part of
its type in the code; `is_valid_merkle_branch` checks it too. -/
def verify_blob_sidecar_inclusion_proof (H : Hash) (d : Nat) (body : Schema) (sidecar : Sidecar) :
    Bool :=
  match generalized_index body [.field "blob_kzg_commitments", .at sidecar.index] with
  | none => false
  | some g =>
    is_valid_merkle_branch H (root H (.bytes 48) sidecar.kzg_commitment)
      sidecar.kzg_commitment_inclusion_proof d (get_subtree_index g) sidecar.body_root

end Verif.Ssz
