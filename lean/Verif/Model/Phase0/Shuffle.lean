import Verif.Model.Env

/-!
# Shuffling: `phase0/helpers.rs:249-360`
-/

namespace Verif

/-- `hash(pivot_input)[..8]` read little-endian: `phase0/helpers.rs:264-265`
(and `306-307`). `current_round as u8` truncates. -/
def pivot_word (E : Env) (seed : Bytes32) (round : Nat) : Nat :=
  ofLeBytes ((E.hash (seed.toList ++ [UInt8.ofNat round])).toList.take 8)

/-- `hash(source_input)`: `phase0/helpers.rs:270-275` (and `311-313`, `321-323`,
`336-338`, `345-347`). `leBytes 4` truncates to `u32`. -/
def source_block (E : Env) (seed : Bytes32) (round block : Nat) : Bytes32 :=
  E.hash (seed.toList ++ [UInt8.ofNat round] ++ leBytes 4 block)

/-- One iteration of the loop in `phase0/helpers.rs:263-280`. -/
def shuffle_round (E : Env) (seed : Bytes32) (index_count round index : Nat) : R Nat := do
  let pivot ← pivot_word E seed round %? index_count
  let sum ← pivot +? index_count
  let diff ← sum -? index
  let flip ← diff %? index_count
  let position := max index flip
  let source := source_block E seed round (position / 256)
  let byte ← idx source.toList ((position % 256) / 8)
  let bit := (byte.toNat >>> (position % 8)) % 2
  return if bit ≠ 0 then flip else index

/-- `phase0/helpers.rs:249-283` -/
def compute_shuffled_index (E : Env) (index index_count : Nat) (seed : Bytes32) : R Nat := do
  rejectIf (index ≥ index_count) .invalidShufflingIndex
  (List.range E.shuffle_round_count).foldlM
    (fun index round => shuffle_round E seed index_count round index) index

/-- `input.swap(i, j)` -/
def swapIdx (xs : List Nat) (i j : Nat) : R (List Nat) := do
  let a ← idx xs i
  let b ← idx xs j
  return (xs.set i b).set j a

/-- The variables of `compute_shuffled_indices` that change in the inner loops:
`input`, `source`, `byte_source`. -/
structure ShuffleAcc where
  input : List Nat
  source : Bytes32
  byte_source : UInt8

/-- The body shared by the two inner loops, `phase0/helpers.rs:320-332` and
`344-356`. -/
def shuffle_step (E : Env) (seed : Bytes32) (round i j : Nat) (a : ShuffleAcc) :
    R ShuffleAcc := do
  let source := if j &&& 0xff = 0xff then source_block E seed round (j >>> 8) else a.source
  let byte_source ←
    (if j &&& 0x07 = 0x07 then idx source.toList ((j &&& 0xff) >>> 3) else pure a.byte_source)
  let bit_source := (byte_source.toNat >>> (j &&& 0x07)) &&& 0x01
  let input ← (if bit_source = 1 then swapIdx a.input i j else pure a.input)
  return { input, source, byte_source }

/-- One iteration of the outer loop, `phase0/helpers.rs:305-358`. -/
def shuffle_list_round (E : Env) (seed : Bytes32) (round : Nat) (input : List Nat) :
    R (List Nat) := do
  let index_count := input.length
  let pivot ← pivot_word E seed round %? index_count
  let source := source_block E seed round (pivot >>> 8)
  let byte_source ← idx source.toList ((pivot &&& 0xff) >>> 3)
  let mirror ← pivot +? 1
  let a ← (List.range (mirror >>> 1)).foldlM
    (fun a i => do
      let j ← pivot -? i
      shuffle_step E seed round i j a)
    ({ input, source, byte_source } : ShuffleAcc)
  let last ← index_count -? 1
  let source := source_block E seed round (last >>> 8)
  let byte_source ← idx source.toList ((last &&& 0xff) >>> 3)
  let t ← pivot +? index_count
  let t ← t +? 1
  let mirror := t >>> 1
  let a ← (List.range (mirror - (pivot + 1))).foldlM
    (fun a k => do
      let j ← last -? k
      shuffle_step E seed round (pivot + 1 + k) j a)
    ({ input := a.input, source, byte_source } : ShuffleAcc)
  return a.input

/-- `phase0/helpers.rs:287-360` -/
def compute_shuffled_indices (E : Env) (indices : List Nat) (seed : Bytes32) :
    R (List Nat) := do
  if indices.isEmpty then
    return indices
  let last_round ← E.shuffle_round_count -? 1
  (List.range (last_round + 1)).reverse.foldlM
    (fun input round => shuffle_list_round E seed round input) indices

/-- `&xs[start..end]` in Rust: panics when out of bounds. -/
def slice (xs : List Nat) (start stop : Nat) : R (List Nat) :=
  if start ≤ stop ∧ stop ≤ xs.length then .ok ((xs.take stop).drop start)
  else .error (.panic .outOfBounds)

/-- `phase0/helpers.rs:459-483`. The vector `committee` of the second branch is
built front to back instead of being pre-allocated and assigned. -/
def compute_committee (E : Env) (indices : List Nat) (seed : Bytes32) (index count : Nat) :
    R (List Nat) := do
  let a ← indices.length *? index
  let start ← a /? count
  let index' ← index +? 1
  let b ← indices.length *? index'
  let stop ← b /? count
  if E.shuffling then
    let shuffled_indices ← compute_shuffled_indices E indices seed
    slice shuffled_indices start stop
  else
    let n ← stop -? start
    (List.range' start n).mapM fun i => do
      let index ← compute_shuffled_index E i indices.length seed
      idx indices index

end Verif
