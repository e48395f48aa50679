import Verif.Model.Types

/-!
# Specification: the swap-or-not shuffle

Written from the description of the consensus specification
(`compute_shuffled_index`), over an arbitrary hash function, with unbounded
natural numbers and no error handling.
-/

namespace Verif.Spec

/-- little-endian value of a byte string -/
def leValue (bs : List UInt8) : Nat := bs.foldr (fun b acc => b.toNat + 256 * acc) 0

/-- `i`-th byte of the 4-byte little-endian encoding of `x` -/
def le4 (x : Nat) : List UInt8 :=
  [UInt8.ofNat x, UInt8.ofNat (x / 256), UInt8.ofNat (x / 65536), UInt8.ofNat (x / 16777216)]

/-- The pivot of a round. -/
def pivot (hash : List UInt8 → Bytes32) (seed : Bytes32) (n round : Nat) : Nat :=
  leValue ((hash (seed.toList ++ [UInt8.ofNat round])).toList.take 8) % n

/-- The mirror image of `i` around the pivot, modulo `n`. -/
def mirror (p n i : Nat) : Nat := (p + (n - i)) % n

/-- The decision bit of a position in a round. -/
def decisionBit (hash : List UInt8 → Bytes32) (seed : Bytes32) (round position : Nat) : Bool :=
  let block := hash (seed.toList ++ [UInt8.ofNat round] ++ le4 (position / 256))
  (block.toList[position % 256 / 8]?.getD 0).toNat.testBit (position % 8)

/-- One round: swap with the mirror image or stay, as the bit of the larger of the
two positions says. -/
def swapOrNot (hash : List UInt8 → Bytes32) (seed : Bytes32) (n round i : Nat) : Nat :=
  let j := mirror (pivot hash seed n round) n i
  if decisionBit hash seed round (max i j) then j else i

/-- The shuffle: rounds `0, 1, …, rounds-1` in order. -/
def shuffledIndex (hash : List UInt8 → Bytes32) (seed : Bytes32) (n : Nat) : Nat → Nat → Nat
  | 0, i => i
  | rounds + 1, i => swapOrNot hash seed n rounds (shuffledIndex hash seed n rounds i)

end Verif.Spec
