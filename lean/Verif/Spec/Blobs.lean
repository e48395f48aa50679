import Verif.Model.Blobs

/-! # Specification: blobs -/

namespace Verif.Spec

open Blobs

/-- A blob has room for 4096 field elements of 254 bits: 130048 bytes. -/
def BLOB_ROOM : Nat := 4096 * 254 / 8

/-- The lengths for which `ec blobs encode` drops the end of its input: data that fills one or more
blobs completely and is then continued by less than 254 bits. -/
def Dropped (n : Nat) : Prop := BLOB_ROOM ≤ n ∧ 0 < n % BLOB_ROOM ∧ n % BLOB_ROOM < 32

instance (n : Nat) : Decidable (Dropped n) := inferInstanceAs (Decidable (_ ∧ _))

/-- A blob of the right size all of whose 32-byte elements are, as big-endian numbers, below the
modulus of the field. -/
def ValidBlob (blob : List UInt8) : Prop :=
  blob.length = 4096 * 32 ∧ ∀ k < 4096, ofBeBytes ((blob.drop (k * 32)).take 32) < MODULUS

/-- The number of blobs needed for `n` bytes. -/
def blobsFor (n : Nat) : Nat :=
  if n ≤ BLOB_ROOM then 1 else if Dropped n then n / BLOB_ROOM
  else (n + BLOB_ROOM - 1) / BLOB_ROOM

end Verif.Spec
