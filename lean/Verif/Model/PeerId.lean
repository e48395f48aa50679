import Mathlib.Data.Nat.Digits.Defs
import Verif.Model.Text

/-! # Peer ids

`ethereum-consensus/src/networking.rs`. The libraries it calls are modelled from their documented
behaviour: base-58 text (`bs58`), variable-length integers (`unsigned-varint`) and multihashes
(`multihash`, whose digests have at most 64 bytes). Which error is returned is not modelled. -/

namespace Verif.Net

/-! ## Base 58 -/

/-- The alphabet of Bitcoin, the default of `bs58` -/
def alphabet : List Char := "123456789ABCDEFGHJKLMNPQRSTUVWXYZabcdefghijkmnopqrstuvwxyz".toList

/-- The character of a digit -/
def b58Digit (d : Nat) : Char := alphabet.getD d '1'

/-- The digit of a character -/
def b58Value (c : Char) : Option Nat := alphabet.findIdx? (· == c)

/-- The number that big-endian digits stand for -/
def fromDigits (base : Nat) (ds : List Nat) : Nat := Nat.ofDigits base ds.reverse

/-- The big-endian digits of a number, without leading zeros -/
def toDigits (base n : Nat) : List Nat := (Nat.digits base n).reverse

/-- `bs58::encode`, as called in `networking.rs:25`: each leading zero byte is written as the digit
zero, and the number that the bytes stand for follows without leading zeros. -/
def bs58_encode (data : List UInt8) : List Char :=
  List.replicate (data.takeWhile (· == 0)).length '1' ++
    (toDigits 58 (fromDigits 256 (data.map UInt8.toNat))).map b58Digit

/-- `bs58::decode`, as called in `networking.rs:115`: fails on characters outside the alphabet. -/
def bs58_decode (s : List Char) : Option (List UInt8) := do
  let ds ← s.mapM b58Value
  some (List.replicate (ds.takeWhile (· == 0)).length 0 ++
    (toDigits 256 (fromDigits 58 ds)).map UInt8.ofNat)

/-! ## Variable-length integers -/

/-- `unsigned_varint::encode::u64`: seven bits to a byte, the low bits first, with the high bit set in
all bytes but the last -/
def varint_encode (n : Nat) : List UInt8 :=
  if n < 128 then [UInt8.ofNat n] else UInt8.ofNat (n % 128 + 128) :: varint_encode (n / 128)
termination_by n
decreasing_by omega

/-- The bytes of `unsigned_varint::io::read_u64` after the first `i`, which stood for `n`: at most
ten, and the last of several may not be zero. Bits beyond the 64th are lost. -/
def varint_read (i n : Nat) : List UInt8 → Option (Nat × List UInt8)
  | [] => none
  | b :: rest =>
    if i ≥ 10 then none
    else
      let n := (n + b.toNat % 128 * 2 ^ (7 * i)) % 2 ^ 64
      if b.toNat < 128 then
        if b = 0 ∧ i > 0 then none else some (n, rest)
      else varint_read (i + 1) n rest

/-! ## Multihashes -/

/-- `multihash::Multihash`: the code of a hash function and a digest -/
structure Multihash where
  code : Nat
  digest : List UInt8
  deriving DecidableEq, Repr

/-- `Multihash::to_bytes` -/
def Multihash.to_bytes (h : Multihash) : List UInt8 :=
  varint_encode h.code ++ varint_encode h.digest.length ++ h.digest

/-- `Multihash::from_bytes`: the digest has at most 64 bytes, and no bytes are left. -/
def Multihash.from_bytes (data : List UInt8) : Option Multihash := do
  let (code, data) ← varint_read 0 0 data
  let (size, data) ← varint_read 0 0 data
  if size > 64 then none
  else if data.length < size then none
  else if data.drop size ≠ [] then none
  else some { code, digest := data.take size }

/-! ## Peer ids -/

/-- `MAX_INLINE_KEY_LENGTH`, `networking.rs:8` -/
def MAX_INLINE_KEY_LENGTH : Nat := 42

/-- `multihash::Code::Identity` -/
def Identity : Nat := 0x00

/-- `multihash::Code::Sha2_256` -/
def Sha2_256 : Nat := 0x12

/-- `PeerId`, `networking.rs:12-15` -/
structure PeerId where
  multihash : Multihash
  deriving DecidableEq, Repr

/-- `PeerId::from_multihash`, `networking.rs:36-46` -/
def PeerId.from_multihash (multihash : Multihash) : Option PeerId :=
  if multihash.code = Sha2_256 then some { multihash }
  else if multihash.code = Identity ∧ multihash.digest.length ≤ MAX_INLINE_KEY_LENGTH then
    some { multihash }
  else none

/-- `PeerId::to_bytes`, `networking.rs:27-30` -/
def PeerId.to_bytes (id : PeerId) : List UInt8 := id.multihash.to_bytes

/-- `PeerId::from_bytes`, `networking.rs:31-35` -/
def PeerId.from_bytes (data : List UInt8) : Option PeerId := do
  let multihash ← Multihash.from_bytes data
  PeerId.from_multihash multihash

/-- `PeerId::to_base58`, `networking.rs:24-26`; also `Display`, `networking.rs:17-21`, and
`Serialize`, `networking.rs:48-60`, for formats such as JSON -/
def PeerId.to_base58 (id : PeerId) : List Char := bs58_encode id.to_bytes

/-- `impl FromStr for PeerId`, `networking.rs:110-118`; also `Deserialize`, `networking.rs:62-101`,
for formats such as JSON -/
def PeerId.from_str (s : List Char) : Option PeerId := do
  let bytes ← bs58_decode s
  PeerId.from_bytes bytes

end Verif.Net
