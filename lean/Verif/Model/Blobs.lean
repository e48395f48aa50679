/-!
# `ec blobs`: packing bytes into blobs (`bin/ec/blobs/`)

`BitSlice<u8, Msb0>` is a list of booleans, the most significant bit of each byte first; a blob is
its list of bytes. Reading standard input and the JSON between `encode` and `decode` are not
modelled (blobs are printed in hexadecimal, see `Verif.Model.Text`).
-/

namespace Verif.Blobs

/-- `bin/ec/blobs/mod.rs:19-35`, without the wrapped errors; `panic` stands for a Rust panic. -/
inductive BlobErr
  | invalidFieldElement
  | expectedHeaderForSizedFraming
  | unsupportedSizedFramingVersion
  | invalidPayloadSize
  | panic
  deriving DecidableEq, Repr

/-- `crypto/kzg.rs` and `deneb/presets/mainnet.rs`: 4096 field elements of 32 bytes. -/
def BYTES_PER_BLOB : Nat := 131072
/-- `bin/ec/blobs/mod.rs:12` -/
def BYTES_PER_FIELD_ELEMENT : Nat := 32
/-- `bin/ec/blobs/mod.rs:15` -/
def BITS_PER_FIELD_ELEMENT : Nat := 254
/-- `bin/ec/blobs/decode.rs:8` -/
def BITS_PER_SERIALIZED_FIELD_ELEMENT : Nat := 8 * BYTES_PER_FIELD_ELEMENT
/-- `bin/ec/bls.rs:6-7` -/
def MODULUS : Nat :=
  52435875175126190479447740508185965837690552500527637822603658699938581184513

/-! ## Bits and bytes -/

/-- The bits of a byte in the order `Msb0` of the crate `bitvec`. -/
def bitsOfByte (b : UInt8) : List Bool :=
  [7, 6, 5, 4, 3, 2, 1, 0].map fun k => b.toNat.testBit k

/-- `BitSlice::from_slice`, `view_bits::<Msb0>` -/
def bitsOf (bytes : List UInt8) : List Bool := bytes.flatMap bitsOfByte

/-- The number with these bits, the most significant first. -/
def natOfBits (bits : List Bool) : Nat := bits.foldl (fun n b => 2 * n + b.toNat) 0

/-- The bytes whose view is a list of bits (of a length divisible by 8): a byte vector written to
through `view_bits_mut`. -/
def bytesOf (bits : List Bool) : List UInt8 :=
  (List.range (bits.length / 8)).map fun k => UInt8.ofNat (natOfBits ((bits.drop (k * 8)).take 8))

/-- The chunks of `chunks_exact(n)`. -/
def chunksExact {α : Type} (n : Nat) (xs : List α) : List (List α) :=
  (List.range (xs.length / n)).map fun k => (xs.drop (k * n)).take n

/-- The `remainder()` of `chunks_exact(n)`. -/
def chunksRemainder {α : Type} (n : Nat) (xs : List α) : List α := xs.drop (xs.length / n * n)

/-- `U256::from_be_slice`, `u32::from_be_bytes` -/
def ofBeBytes (bytes : List UInt8) : Nat := bytes.foldl (fun n b => 256 * n + b.toNat) 0

/-- `u32::to_be_bytes` -/
def beBytes32 (n : Nat) : List UInt8 :=
  [n / 2 ^ 24, n / 2 ^ 16, n / 2 ^ 8, n].map UInt8.ofNat

/-- `xs[start..start + ys.len()]` overwritten with `ys`; panics when out of bounds. -/
def copyAt {α : Type} (xs : List α) (start : Nat) (ys : List α) : Except BlobErr (List α) :=
  if start + ys.length ≤ xs.length then
    .ok (xs.take start ++ ys ++ xs.drop (start + ys.length))
  else .error .panic

/-! ## `encode.rs` -/

/-- `encode.rs:15-27` -/
def field_element_from_bits (src : List Bool) : Except BlobErr (List UInt8) := do
  let bits ← copyAt (bitsOf (List.replicate BYTES_PER_FIELD_ELEMENT 0)) 2 src
  let field_element := bytesOf bits
  if ofBeBytes field_element < MODULUS then return field_element
  else .error .invalidFieldElement

/-- `Blob::try_from(..).expect("is the right size")`, `encode.rs:37,55` -/
def to_blob (bytes : List UInt8) : Except BlobErr (List UInt8) :=
  if bytes.length = BYTES_PER_BLOB then .ok bytes else .error .panic

/-- `Vec::resize` -/
def resize (bytes : List UInt8) (n : Nat) : List UInt8 :=
  bytes.take n ++ List.replicate (n - bytes.length) 0

/-- The loop of `encode.rs:35-43`, over the variables `blobs` and `blob_buffer`. -/
def pack_chunks : List (List Bool) → List (List UInt8) → List UInt8 →
    Except BlobErr (List (List UInt8) × List UInt8)
  | [], blobs, blob_buffer => return (blobs, blob_buffer)
  | src :: rest, blobs, blob_buffer => do
    if blob_buffer.length = BYTES_PER_BLOB then
      let blob ← to_blob blob_buffer
      let field_element ← field_element_from_bits src
      pack_chunks rest (blobs ++ [blob]) field_element
    else
      let field_element ← field_element_from_bits src
      pack_chunks rest blobs (blob_buffer ++ field_element)

/-- `encode.rs:30-59` -/
def pack_into_blobs (buffer : List UInt8) : Except BlobErr (List (List UInt8)) := do
  let bits := bitsOf buffer
  let r ← pack_chunks (chunksExact BITS_PER_FIELD_ELEMENT bits) [] []
  if r.2.length % BYTES_PER_FIELD_ELEMENT = 0 then
    let remainder := chunksRemainder BITS_PER_FIELD_ELEMENT bits
    let blob_buffer ← if remainder = [] then pure r.2 else do
      let field_element ← field_element_from_bits remainder
      pure (r.2 ++ field_element)
    let blob ← to_blob (resize blob_buffer BYTES_PER_BLOB)
    return r.1 ++ [blob]
  else .error .panic

/-! ## `framing.rs` -/

/-- `framing.rs:7-14` -/
inductive Framing
  | Raw
  | Sized
  deriving DecidableEq, Repr

/-- `framing.rs:3` -/
def SIZED_FRAMING_VERSION : UInt8 := 0
/-- `framing.rs:4` -/
def HEADER_SIZE : Nat := 5

/-- `framing.rs:19-25` -/
def sized_header (data_byte_length : Nat) : Except BlobErr (List UInt8) :=
  if data_byte_length < 2 ^ 32 then
    return SIZED_FRAMING_VERSION :: beBytes32 data_byte_length
  else .error .invalidPayloadSize

/-- `framing.rs:29-45` -/
def payload_from_sized (stream : List UInt8) : Except BlobErr (List UInt8) :=
  if stream.length < HEADER_SIZE then .error .expectedHeaderForSizedFraming
  else
    let header := stream.take HEADER_SIZE
    let payload := stream.drop HEADER_SIZE
    if header.headD 0 ≠ SIZED_FRAMING_VERSION then .error .unsupportedSizedFramingVersion
    else
      let size := ofBeBytes (header.drop 1)
      if size ≥ stream.length then .error .invalidPayloadSize
      else if size ≤ payload.length then .ok (payload.take size)
      else .error .panic

/-- `from_reader`, `encode.rs:63-77`, on the bytes read -/
def encode (buffer : List UInt8) : Framing → Except BlobErr (List (List UInt8))
  | .Raw => pack_into_blobs buffer
  | .Sized => do
    let header ← sized_header buffer.length
    pack_into_blobs (header ++ buffer)

/-! ## `decode.rs` -/

/-- The loops of `decode.rs:14-29`: all serialized field elements of all blobs, in order. -/
def unpack_chunks : List (List Bool) → Nat → List Bool → Except BlobErr (List Bool)
  | [], _, stream_bits => return stream_bits
  | chunk :: rest, i, stream_bits => do
    let stream_bits ← copyAt stream_bits (i * BITS_PER_FIELD_ELEMENT) (chunk.drop 2)
    unpack_chunks rest (i + 1) stream_bits

/-- `decode.rs:10-32` -/
def unpack_from_blobs (blobs : List (List UInt8)) : Except BlobErr (List UInt8) := do
  let stream_bits := bitsOf (List.replicate (blobs.length * BYTES_PER_BLOB) 0)
  let chunks := blobs.flatMap fun blob =>
    chunksExact BITS_PER_SERIALIZED_FIELD_ELEMENT (bitsOf blob)
  let bits ← unpack_chunks chunks 0 stream_bits
  return bytesOf bits

/-- `to_writer_from_json`, `decode.rs:36-49`, on the blobs parsed -/
def decode (blobs : List (List UInt8)) (framing : Framing) : Except BlobErr (List UInt8) := do
  let result ← unpack_from_blobs blobs
  match framing with
  | .Raw => return result
  | .Sized => payload_from_sized result

end Verif.Blobs
