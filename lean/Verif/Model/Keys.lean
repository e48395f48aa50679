import Verif.Model.Blobs
import Verif.Model.Text

/-!
# `ec validator`: key derivation and keystores (`bin/ec/validator/`)

The cryptographic primitives are arbitrary functions of the right sizes. Random choices (salt,
initialisation vector, passphrase, uuid) are arguments. Mnemonics and printing are not modelled.
-/

namespace Verif.Keys

open Blobs Text

/-- The primitives: SHA-256, HKDF-SHA-256 (extract with `salt` and `ikm`, then expand `info` to
`len` bytes), scrypt with 32 bytes of output, one block of AES-128, and the Unicode functions
`nfkd` and `char::is_control`. -/
structure Primitives where
  hash : List UInt8 → List UInt8
  hkdf : (salt ikm info : List UInt8) → (len : Nat) → List UInt8
  scrypt : (passphrase : List Char) → (salt : List UInt8) → (n r p : Nat) → List UInt8
  aes : (key block : List UInt8) → List UInt8
  nfkd : List Char → List Char
  is_control : Char → Bool
  hash_length : ∀ x, (hash x).length = 32
  hkdf_length : ∀ s i t n, (hkdf s i t n).length = n
  scrypt_length : ∀ x s n r p, (scrypt x s n r p).length = 32
  aes_length : ∀ k b, (aes k b).length = 16

/-- `diverges` stands for a loop that does not end within the fuel, `panic` for a Rust panic. -/
inductive KeyErr
  | diverges
  | panic
  deriving DecidableEq, Repr

/-! ## `keys.rs` -/

/-- `keys.rs:8`, the ASCII bytes of `BLS-SIG-KEYGEN-SALT-` -/
def SALT : List UInt8 :=
  [66, 76, 83, 45, 83, 73, 71, 45, 75, 69, 89, 71, 69, 78, 45, 83, 65, 76, 84, 45]

/-- `keys.rs:9` -/
def L : Nat := 48
/-- `keys.rs:10` -/
def K : Nat := 32
/-- `keys.rs:11` -/
def LAMPORT_COUNT : Nat := 255
/-- `keys.rs:12` -/
def LAMPORT_L : Nat := K * LAMPORT_COUNT

/-- `to_be_bytes` of a number that fits `n` bytes -/
def toBeBytes (n x : Nat) : List UInt8 :=
  (List.range n).map fun k => UInt8.ofNat (x / 256 ^ (n - 1 - k))

/-- `keys.rs:30-35` -/
def bytes_split (n : Nat) (input : List UInt8) : List (List UInt8) := chunksExact n input

/-- `keys.rs:37-41` -/
def ikm_to_lamport_secret_key (P : Primitives) (ikm salt : List UInt8) : List (List UInt8) :=
  bytes_split K (P.hkdf salt ikm [] LAMPORT_L)

/-- `keys.rs:43-45` -/
def flip_bits (input : List UInt8) : List UInt8 := input.map (~~~ ·)

/-- `keys.rs:47-65` -/
def parent_key_to_lamport_public_key (P : Primitives) (key index : Nat) : List UInt8 :=
  let salt := toBeBytes 4 index
  let ikm := toBeBytes 32 key
  let lamport_0 := ikm_to_lamport_secret_key P ikm salt
  let not_ikm := flip_bits ikm
  let lamport_1 := ikm_to_lamport_secret_key P not_ikm salt
  P.hash ((lamport_0.map P.hash).flatten ++ (lamport_1.map P.hash).flatten)

/-- The loop of `hkdf_mod_r`, `keys.rs:78-86`, with the salt of the next iteration; `fuel` bounds
the number of iterations. -/
def hkdf_loop (P : Primitives) (ikm key_info : List UInt8) : Nat → List UInt8 → Except KeyErr Nat
  | 0, _ => .error .diverges
  | fuel + 1, salt =>
    let okm := P.hkdf salt ikm key_info L
    let key := ofBeBytes okm % MODULUS
    if key = 0 then hkdf_loop P ikm key_info fuel (P.hash salt) else .ok key

/-- `keys.rs:67-93`. The last step keeps the low 32 of the 48 bytes of the result. -/
def hkdf_mod_r (P : Primitives) (fuel : Nat) (input : List UInt8) : Except KeyErr Nat := do
  let salt := P.hash SALT
  let key_info := [0, UInt8.ofNat L]
  let ikm := input ++ [0]
  let key ← hkdf_loop P ikm key_info fuel salt
  let key_bytes := toBeBytes L key
  return ofBeBytes (key_bytes.drop 16)

/-- `keys.rs:95-98` -/
def derive_child_key (P : Primitives) (fuel : Nat) (parent_key index : Nat) : Except KeyErr Nat :=
  hkdf_mod_r P fuel (parent_key_to_lamport_public_key P parent_key index)

/-- `keys.rs:100-102` -/
def derive_master_sk (P : Primitives) (fuel : Nat) (seed : List UInt8) : Except KeyErr Nat :=
  hkdf_mod_r P fuel seed

/-- `SecretKey: TryFrom<&[u8]>`, `crypto/bls.rs:191-201`: the library accepts exactly the 32-byte
big-endian encodings of the scalars from 1 to the group order less one. A secret key is its scalar. -/
def secret_key_try_from (bytes : List UInt8) : Option Nat :=
  let x := ofBeBytes bytes
  if bytes.length = 32 ∧ 0 < x ∧ x < MODULUS then some x else none

/-- `keys.rs:104-107` -/
def to_bls_secret_key (key : Nat) : Except KeyErr Nat :=
  match secret_key_try_from (toBeBytes 32 key) with
  | some k => .ok k
  | none => .error .panic

/-- `keys.rs:17-22`, without the public key, which is computed from the private key -/
structure KeyPair where
  private_key : Nat
  path : List Char
  deriving DecidableEq, Repr

/-- `keys.rs:109-113` -/
def to_key_pair (key : Nat) (path : List Char) : Except KeyErr KeyPair := do
  let private_key ← to_bls_secret_key key
  return { private_key, path }

/-- `keys.rs:115-125` -/
def derive_validator_keys (P : Primitives) (fuel : Nat) (root_key index : Nat) :
    Except KeyErr (KeyPair × KeyPair) := do
  let withdrawal_key ← [12381, 3600, index, 0].foldlM (derive_child_key P fuel) root_key
  let signing_key ← derive_child_key P fuel withdrawal_key 0
  let signing ← to_key_pair signing_key ("m/12381/3600/".toList ++ decimal index ++ "/0/0".toList)
  let withdrawal ← to_key_pair withdrawal_key
    ("m/12381/3600/".toList ++ decimal index ++ "/0".toList)
  return (signing, withdrawal)

/-- `keys.rs:127-130`. The parallel map keeps the order of the indices, and the keys of different
indices do not depend on each other. -/
def generate (P : Primitives) (fuel : Nat) (seed : List UInt8) (start stop : Nat) :
    Except KeyErr (List KeyPair × List KeyPair) := do
  let root_key ← derive_master_sk P fuel seed
  let pairs ← (List.range' start (stop - start)).mapM (derive_validator_keys P fuel root_key)
  return pairs.unzip

/-! ## `keystores.rs` -/

/-- `KdfParams` and `Kdf`, `keystores.rs:53-69`, without the constant names. `message` is the
derived key; it is not written to the keystore (`empty_string`, `keystores.rs:24-29`). -/
structure Kdf where
  n : Nat
  r : Nat
  p : Nat
  salt : List UInt8
  message : List UInt8

/-- `Kdf::new_with_salt_and_params`, `keystores.rs:72-91` -/
def Kdf.new_with_salt_and_params (P : Primitives) (passphrase : List Char) (salt : List UInt8)
    (n r p : Nat) : Kdf :=
  let passphrase := (P.nfkd passphrase).filter fun c => !P.is_control c
  { n, r, p, salt, message := P.scrypt passphrase salt n r p }

/-- `keystores.rs:101-103` -/
def Kdf.encryption_key (kdf : Kdf) : List UInt8 := kdf.message.take 16

/-- `keystores.rs:105-107` -/
def Kdf.checksum_salt (kdf : Kdf) : List UInt8 := kdf.message.drop 16

/-- `CipherParams` and `Cipher`, `keystores.rs:110-122` -/
structure Cipher where
  iv : List UInt8
  message : List UInt8

/-- Block `i` of the key stream of `ctr::Ctr64BE`: the last 64 bits of the initialisation vector
are a counter that wraps around by itself. -/
def keystream_block (P : Primitives) (key iv : List UInt8) (i : Nat) : List UInt8 :=
  P.aes key (iv.take 8 ++ toBeBytes 8 ((ofBeBytes (iv.drop 8) + i) % 2 ^ 64))

/-- `apply_keystream` -/
def apply_keystream (P : Primitives) (key iv message : List UInt8) : List UInt8 :=
  List.zipWith (· ^^^ ·) message
    ((List.range (message.length / 16 + 1)).map (keystream_block P key iv)).flatten

/-- `Cipher::new_with_iv`, `keystores.rs:125-132` -/
def Cipher.new_with_iv (P : Primitives) (secret : Nat) (key iv : List UInt8) : Cipher :=
  { iv, message := apply_keystream P key iv (toBeBytes 32 secret) }

/-- `Checksum::new`, `keystores.rs:157-162` -/
def checksum (P : Primitives) (secret salt : List UInt8) : List UInt8 := P.hash (salt ++ secret)

/-- `Crypto` and `Keystore`, `keystores.rs:165-189`, without public key, uuid and version -/
structure Keystore where
  kdf : Kdf
  checksum : List UInt8
  cipher : Cipher
  path : List Char

/-- `Crypto::from`, `keystores.rs:173-178`, and `Keystore::new`, `keystores.rs:199-207` -/
def Keystore.new (P : Primitives) (pair : KeyPair) (passphrase : List Char)
    (salt iv : List UInt8) (n r p : Nat) : Keystore :=
  let kdf := Kdf.new_with_salt_and_params P passphrase salt n r p
  let cipher := Cipher.new_with_iv P pair.private_key kdf.encryption_key iv
  { kdf, checksum := Keys.checksum P cipher.message kdf.checksum_salt, cipher, path := pair.path }

end Verif.Keys
