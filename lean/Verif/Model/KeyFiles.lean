import Verif.Model.Keys
import Verif.Model.Json

/-!
# `ec validator generate-lighthouse-keystores`: what it prints (`bin/ec/validator/`)

The mnemonic is modelled by the seed it stands for (`mnemonic.rs`, which calls the crate `bip39`),
the text of a JSON value by an arbitrary function (`serde_json`), and the public key of a secret key
by another. What the program draws at random is an argument.
-/

namespace Verif.Keys

open Text Json

/-- `as_hex`, `keystores.rs:16-22` -/
def as_hex (data : List UInt8) : Json := .str (write_hex_from_bytes data)

/-- `empty_string`, `keystores.rs:24-29` -/
def empty_string (_ : List UInt8) : Json := .str []

/-- The derived `Serialize` of `Kdf` and `KdfParams`, `keystores.rs:53-69`. The function is that of
`KDF_FN`, `keystores.rs:44`, and the length of the key `SCRYPT_DKLEN`, `keystores.rs:45`. -/
def Kdf.to_json (kdf : Kdf) : Json :=
  .obj [("function", .str "scrypt".toList),
    ("params", .obj [("n", .num kdf.n), ("r", .num kdf.r), ("p", .num kdf.p), ("dklen", .num 32),
      ("salt", as_hex kdf.salt)]),
    ("message", empty_string kdf.message)]

/-- The derived `Serialize` of `Cipher` and `CipherParams`, `keystores.rs:110-122`; `CIPHER_FN`,
`keystores.rs:47` -/
def Cipher.to_json (cipher : Cipher) : Json :=
  .obj [("function", .str "aes-128-ctr".toList), ("params", .obj [("iv", as_hex cipher.iv)]),
    ("message", as_hex cipher.message)]

/-- The derived `Serialize` of `Checksum`, `keystores.rs:148-154`; `CHECKSUM_FN`,
`keystores.rs:51` -/
def checksum_to_json (message : List UInt8) : Json :=
  .obj [("function", .str "sha256".toList), ("params", .obj []), ("message", as_hex message)]

/-- The derived `Serialize` of `Keystore` and `Crypto`, `keystores.rs:165-189`, with the public key
and the uuid; `VERSION`, `keystores.rs:42` -/
def Keystore.to_json (ks : Keystore) (public_key : List UInt8) (uuid : List Char) : Json :=
  .obj [("crypto", .obj [("kdf", ks.kdf.to_json), ("checksum", checksum_to_json ks.checksum),
      ("cipher", ks.cipher.to_json)]),
    ("pubkey", .str (write_bytes_to_lower_hex public_key)),
    ("path", .str ks.path),
    ("uuid", .str uuid),
    ("version", .num 4)]

/-- What is drawn at random for one keystore: the bytes of the passphrase, `keystores.rs:193-194`, the
salt, `keystores.rs:94`, the initialisation vector, `keystores.rs:135-136`, and the uuid,
`keystores.rs:204` -/
structure Draw where
  passphrase : List UInt8
  salt : List UInt8
  iv : List UInt8
  uuid : List Char

/-- `Params::recommended` of the crate `scrypt`, `keystores.rs:96` -/
structure ScryptParams where
  n : Nat
  r : Nat
  p : Nat

/-- What the program is linked with: the text of a JSON value and the public key of a secret key -/
structure Links where
  print : Json → List Char
  public_key : Nat → List UInt8
  recommended : ScryptParams

/-- `Keystore::new_with_generated_passphrase`, `keystores.rs:192-197` -/
def new_with_generated_passphrase (P : Primitives) (K : Links) (pair : KeyPair) (d : Draw) :
    Json × List Char :=
  let passphrase := write_hex_from_bytes d.passphrase
  let ks := Keystore.new P pair passphrase d.salt d.iv K.recommended.n K.recommended.r
    K.recommended.p
  (ks.to_json (K.public_key pair.private_key) d.uuid, passphrase)

/-- The derived `Serialize` of `KeystoreWithPassphrase`, `keystores.rs:210-219`, with `as_json_str`,
`keystores.rs:31-37` -/
def with_passphrase_to_json (K : Links) (keystore : Json) (passphrase : List Char) : Json :=
  .obj [("voting_keystore", .str (K.print keystore)), ("voting_keystore_password", .str passphrase)]

/-- `keystores::generate`, `keystores.rs:221-228`. The parallel map keeps the order; the draws for the
`k`-th keystore are `draws k`. -/
def generate_keystores (P : Primitives) (K : Links) (draws : Nat → Draw) (keys : List KeyPair) :
    List Json :=
  keys.mapIdx fun k pair =>
    let (keystore, passphrase) := new_with_generated_passphrase P K pair (draws k)
    with_passphrase_to_json K keystore passphrase

/-- `Command::execute` for `GenerateLighthouseKeystores`, `mod.rs:38-45`: the value that is printed,
for the seed of the phrase -/
def generate_lighthouse_keystores (P : Primitives) (K : Links) (draws : Nat → Draw) (fuel : Nat)
    (seed : List UInt8) (start stop : Nat) : Except KeyErr Json := do
  let (signing_keys, _) ← generate P fuel seed start stop
  return .arr (generate_keystores P K draws signing_keys)

end Verif.Keys
