import Mathlib.Logic.Function.Iterate
import Verif.Model.Keys

/-! # Key derivation and keystores as their standards define them -/

namespace Verif.Spec

open Blobs Keys

/-- EIP-2333: the salt of attempt `i` (from 0) is the starting salt hashed `i + 1` times. -/
def keygenSalt (P : Primitives) (i : Nat) : List UInt8 := P.hash^[i + 1] SALT

/-- EIP-2333: the candidate of attempt `i`. -/
def keyCandidate (P : Primitives) (input : List UInt8) (i : Nat) : Nat :=
  ofBeBytes (P.hkdf (keygenSalt P i) (input ++ [0]) [0, 48] 48) % MODULUS

/-- EIP-2333 `hkdf_mod_r`: the first candidate that is not zero. -/
def FirstNonzero (P : Primitives) (input : List UInt8) (k : Nat) : Prop :=
  ∃ i, keyCandidate P input i = k ∧ k ≠ 0 ∧ ∀ j < i, keyCandidate P input j = 0

/-- EIP-2333: `key` is reached from `parent` along a path of child indices. -/
inductive DerivedAlong (P : Primitives) : Nat → List Nat → Nat → Prop
  | here (key : Nat) : DerivedAlong P key [] key
  | child (parent index key : Nat) (path : List Nat) (last : Nat) :
      FirstNonzero P (parent_key_to_lamport_public_key P parent index) key →
      DerivedAlong P key path last → DerivedAlong P parent (index :: path) last

/-- AES-128-CTR as EIP-2335 uses it: the whole initialisation vector is the counter. -/
def ctrBlock (P : Primitives) (key iv : List UInt8) (i : Nat) : List UInt8 :=
  P.aes key (toBeBytes 16 ((ofBeBytes iv + i) % 2 ^ 128))

/-- EIP-2335: open a keystore with a passphrase, from what is written in it. Fails when the checksum
does not match. -/
def openKeystore (P : Primitives) (ks : Keystore) (passphrase : List Char) : Option (List UInt8) :=
  let clean := (P.nfkd passphrase).filter fun c => !P.is_control c
  let dk := P.scrypt clean ks.kdf.salt ks.kdf.n ks.kdf.r ks.kdf.p
  if P.hash (dk.drop 16 ++ ks.cipher.message) = ks.checksum then
    some (List.zipWith (· ^^^ ·) ks.cipher.message
      (ctrBlock P (dk.take 16) ks.cipher.iv 0 ++ ctrBlock P (dk.take 16) ks.cipher.iv 1))
  else none

end Verif.Spec
