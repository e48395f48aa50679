import Verif.Spec.Keys
import Verif.Model.Json

/-! # Reading a keystore file as EIP-2335 defines it -/

namespace Verif.Spec

open Blobs Keys Text Json

/-- What a path of names leads to in a JSON value. -/
def at? : List String → Json → Option Json
  | [], j => some j
  | n :: path, .obj ms => (lookup n ms).bind (at? path)
  | _ :: _, _ => none

def numAt (path : List String) (j : Json) : Option Nat :=
  match at? path j with
  | some (.num n) => some n
  | _ => none

def textAt (path : List String) (j : Json) : Option (List Char) :=
  match at? path j with
  | some (.str s) => some s
  | _ => none

/-- Bytes are written in hexadecimal, without a prefix. -/
def bytesAt (path : List String) (j : Json) : Option (List UInt8) :=
  (textAt path j).bind hexDecode

/-- EIP-2335: the secret that a keystore file of version 4 holds, which uses scrypt, SHA-256 and
AES-128-CTR, given its password. -/
def openFile (P : Primitives) (j : Json) (password : List Char) : Option (List UInt8) := do
  guard (numAt ["version"] j = some 4)
  guard (textAt ["crypto", "kdf", "function"] j = some "scrypt".toList)
  guard (textAt ["crypto", "checksum", "function"] j = some "sha256".toList)
  guard (textAt ["crypto", "cipher", "function"] j = some "aes-128-ctr".toList)
  guard (numAt ["crypto", "kdf", "params", "dklen"] j = some 32)
  let n ← numAt ["crypto", "kdf", "params", "n"] j
  let r ← numAt ["crypto", "kdf", "params", "r"] j
  let p ← numAt ["crypto", "kdf", "params", "p"] j
  let salt ← bytesAt ["crypto", "kdf", "params", "salt"] j
  let sum ← bytesAt ["crypto", "checksum", "message"] j
  let iv ← bytesAt ["crypto", "cipher", "params", "iv"] j
  let message ← bytesAt ["crypto", "cipher", "message"] j
  let clean := (P.nfkd password).filter fun c => !P.is_control c
  let dk := P.scrypt clean salt n r p
  guard (P.hash (dk.drop 16 ++ message) = sum)
  return List.zipWith (· ^^^ ·) message
    (ctrBlock P (dk.take 16) iv 0 ++ ctrBlock P (dk.take 16) iv 1)

end Verif.Spec
