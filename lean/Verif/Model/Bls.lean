import Mathlib.Algebra.Group.Subgroup.Defs

/-! # BLS signatures

`ethereum-consensus/src/crypto/bls.rs` and `ethereum-consensus/src/signing.rs`. The curve is abstract:
two groups of points with subgroups that a pairing acts on, compressed encodings of the points, and a
hash onto the second subgroup. The functions of `blst::min_pk` are modelled on top of it, from its
documentation. -/

namespace Verif.Bls

abbrev Bytes := List UInt8

/-- What `blst` computes with: the points of the two curves, the subgroups of prime order `r`, the
pairing, the encodings and the hash of messages to points (with the fixed `BLS_DST`). -/
structure Curve where
  P1 : Type
  P2 : Type
  T : Type
  [group1 : AddCommGroup P1]
  [group2 : AddCommGroup P2]
  [groupT : CommGroup T]
  S1 : AddSubgroup P1
  S2 : AddSubgroup P2
  [dec1 : DecidableEq P1]
  [decT : DecidableEq T]
  [mem1 : DecidablePred (· ∈ S1)]
  [mem2 : DecidablePred (· ∈ S2)]
  r : Nat
  generator : P1
  pairing : P1 → P2 → T
  hash_to : Bytes → P2
  compress1 : P1 → Bytes
  compress2 : P2 → Bytes
  uncompress1 : Bytes → Option P1
  uncompress2 : Bytes → Option P2

attribute [instance] Curve.group1 Curve.group2 Curve.groupT Curve.dec1 Curve.decT Curve.mem1
  Curve.mem2

/-- `crypto/bls.rs:28-44`, with the errors of `BLST_ERROR` -/
inductive Err
  | EmptyAggregate
  | SimpleSerialize
  | BadEncoding
  | PointNotInGroup
  | AggrTypeMismatch
  | VerifyFail
  | PkIsInfinity
  | BadScalar
  | InvalidSignature
  deriving DecidableEq, Repr

variable (C : Curve)

/-! ## `blst::min_pk` -/

/-- `PublicKey::validate` -/
def validate (p : C.P1) : Except Err Unit :=
  if p = 0 then .error .PkIsInfinity
  else if p ∈ C.S1 then .ok () else .error .PointNotInGroup

/-- `PublicKey::key_validate` -/
def key_validate (pk : Bytes) : Except Err C.P1 := do
  match C.uncompress1 pk with
  | none => throw .BadEncoding
  | some p => do
    validate C p
    return p

/-- `Signature::from_bytes`: the point is on the curve; the subgroup is not checked -/
def sig_from_bytes (s : Bytes) : Except Err C.P2 :=
  match C.uncompress2 s with
  | none => .error .BadEncoding
  | some q => .ok q

/-- `Signature::verify` with both checks: `e(pk, H(msg)) = e(g, sig)` -/
def blst_verify (sig : C.P2) (msg : Bytes) (pk : C.P1) : Except Err Unit := do
  if sig ∉ C.S2 then throw .PointNotInGroup
  validate C pk
  if C.pairing pk (C.hash_to msg) = C.pairing C.generator sig then return () else throw .VerifyFail

/-- `AggregateSignature::aggregate` with the check of the subgroup -/
def blst_aggregate (sigs : List C.P2) : Except Err C.P2 :=
  if sigs.isEmpty then .error .AggrTypeMismatch
  else if sigs.all (· ∈ C.S2) then .ok sigs.sum else .error .PointNotInGroup

/-- `AggregatePublicKey::aggregate`, with validation of the keys or without -/
def blst_aggregate_keys (pks : List C.P1) (check : Bool) : Except Err C.P1 := do
  if pks.isEmpty then throw .AggrTypeMismatch
  if check then pks.forM fun p => validate C p
  return pks.sum

/-- The pairings of `Signature::aggregate_verify`: a key at infinity is an error, and the others are
validated only if asked. -/
def pairings (check : Bool) : List C.P1 → List Bytes → Except Err C.T
  | p :: ps, m :: ms => do
    if p = 0 then throw .PkIsInfinity
    if check then validate C p
    return C.pairing p (C.hash_to m) * (← pairings check ps ms)
  | _, _ => return 1

/-- `Signature::aggregate_verify` with the check of the signature -/
def blst_aggregate_verify (sig : C.P2) (msgs : List Bytes) (pks : List C.P1) (check : Bool) :
    Except Err Unit := do
  if pks.isEmpty ∨ msgs.length ≠ pks.length then throw .VerifyFail
  if sig ∉ C.S2 then throw .PointNotInGroup
  let t ← pairings C check pks msgs
  if t = C.pairing C.generator sig then return () else throw .VerifyFail

/-- `Signature::fast_aggregate_verify` with the check of the signature -/
def blst_fast_aggregate_verify (sig : C.P2) (msg : Bytes) (pks : List C.P1) : Except Err Unit := do
  let pk ← blst_aggregate_keys C pks false
  blst_aggregate_verify C sig [msg] [pk] false

/-! ## `crypto/bls.rs` -/

/-- Lines 23, 24, 25 -/
def BLS_PUBLIC_KEY_BYTES_LEN : Nat := 48
def BLS_SECRET_KEY_BYTES_LEN : Nat := 32
def BLS_SIGNATURE_BYTES_LEN : Nat := 96

/-- Every error of `blst` becomes `InvalidSignature`, lines 72-76, 107-111, 127-131. -/
def invalid : Except Err Unit → Except Err Unit
  | .ok () => .ok ()
  | .error _ => .error .InvalidSignature

/-- Lines 64-77 -/
def verify_signature (public_key msg signature : Bytes) : Except Err Unit := do
  let public_key ← key_validate C public_key
  let signature ← sig_from_bytes C signature
  invalid (blst_verify C signature msg public_key)

/-- Lines 79-93 -/
def aggregate (signatures : List Bytes) : Except Err Bytes := do
  if signatures.isEmpty then throw .EmptyAggregate
  let signatures ← signatures.mapM (sig_from_bytes C)
  let s ← blst_aggregate C signatures
  return C.compress2 s

/-- Lines 95-112 -/
def aggregate_verify (public_keys msgs : List Bytes) (signature : Bytes) : Except Err Unit := do
  let public_keys ← public_keys.mapM (key_validate C)
  let signature ← sig_from_bytes C signature
  invalid (blst_aggregate_verify C signature msgs public_keys true)

/-- Lines 114-132 -/
def fast_aggregate_verify (public_keys : List Bytes) (msg signature : Bytes) : Except Err Unit := do
  let public_keys ← public_keys.mapM (key_validate C)
  let signature ← sig_from_bytes C signature
  invalid (blst_fast_aggregate_verify C signature msg public_keys)

/-- Lines 135-148 -/
def eth_aggregate_public_keys (public_keys : List Bytes) : Except Err Bytes := do
  if public_keys.isEmpty then throw .EmptyAggregate
  let public_keys ← public_keys.mapM (key_validate C)
  let pk ← blst_aggregate_keys C public_keys true
  return C.compress1 pk

/-- Lines 349-354 -/
def INFINITY_COMPRESSED_SIGNATURE : Bytes := 192 :: List.replicate 95 0

/-- Lines 357-359 -/
def is_infinity (signature : Bytes) : Bool := signature = INFINITY_COMPRESSED_SIGNATURE

/-- Lines 150-160 -/
def eth_fast_aggregate_verify (public_keys : List Bytes) (message signature : Bytes) :
    Except Err Unit :=
  if public_keys.isEmpty && is_infinity signature then .ok ()
  else fast_aggregate_verify C public_keys message signature

/-- A secret key: a scalar. `SecretKey::try_from` (lines 191-201) takes 32 bytes, big endian, that
are neither zero nor `r` or more (`blst`, `SecretKey::from_bytes`). -/
def SecretKey : Type := {k : Nat // 0 < k ∧ k < C.r}

/-- `SecretKey::public_key`, lines 215-218 -/
def public_key (sk : SecretKey C) : Bytes := C.compress1 (sk.val • C.generator)

/-- `SecretKey::sign`, lines 220-223 -/
def sign (sk : SecretKey C) (msg : Bytes) : Bytes := C.compress2 (sk.val • C.hash_to msg)

/-! ## `signing.rs` -/

/-- Lines 14-22; the root of the object is an argument, and the root of `SigningData` is a function
of the two roots. -/
def compute_signing_root (hash : Bytes → Bytes → Bytes) (object_root domain : Bytes) : Bytes :=
  hash object_root domain

/-- Lines 24-31 -/
def sign_with_domain (hash : Bytes → Bytes → Bytes) (object_root : Bytes) (signing_key : SecretKey C)
    (domain : Bytes) : Bytes :=
  sign C signing_key (compute_signing_root hash object_root domain)

/-- Lines 33-41 -/
def verify_signed_data (hash : Bytes → Bytes → Bytes) (object_root signature public_key domain : Bytes) :
    Except Err Unit :=
  verify_signature C public_key (compute_signing_root hash object_root domain) signature

end Verif.Bls
