import Mathlib.Algebra.BigOperators.Fin
import Mathlib.Algebra.Module.Defs
import Mathlib.Data.ZMod.Basic
import Verif.Model.Blobs

/-! # KZG commitments

`ethereum-consensus/src/crypto/kzg.rs` and `ethereum-consensus/src/bin/ec/blobs/bundler.rs`. The
library `c-kzg`, which is not in the sandbox, is modelled from its published algorithm: the
arithmetic in the field of scalars as it is, the groups and the pairing as abstract modules, the
encodings of points and the hashes as functions. -/

namespace Verif.Kzg

open Blobs (MODULUS ofBeBytes)

abbrev Bytes := List UInt8

/-- The field of scalars, `fr_t` -/
abbrev Fr := ZMod MODULUS

/-- `c_kzg::FIELD_ELEMENTS_PER_BLOB` -/
def FIELD_ELEMENTS_PER_BLOB : Nat := 4096

/-- `c_kzg::BYTES_PER_BLOB` -/
def BYTES_PER_BLOB : Nat := 32 * FIELD_ELEMENTS_PER_BLOB

/-- A polynomial given by its values at the roots of unity, `Polynomial` of `c-kzg` -/
abbrev Evaluations := Fin FIELD_ELEMENTS_PER_BLOB → Fr

/-- `c_kzg::KzgSettings`, with what it takes to use them: the subgroups of prime order, the pairing,
the encodings (`bytes_from_g1`, and `validate_kzg_g1`, which refuses points outside the subgroup), the
hash of `compute_challenge` and the one of `compute_r_powers_for_verify_kzg_proof_batch`. -/
structure Settings where
  G1 : Type
  G2 : Type
  T : Type
  [group1 : AddCommGroup G1]
  [group2 : AddCommGroup G2]
  [groupT : AddCommGroup T]
  [module1 : Module Fr G1]
  [module2 : Module Fr G2]
  [decT : DecidableEq T]
  /-- `brp_roots_of_unity` -/
  roots : Fin FIELD_ELEMENTS_PER_BLOB → Fr
  /-- `g1_values_lagrange_brp` -/
  lagrange : Fin FIELD_ELEMENTS_PER_BLOB → G1
  generator1 : G1
  generator2 : G2
  /-- `g2_values_monomial[1]` -/
  tau2 : G2
  pairing : G1 → G2 → T
  point_to_bytes : G1 → Bytes
  point_from_bytes : Bytes → Option G1
  challenge : Bytes → G1 → Fr
  batch_challenge : List G1 → List Fr → List Fr → List G1 → Fr

attribute [instance] Settings.group1 Settings.group2 Settings.groupT Settings.module1
  Settings.module2 Settings.decT

/-- `kzg.rs:28-34`, with the errors of `c_kzg::Error` that can occur; `panic` stands for a Rust
panic. -/
inductive Err
  | InvalidBytesLength
  | MismatchLength
  | BadArgs
  | InvalidProof
  | panic
  deriving DecidableEq, Repr

variable (S : Settings)

/-! ## `c-kzg` -/

/-- `Blob::from_bytes`, `Bytes48::from_bytes`, `Bytes32::from_bytes`: the length is checked -/
def sized (n : Nat) (b : Bytes) : Except Err Bytes :=
  if b.length = n then .ok b else .error .InvalidBytesLength

/-- `bytes_to_bls_field`: refuses numbers that are not canonical -/
def bytes_to_bls_field (b : Bytes) : Except Err Fr :=
  if ofBeBytes b < MODULUS then .ok (ofBeBytes b : Fr) else .error .BadArgs

/-- `bytes_from_bls_field`: 32 bytes, big endian -/
def bytes_from_bls_field (x : Fr) : Bytes :=
  (List.range 32).map fun k => UInt8.ofNat (x.val / 256 ^ (31 - k))

/-- `bytes_to_kzg_commitment`, `bytes_to_kzg_proof` -/
def bytes_to_g1 (b : Bytes) : Except Err S.G1 :=
  match S.point_from_bytes b with
  | some p => .ok p
  | none => .error .BadArgs

/-- The `i`-th 32 bytes of a blob -/
def chunk (blob : Bytes) (i : Nat) : Bytes := (blob.drop (i * 32)).take 32

/-- `blob_to_polynomial` -/
def blob_to_polynomial (blob : Bytes) : Except Err Evaluations :=
  if ∀ i : Fin FIELD_ELEMENTS_PER_BLOB, ofBeBytes (chunk blob i) < MODULUS then
    .ok fun i => (ofBeBytes (chunk blob i) : Fr)
  else .error .BadArgs

/-- `g1_lincomb_fast` with the points of the setup -/
def lincomb (p : Evaluations) : S.G1 := ∑ i, p i • S.lagrange i

/-- The index of a root of unity, in the loops of `evaluate_polynomial_in_evaluation_form` and
`compute_kzg_proof_impl` -/
def rootIndex (z : Fr) : Option (Fin FIELD_ELEMENTS_PER_BLOB) :=
  (List.finRange FIELD_ELEMENTS_PER_BLOB).find? fun i => S.roots i = z

/-- `evaluate_polynomial_in_evaluation_form` -/
def evaluate (p : Evaluations) (z : Fr) : Fr :=
  match rootIndex S z with
  | some i => p i
  | none =>
    (∑ i, (z - S.roots i)⁻¹ * S.roots i * p i) * (FIELD_ELEMENTS_PER_BLOB : Fr)⁻¹ *
      (z ^ FIELD_ELEMENTS_PER_BLOB - 1)

/-- The quotient polynomial of `compute_kzg_proof_impl` -/
def quotient (p : Evaluations) (z y : Fr) : Evaluations := fun i =>
  if rootIndex S z = some i then
    ∑ j, if j = i then 0 else (p j - y) * S.roots j * ((z - S.roots j) * z)⁻¹
  else (p i - y) * (S.roots i - z)⁻¹

/-- `compute_kzg_proof_impl` -/
def compute_kzg_proof_impl (p : Evaluations) (z : Fr) : S.G1 × Fr :=
  let y := evaluate S p z
  (lincomb S (quotient S p z y), y)

/-- `verify_kzg_proof_impl`: `e(C - [y]₁, [1]₂) = e(π, [τ - z]₂)` -/
def verify_kzg_proof_impl (commitment : S.G1) (z y : Fr) (proof : S.G1) : Bool :=
  S.pairing (commitment - y • S.generator1) S.generator2 =
    S.pairing proof (S.tau2 - z • S.generator2)

/-- `KzgSettings::blob_to_kzg_commitment` -/
def ckzg_blob_to_kzg_commitment (blob : Bytes) : Except Err S.G1 := do
  let p ← blob_to_polynomial blob
  return lincomb S p

/-- `KzgSettings::compute_kzg_proof` -/
def ckzg_compute_kzg_proof (blob z_bytes : Bytes) : Except Err (S.G1 × Bytes) := do
  let p ← blob_to_polynomial blob
  let z ← bytes_to_bls_field z_bytes
  let (proof, y) := compute_kzg_proof_impl S p z
  return (proof, bytes_from_bls_field y)

/-- `KzgSettings::compute_blob_kzg_proof` -/
def ckzg_compute_blob_kzg_proof (blob commitment_bytes : Bytes) : Except Err S.G1 := do
  let commitment ← bytes_to_g1 S commitment_bytes
  let p ← blob_to_polynomial blob
  return (compute_kzg_proof_impl S p (S.challenge blob commitment)).1

/-- `KzgSettings::verify_kzg_proof` -/
def ckzg_verify_kzg_proof (commitment_bytes z_bytes y_bytes proof_bytes : Bytes) :
    Except Err Bool := do
  let commitment ← bytes_to_g1 S commitment_bytes
  let z ← bytes_to_bls_field z_bytes
  let y ← bytes_to_bls_field y_bytes
  let proof ← bytes_to_g1 S proof_bytes
  return verify_kzg_proof_impl S commitment z y proof

/-- `KzgSettings::verify_blob_kzg_proof` -/
def ckzg_verify_blob_kzg_proof (blob commitment_bytes proof_bytes : Bytes) : Except Err Bool := do
  let commitment ← bytes_to_g1 S commitment_bytes
  let p ← blob_to_polynomial blob
  let proof ← bytes_to_g1 S proof_bytes
  let z := S.challenge blob commitment
  return verify_kzg_proof_impl S commitment z (evaluate S p z) proof

/-- What is known of one blob of a batch -/
structure Item where
  commitment : S.G1
  z : Fr
  y : Fr
  proof : S.G1

/-- The loop of `verify_blob_kzg_proof_batch` -/
def batch_item (x : Bytes × Bytes × Bytes) : Except Err (Item S) := do
  let commitment ← bytes_to_g1 S x.2.1
  let p ← blob_to_polynomial x.1
  let z := S.challenge x.1 commitment
  let proof ← bytes_to_g1 S x.2.2
  return { commitment, z, y := evaluate S p z, proof }

/-- `Σ r^i • f x_i`, the linear combinations of `verify_kzg_proof_batch` -/
def powersum (r : Fr) (f : Item S → S.G1) : List (Item S) → S.G1
  | [] => 0
  | x :: rest => f x + r • powersum r f rest

/-- `verify_kzg_proof_batch`: with powers of `r`,
`e(Σ rⁱ πᵢ, [τ]₂) = e(Σ rⁱ (Cᵢ - [yᵢ]₁) + Σ rⁱ zᵢ πᵢ, [1]₂)` -/
def verify_kzg_proof_batch (items : List (Item S)) : Bool :=
  let r := S.batch_challenge (items.map (·.commitment)) (items.map (·.z)) (items.map (·.y))
    (items.map (·.proof))
  S.pairing (powersum S r (·.proof) items) S.tau2 =
    S.pairing (powersum S r (fun x => x.commitment - x.y • S.generator1) items +
      powersum S r (fun x => x.z • x.proof) items) S.generator2

/-- `KzgSettings::verify_blob_kzg_proof_batch`: the binding compares the lengths, and the library
has shortcuts for no blob and for one. -/
def ckzg_verify_blob_kzg_proof_batch (blobs commitments_bytes proofs_bytes : List Bytes) :
    Except Err Bool :=
  if blobs.length ≠ commitments_bytes.length then .error .MismatchLength
  else if blobs.length ≠ proofs_bytes.length then .error .MismatchLength
  else match blobs, commitments_bytes, proofs_bytes with
    | [], _, _ => .ok true
    | [b], [c], [p] => ckzg_verify_blob_kzg_proof S b c p
    | blobs, cs, ps => do
      let items ← (blobs.zip (cs.zip ps)).mapM (batch_item S)
      return verify_kzg_proof_batch S items

/-! ## `crypto/kzg.rs` -/

/-- `kzg.rs:13-14` -/
def BYTES_PER_COMMITMENT : Nat := 48
def BYTES_PER_PROOF : Nat := 48

/-- `.expect("correct size")`, `.unwrap()` -/
def expect {α : Type} : Except Err α → Except Err α
  | .ok a => .ok a
  | .error _ => .error .panic

/-- `res.then_some(()).ok_or(Error::InvalidProof)` -/
def accepted (res : Bool) : Except Err Unit := if res then .ok () else .error .InvalidProof

/-- `kzg.rs:36-40` -/
structure ProofAndEvaluation where
  proof : Bytes
  evaluation : Bytes
  deriving DecidableEq

/-- `kzg.rs:42-51` -/
def blob_to_kzg_commitment (blob : Bytes) : Except Err Bytes := do
  let blob ← sized BYTES_PER_BLOB blob
  let commitment ← ckzg_blob_to_kzg_commitment S blob
  expect (sized BYTES_PER_COMMITMENT (S.point_to_bytes commitment))

/-- `kzg.rs:53-67` -/
def compute_kzg_proof (blob evaluation_point : Bytes) : Except Err ProofAndEvaluation := do
  let blob ← sized BYTES_PER_BLOB blob
  let evaluation_point ← sized 32 evaluation_point
  let (proof, evaluation) ← ckzg_compute_kzg_proof S blob evaluation_point
  let proof ← expect (sized BYTES_PER_PROOF (S.point_to_bytes proof))
  let evaluation ← expect (sized 32 evaluation)
  return { proof, evaluation }

/-- `kzg.rs:69-80` -/
def compute_blob_kzg_proof (blob commitment : Bytes) : Except Err Bytes := do
  let blob ← sized BYTES_PER_BLOB blob
  let commitment ← expect (sized 48 commitment)
  let proof ← ckzg_compute_blob_kzg_proof S blob commitment
  expect (sized BYTES_PER_PROOF (S.point_to_bytes proof))

/-- `kzg.rs:82-99` -/
def verify_kzg_proof (commitment evaluation_point result_point proof : Bytes) :
    Except Err Unit := do
  let evaluation_point ← sized 32 evaluation_point
  let result_point ← sized 32 result_point
  let commitment ← expect (sized 48 commitment)
  let proof ← expect (sized 48 proof)
  let res ← ckzg_verify_kzg_proof S commitment evaluation_point result_point proof
  accepted res

/-- `kzg.rs:101-114` -/
def verify_blob_kzg_proof (blob commitment proof : Bytes) : Except Err Unit := do
  let blob ← sized BYTES_PER_BLOB blob
  let commitment ← expect (sized 48 commitment)
  let proof ← expect (sized 48 proof)
  let res ← ckzg_verify_blob_kzg_proof S blob commitment proof
  accepted res

/-- `kzg.rs:116-146` -/
def verify_blob_kzg_proof_batch (blobs commitments proofs : List Bytes) : Except Err Unit := do
  let c_kzg_blobs ← blobs.mapM (sized BYTES_PER_BLOB)
  let c_kzg_commitments ← commitments.mapM fun c => expect (sized 48 c)
  let c_kzg_proofs ← proofs.mapM fun p => expect (sized 48 p)
  let res ← ckzg_verify_blob_kzg_proof_batch S c_kzg_blobs c_kzg_commitments c_kzg_proofs
  accepted res

/-! ## `bin/ec/blobs/bundler.rs` -/

/-- `deneb::mainnet::BlobsBundle`, `deneb/blob_sidecar.rs` -/
structure BlobsBundle where
  commitments : List Bytes
  proofs : List Bytes
  blobs : List Bytes
  deriving DecidableEq

/-- `bundler.rs:13-20` -/
def commit_and_prove_blob (blob : Bytes) : Except Err (Bytes × Bytes) := do
  let commitment ← blob_to_kzg_commitment S blob
  let proof ← compute_blob_kzg_proof S blob commitment
  return (commitment, proof)

/-- `bundler.rs:22-39` -/
def bundle (blobs : List Bytes) : Except Err BlobsBundle := do
  let commitments_and_proofs ← blobs.mapM (commit_and_prove_blob S)
  let (commitments, proofs) := commitments_and_proofs.unzip
  verify_blob_kzg_proof_batch S blobs commitments proofs
  return { commitments, proofs, blobs }

end Verif.Kzg
