import Mathlib.LinearAlgebra.Lagrange
import Verif.Model.Kzg
import Verif.Proofs.Modulus
import Verif.Spec.Blobs

/-! # What KZG commitments are -/

namespace Verif.Spec

open Kzg Polynomial
open Blobs (ofBeBytes)

/-- The mathematics of a trusted setup with secret `τ`: the points are distinct roots of unity, the
setup holds the Lagrange polynomials of these at `τ`, the pairing is bilinear and not degenerate, and
each point has exactly one encoding, of 48 bytes. -/
structure SoundSetup (S : Settings) (τ : Fr) : Prop where
  distinct : Function.Injective S.roots
  unity : ∀ i, S.roots i ^ 4096 = 1
  lagrange : ∀ i, S.lagrange i = (Lagrange.basis Finset.univ S.roots i).eval τ • S.generator1
  tau : S.tau2 = τ • S.generator2
  add_left : ∀ p p' q, S.pairing (p + p') q = S.pairing p q + S.pairing p' q
  scalar : ∀ p (x : Fr), S.pairing p (x • S.generator2) = S.pairing (x • p) S.generator2
  nondegenerate : ∀ p, S.pairing p S.generator2 = 0 → p = 0
  size : ∀ p, (S.point_to_bytes p).length = 48
  encoding : ∀ b p, S.point_from_bytes b = some p ↔ S.point_to_bytes p = b

/-- The polynomial of a blob: of degree below 4096, and its values at the roots of unity are the
elements of the blob. -/
def Represents (S : Settings) (blob : List UInt8) (p : Fr[X]) : Prop :=
  p.degree < (4096 : Nat) ∧
    ∀ i : Fin 4096, p.eval (S.roots i) = (ofBeBytes ((blob.drop (i * 32)).take 32) : Fr)

/-- The 32 bytes of a scalar, big endian and below the modulus -/
def Encodes (b : List UInt8) (x : Fr) : Prop := b.length = 32 ∧ ofBeBytes b = x.val

/-- The point that commits to a polynomial -/
def commitTo (S : Settings) (τ : Fr) (p : Fr[X]) : S.G1 := p.eval τ • S.generator1

/-- What a proof `π` has to satisfy to show that a committed polynomial has value `y` at `z` -/
def Proves (S : Settings) (τ : Fr) (c : S.G1) (z y : Fr) (π : S.G1) : Prop :=
  (τ - z) • π = c - y • S.generator1

/-- The same setup, with another outcome of the hash that combines the proofs of a batch -/
def withChallenge (S : Settings) (r : Fr) : Settings :=
  { S with batch_challenge := fun _ _ _ _ => r }

end Verif.Spec
