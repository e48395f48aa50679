import Mathlib.Data.Nat.Prime.Defs
import Verif.Model.Bls

/-! # What is assumed of the curve -/

namespace Verif.Spec

open Bls

/-- The mathematics of BLS12-381 and of its encodings: the subgroups have the prime order `r`, the
pairing is bilinear on them and not degenerate, messages are hashed into the subgroup, a point has one
compressed encoding, and infinity is encoded as the code has it. -/
structure SoundCurve (C : Curve) : Prop where
  prime : C.r.Prime
  generator_mem : C.generator ∈ C.S1
  hash_mem : ∀ m, C.hash_to m ∈ C.S2
  generator_order : ∀ k : Nat, k • C.generator = 0 ↔ C.r ∣ k
  torsion : ∀ q ∈ C.S2, C.r • q = 0
  add_left : ∀ p ∈ C.S1, ∀ p' ∈ C.S1, ∀ q ∈ C.S2,
    C.pairing (p + p') q = C.pairing p q * C.pairing p' q
  add_right : ∀ p ∈ C.S1, ∀ q ∈ C.S2, ∀ q' ∈ C.S2,
    C.pairing p (q + q') = C.pairing p q * C.pairing p q'
  nondegenerate : ∀ q ∈ C.S2, C.pairing C.generator q = 1 → q = 0
  uncompress1 : ∀ p, C.uncompress1 (C.compress1 p) = some p
  uncompress2 : ∀ b q, C.uncompress2 b = some q ↔ C.compress2 q = b
  infinity : C.compress2 0 = INFINITY_COMPRESSED_SIGNATURE

end Verif.Spec
