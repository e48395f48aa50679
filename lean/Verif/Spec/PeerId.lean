import Verif.Model.PeerId

/-! # What the text of a peer id is -/

namespace Verif.Spec

/-- The characters of base 58: the digits and the letters of ASCII, without those that are easily
confused with others -/
def InAlphabet (c : Char) : Prop :=
  c.isAlphanum = true ∧ c ≠ '0' ∧ c ≠ 'O' ∧ c ≠ 'I' ∧ c ≠ 'l'

instance (c : Char) : Decidable (InAlphabet c) := inferInstanceAs (Decidable (_ ∧ _))

/-- The digit that a character stands for: how many characters of the alphabet come before it -/
def digit58 (c : Char) : Nat :=
  ((List.range c.toNat).filter fun n => decide (InAlphabet (Char.ofNat n))).length

/-- The number that digits stand for, the most significant first -/
def numberOf (base : Nat) (digits : List Nat) : Nat := digits.foldl (fun n d => n * base + d) 0

/-- The text of bytes in base 58: as a number the text is the bytes, and as many zeros (`1` in this
alphabet) lead the text as zeros lead the bytes. -/
structure Text58 (data : List UInt8) (s : List Char) : Prop where
  alphabet : ∀ c ∈ s, InAlphabet c
  number : numberOf 58 (s.map digit58) = numberOf 256 (data.map UInt8.toNat)
  zeros : (s.takeWhile (· == '1')).length = (data.takeWhile (· == 0)).length

/-- The bytes of a multihash whose code and size fit in seven bits: code, size, digest -/
def multihashBytes (h : Net.Multihash) : List UInt8 :=
  UInt8.ofNat h.code :: UInt8.ofNat h.digest.length :: h.digest

end Verif.Spec
