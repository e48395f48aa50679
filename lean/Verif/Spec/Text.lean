import Mathlib.Data.Nat.Digits.Defs
import Verif.Model.Text

/-! # What text denotes -/

namespace Verif.Spec

open Text

/-- `c` is the hexadecimal digit `v`, in either case. -/
def IsHexDigit (c : Char) (v : Nat) : Prop :=
  "0123456789abcdef".toList[v]? = some c ∨ "0123456789ABCDEF".toList[v]? = some c

/-- `s` spells the bytes `b`, two digits each, high digit first, with nothing else around. -/
def HexText (s : List Char) (b : List UInt8) : Prop :=
  s.length = 2 * b.length ∧
  ∀ (i : Nat) byte, b[i]? = some byte → ∃ hi lo h l,
    s[2 * i]? = some hi ∧ s[2 * i + 1]? = some lo ∧
    IsHexDigit hi h ∧ IsHexDigit lo l ∧ byte.toNat = 16 * h + l

/-- `s` spells the number `n` in decimal: at least one digit, possibly with leading zeros. -/
def DecText (s : List Char) (n : Nat) : Prop :=
  ∃ digits : List Nat, digits ≠ [] ∧ s.map some = digits.map ("0123456789".toList[·]?) ∧
    n = Nat.ofDigits 10 digits.reverse

/-- An identifier that fits the types: 64-bit slots and 32-byte roots. -/
def ValidId : StateId → Prop
  | .Slot n => n < 2 ^ 64
  | .Root r => r.length = 32
  | _ => True

/-- The state identifier that means the same as a block identifier. -/
def asState : BlockId → StateId
  | .Head => .Head
  | .Genesis => .Genesis
  | .Finalized => .Finalized
  | .Slot n => .Slot n
  | .Root r => .Root r

end Verif.Spec
