import Verif.Model.Types

/-! # Specification: participation flags -/

namespace Verif.Spec

/-- Flag `j` is present: bit `j` of the byte. -/
def FlagSet (flags : UInt8) (j : Nat) : Prop := flags.toNat.testBit j = true

instance (flags : UInt8) (j : Nat) : Decidable (FlagSet flags j) :=
  inferInstanceAs (Decidable (_ = _))

/-- Every flag of `a` is a flag of `b`. -/
def FlagsLe (a b : UInt8) : Prop := ∀ j < 8, FlagSet a j → FlagSet b j

end Verif.Spec
