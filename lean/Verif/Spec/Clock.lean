import Verif.Model.Clock

/-!
# Specification: slots and instants

Genesis is at second `g`, a slot lasts `d` seconds; instants are in nanoseconds.
-/

namespace Verif.Spec

/-- The first second of slot `n`. -/
def slotStart (g d n : Nat) : Nat := g + n * d

/-- Instant `t` lies within slot `n`. -/
def InSlot (g d n t : Nat) : Prop :=
  slotStart g d n * 10 ^ 9 ≤ t ∧ t < slotStart g d (n + 1) * 10 ^ 9

instance (g d n t : Nat) : Decidable (InSlot g d n t) := inferInstanceAs (Decidable (_ ∧ _))

/-- The days of a year -/
def daysOfYear (y : Nat) : Nat := if y % 4 = 0 ∧ (y % 100 ≠ 0 ∨ y % 400 = 0) then 366 else 365

/-- The days of the months of a year -/
def daysOfMonths (y : Nat) : List Nat :=
  [31, daysOfYear y - 337, 31, 30, 31, 30, 31, 31, 30, 31, 30, 31]

/-- The second at which a minute begins (UTC), counted from the beginning of 1970 -/
def unixTime (year month day hour minute : Nat) : Nat :=
  let days := (((List.range year).drop 1970).map daysOfYear).sum +
    ((daysOfMonths year).take (month - 1)).sum + (day - 1)
  ((days * 24 + hour) * 60 + minute) * 60

/-- When the networks started -/
def published : Network → Option Nat
  | .Mainnet => some (unixTime 2020 12 1 12 0 + 23)
  | .Sepolia => some (unixTime 2022 6 20 14 0)
  | .Goerli => some (unixTime 2021 3 23 14 0)
  | .Holesky => some (unixTime 2023 9 28 12 0)
  | .Hoodi => some (unixTime 2025 3 17 12 10)
  | .Custom _ => none

/-- The instants of one call, after the instant `now`, in program order. -/
def CallOrder (now : Nat) (t : CallTimes) : Prop :=
  now ≤ t.polled ∧ t.polled ≤ t.measured ∧ t.measured ≤ t.armed ∧ t.armed ≤ t.read

instance (now : Nat) (t : CallTimes) : Decidable (CallOrder now t) :=
  inferInstanceAs (Decidable (_ ∧ _))

/-- Calls one after the other, in order of time, after the instant `now`. -/
def InOrder : Nat → List CallTimes → Prop
  | _, [] => True
  | now, t :: ts => CallOrder now t ∧ InOrder t.read ts

instance InOrder.decidable : ∀ now ts, Decidable (InOrder now ts)
  | _, [] => .isTrue trivial
  | now, t :: ts =>
    have := InOrder.decidable t.read ts
    inferInstanceAs (Decidable (CallOrder now t ∧ InOrder t.read ts))

/-- No slot starts while the call runs (between its two readings of the clock). -/
def Brief (g d : Nat) (t : CallTimes) : Prop :=
  ∀ n, InSlot g d n t.read → InSlot g d n t.measured

/-- The slots a consumer received, in order. -/
def received : List Polled → List Nat
  | [] => []
  | .pending :: rest => received rest
  | .ready none :: rest => received rest
  | .ready (some n) :: rest => n :: received rest

/-- Every instant up to here fits 64 bits of nanoseconds: until the year 2554. -/
def Horizon (t : CallTimes) : Prop := t.polled < 2 ^ 64 ∧ t.measured < 2 ^ 64 ∧ t.read < 2 ^ 64

end Verif.Spec
