import Verif.Model.Presets
import Verif.Spec.Config
import Verif.Spec.Epoch
import Verif.Spec.Finality
import Verif.Spec.Safety

/-!
# The configurations of the repository meet the side conditions

What `SaneConfig`, `SaneBalances`, `SaneQuotients`, `SaneEpochs` and `VotesRemembered` ask of a
configuration holds of every configuration in the repository, with any primitives.
-/

namespace Verif

open Spec

/-- The configurations the repository contains. -/
def presets : List Context :=
  [Context.mainnet, Context.minimal, Context.goerli, Context.sepolia, Context.holesky,
    Context.hoodi]

/-- A configuration with primitives. -/
def withPrimitives (C : Context) (P : Primitives) (shuffling : Bool) (fuel : Nat) : Env where
  toContext := C
  toPrimitives := P
  shuffling := shuffling
  fuel := fuel

/-- Settles a decidable statement about constants although primitives occur in it. -/
macro "settle" : tactic => `(tactic|
  (dsimp only [withPrimitives, Context.mainnet, Context.minimal, Context.goerli, Context.sepolia,
      Context.holesky, Context.hoodi]; first | omega | decide))

theorem presets_sane (P : Primitives) (b : Bool) (n : Nat) :
    ∀ C ∈ presets, SaneConfig (withPrimitives C P b n) := by
  intro C hC
  simp only [presets, List.mem_cons, List.not_mem_nil, or_false] at hC
  rcases hC with rfl | rfl | rfl | rfl | rfl | rfl <;> constructor <;> settle

theorem presets_balances (P : Primitives) (b : Bool) (n : Nat) :
    ∀ C ∈ presets, SaneBalances (withPrimitives C P b n) := by
  intro C hC
  simp only [presets, List.mem_cons, List.not_mem_nil, or_false] at hC
  rcases hC with rfl | rfl | rfl | rfl | rfl | rfl <;> constructor <;> settle

theorem presets_quotients (P : Primitives) (b : Bool) (n : Nat) :
    ∀ C ∈ presets, SaneQuotients (withPrimitives C P b n) := by
  intro C hC
  simp only [presets, List.mem_cons, List.not_mem_nil, or_false] at hC
  rcases hC with rfl | rfl | rfl | rfl | rfl | rfl <;> constructor <;> settle

theorem presets_epochs (P : Primitives) (b : Bool) (n : Nat) :
    ∀ C ∈ presets, SaneEpochs (withPrimitives C P b n) := by
  intro C hC
  simp only [presets, List.mem_cons, List.not_mem_nil, or_false] at hC
  rcases hC with rfl | rfl | rfl | rfl | rfl | rfl <;> constructor <;> settle

theorem presets_votes (P : Primitives) (b : Bool) (n : Nat) :
    ∀ C ∈ presets, VotesRemembered (withPrimitives C P b n) := by
  intro C hC
  simp only [presets, List.mem_cons, List.not_mem_nil, or_false] at hC
  rcases hC with rfl | rfl | rfl | rfl | rfl | rfl <;> constructor <;> settle

theorem presets_periods (P : Primitives) (b : Bool) (n : Nat) :
    ∀ C ∈ presets, (withPrimitives C P b n).slots_per_epoch ∣
      (withPrimitives C P b n).slots_per_historical_root := by
  intro C hC
  simp only [presets, List.mem_cons, List.not_mem_nil, or_false] at hC
  rcases hC with rfl | rfl | rfl | rfl | rfl | rfl <;> settle

/-- The constants of the withdrawal sweep. -/
theorem presets_sweep (P : Primitives) (b : Bool) (n : Nat) :
    ∀ C ∈ presets, 0 < (withPrimitives C P b n).max_withdrawals_per_payload ∧
      0 < (withPrimitives C P b n).max_validators_per_withdrawals_sweep ∧
      (withPrimitives C P b n).max_validators_per_withdrawals_sweep ≤ 2 ^ 40 := by
  intro C hC
  simp only [presets, List.mem_cons, List.not_mem_nil, or_false] at hC
  rcases hC with rfl | rfl | rfl | rfl | rfl | rfl <;> settle

end Verif
