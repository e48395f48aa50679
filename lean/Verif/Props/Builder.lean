import Verif.Model.Builder
import Verif.Props.Operations

/-! # C37: what is signed for a builder is signed for nothing else -/

namespace Verif.Props

open Spec

/-- **C37** The domain of messages to builders is the application mark and the first 28 bytes of the
fork data root of the genesis fork, for any chain. -/
theorem C37_builder_domain (E : Env) :
    compute_builder_domain E =
      [0, 0, 0, 1] ++ (E.fork_data_root E.genesis_fork_version (zeroBytes 32)).toList.take 28 := rfl

/-- **C37** No message of the consensus is signed under the domain of messages to builders, whatever
its purpose, the fork and the chain. -/
theorem C37_builder_separate (E : Env) (t : DomainType) (ht : t ≠ .ApplicationMask)
    (ht' : t ≠ .ApplicationBuilder) :
    (∀ version root, compute_domain E t version root ≠ compute_builder_domain E) ∧
    ∀ s epoch, get_domain E s t epoch ≠ .ok (compute_builder_domain E) := by
  have key : ∀ version root, compute_domain E t version root ≠ compute_builder_domain E := by
    intro version root h
    rcases C37_purposes_separate E t .ApplicationBuilder version none root none h with h | h | h
    · exact ht' h
    · exact ht h.1
    · cases h.2
  refine ⟨key, fun s epoch h => ?_⟩
  unfold get_domain at h
  cases epoch with
  | some e =>
    simp only [run] at h
    obtain ⟨_, -, h⟩ := h
    exact key _ _ h
  | none =>
    simp only [run] at h
    obtain ⟨e, -, h⟩ := h
    exact key _ _ h

/-- Deposits, exits and votes are such messages; the builder's domain is one of 32 bytes. -/
example : DomainType.Deposit ≠ .ApplicationMask ∧ DomainType.Deposit ≠ .ApplicationBuilder ∧
    (compute_builder_domain Toy.env).length = 32 ∧
    compute_builder_domain Toy.env ≠ compute_domain Toy.env .Deposit none none := by
  decide +kernel

end Verif.Props
