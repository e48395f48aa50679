import Verif.Spec.Domain
import Verif.Spec.Votes
import Verif.Spec.Slash

/-! # Specification: slashing evidence -/

namespace Verif.Spec

/-- Can be slashed in epoch `e`: not slashed yet, activated, not yet withdrawable. -/
def Slashable (v : Validator) (e : Nat) : Prop :=
  v.slashed = false ∧ v.activation_epoch ≤ e ∧ e < v.withdrawable_epoch

instance (v : Validator) (e : Nat) : Decidable (Slashable v e) :=
  inferInstanceAs (Decidable (_ ∧ _))

/-- Proof of equivocation by a proposer: two different headers for one slot, signed
by the same validator, which is slashable now. -/
structure ProposerEquivocation (E : Env) (s : State) (op : ProposerSlashing)
    (v : Validator) : Prop where
  same_slot : op.signed_header_1.message.slot = op.signed_header_2.message.slot
  same_proposer :
    op.signed_header_1.message.proposer_index = op.signed_header_2.message.proposer_index
  different : op.signed_header_1.message ≠ op.signed_header_2.message
  exists_proposer : s.validators[op.signed_header_1.message.proposer_index]? = some v
  slashable : Slashable v (epochOf E s.slot)
  signed_1 : E.verify_signature v.public_key
    (E.signing_data_root (E.header_root op.signed_header_1.message)
      (domainAt E s .BeaconProposer (epochOf E op.signed_header_1.message.slot)))
    op.signed_header_1.signature = true
  signed_2 : E.verify_signature v.public_key
    (E.signing_data_root (E.header_root op.signed_header_2.message)
      (domainAt E s .BeaconProposer (epochOf E op.signed_header_1.message.slot)))
    op.signed_header_2.signature = true

/-- A well-formed signed indexed attestation (see C07). -/
structure ValidIndexed (E : Env) (s : State) (a : IndexedAttestation) : Prop where
  nonempty : a.attesting_indices ≠ []
  increasing : a.attesting_indices.Pairwise (· < ·)
  in_range : ∀ i ∈ a.attesting_indices, i < s.validators.length
  signed : ∀ keys : List PublicKey,
    keys.map some =
      a.attesting_indices.map (fun i => (s.validators[i]?).map Validator.public_key) →
    E.fast_aggregate_verify keys
      (E.signing_data_root (E.attestation_data_root a.data)
        (domainAt E s .BeaconAttester a.data.target.epoch)) a.signature = true

/-- The slashable validators that made both attestations, in ascending order. -/
def culprits (E : Env) (s : State) (a b : IndexedAttestation) : List Nat :=
  (List.range s.validators.length).filter fun i =>
    decide (i ∈ a.attesting_indices) && decide (i ∈ b.attesting_indices) &&
    match s.validators[i]? with
    | some v => decide (Slashable v (epochOf E s.slot))
    | none => false

end Verif.Spec
