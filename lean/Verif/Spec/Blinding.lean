import Verif.Model.Blinding

/-! # Specification: blinded blocks

A blinded block is the block with the header of the payload in the place of the payload. What a field
is called is said next to it; the names are those of the types in `Model/JsonTypes.lean`. -/

namespace Verif.Spec

open Json Ssz

/-- A value of a struct as its fields: the name, the type and the value of each, in order. -/
def fieldsOf : (fs : Fields) → fs.Val → List (String × (s : Schema) × s.Val)
  | .nil, _ => []
  | .cons name s rest, v => (name, ⟨s, v.1⟩) :: fieldsOf rest v.2

/-- The fields of a struct -/
def members : (s : Schema) → s.Val → List (String × (s : Schema) × s.Val)
  | .record fs, v => fieldsOf fs v
  | _, _ => []

/-- `w` is `v` with a field replaced: the fields before and after it are those of `v`, and where `v`
has the field `name` with the value `x`, `w` has the field `name'` with the value `y`. -/
def Swaps (s s' : Schema) (v : s.Val) (w : s'.Val) (name : String) (t : Schema) (x : t.Val)
    (name' : String) (t' : Schema) (y : t'.Val) : Prop :=
  ∃ before after, members s v = before ++ (name, ⟨t, x⟩) :: after ∧
    members s' w = before ++ (name', ⟨t', y⟩) :: after

/-- The field of the header for a field of the payload: a list gives its root, under a name that says
so, and everything else is kept with its name. -/
def headerField (H : Hash) : String × (s : Schema) × s.Val → String × (s : Schema) × s.Val
  | (name, ⟨s, x⟩) =>
    if name ∈ ["transactions", "withdrawals", "deposit_receipts", "withdrawal_requests"] then
      (name ++ "_root", ⟨.bytes 32, asRoot (root H s x)⟩)
    else (name, ⟨s, x⟩)

/-- The types of one fork that has blinded blocks -/
structure BlindTypes where
  payload : Schema
  header : Schema
  body : Schema
  blindedBody : Schema
  block : Schema
  blindedBlock : Schema
  /-- the header of a payload -/
  headerOf : payload.Val → header.Val

/-- Those of bellatrix, capella and deneb. There are none of electra. -/
def blindTypes (H : Hash) (K : Consts) : List BlindTypes :=
  [⟨bellatrix.ExecutionPayload K, bellatrix.ExecutionPayloadHeader K, bellatrix.BeaconBlockBody K,
      bellatrix.BlindedBeaconBlockBody K, bellatrix.BeaconBlock K, bellatrix.BlindedBeaconBlock K,
      bellatrix.payloadHeader H K⟩,
   ⟨capella.ExecutionPayload K, capella.ExecutionPayloadHeader K, capella.BeaconBlockBody K,
      capella.BlindedBeaconBlockBody K, capella.BeaconBlock K, capella.BlindedBeaconBlock K,
      capella.payloadHeader H K⟩,
   ⟨deneb.ExecutionPayload K, deneb.ExecutionPayloadHeader K, deneb.BeaconBlockBody K,
      deneb.BlindedBeaconBlockBody K, deneb.BeaconBlock K, deneb.BlindedBeaconBlock K,
      deneb.payloadHeader H K⟩]

/-- The blinded block `w` stands for the block `v`: they have the same fields but for the body, and the
bodies have the same fields but for the payload, where `w` has the header of the payload of `v`. -/
def StandsFor (T : BlindTypes) (w : T.blindedBlock.Val) (v : T.block.Val) : Prop :=
  ∃ body blinded payload,
    Swaps T.block T.blindedBlock v w "body" T.body body "body" T.blindedBody blinded ∧
    Swaps T.body T.blindedBody body blinded "execution_payload" T.payload payload
      "execution_payload_header" T.header (T.headerOf payload)

/-- The header `w` is the one of the block `v`: the same fields but for the body, where `w` has the root
of the body. -/
def HeaderOf (H : Hash) (K : Consts) (body block : Schema) (w : (phase0.BeaconBlockHeader K).Val)
    (v : block.Val) : Prop :=
  ∃ b, Swaps block (phase0.BeaconBlockHeader K) v w "body" body b "body_root" (.bytes 32)
    (asRoot (root H body b))

/-- The types of blocks and their bodies, in all forks -/
def blockTypes (K : Consts) : List (Schema × Schema) :=
  [(phase0.BeaconBlockBody K, phase0.BeaconBlock K), (altair.BeaconBlockBody K, altair.BeaconBlock K),
   (bellatrix.BeaconBlockBody K, bellatrix.BeaconBlock K),
   (capella.BeaconBlockBody K, capella.BeaconBlock K), (deneb.BeaconBlockBody K, deneb.BeaconBlock K),
   (electra.BeaconBlockBody K, electra.BeaconBlock K)]

end Verif.Spec
