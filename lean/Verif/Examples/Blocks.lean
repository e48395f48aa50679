import Verif.Examples.Toy
import Verif.Model.Transition

/-! # Valid blocks for the toy states -/

namespace Verif.Toy

/-- An empty block body that fits the state. -/
def body (s : State) : BeaconBlockBody where
  randao_reveal := goodSig
  eth1_data := eth1
  graffiti := zeroBytes 32
  proposer_slashings := []
  attester_slashings := []
  attestations := []
  deposits := []
  voluntary_exits := []
  sync_aggregate := ⟨s.current_sync_committee.public_keys.map fun _ => true, goodSig⟩
  execution_payload := { defaultPayload with
    parent_hash := s.latest_execution_payload_header.block_hash
    prev_randao := s.randao_mixes.getD (s.slot / 8 % 64) (zeroBytes 32)
    timestamp := s.genesis_time + s.slot * env.seconds_per_slot }
  bls_to_execution_changes := []
  blob_kzg_commitments := []
  consolidations := []

/-- A block with the given body for the slot of the state. -/
def block (s : State) (b : BeaconBlockBody) : BeaconBlock where
  slot := s.slot
  proposer_index := match get_beacon_proposer_index env s with
    | .ok i => i
    | .error _ => 0
  parent_root := env.header_root s.latest_block_header
  state_root := env.state_root .Phase0 s
  body := b

end Verif.Toy
